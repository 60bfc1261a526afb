import Verif.Sem.StackMsg
/-! The size of the messages. Proof-internal. -/
namespace Verif.Sem
open Verif.Lex Verif.LR

/-- Is `x` a candidate in a state whose `yypact` is `m - 1000`? -/
noncomputable def candT (m x : Nat) : Bool :=
  band (Nat.ble 1000 (Nat.add m x)) (band (Nat.ble (Nat.add m x) 1856) (band (Nat.beq (yycheckT.get (Nat.sub (Nat.add m x) 1000)) (Nat.add x 1000))
    (band (bnot (Nat.beq x 1)) (bnot (Nat.beq (yytableT.get (Nat.sub (Nat.add m x) 1000)) 645)))))

/-- The candidates below `k`: at most 4 in all, and then the size of the message is at most 92 without the token, or more than 4. -/
noncomputable def sizeT (m k : Nat) : Nat → Nat → Bool :=
  Nat.rec (motive := fun _ => Nat → Nat → Bool) (fun cnt sum => Nat.ble (Nat.add sum (yyformat (Nat.add cnt 1)).length) 92)
    (fun x ih cnt sum => Bool.rec (motive := fun _ => Bool) (ih cnt sum)
      (Bool.rec (motive := fun _ => Bool) (ih (Nat.add cnt 1) (Nat.add sum (symName x).length)) true (Nat.beq cnt 4)) (candT m x)) k

theorem sizeT_ok {m : Nat} : ∀ (k cnt sum : Nat), sizeT m k cnt sum = true → cnt + ((List.range k).filter (candT m)).length ≤ 4 →
    sum + lens ((List.range k).filter (candT m)) + (yyformat (cnt + ((List.range k).filter (candT m)).length + 1)).length ≤ 92 := by
  intro k
  induction k with
  | zero =>
    intro cnt sum h _
    exact Nat.le_of_ble_eq_true h
  | succ k ih =>
    intro cnt sum h hc
    have e : sizeT m (k + 1) cnt sum = Bool.rec (motive := fun _ => Bool) (sizeT m k cnt sum)
      (Bool.rec (motive := fun _ => Bool) (sizeT m k (Nat.add cnt 1) (Nat.add sum (symName k).length)) true (Nat.beq cnt 4)) (candT m k) := rfl
    rw [e] at h
    rw [List.range_succ, List.filter_append] at hc ⊢
    cases hk : candT m k with
    | false =>
      rw [hk] at h
      simp only [List.filter_cons, hk, Bool.false_eq_true, if_false, List.filter_nil, List.append_nil] at hc ⊢
      exact ih cnt sum h hc
    | true =>
      rw [hk] at h
      simp only [List.filter_cons, hk, if_true, List.filter_nil] at hc ⊢
      rw [List.length_append, List.length_cons, List.length_nil] at hc ⊢
      cases h4 : Nat.beq cnt 4 with
      | true =>
        have := Nat.eq_of_beq_eq_true h4
        omega
      | false =>
        rw [h4] at h
        have := ih (cnt + 1) (sum + (symName k).length) h (by omega)
        have el : lens ((List.range k).filter (candT m) ++ [k]) = lens ((List.range k).filter (candT m)) + (symName k).length := by simp [lens]
        rw [el]
        generalize ((List.range k).filter (candT m)).length = w at *
        rw [show cnt + (w + (0 + 1)) + 1 = cnt + 1 + w + 1 from by omega]
        omega

noncomputable def rowSize (s : Nat) : Bool := bor (Nat.beq (yypactT.get s) 471) (sizeT (yypactT.get s) 199 0 0)

theorem rows_size0 : allFrom 0 328 rowSize = true := by decide +kernel
theorem rows_size1 : allFrom 328 328 rowSize = true := by decide +kernel

theorem at_trie {l : List Int} {t : Trie} {n : Nat} (hl : l.length = n) (h : ∀ i, i < n → l[i]? = some ((t.get i : Int) - 1000)) {z : Int} (h0 : 0 ≤ z) (h1 : z < n) :
    at? l z = some ((t.get z.toNat : Int) - 1000) := by
  unfold at?
  rw [if_pos h0]
  exact h _ (by omega)

theorem candT_iff {m x : Nat} (hx : x < 199) : candT m x =
    (decide (0 ≤ ((m : Int) - 1000) + x) && decide (((m : Int) - 1000) + x ≤ YYLAST) && decide (at? yycheck (((m : Int) - 1000) + x) = some (x : Int)) && decide (x ≠ 1)
        && !decide (at? yytable (((m : Int) - 1000) + x) = some YYTABLE_NINF)) := by
  have e2 : (YYLAST : Int) = 856 := rfl
  have e3 : (YYTABLE_NINF : Int) = -355 := rfl
  rw [Bool.eq_iff_iff]
  unfold candT
  simp only [band_iff, bnot_iff, Bool.and_eq_true, decide_eq_true_eq, Bool.not_eq_true', decide_eq_false_iff_not]
  have f1 : ∀ a b : Nat, Nat.beq a b = false ↔ a ≠ b := by
    intro a b
    constructor
    · intro h e; subst e; rw [Nat.beq_refl] at h; cases h
    · intro h; cases hb : Nat.beq a b with
      | false => rfl
      | true => exact absurd (Nat.eq_of_beq_eq_true hb) h
  have f2 : ∀ a b : Nat, Nat.beq a b = true ↔ a = b := fun a b => ⟨Nat.eq_of_beq_eq_true, fun e => e ▸ Nat.beq_refl a⟩
  have f3 : ∀ a b : Nat, Nat.ble a b = true ↔ a ≤ b := fun a b => ⟨Nat.le_of_ble_eq_true, Nat.ble_eq_true_of_le⟩
  rw [f1, f1, f2, f3, f3]
  show (1000 ≤ m + x ∧ m + x ≤ 1856 ∧ yycheckT.get (m + x - 1000) = x + 1000 ∧ x ≠ 1 ∧ yytableT.get (m + x - 1000) ≠ 645) ↔ _
  by_cases hb : 1000 ≤ m + x ∧ m + x ≤ 1856
  · have hz : (((m : Int) - 1000) + x) = ((m + x - 1000 : Nat) : Int) := by omega
    rw [hz, at_trie yycheck_len yycheck_get (by omega) (by omega), at_trie yytable_len yytable_get (by omega) (by omega)]
    simp only [Int.toNat_natCast, Option.some.injEq, e2, e3]
    constructor
    · rintro ⟨_, _, h3, h4, h5⟩
      exact ⟨⟨⟨⟨by omega, by omega⟩, by omega⟩, h4⟩, by omega⟩
    · rintro ⟨⟨⟨⟨_, _⟩, h3⟩, h4⟩, h5⟩
      exact ⟨hb.1, hb.2, by omega, h4, by omega⟩
  · constructor
    · rintro ⟨h1, h2, _⟩; exact absurd ⟨h1, h2⟩ hb
    · rintro ⟨⟨⟨⟨h1, h2⟩, _⟩, _⟩, _⟩
      rw [e2] at h2
      exact absurd ⟨by omega, by omega⟩ hb

theorem lens_nil_fmt : lens [] + (yyformat (0 + 1)).length ≤ 92 := by decide

/-- Without the name of the token, the size of a message is at most 92. -/
theorem msg_sizes {s : Nat} (hs : s < 656) : lens (expected s) + (yyformat ((expected s).length + 1)).length ≤ 92 := by
  have hr : rowSize s = true := by
    rcases Nat.lt_or_ge s 328 with h | h
    · exact allFrom_spec rows_size0 s (by omega) (by omega)
    · exact allFrom_spec rows_size1 s (by omega) (by omega)
  have hp := at_trie yypact_len yypact_get (z := (s : Int)) (by omega) (by omega)
  rw [Int.toNat_natCast] at hp
  have e1 : (YYPACT_NINF : Int) = -529 := rfl
  unfold rowSize at hr
  rw [bor_iff] at hr
  by_cases hn : ((yypactT.get s : Int) - 1000) = YYPACT_NINF
  · have : expected s = [] := by
      unfold expected candidates
      rw [hp]; simp [hn]
    rw [this]; exact lens_nil_fmt
  · have hz : sizeT (yypactT.get s) 199 0 0 = true := by
      rcases hr with h | h
      · have := Nat.eq_of_beq_eq_true h
        rw [e1] at hn; omega
      · exact h
    have hc : candidates s = (List.range 199).filter (candT (yypactT.get s)) := by
      unfold candidates
      rw [hp]
      simp only [if_neg hn]
      refine List.filter_congr ?_
      intro x hx
      exact (candT_iff (List.mem_range.1 hx)).symm
    unfold expected
    by_cases h4 : (candidates s).length ≤ 4
    · rw [if_pos h4, hc]
      rw [hc] at h4
      have := sizeT_ok 199 0 0 hz (by omega)
      simpa using this
    · rw [if_neg h4]; exact lens_nil_fmt

theorem name_sizes : ((List.range 199).all fun x => decide ((symName x).length ≤ 17)) = true := by decide +kernel

theorem msg_le {s x : Nat} (hs : s < 656) (hx : x < 199) :
    (symName x).length + lens (expected s) + (yyformat ((symName x :: (expected s).map symName).length)).length ≤ 109 := by
  have h1 := msg_sizes hs
  have h2 := List.all_eq_true.1 name_sizes x (by simp [hx])
  simp only [decide_eq_true_eq] at h2
  simp only [List.length_cons, List.length_map]
  omega

end Verif.Sem

import Verif.LR.Transport
import Verif.LR.LmData
/-! Whatever the automaton has read begins a sentence of the grammar. Proof-internal. -/
set_option maxRecDepth 100000
namespace Verif.LR
open Verif.Lex

/-- Every symbol derives some token sequence. -/
def Productive (X : Nat) : Prop := ∃ t : Tree, t.WF ∧ t.sym = X

noncomputable def allIn (m : Nat) (l : List Nat) : Bool := NL.all l fun X => tb m X
/-- Add the left-hand sides of the rules `f, f-1, ...` whose right-hand sides are in the mask. -/
noncomputable def prodRound (f m : Nat) : Nat :=
  Nat.rec (motive := fun _ => Nat → Nat) (fun m => m)
    (fun i ih m => ih (ite_ (allIn m (rhsF (Nat.add i 2))) (Nat.lor m (Nat.shiftLeft 1 (lhsF (Nat.add i 2)))) m)) f m
noncomputable def prodMask (n m : Nat) : Nat := Nat.rec (motive := fun _ => Nat) m (fun _ ih => prodRound 356 ih) n

theorem testBit_or_shift {m n a : Nat} (h : (Nat.lor m (Nat.shiftLeft 1 n)).testBit a = true) : m.testBit a = true ∨ a = n := by
  have e : Nat.lor m (Nat.shiftLeft 1 n) = m ||| (1 <<< n) := rfl
  rw [e, Nat.testBit_or, Bool.or_eq_true] at h
  rcases h with h | h
  · exact .inl h
  · right
    rw [Nat.testBit_shiftLeft] at h
    simp only [Bool.and_eq_true, decide_eq_true_eq] at h
    have h2 := h.2
    by_cases h3 : a - n = 0
    · omega
    · rw [Nat.testBit_one_eq_true_iff_self_eq_zero] at h2; exact absurd h2 h3

theorem productive_list {l : List Nat} (h : ∀ X ∈ l, Productive X) : ∃ cs : List Tree, WFL cs ∧ cs.map Tree.sym = l := by
  induction l with
  | nil => exact ⟨[], trivial, rfl⟩
  | cons X l ih =>
    obtain ⟨cs, h1, h2⟩ := ih (fun Y hY => h Y (by simp [hY]))
    obtain ⟨t, h3, h4⟩ := h X (by simp)
    exact ⟨t :: cs, ⟨h3, h1⟩, by simp [h4, h2]⟩

theorem prodRound_spec : ∀ (f : Nat), f ≤ 356 → ∀ (m : Nat), (∀ X, m.testBit X = true → Productive X) → ∀ X, (prodRound f m).testBit X = true → Productive X
  | 0, _, m, h => h
  | f + 1, hf, m, h => by
    refine prodRound_spec f (by omega) (ite_ (allIn m (rhsF (f + 2))) (Nat.lor m (Nat.shiftLeft 1 (lhsF (f + 2)))) m) ?_
    intro X hX
    cases hc : allIn m (rhsF (f + 2)) with
    | false => rw [hc] at hX; exact h X hX
    | true =>
      rw [hc] at hX
      rcases testBit_or_shift hX with hX | hX
      · exact h X hX
      · obtain ⟨cs, h1, h2⟩ := productive_list (l := rhs (f + 2)) (fun Y hY => h Y (by
          rw [rhs_eq (by omega)] at hY
          have := NL.all_spec hc Y hY
          rw [tb_eq] at this; exact this))
        refine ⟨.node (f + 2) cs, ⟨by omega, by rw [rules_len]; omega, h2, h1⟩, ?_⟩
        rw [hX, ← lhs_eq (by omega)]; rfl

noncomputable def hasCode (a : Nat) : Bool :=
  Nat.rec (motive := fun _ => Bool) false (fun c ih => bor (Nat.beq (yytranslateT.get (Nat.succ c)) (Nat.add a 1000)) ih) 436
theorem hasCode_all : allN 199 (fun a => bor (Nat.beq a 0) (hasCode a)) = true := by decide +kernel

theorem terminal_productive {a : Nat} (h : a < 199) : Productive a := by
  have hc := allN_spec hasCode_all a h
  rw [bor_iff, beq_iff] at hc
  rcases hc with rfl | hc
  · exact ⟨.leaf ⟨0, .none, []⟩, trivial, rfl⟩
  · have : ∃ c, 1 ≤ c ∧ c < 437 ∧ yytranslateT.get c = a + 1000 := by
      unfold hasCode at hc
      have aux : ∀ n, n ≤ 436 → Nat.rec (motive := fun _ => Bool) false (fun c ih => bor (Nat.beq (yytranslateT.get (Nat.succ c)) (Nat.add a 1000)) ih) n = true →
          ∃ c, 1 ≤ c ∧ c < 437 ∧ yytranslateT.get c = a + 1000 := by
        intro n
        induction n with
        | zero => intro _ h; cases h
        | succ n ih =>
          intro hn h
          have h : bor (Nat.beq (yytranslateT.get (Nat.succ n)) (Nat.add a 1000)) _ = true := h
          rw [bor_iff, beq_iff] at h
          rcases h with h | h
          · exact ⟨n + 1, by omega, by omega, h⟩
          · exact ih (by omega) h
      exact aux 436 (by omega) hc
    obtain ⟨c, h1, h2, h3⟩ := this
    refine ⟨.leaf ⟨(c : Int), .none, []⟩, trivial, ?_⟩
    show tokSym c = a
    unfold tokSym
    rw [if_neg (by omega), if_pos (by simp only [YYMAXUTOK]; omega), List.getD_eq_getElem?_getD, Int.toNat_natCast, yytranslate_get _ h2, h3]
    show ((((a + 1000 : Nat) : Int) - 1000)).toNat = a
    omega

theorem prodMask_all : allN 335 (fun X => bor (Nat.beq X 199) (tb (prodMask 12 (Nat.sub (Nat.shiftLeft 1 199) 1)) X)) = true := by decide +kernel

/-- Every symbol derives some token sequence. -/
theorem productive {X : Nat} (h : X ≤ 334) (h' : X ≠ 199) : Productive X := by
  have := allN_spec prodMask_all X (by omega)
  rw [bor_iff, beq_iff, tb_eq] at this
  have this := this.resolve_left h'
  have key : ∀ n X, (prodMask n (Nat.sub (Nat.shiftLeft 1 199) 1)).testBit X = true → Productive X := by
    intro n
    induction n with
    | zero =>
      intro X hX
      have e : Nat.sub (Nat.shiftLeft 1 199) 1 = 2 ^ 199 - 1 := by decide +kernel
      have hX : (Nat.sub (Nat.shiftLeft 1 199) 1).testBit X = true := hX
      rw [e, Nat.testBit_two_pow_sub_one] at hX
      exact terminal_productive (by simpa using hX)
    | succ n ih => exact prodRound_spec 356 (Nat.le_refl _) _ ih
  exact key 12 X this

/-! ## Leftmost derivations -/

/-- `B` derives a sentential form beginning with `A`, expanding first symbols only. -/
inductive Lm (B : Nat) : Nat → Prop where
  | refl : Lm B B
  | step {r A : Nat} {β : List Nat} : 2 ≤ r → r < 358 → Lm B (lhs r) → rhs r = A :: β → Lm B A

noncomputable def headF (l : List Nat) : Nat := List.rec (motive := fun _ => Nat) 0 (fun x _ _ => x) l
noncomputable def lmRound (f m : Nat) : Nat :=
  Nat.rec (motive := fun _ => Nat → Nat) (fun m => m)
    (fun i ih m => ih (ite_ (band (tb m (lhsF (Nat.add i 2))) (Nat.ble 1 (NL.len (rhsF (Nat.add i 2))))) (Nat.lor m (Nat.shiftLeft 1 (headF (rhsF (Nat.add i 2))))) m)) f m
noncomputable def lmMask (n B : Nat) : Nat := Nat.rec (motive := fun _ => Nat) (Nat.shiftLeft 1 B) (fun _ ih => lmRound 356 ih) n

theorem lmRound_spec {B : Nat} : ∀ (f : Nat), f ≤ 356 → ∀ (m : Nat), (∀ X, m.testBit X = true → Lm B X) → ∀ X, (lmRound f m).testBit X = true → Lm B X
  | 0, _, m, h => h
  | f + 1, hf, m, h => by
    refine lmRound_spec f (by omega) (ite_ (band (tb m (lhsF (f + 2))) (Nat.ble 1 (NL.len (rhsF (f + 2))))) (Nat.lor m (Nat.shiftLeft 1 (headF (rhsF (f + 2))))) m) ?_
    intro X hX
    cases hc : band (tb m (lhsF (f + 2))) (Nat.ble 1 (NL.len (rhsF (f + 2)))) with
    | false => rw [hc] at hX; exact h X hX
    | true =>
      rw [hc] at hX
      rw [band_iff, tb_eq, ble_iff, NL.len_eq] at hc
      rcases testBit_or_shift hX with hX | hX
      · exact h X hX
      · rw [← lhs_eq (by omega), ← rhs_eq (by omega)] at hc
        rw [← rhs_eq (by omega)] at hX
        cases hr : rhs (f + 2) with
        | nil => rw [hr] at hc; simp at hc
        | cons A β =>
          rw [hr] at hX
          have : X = A := hX
          subst this
          exact .step (by omega) (by omega) (h _ hc.1) hr

theorem lmMask_spec {B : Nat} : ∀ (n X : Nat), (lmMask n B).testBit X = true → Lm B X
  | 0, X, h => by
    have : (Nat.lor 0 (Nat.shiftLeft 1 B)).testBit X = true := by
      have e : Nat.lor 0 (Nat.shiftLeft 1 B) = Nat.shiftLeft 1 B := Nat.zero_or _
      rw [e]; exact h
    rcases testBit_or_shift this with h | h
    · simp at h
    · rw [h]; exact .refl
  | n + 1, X, h => lmRound_spec 356 (Nat.le_refl _) _ (fun X h => lmMask_spec n X h) X h

noncomputable def lmF (B : Nat) : Nat := lmT.get 0 (Nat.sub B 199)
theorem lmF_all : allN 136 (fun i => sub (lmT.get 0 i) (lmMask 9 (Nat.add 199 i))) = true := by decide +kernel
theorem lmF_spec {A B : Nat} (h1 : 199 ≤ B) (h2 : B ≤ 334) (h : (lmF B).testBit A = true) : Lm B A := by
  have := allN_spec lmF_all (B - 199) (by omega)
  have := sub_spec this h
  rw [show Nat.add 199 (B - 199) = B by show 199 + (B - 199) = B; omega] at this
  exact lmMask_spec 9 A this

/-- Some kernel item has a next nonterminal that can begin with `A`. -/
noncomputable def justified (l0 l : KL) (A : Nat) : Bool :=
  KL.rec (motive := fun _ => Bool) false
    (fun r k _ _ ih => bor (band (bnot (Nat.beq (l0.find r k) 0)) (band (band (bnot (isT (NL.nth (rhsF r) k))) (Nat.ble (NL.nth (rhsF r) k) 334)) (tb (lmF (NL.nth (rhsF r) k)) A))) ih) l

theorem justified_all : allN 656 (fun s => (stF s).pred.all fun A _ => justified (stF s).kern (stF s).kern A) = true := by decide +kernel
theorem kern_nonempty : allN 656 (fun s => bnot (KL.rec (motive := fun _ => Bool) true (fun r k _ _ _ => Nat.beq ((stF s).kern.find r k) 0) (stF s).kern)) = true := by decide +kernel

theorem justified_spec {l0 : KL} {A : Nat} : ∀ {l : KL}, justified l0 l A = true → ∃ r k, l0.find r k ≠ 0 ∧ (199 ≤ NL.nth (rhsF r) k ∧ NL.nth (rhsF r) k ≤ 334) ∧ (lmF (NL.nth (rhsF r) k)).testBit A = true
  | .nil, h => by cases h
  | .cons r k m tl, h => by
    have h : bor (band (bnot (Nat.beq (l0.find r k) 0)) (band (band (bnot (isT (NL.nth (rhsF r) k))) (Nat.ble (NL.nth (rhsF r) k) 334)) (tb (lmF (NL.nth (rhsF r) k)) A))) (justified l0 tl A) = true := h
    rw [bor_iff, band_iff, band_iff, band_iff, bnot_iff, bnot_iff, ble_iff, tb_eq] at h
    rcases h with ⟨h1, ⟨h2, h4⟩, h3⟩ | h
    · refine ⟨r, k, ?_, ⟨?_, h4⟩, h3⟩
      · intro h; rw [h] at h1; cases h1
      · refine Classical.byContradiction fun h => ?_
        have : isT (NL.nth (rhsF r) k) = true := ble_iff.2 (by omega)
        rw [this] at h2; cases h2
    · exact justified_spec h

theorem pm_justified {s A : Nat} (hs : s < 656) (h : PM s A) : ∃ r k B, KM s r k ∧ (rhs r)[k]? = some B ∧ 199 ≤ B ∧ Lm B A := by
  have h1 := allN_spec justified_all s hs
  have h2 := PL.all_spec h1 A h
  obtain ⟨r, k, g1, g2, g3⟩ := justified_spec h2
  have hr := km_lt hs g1
  rw [← rhs_eq hr, NL.nth_eq, List.getD_eq_getElem?_getD] at g2 g3
  cases hx : (rhs r)[k]? with
  | none =>
    rw [hx] at g2
    exact absurd g2.2 (by decide)
  | some B =>
    rw [hx] at g2 g3
    have g2 : 199 ≤ B := g2.1
    have hB : B ≤ 334 := by
      have hr1 : 1 ≤ r := by
        rcases Nat.eq_zero_or_pos r with h0 | h0
        · subst h0
          have : rhs 0 = [] := by decide +kernel
          rw [this] at hx; cases hx
        · exact h0
      exact rhs_le hr1 hr (List.mem_of_getElem? hx)
    exact ⟨r, k, B, g1, hx, g2, lmF_spec g2 hB g3⟩

theorem km_exists {s : Nat} (hs : s < 656) : ∃ r k, KM s r k := by
  have h := allN_spec kern_nonempty s hs
  rw [bnot_iff] at h
  cases hk : (stF s).kern with
  | nil => rw [hk] at h; cases h
  | cons r k m tl =>
    rw [hk] at h
    have h : Nat.beq ((KL.cons r k m tl).find r k) 0 = false := h
    refine ⟨r, k, ?_⟩
    unfold KM
    rw [hk]
    intro h0; rw [h0] at h; cases h

/-- Trees for the rest of a right-hand side. -/
theorem rest_trees {r k : Nat} (hr1 : 2 ≤ r) (hr2 : r < 358) : ∃ cs : List Tree, WFL cs ∧ cs.map Tree.sym = (rhs r).drop k := by
  refine productive_list fun X hX => ?_
  have hm := List.mem_of_mem_drop hX
  refine productive (rhs_le (by omega) hr2 hm) ?_
  rintro rfl
  have hc : allN 358 (fun r => bnot (List.rec (motive := fun _ => Bool) false (fun x _ ih => bor (Nat.beq x 199) ih) (rhsF r))) = true := by decide +kernel
  have := allN_spec hc r hr2
  rw [bnot_iff, ← rhs_eq hr2] at this
  have key : ∀ l : List Nat, 199 ∈ l → List.rec (motive := fun _ => Bool) false (fun x _ ih => bor (Nat.beq x 199) ih) l = true := by
    intro l
    induction l with
    | nil => intro h; cases h
    | cons x l ih =>
      intro h
      show bor (Nat.beq x 199) _ = true
      rw [bor_iff, beq_iff]
      rcases List.mem_cons.1 h with h | h
      · exact .inl h.symm
      · exact .inr (ih h)
  rw [key _ hm] at this; cases this

theorem Lm.tree {A B : Nat} (h : Lm B A) : ∀ t : Tree, t.WF → t.sym = A → ∃ t' : Tree, t'.WF ∧ t'.sym = B ∧ ∃ w, t'.yield = t.yield ++ w := by
  induction h with
  | refl => intro t h1 h2; exact ⟨t, h1, h2, [], by simp⟩
  | @step r A β hr1 hr2 _ hr ih =>
    intro t h1 h2
    obtain ⟨cs, g1, g2⟩ := rest_trees (k := 1) hr1 hr2
    rw [hr] at g2
    obtain ⟨t', k1, k2, w, k3⟩ := ih (.node r (t :: cs)) ⟨hr1, by rw [rules_len]; exact hr2, by rw [hr]; simp [h2, g2], h1, g1⟩ rfl
    exact ⟨t', k1, k2, yieldL cs ++ w, by rw [k3]; simp [Tree.yield, yieldL]⟩

theorem stkYield_split {k : Nat} {stk : TStk} (h : k ≤ stk.length) : stkYield stk = stkYield (stk.drop k) ++ yieldL (popTrees k stk) := by
  induction k generalizing stk with
  | zero => simp [popTrees, yieldL]
  | succ k ih =>
    cases stk with
    | nil => simp at h
    | cons e stk =>
      obtain ⟨s, t⟩ := e
      rw [stkYield_cons, popTrees_cons, List.drop_succ_cons, ih (by simpa using h), yieldL_append, yieldL_single, List.append_assoc]

theorem rhs1 : rhs 1 = [N.input, 0] := by decide +kernel

/-- A stack, followed by a tree the top state predicts, can be completed. -/
theorem complete_pred {lim : Nat} : ∀ (n : Nat) (stk : TStk) (f : List Tok), stk.length ≤ n → StkOK lim stk f → ∀ A, PM (topState stk) A → ∀ tA : Tree, tA.WF → tA.sym = A →
    ∃ T : Tree, T.WF ∧ T.sym = N.input ∧ ∃ w, T.yield = stkYield stk ++ tA.yield ++ w := by
  intro n
  induction n with
  | zero =>
    intro stk f hn h A hA tA hw hs
    have : stk = [] := List.length_eq_zero_iff.1 (by omega)
    subst this
    obtain ⟨r, k, B, hk, hB, h199, hlm⟩ := pm_justified (by decide) hA
    obtain ⟨rfl, rfl⟩ := km0 hk
    rw [rhs1] at hB
    cases hB
    obtain ⟨T, h1, h2, w, h3⟩ := hlm.tree tA hw hs
    exact ⟨T, h1, h2, w, by rw [h3]; rfl⟩
  | succ n ih =>
    intro stk f hn h A hA tA hw hs
    obtain ⟨r, k, B, hk, hB, h199, hlm⟩ := pm_justified (topState_lt h) hA
    obtain ⟨tB, b1, b2, w, b3⟩ := hlm.tree tA hw hs
    cases k with
    | zero =>
      have hlt := topState_lt h
      by_cases h69 : topState stk = 69
      · rw [h69] at hk; have := (km69 hk).2; omega
      have hr := kern_r hlt h69 hk
      have h1 : r = 1 := by
        rcases Nat.lt_or_ge 1 r with hlt' | hge
        · exact absurd (pop.kern_zero hlt hk) (by omega)
        · omega
      subst h1
      have := topState_zero h (km10 hlt hk)
      subst this
      rw [rhs1] at hB
      cases hB
      exact ⟨tB, b1, b2, w, by rw [b3]; rfl⟩
    | succ k =>
      obtain ⟨p1, p2, p3, _, p5, p6, p7, _⟩ := pop k stk f h hk
      have hr2 := km_lt (topState_lt h) hk
      rcases p5 with p5 | ⟨p5, _⟩
      · have hr1 : 2 ≤ r := by
          have := (pm_range (topState_lt p6) p7 p5).1
          refine Classical.byContradiction fun hlt => ?_
          have : r = 0 ∨ r = 1 := by omega
          rcases this with rfl | rfl
          · have : lhs 0 = 0 := by decide +kernel
            omega
          · have : lhs 1 = 199 := by decide +kernel
            omega
        obtain ⟨cs, g1, g2⟩ := rest_trees (k := k + 1 + 1) hr1 hr2
        have hsyms : (popTrees (k + 1) stk ++ tB :: cs).map Tree.sym = rhs r := by
          rw [List.map_append, p2, List.map_cons, b2, g2]
          have hlt : k + 1 < (rhs r).length := (List.getElem?_eq_some_iff.1 hB).1
          have hg : (rhs r)[k + 1] = B := (List.getElem?_eq_some_iff.1 hB).2
          rw [← hg, List.getElem_cons_drop_succ_eq_drop, List.take_append_drop]
        obtain ⟨T, t1, t2, w', t3⟩ := ih (stk.drop (k + 1)) _ (by simp; omega) p6 (lhs r) p5 (.node r (popTrees (k + 1) stk ++ tB :: cs))
          ⟨hr1, by rw [rules_len]; exact hr2, hsyms, (WFL_append _ _).2 ⟨p3, b1, g1⟩⟩ rfl
        refine ⟨T, t1, t2, w ++ yieldL cs ++ w', ?_⟩
        rw [t3, stkYield_split p1]
        simp [Tree.yield, yieldL_append, yieldL, b3]
      · subst p5
        rw [rhs1] at hB
        cases k with
        | zero => cases hB; omega
        | succ k => cases hB

/-- What is on the stack begins a sentence. -/
theorem viable {lim : Nat} {stk : TStk} {f : List Tok} (h : StkOK lim stk f) (h69 : topState stk ≠ 69) : ∃ T : Tree, T.WF ∧ T.sym = N.input ∧ ∃ w, T.yield = stkYield stk ++ w := by
  cases hstk : stk with
  | nil =>
    obtain ⟨T, h1, h2⟩ := productive (X := N.input) (by decide) (by decide)
    exact ⟨T, h1, h2, T.yield, rfl⟩
  | cons e stk' =>
    rw [← hstk]
    obtain ⟨r, k, hk⟩ := km_exists (topState_lt h)
    cases k with
    | zero =>
      exfalso
      have hlt := topState_lt h
      have hr := kern_r hlt h69 hk
      have h1 : r = 1 := by
        rcases Nat.lt_or_ge 1 r with hlt' | hge
        · exact absurd (pop.kern_zero hlt hk) (by omega)
        · omega
      subst h1
      have := topState_zero h (km10 hlt hk)
      rw [hstk] at this; cases this
    | succ k =>
      obtain ⟨p1, p2, p3, _, p5, p6, p7, _⟩ := pop k stk f h hk
      have hr2 := km_lt (topState_lt h) hk
      rcases p5 with p5 | ⟨p5, p5'⟩
      · have hr1 : 2 ≤ r := by
          have := (pm_range (topState_lt p6) p7 p5).1
          refine Classical.byContradiction fun hlt => ?_
          have : r = 0 ∨ r = 1 := by omega
          rcases this with rfl | rfl
          · have : lhs 0 = 0 := by decide +kernel
            omega
          · have : lhs 1 = 199 := by decide +kernel
            omega
        obtain ⟨cs, g1, g2⟩ := rest_trees (k := k + 1) hr1 hr2
        obtain ⟨T, t1, t2, w', t3⟩ := complete_pred _ (stk.drop (k + 1)) _ (Nat.le_refl _) p6 (lhs r) p5 (.node r (popTrees (k + 1) stk ++ cs))
          ⟨hr1, by rw [rules_len]; exact hr2, by rw [List.map_append, p2, g2, List.take_append_drop], (WFL_append _ _).2 ⟨p3, g1⟩⟩ rfl
        refine ⟨T, t1, t2, yieldL cs ++ w', ?_⟩
        rw [t3, stkYield_split p1]
        simp [Tree.yield, yieldL_append]
      · subst p5
        rw [rhs1] at p2
        have hy : stkYield stk = yieldL (popTrees (k + 1) stk) := by rw [stkYield_split p1, p5']; rfl
        rw [hy]
        cases hp : popTrees (k + 1) stk with
        | nil => rw [hp] at p2; cases p2
        | cons t l =>
          rw [hp] at p2 p3
          simp only [List.map_cons, List.take_succ_cons, List.cons.injEq] at p2
          cases k with
          | zero =>
            have : l = [] := by simpa using p2.2
            subst this
            exact ⟨t, p3.1, p2.1, [], by simp [yieldL]⟩
          | succ k =>
            exfalso
            -- the item after the end of input is only in state 69
            have hc : allN 656 (fun s => bor (Nat.beq s 69) (KL.all (stF s).kern fun r k _ => bor (bnot (Nat.beq r 1)) (Nat.ble k 1))) = true := by decide +kernel
            have := allN_spec hc _ (topState_lt h)
            rw [bor_iff, beq_iff] at this
            have := KL.all_spec (this.resolve_left h69) 1 (k + 1 + 1) hk
            rw [bor_iff, bnot_iff, ble_iff] at this
            rcases this with h | h
            · cases h
            · omega

end Verif.LR

import Verif.LR.Cert0
import Verif.LR.Cert1
import Verif.LR.Cert2
import Verif.LR.Cert3
/-! What the certificate checks mean for the tables and the grammar. Proof-internal. -/
set_option maxRecDepth 100000
namespace Verif.LR

theorem stOk_all (s : Nat) (hs : s < 656) (h69 : s ≠ 69) : stOk s (stF s) = true := by
  have : stOkAt s = true := by
    rcases Nat.lt_or_ge s 164 with h | h
    · exact allFrom_spec cert0 s (by omega) (by omega)
    rcases Nat.lt_or_ge s 328 with h | h
    · exact allFrom_spec cert1 s (by omega) (by omega)
    rcases Nat.lt_or_ge s 492 with h | h
    · exact allFrom_spec cert2 s (by omega) (by omega)
    · exact allFrom_spec cert3 s (by omega) (by omega)
  unfold stOkAt at this
  rw [bor_iff] at this
  rcases this with h | h
  · exact absurd (Nat.eq_of_beq_eq_true h) h69
  · exact h

/-! ## The grammar -/

noncomputable def ruleEq (a b : Rule) : Bool := band (Nat.beq a.1 b.1) (NL.eq a.2 b.2)
theorem ruleEq_spec (a b : Rule) (h : ruleEq a b = true) : a = b := by
  unfold ruleEq at h
  rw [band_iff] at h
  exact Prod.ext (Nat.eq_of_beq_eq_true h.1) (NL.eq_spec h.2)

theorem rules_len : rules.length = 358 := by decide +kernel
theorem ruT_agree : ruT.agree ruleEq (0, []) rules 0 = true := by decide +kernel
theorem rules_get {r : Nat} (h : r < 358) : rules.getD r (0, []) = ruT.get (0, []) r := by
  have := BT.agree_spec ruleEq_spec ruT (0, []) rules 0 ruT_agree r (by rw [rules_len]; exact h)
  rw [Nat.zero_add] at this
  rw [List.getD_eq_getElem?_getD, this]; rfl
theorem rhs_eq {r : Nat} (h : r < 358) : rhs r = rhsF r := by unfold rhs; rw [rules_get h]; rfl
theorem lhs_eq {r : Nat} (h : r < 358) : lhs r = lhsF r := by unfold lhs; rw [rules_get h]; rfl

/-- Left-hand sides, symbol ranges and the lists of rules by left-hand side; weights. -/
noncomputable def ruleOk (r : Nat) : Bool :=
  band (Nat.ble 199 (lhsF r)) (band (Nat.ble (lhsF r) 334)
   (band (NL.all (rhsF r) fun X => Nat.ble X 334)
   (band (List.rec (motive := fun _ => Bool) false (fun x _ ih => bor (Nat.beq x r) ih) (bylF (lhsF r)))
   (band (Nat.beq (yyr1T.get r) (Nat.add (lhsF r) 1000)) (band (Nat.beq (yyr2T.get r) (Nat.add (NL.len (rhsF r)) 1000))
   (band (sub (fseq (rhsF r) 0) (firstF (lhsF r)))
   (bor (tb nullM (lhsF r)) (bnot (List.rec (motive := fun _ => Bool) true (fun x _ ih => band (tb nullM x) ih) (rhsF r))))))))))

theorem rulesOk : allFrom 1 357 ruleOk = true := by decide +kernel

theorem mem_of_rec {r : Nat} : ∀ {l : List Nat}, List.rec (motive := fun _ => Bool) false (fun x _ ih => bor (Nat.beq x r) ih) l = true → r ∈ l
  | [], h => Bool.noConfusion h
  | x :: l, h => by
    have h' := bor_iff.1 h
    rcases h' with h' | h'
    · rw [Nat.eq_of_beq_eq_true h']; exact List.mem_cons_self
    · exact List.mem_cons_of_mem _ (mem_of_rec h')

theorem lhs_ge {r : Nat} (h1 : 1 ≤ r) (h2 : r < 358) : 199 ≤ lhs r := by
  have := allFrom_spec rulesOk r h1 (by omega)
  unfold ruleOk at this; simp only [band_iff] at this
  rw [lhs_eq h2]; exact Nat.le_of_ble_eq_true this.1
theorem lhs_le {r : Nat} (h1 : 1 ≤ r) (h2 : r < 358) : lhs r ≤ 334 := by
  have := allFrom_spec rulesOk r h1 (by omega)
  unfold ruleOk at this; simp only [band_iff] at this
  rw [lhs_eq h2]; exact Nat.le_of_ble_eq_true this.2.1
theorem rhs_le {r X : Nat} (h1 : 1 ≤ r) (h2 : r < 358) (hX : X ∈ rhs r) : X ≤ 334 := by
  have := allFrom_spec rulesOk r h1 (by omega)
  unfold ruleOk at this; simp only [band_iff] at this
  rw [rhs_eq h2] at hX; exact Nat.le_of_ble_eq_true (NL.all_spec this.2.2.1 X hX)
theorem mem_byl {r : Nat} (h1 : 1 ≤ r) (h2 : r < 358) : r ∈ bylF (lhs r) := by
  have := allFrom_spec rulesOk r h1 (by omega)
  unfold ruleOk at this; simp only [band_iff] at this
  rw [lhs_eq h2]; exact mem_of_rec this.2.2.2.1
theorem at?_nat (l : List Int) (i : Nat) : at? l (i : Int) = l[i]? := by
  unfold at?; rw [if_pos (by omega)]; rfl
theorem ruleLhs_eq {r : Nat} (h1 : 1 ≤ r) (h2 : r < 358) : ruleLhs r = some (lhs r) := by
  have := allFrom_spec rulesOk r h1 (by omega)
  unfold ruleOk at this; simp only [band_iff] at this
  unfold ruleLhs
  rw [at?_nat, yyr1_get r h2, Nat.eq_of_beq_eq_true this.2.2.2.2.1, lhs_eq h2]
  show some (((lhsF r + 1000 : Nat) : Int) - 1000).toNat = _
  congr 1; omega
theorem ruleLen_eq {r : Nat} (h1 : 1 ≤ r) (h2 : r < 358) : ruleLen r = some (rhs r).length := by
  have := allFrom_spec rulesOk r h1 (by omega)
  unfold ruleOk at this; simp only [band_iff] at this
  unfold ruleLen
  rw [at?_nat, yyr2_get r h2, Nat.eq_of_beq_eq_true this.2.2.2.2.2.1, NL.len_eq, rhs_eq h2]
  show some ((((rhsF r).length + 1000 : Nat) : Int) - 1000).toNat = _
  congr 1; omega
theorem first_rule {r a : Nat} (h1 : 1 ≤ r) (h2 : r < 358) (h : (fseq (rhs r) 0).testBit a = true) : (firstF (lhs r)).testBit a = true := by
  have := allFrom_spec rulesOk r h1 (by omega)
  unfold ruleOk at this; simp only [band_iff] at this
  rw [rhs_eq h2] at h; rw [lhs_eq h2]
  exact sub_spec this.2.2.2.2.2.2.1 h
theorem null_rec : ∀ {l : List Nat}, (∀ x ∈ l, tb nullM x = true) → List.rec (motive := fun _ => Bool) true (fun x _ ih => band (tb nullM x) ih) l = true
  | [], _ => rfl
  | x :: l, h => band_iff.2 ⟨h x List.mem_cons_self, null_rec (fun y hy => h y (List.mem_cons_of_mem _ hy))⟩
theorem null_rule {r : Nat} (h1 : 1 ≤ r) (h2 : r < 358) (h : ∀ x ∈ rhs r, tb nullM x = true) : tb nullM (lhs r) = true := by
  have := allFrom_spec rulesOk r h1 (by omega)
  unfold ruleOk at this; simp only [band_iff, bor_iff, bnot_iff] at this
  rw [rhs_eq h2] at h; rw [lhs_eq h2]
  rcases this.2.2.2.2.2.2.2 with hh | hh
  · exact hh
  · rw [null_rec h] at hh; exact Bool.noConfusion hh

theorem termOk : allN 199 (fun a => band (tb (firstF a) a) (bnot (tb nullM a))) = true := by decide +kernel
theorem first_term {a : Nat} (h : a < 199) : (firstF a).testBit a = true := by
  have := allN_spec termOk a h
  rw [band_iff, tb_eq] at this; exact this.1
theorem null_term {a : Nat} (h : a < 199) : tb nullM a = false := by
  have := allN_spec termOk a h
  rw [band_iff, bnot_iff] at this; exact this.2

theorem translateOk : allN 437 (fun c => band (Nat.ble 1000 (yytranslateT.get c)) (Nat.ble (yytranslateT.get c) 1198)) = true := by decide +kernel
theorem tsym_lt (t : Lex.Tok) : tsym t < 199 := by
  unfold tsym tokSym
  split
  · omega
  split
  · rename_i h1 h2
    have hlt : t.code.toNat < 437 := by simp [YYMAXUTOK] at h2; omega
    have := allN_spec translateOk t.code.toNat hlt
    rw [band_iff] at this
    rw [List.getD_eq_getElem?_getD, yytranslate_get _ hlt]
    have h3 := Nat.le_of_ble_eq_true this.2
    show (Option.getD (some _) _ : Int).toNat < 199
    simp; omega
  · omega

/-! ## Precedence masks -/

noncomputable def precOkR (r : Nat) : Bool :=
  Bool.rec (band (Nat.beq (frF r) 0) (Nat.beq (fsF r) 0))
    (allN 199 fun a => band (Bool.rec (bnot (tb (frF r) a)) (tb (frF r) a) (forbidReduce r a)) (Bool.rec (bnot (tb (fsF r) a)) (tb (fsF r) a) (forbidShift r a)))
    (opLhs.contains (lhs r))
theorem precOk : allN 358 precOkR = true := by decide +kernel

theorem fr_spec {r a : Nat} (hr : r < 358) (ha : a < 199) : forbidReduce r a = tb (frF r) a ∧ forbidShift r a = tb (fsF r) a := by
  have := allN_spec precOk r hr
  unfold precOkR at this
  cases hc : opLhs.contains (lhs r) with
  | false =>
    rw [hc] at this
    have this := band_iff.1 this
    unfold forbidReduce forbidShift contested
    rw [hc, Nat.eq_of_beq_eq_true this.1, Nat.eq_of_beq_eq_true this.2, tb_eq]
    simp
  | true =>
    rw [hc] at this
    have this := band_iff.1 (allN_spec this a ha)
    constructor
    · have h1 := this.1
      cases hf : forbidReduce r a <;> rw [hf] at h1
      · exact (bnot_iff.1 h1).symm
      · exact h1.symm
    · have h1 := this.2
      cases hf : forbidShift r a <;> rw [hf] at h1
      · exact (bnot_iff.1 h1).symm
      · exact h1.symm

end Verif.LR

import Verif.LR.Facts2
/-! The certificate as statements about the automaton. Proof-internal. -/
set_option maxRecDepth 100000
namespace Verif.LR

def KM (s r k : Nat) : Prop := (stF s).kern.find r k ≠ 0
def PM (s A : Nat) : Prop := (stF s).pred.find A ≠ 0
/-- Item `(r,k)` with lookahead set `L` belongs to state `s`. -/
def Item (s r k L : Nat) : Prop :=
  L ≠ 0 ∧ ((stF s).kern.find r k = L ∨ (k = 0 ∧ (stF s).pred.find (lhs r) = L)) ∧ 1 ≤ r ∧ r < 358
/-- An edge of the automaton. -/
def Edge (s t X : Nat) : Prop := (X < 199 ∧ actionOn s X = some (.shift t)) ∨ (PM s X ∧ t = gotoF s X)
def Shifts (s a : Nat) : Prop := ∃ t, actionOn s a = some (.shift t)

section
variable {s : Nat} (hs : s < 656) (h69 : s ≠ 69)
include hs h69

theorem st_rows : allN 199 (fun a => tb ((stF s).rows.find (actF s a)) a) = true := by
  have := stOk_all s hs h69; unfold stOk at this; simp only [band_iff] at this; exact this.1
theorem st_disj : (stF s).rows.disj 0 = true := by
  have := stOk_all s hs h69; unfold stOk at this; simp only [band_iff] at this; exact this.2.1
theorem st_kern : (stF s).kern.all (fun r k L => band (itemOk s (stF s) r k L) (band (fssoundOk s r k) (band (Nat.ble r 357) (Nat.ble 1 r)))) = true := by
  have := stOk_all s hs h69; unfold stOk at this; rw [band_iff, band_iff, band_iff] at this; exact this.2.2.1
theorem st_pred : (stF s).pred.all (fun A L => band (Nat.ble 200 A) (band (Nat.ble A 334) (band (Nat.ble 1 (gotoF s A)) (band (Nat.ble (gotoF s A) 655) (band (edgeOk (stF s) (gotoF s A) A)
      (NL.all (bylF A) fun r => band (itemOk s (stF s) r 0 L) (fscompOk s (stF s) r))))))) = true := by
  have := stOk_all s hs h69; unfold stOk at this; rw [band_iff, band_iff, band_iff, band_iff] at this; exact this.2.2.2.1
theorem st_rowsOk : (stF s).rows.all (fun c m => rowOk (stF s) c m) = true := by
  have := stOk_all s hs h69; unfold stOk at this; rw [band_iff, band_iff, band_iff, band_iff] at this; exact this.2.2.2.2

theorem kern_r {r k : Nat} (h : KM s r k) : 1 ≤ r ∧ r < 358 := by
  have := KL.all_spec (st_kern hs h69) r k h
  simp only [band_iff, ble_iff] at this
  omega
theorem pm_range {A : Nat} (h : PM s A) : 200 ≤ A ∧ A ≤ 334 ∧ gotoF s A < 656 := by
  have := PL.all_spec (st_pred hs h69) A h
  simp only [band_iff, ble_iff] at this
  omega

theorem item_ok {r k L : Nat} (h : Item s r k L) : itemOk s (stF s) r k L = true := by
  obtain ⟨h0, h | ⟨h1, h⟩, hr1, hr2⟩ := h
  · have := KL.all_spec (st_kern hs h69) r k (by rw [h]; exact h0)
    rw [h] at this
    rw [band_iff] at this; exact this.1
  · have := PL.all_spec (st_pred hs h69) (lhs r) (by rw [h]; exact h0)
    rw [h] at this
    simp only [band_iff] at this
    have := NL.all_spec this.2.2.2.2.2 r (mem_byl hr1 hr2)
    rw [band_iff] at this
    rw [h1]; exact this.1

theorem act_of_mask {a c : Nat} (ha : a < 199) (h : ((stF s).rows.find c).testBit a = true) : actF s a = c := by
  have h1 := allN_spec (st_rows hs h69) a ha
  rw [tb_eq] at h1
  exact RL.disj_spec (st_disj hs h69) _ _ a h1 h

theorem item_red {r k L a : Nat} (h : Item s r k L) (hr : r ≠ 1) (hd : (rhs r).drop k = []) (ha : a < 199) (hL : L.testBit a = true)
    (hf : forbidReduce r a = false) : actionOn s a = some (.reduce r) := by
  have hok := item_ok hs h69 h
  unfold itemOk at hok
  rw [NL.drop_eq, ← rhs_eq h.2.2.2, hd] at hok
  have hok := (bor_iff.1 hok).resolve_left (by rw [beq_iff]; exact hr)
  have := sub_spec hok hL
  have e : ∀ x y : Nat, Nat.lor x y = x ||| y := fun _ _ => rfl
  rw [e, Nat.testBit_or] at this
  rw [(fr_spec h.2.2.2 ha).1, tb_eq] at hf
  rw [hf, Bool.or_false] at this
  rw [act_iff hs, act_of_mask hs h69 ha this]
  show r * 2 + 1 = 2 * r + 1
  omega

theorem item_shift {r k L X : Nat} {β : List Nat} (h : Item s r k L) (hd : (rhs r).drop k = X :: β) (hX : X < 199) :
    (∃ t L', actionOn s X = some (.shift t) ∧ t < 656 ∧ Item t r (k + 1) L' ∧ (∀ a, L.testBit a = true → L'.testBit a = true)) ∨
    (¬ Shifts s X ∧ k = 1 ∧ ∃ Y l, rhs r = Y :: l ∧ 199 ≤ Y) := by
  have hok := item_ok hs h69 h
  unfold itemOk at hok
  rw [NL.drop_eq, ← rhs_eq h.2.2.2, hd] at hok
  have hok : ite_ (isT X) _ _ = true := hok
  have hT : isT X = true := by unfold isT; rw [ble_iff]; omega
  rw [hT] at hok
  simp only [ite_true_] at hok
  rw [ite_eq] at hok
  by_cases hsh : isShift (actF s X) = true
  · left
    rw [if_pos hsh, band_iff, ble_iff] at hok
    obtain ⟨t, ht⟩ := (isShift_iff hs).1 hsh
    have e := (act_iff hs _).1 ht
    rw [e, shTgt_enc] at hok
    refine ⟨t, _, ht, by omega, ⟨?_, .inl rfl, h.2.2⟩, fun a ha => sub_spec hok.2 ha⟩
    intro h0
    have := hok.2
    have e2 : L &&& ((stF t).kern.find r (k + 1)) = L := beq_iff.1 this
    rw [h0] at e2
    simp at e2
    exact h.1 e2.symm
  · right
    rw [if_neg hsh, band_iff, beq_iff] at hok
    refine ⟨fun h => hsh ((isShift_iff hs).2 h), hok.1, ?_⟩
    cases hr : rhs r with
    | nil => rw [hr] at hd; simp at hd
    | cons Y l =>
      rw [hr] at hok
      have h2 : bnot (isT Y) = true := hok.2
      rw [bnot_iff] at h2
      refine ⟨Y, l, rfl, ?_⟩
      rcases Nat.lt_or_ge Y 199 with h3 | h3
      · have : isT Y = true := by unfold isT; rw [ble_iff]; omega
        rw [this] at h2; exact Bool.noConfusion h2
      · exact h3

theorem item_goto {r k L X : Nat} {β : List Nat} (h : Item s r k L) (hd : (rhs r).drop k = X :: β) (hX : 199 ≤ X) :
    PM s X ∧ gotoF s X < 656 ∧ (∃ L', Item (gotoF s X) r (k + 1) L' ∧ (∀ a, L.testBit a = true → L'.testBit a = true)) ∧
    (∀ a, (fseq β L).testBit a = true → ((stF s).pred.find X).testBit a = true) := by
  have hok := item_ok hs h69 h
  unfold itemOk at hok
  rw [NL.drop_eq, ← rhs_eq h.2.2.2, hd] at hok
  have hok : ite_ (isT X) _ _ = true := hok
  have hT : isT X = false := by
    cases h : isT X
    · rfl
    · unfold isT at h; rw [ble_iff] at h; omega
  rw [hT] at hok
  simp only [ite_false_, band_iff, bnot_iff, ble_iff] at hok
  obtain ⟨h1, h2, h3, h4⟩ := hok
  refine ⟨?_, by omega, ⟨_, ⟨?_, .inl rfl, h.2.2⟩, fun a ha => sub_spec h2 ha⟩, fun a ha => sub_spec h4 ha⟩
  · intro h0
    rw [h0] at h3
    exact Bool.noConfusion h3
  · intro h0
    have e2 : L &&& ((stF (gotoF s X)).kern.find r (k + 1)) = L := beq_iff.1 h2
    rw [h0] at e2
    simp at e2
    exact h.1 e2.symm

theorem pm_item {r : Nat} (hr1 : 1 ≤ r) (hr2 : r < 358) (h : PM s (lhs r)) : Item s r 0 ((stF s).pred.find (lhs r)) := ⟨h, .inr ⟨rfl, rfl⟩, hr1, hr2⟩
theorem km_item {r k : Nat} (h : KM s r k) : Item s r k ((stF s).kern.find r k) := ⟨h, .inl rfl, kern_r hs h69 h⟩

theorem pm_closure {m X : Nat} {l : List Nat} (hr1 : 1 ≤ m) (hr2 : m < 358) (h : PM s (lhs m)) (hd : rhs m = X :: l) (hX : 199 ≤ X) : PM s X :=
  (item_goto hs h69 (pm_item hs h69 hr1 hr2 h) (β := l) (by rw [hd]; rfl) hX).1

theorem edgeOk_spec {t X : Nat} (hX : X ≤ 334) (h : edgeOk (stF s) t X = true) (r k : Nat) (hr : KM t r k) (hr2 : r < 358) :
    1 ≤ k ∧ (rhs r)[k - 1]? = some X ∧ (KM s r (k - 1) ∨ (k = 1 ∧ PM s (lhs r))) := by
  have := KL.all_spec h r k hr
  simp only [band_iff, bor_iff, bnot_iff, ble_iff, beq_iff, NL.nth_eq] at this
  obtain ⟨h1, h2, h3⟩ := this
  have ep : Nat.pred k = k - 1 := rfl
  rw [ep, ← rhs_eq hr2] at h2
  rw [ep, ← lhs_eq hr2] at h3
  refine ⟨h1, ?_, ?_⟩
  · rw [List.getD_eq_getElem?_getD] at h2
    cases hh : (rhs r)[k - 1]? with
    | none => rw [hh] at h2; simp at h2; omega
    | some y => rw [hh] at h2; simp at h2; rw [h2]
  · rcases h3 with h3 | ⟨h3, h4⟩
    · left; intro h0; rw [h0] at h3; exact Bool.noConfusion h3
    · right; refine ⟨h3, ?_⟩; intro h0; rw [h0] at h4; exact Bool.noConfusion h4
end

theorem kern69 : band ((stF 69).kern.all fun r k _ => band (Nat.beq r 1) (Nat.beq k 2)) (band ((stF 0).kern.all fun r k _ => band (Nat.beq r 1) (Nat.beq k 0))
   (band (Nat.beq ((stF 0).kern.find 1 0) 1) (band (allN 656 fun s => bor (Nat.beq s 0) (Nat.beq ((stF s).kern.find 1 0) 0))
   (allN 656 fun s => (stF s).kern.all fun r _ _ => Nat.ble r 357)))) = true := by decide +kernel

theorem km69 {r k : Nat} (h : KM 69 r k) : r = 1 ∧ k = 2 := by
  have := KL.all_spec (band_iff.1 kern69).1 r k h
  simpa [beq_iff] using this
theorem km0 {r k : Nat} (h : KM 0 r k) : r = 1 ∧ k = 0 := by
  have := KL.all_spec (band_iff.1 (band_iff.1 kern69).2).1 r k h
  simpa [beq_iff] using this
theorem item0 : Item 0 1 0 1 := by
  have := beq_iff.1 (band_iff.1 (band_iff.1 (band_iff.1 kern69).2).2).1
  exact ⟨by decide, .inl this, by decide, by decide⟩
theorem km10 {s : Nat} (hs : s < 656) (h : KM s 1 0) : s = 0 := by
  have := allN_spec (band_iff.1 (band_iff.1 (band_iff.1 (band_iff.1 kern69).2).2).2).1 s hs
  rw [bor_iff, beq_iff, beq_iff] at this
  exact this.resolve_right h
theorem km_lt {s r k : Nat} (hs : s < 656) (h : KM s r k) : r < 358 := by
  have := allN_spec (band_iff.1 (band_iff.1 (band_iff.1 (band_iff.1 kern69).2).2).2).2 s hs
  have := KL.all_spec this r k h
  rw [ble_iff] at this; omega

section
variable {s : Nat} (hs : s < 656) (h69 : s ≠ 69)
include hs h69

theorem row_of_act {a : Nat} {x : Act} (ha : a < 199) (h : actionOn s a = some x) :
    ((stF s).rows.find (encAct x)).testBit a = true ∧ rowOk (stF s) (encAct x) ((stF s).rows.find (encAct x)) = true := by
  have h1 := allN_spec (st_rows hs h69) a ha
  rw [tb_eq, (act_iff hs x).1 h] at h1
  refine ⟨h1, RL.all_spec (st_rowsOk hs h69) _ ?_⟩
  intro h0; rw [h0] at h1; simp at h1

theorem edge_spec {t X : Nat} (h : Edge s t X) : t < 656 ∧ t ≠ 0 ∧ X ≤ 334 ∧
    ∀ r k, KM t r k → 1 ≤ k ∧ (rhs r)[k - 1]? = some X ∧ (KM s r (k - 1) ∨ (k = 1 ∧ PM s (lhs r))) := by
  rcases h with ⟨hX, h⟩ | ⟨h, rfl⟩
  · obtain ⟨h1, h2⟩ := row_of_act hs h69 hX h
    unfold rowOk at h2
    have hsh : isShift (encAct (.shift t)) = true := by
      rw [← (act_iff hs _).1 h]; exact (isShift_iff hs).2 ⟨t, h⟩
    have hne : Nat.beq (encAct (.shift t)) 0 = false := by unfold encAct; rfl
    simp only [hsh, hne, ite_true_, ite_false_, shTgt_enc, band_iff, ble_iff, beq_iff] at h2
    obtain ⟨h3, h4, h5, h6⟩ := h2
    have e : Nat.shiftLeft 1 (Nat.sub (yystosT.get t) 1000) = 2 ^ (Nat.sub (yystosT.get t) 1000) := Nat.one_shiftLeft _
    rw [h5, e, Nat.testBit_two_pow] at h1
    have hst : Nat.sub (yystosT.get t) 1000 = X := by simpa using h1
    rw [hst] at h6
    exact ⟨by omega, by omega, by omega, fun r k hr => edgeOk_spec hs h69 (by omega) h6 r k hr (km_lt (by omega) hr)⟩
  · have hp := PL.all_spec (st_pred hs h69) X h
    simp only [band_iff, ble_iff] at hp
    exact ⟨by omega, by omega, by omega, fun r k hr => edgeOk_spec hs h69 (by omega) hp.2.2.2.2.1 r k hr (km_lt (by omega) hr)⟩

theorem red_spec {a r : Nat} (ha : a < 199) (h : actionOn s a = some (.reduce r)) :
    2 ≤ r ∧ r < 358 ∧ forbidReduce r a = false ∧ ((rhs r = [] ∧ PM s (lhs r)) ∨ (rhs r ≠ [] ∧ KM s r (rhs r).length)) := by
  obtain ⟨h1, h2⟩ := row_of_act hs h69 ha h
  unfold rowOk at h2
  have hsh : isShift (encAct (.reduce r)) = false := by
    cases hh : isShift (encAct (.reduce r))
    · rfl
    · rw [← (act_iff hs _).1 h] at hh
      obtain ⟨t, ht⟩ := (isShift_iff hs).1 hh
      rw [h] at ht; cases ht
  have hne : Nat.beq (encAct (.reduce r)) 0 = false := rfl
  have hd : Nat.div (encAct (.reduce r)) 2 = r := by
    show (2 * r + 1) / 2 = r
    omega
  rw [hne, ite_false_, hsh, ite_false_, hd, band_iff, band_iff, band_iff, ble_iff, ble_iff, beq_iff, ite_eq, NL.len_eq] at h2
  simp only [beq_iff] at h2
  obtain ⟨h3, h4, h5, h6⟩ := h2
  refine ⟨h3, by omega, ?_, ?_⟩
  · rw [(fr_spec (by omega) ha).1, tb_eq]
    have h5 : (stF s).rows.find (encAct (.reduce r)) &&& frF r = 0 := h5
    have := Nat.testBit_and ((stF s).rows.find (encAct (.reduce r))) (frF r) a
    rw [h5, h1] at this
    simpa using this.symm
  · rw [← rhs_eq (by omega), ← lhs_eq (by omega)] at h6
    by_cases hl : (rhs r).length = 0
    · left
      rw [if_pos hl, bnot_iff] at h6
      refine ⟨List.length_eq_zero_iff.1 hl, ?_⟩
      intro h0; rw [h0] at h6; exact Bool.noConfusion h6
    · right
      rw [if_neg hl, bnot_iff] at h6
      refine ⟨fun h => hl (by rw [h]; rfl), ?_⟩
      intro h0; rw [h0] at h6; exact Bool.noConfusion h6

theorem fscomp {m X a : Nat} (hm1 : 1 ≤ m) (hm2 : m < 358) (hp : PM s (lhs m)) (hr : (rhs m).take 2 = [X, a]) (hX : 199 ≤ X) (ha : a < 199)
    (hn : ¬ Shifts (gotoF s X) a) (r k : Nat) (hk : KM s r k) : k + 1 = (rhs r).length ∧ (rhs r)[k]? = some X ∧ forbidShift r a = true := by
  have h := PL.all_spec (st_pred hs h69) (lhs m) hp
  simp only [band_iff] at h
  have h := NL.all_spec h.2.2.2.2.2 m (mem_byl hm1 hm2)
  rw [band_iff] at h
  have h := h.2
  unfold fscompOk at h
  have hd : ∃ l, rhs m = X :: a :: l := by
    match hh : rhs m with
    | [] => rw [hh] at hr; simp at hr
    | [x] => rw [hh] at hr; simp at hr
    | x :: y :: l => rw [hh] at hr; simp at hr; exact ⟨l, by rw [hr.1, hr.2]⟩
  obtain ⟨l, hl⟩ := hd
  rw [← rhs_eq hm2, hl] at h
  have h : ite_ (isT X) true (ite_ (isT a) (ite_ (isShift (actF (gotoF s X) a)) true _) true) = true := h
  have hT : isT X = false := by
    cases h : isT X
    · rfl
    · unfold isT at h; rw [ble_iff] at h; omega
  have hTa : isT a = true := by unfold isT; rw [ble_iff]; omega
  have hg := (item_goto hs h69 (pm_item hs h69 hm1 hm2 hp) (β := a :: l) (by rw [hl]; rfl) hX).2.1
  have hns : isShift (actF (gotoF s X) a) = false := by
    cases hh : isShift (actF (gotoF s X) a)
    · rfl
    · exact absurd ((isShift_iff hg).1 hh) hn
  rw [hT, hTa, hns] at h
  simp only [ite_true_, ite_false_] at h
  have h := KL.all_spec h r k hk
  have hrr := (kern_r hs h69 hk).2
  simp only [band_iff, beq_iff, NL.nth_eq, NL.len_eq, ← rhs_eq hrr] at h
  obtain ⟨h1, h2, h3⟩ := h
  refine ⟨h1, ?_, ?_⟩
  · have h1 : k + 1 = (rhs r).length := h1
    rw [List.getD_eq_getElem?_getD, List.getElem?_eq_getElem (by omega)] at h2
    rw [List.getElem?_eq_getElem (by omega)]
    simpa using h2
  · rw [(fr_spec hrr ha).2]; exact h3

theorem fssound {r k X a : Nat} (hk : KM s r k) (hl : k + 1 = (rhs r).length) (hX : (rhs r)[k]? = some X) (hX2 : 199 ≤ X) (ha : a < 199)
    (hf : forbidShift r a = true) : ¬ Shifts (gotoF s X) a := by
  have h := KL.all_spec (st_kern hs h69) r k hk
  have hrr := (kern_r hs h69 hk).2
  rw [band_iff, band_iff] at h
  have h := h.2.1
  unfold fssoundOk at h
  simp only [NL.len_eq, NL.nth_eq, ← rhs_eq hrr] at h
  rw [List.getD_eq_getElem?_getD, hX] at h
  have e : Nat.beq (Nat.succ k) (rhs r).length = true := by rw [beq_iff]; exact hl
  have hT : isT X = false := by
    cases h : isT X
    · rfl
    · unfold isT at h; rw [ble_iff] at h; omega
  rw [e] at h
  simp only [ite_true_, Option.getD_some, hT, ite_false_] at h
  rw [(fr_spec hrr ha).2] at hf
  have hne : Nat.beq (fsF r) 0 = false := by
    cases hh : Nat.beq (fsF r) 0
    · rfl
    · rw [beq_iff] at hh; rw [hh, tb_eq] at hf; simp at hf
  rw [hne, ite_false_] at h
  have h := allN_spec h a ha
  rw [bor_iff, bnot_iff, bnot_iff, hf] at h
  have h := h.resolve_left (by simp)
  have hd : (rhs r).drop k = X :: [] := by
    rw [List.drop_eq_getElem_cons (by omega)]
    rw [List.getElem?_eq_getElem (by omega)] at hX
    congr 1
    · exact Option.some.inj hX
    · exact List.drop_eq_nil_of_le (by omega)
  have hg := (item_goto hs h69 (km_item hs h69 hk) hd hX2).2.1
  intro hsh
  rw [(isShift_iff hg).2 hsh] at h
  exact Bool.noConfusion h
end

/-- No state has an action for the `error` token: error recovery never takes place (bison_parser.cpp:5763-5796). -/
theorem noErr : allN 656 (fun s => (fun p => ite_ (Nat.beq p 471) true ((fun n => ite_ (band (Nat.ble 1000 n) (Nat.ble n 1856))
   (bnot (Nat.beq (yycheckT.get (Nat.sub n 1000)) 1001)) true) (Nat.add p 1))) (yypactT.get s)) = true := by decide +kernel

end Verif.LR

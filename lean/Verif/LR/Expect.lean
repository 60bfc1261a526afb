import Verif.LR.Plan
/-! The tokens in the table row of the state in which an error is found can follow what has been read. Proof-internal. -/
namespace Verif.LR
open Verif.Lex

/-- Whenever a state reduces a rule that the precedences forbid in front of `x`, it also shifts `x`. -/
def Nice (x : Nat) : Prop := ∀ s r a, s < 656 → s ≠ 69 → a < 199 → actionOn s a = some (.reduce r) → forbidReduce r x = true → Shifts s x

/-- There is a stack for the same tokens that is correct in front of `x`; it is this one, or it can shift `x`. -/
def Inv (lim : Nat) (x : Tok) (stk : TStk) : Prop :=
  ∃ stk0, stkYield stk0 = stkYield stk ∧ StkOK lim stk0 [x] ∧ (stk0 = stk ∨ (Shifts (topState stk0) (tsym x) ∧ topState stk0 ≠ 69))

theorem Inv.leaf {lim s : Nat} {t : Tok} {stk : TStk} {f : List Tok} (x : Tok) (h : StkOK lim ((s, .leaf t) :: stk) f) : Inv lim x ((s, .leaf t) :: stk) := by
  refine ⟨_, rfl, ?_, .inl rfl⟩
  simp only [StkOK, Tree.yield] at h ⊢
  exact ⟨h.1.next rfl, h.2.1, h.2.2.1, h.2.2.2.1, trivial, trivial, h.2.2.2.2.2.2⟩

theorem tReduce_any {r : Nat} {stk stk' : TStk} {rem rem' : List Tok} (h : tReduce r stk rem = .run stk' rem') (rem2 : List Tok) : tReduce r stk rem2 = .run stk' rem2 := by
  unfold tReduce at h ⊢
  split at h
  · split at h
    · cases h
    · split at h
      · cases h
      · rename_i h2 _ _ _
        cases h
        rw [if_neg h2]
  · cases h

theorem run_expect {x : Tok} (hn : Nice (tsym x)) {lim n : Nat} {stk stk' : TStk} {rem rem' : List Tok} (h : TSteps lim n stk rem stk' rem') :
    rem' ≠ [] → StkOK lim stk rem → Inv lim x stk → Inv lim x stk' := by
  induction h with
  | refl => exact fun _ _ h => h
  | @step n stk rem stk1 rem1 stk' rem' hst hrest ih =>
    intro hne hok hi
    cases rem with
    | nil => exact absurd (hrest.nil ((tstep_rem (x := []) hst).2.1 rfl)) hne
    | cons t rem =>
      have h69 := (tstep_rem (x := []) hst).2.2
      rcases step_sound hok with ⟨h1, _⟩ | ⟨h1, _⟩ | ⟨h1, _⟩ | ⟨s, _, h2, h3, h4⟩ | ⟨r, stk2, k1, k2, k3, k4, h5, h6, h7⟩
      · rw [h1] at hst; cases hst
      · rw [h1] at hst; cases hst
      · rw [h1] at hst; cases hst
      · rw [h2] at hst
        injection hst with e1 e2
        subst e1; subst e2
        exact ih hne h3 (Inv.leaf x h3)
      · rw [h5] at hst
        injection hst with e1 e2
        subst e1; subst e2
        refine ih hne h6 ?_
        obtain ⟨stk0, g1, g2, g3⟩ := hi
        rcases g3 with rfl | g3
        · cases hfr : forbidReduce r (tsym x) with
          | true => exact ⟨stk0, by rw [h7], g2, .inr ⟨hn _ _ _ (topState_lt hok) h69 (tsym_lt t) k1 hfr, h69⟩⟩
          | false =>
            have hl : stk0.length + 1 < lim := by
              refine Classical.byContradiction fun hl => ?_
              unfold tstep at h5
              rw [if_pos (by omega)] at h5
              cases h5
            obtain ⟨stk3, q1, q2, q3⟩ := reduce_sound g2 k3 k2 hl h69 hfr (red_spec (topState_lt hok) h69 (tsym_lt t) k1).2.2.2
            have e : stk3 = stk2 := by
              have := tReduce_any k4 [x]
              rw [q1] at this
              injection this
            exact ⟨stk3, by rw [e], q2, .inl e⟩
        · exact ⟨stk0, by rw [g1, h7], g2, .inr g3⟩

/-- What can be shifted can follow. -/
theorem Inv.sentence {lim : Nat} {x : Tok} {stk : TStk} (h : Inv lim x stk) (hs : Shifts (topState stk) (tsym x)) (h69 : topState stk ≠ 69) :
    ∃ T : Tree, Derives T.yield T ∧ (stkYield stk ++ [x] <+: T.yield ∨ (tsym x = 0 ∧ stkYield stk = T.yield)) := by
  obtain ⟨stk0, h1, h2, h3⟩ := h
  rw [← h1]
  have h3 : Shifts (topState stk0) (tsym x) ∧ topState stk0 ≠ 69 := by
    rcases h3 with rfl | h3
    · exact ⟨hs, h69⟩
    · exact h3
  obtain ⟨N, hN⟩ := h2.large
  have h4 := hN (N + stk0.length + 2) (by omega)
  obtain ⟨⟨s', hs'⟩, h69'⟩ := h3
  rcases step_sound h4 with ⟨_, k⟩ | ⟨_, k, _⟩ | ⟨_, k, _⟩ | ⟨s, k1, _, k3, k4⟩ | ⟨r, stk2, k1, _⟩
  · omega
  · exact absurd k h69'
  · rw [k] at hs'; cases hs'
  · by_cases hs69 : s = 69
    · subst hs69
      obtain ⟨s1, T, e, a1, a2, a3, a4, a5, _⟩ := accept_shape k3 rfl
      injection a1 with b1 b2
      cases b1
      refine ⟨T, ⟨a3, a4, rfl, a5⟩, .inr ⟨a2, ?_⟩⟩
      rw [b2, stkYield_cons]
      rfl
    · have hg : Good ((s, .leaf x) :: stk0) := ⟨_, rfl, hs69, k3.eok, fun f => StkOK.large (lim := N + stk0.length + 2) (by
        simp only [StkOK, Tree.yield] at k3 ⊢
        exact ⟨k3.1.next rfl, k3.2.1, k3.2.2.1, k3.2.2.2.1, trivial, trivial, k3.2.2.2.2.2.2⟩)⟩
      obtain ⟨T, t1, t2⟩ := hg.sentence
      exact ⟨T, t1, .inl (by rw [← k4]; exact t2)⟩
  · rw [k1] at hs'; cases hs'

/-! ## The tables -/

noncomputable def safeB (x : Nat) : Bool := allN 358 fun r => bnot (tb (frF r) x)
noncomputable def niceB (x : Nat) : Bool := bor (Nat.beq x 116) (bor (Nat.beq x 132) (safeB x))
noncomputable def shiftOr (x s : Nat) : Bool := bor (Nat.beq s 69) (bor (isShift (actF s x)) (allN 199 fun a => (fun c => bor (Nat.beq (Nat.land c 1) 0) (bnot (tb (frF (Nat.div c 2)) x))) (actF s a)))
theorem shiftOr_all : band (allN 656 (shiftOr 116)) (allN 656 (shiftOr 132)) = true := by decide +kernel

theorem shiftOr_nice {x : Nat} (hx : x < 199) (h : allN 656 (shiftOr x) = true) : Nice x := by
  intro s r a hs h69 ha hr hf
  have := allN_spec h s hs
  unfold shiftOr at this
  rw [bor_iff, bor_iff, beq_iff] at this
  rcases this with h | h | h
  · exact absurd h h69
  · exact (isShift_iff hs).1 h
  · have h := allN_spec h a ha
    simp only [] at h
    rw [(act_iff hs _).1 hr, bor_iff, beq_iff, bnot_iff] at h
    have e1 : Nat.land (encAct (.reduce r)) 1 = (2 * r + 1) % 2 := Nat.and_one_is_mod _
    have e2 : Nat.div (encAct (.reduce r)) 2 = r := by show (2 * r + 1) / 2 = r; omega
    rw [e1, e2] at h
    rcases h with h | h
    · omega
    · rw [(fr_spec (red_spec hs h69 ha hr).2.1 hx).1, h] at hf; cases hf

theorem niceB_spec {x : Nat} (hx : x < 199) (h : niceB x = true) : Nice x := by
  unfold niceB at h
  rw [bor_iff, bor_iff, beq_iff, beq_iff] at h
  obtain ⟨h1, h2⟩ := band_iff.1 shiftOr_all
  rcases h with rfl | rfl | h
  · exact shiftOr_nice hx h1
  · exact shiftOr_nice hx h2
  · intro s r a hs h69 ha hr hf
    have := allN_spec h r (red_spec hs h69 ha hr).2.1
    rw [bnot_iff] at this
    rw [(fr_spec (red_spec hs h69 ha hr).2.1 hx).1, this] at hf; cases hf

noncomputable def cnt (s : Nat) : Nat := Nat.rec (motive := fun _ => Nat) 0 (fun x ih => ite_ (Nat.beq (actF s x) 0) ih (Nat.succ ih)) 199
/-- The states in which a comparison cannot be continued with another one: they reduce by default, but not always. -/
noncomputable def assocSt (s : Nat) : Bool := bor (Nat.beq s 421) (bor (band (Nat.ble 428 s) (Nat.ble s 435)) (Nat.beq s 517))
noncomputable def expOk (s : Nat) : Bool :=
  bor (Nat.beq s 69) (bor (assocSt s) (bor (allN 199 fun a => bnot (Nat.beq (actF s a) 0)) (band (allN 199 fun x => bor (Nat.beq (actF s x) 0) (isShift (actF s x)))
    (band (Nat.beq (dfltF s) 0) (band (Nat.beq (actF s 1) 0) (bor (Nat.ble 5 (cnt s)) (bor ((fun r k => band (bnot (Nat.beq ((stF s).kern.find r k) 0)) (isT (NL.nth (rhsF r) (Nat.pred k)))) (plR s) (plK s))
      (allN 199 fun x => bor (Nat.beq (actF s x) 0) (niceB x)))))))))
theorem expOk_all : allN 656 expOk = true := by decide +kernel

theorem cnt_len (s : Nat) : cnt s = ((List.range 199).filter fun x => bnot (Nat.beq (actF s x) 0)).length := by
  have : ∀ n, Nat.rec (motive := fun _ => Nat) 0 (fun x ih => ite_ (Nat.beq (actF s x) 0) ih (Nat.succ ih)) n = ((List.range n).filter fun x => bnot (Nat.beq (actF s x) 0)).length := by
    intro n
    induction n with
    | zero => rfl
    | succ n ih =>
      rw [List.range_succ, List.filter_append, List.length_append, ← ih]
      show ite_ (Nat.beq (actF s n) 0) _ _ = _
      cases h : Nat.beq (actF s n) 0 with
      | true => simp [ite_eq, bnot, h]
      | false => simp [ite_eq, bnot, h]
  exact this 199

/-- In a state with an error entry, other than those of the comparisons: there is no default reduction, the other entries are shifts, and if there are at most four they can all follow. -/
theorem expect_follow {lim n : Nat} {toks : List Tok} {stk : TStk} {t : Tok} {rest : List Tok} (h : TSteps lim n [] toks stk (t :: rest)) (h69 : topState stk ≠ 69)
    (herr : actionOn (topState stk) (tsym t) = some .error) (hA : assocSt (topState stk) = false) :
    dfltF (topState stk) = 0 ∧ actF (topState stk) 1 = 0 ∧ (cnt (topState stk) ≤ 4 → ∀ x, x < 199 → actionOn (topState stk) x ≠ some .error →
      ∃ T : Tree, Derives T.yield T ∧ (stkYield stk).map tsym ++ [x] <+: T.yield.map tsym ++ [Verif.LR.T.eof]) := by
  have hok := (run_ok h (by simp) trivial (fun _ => ⟨[], rfl, by decide, trivial, fun _ => ⟨0, fun _ _ => trivial⟩⟩)).1
  have hs := topState_lt hok
  have he := allN_spec expOk_all _ hs
  unfold expOk at he
  rw [bor_iff, beq_iff, bor_iff, bor_iff, band_iff, band_iff, band_iff, beq_iff, beq_iff] at he
  have he := (he.resolve_left h69).resolve_left (by rw [hA]; nofun)
  rcases he with he | ⟨e1, e2, e3, e4⟩
  · have := allN_spec he _ (tsym_lt t)
    rw [(act_iff hs _).1 herr] at this
    cases this
  refine ⟨e2, e3, fun hc x hx hne => ?_⟩
  have hact : actF (topState stk) x ≠ 0 := by
    intro h0
    exact hne ((act_iff hs .error).2 h0)
  have hsh : Shifts (topState stk) x := by
    have := allN_spec e1 x hx
    rw [bor_iff, beq_iff] at this
    exact (isShift_iff hs).1 (this.resolve_left hact)
  obtain ⟨u, hu⟩ : ∃ u : Tok, tsym u = x := by
    obtain ⟨tr, g1, g2⟩ := terminal_productive hx
    cases tr with
    | node r cs => have := sym_node g1; rw [g2] at this; omega
    | leaf u => exact ⟨u, g2⟩
  subst hu
  have hinv : Inv lim u stk := by
    rw [bor_iff, ble_iff, bor_iff] at e4
    rcases e4 with e4 | e4 | e4
    · omega
    · rw [band_iff] at e4
      cases stk with
      | nil => exact ⟨[], rfl, trivial, .inl rfl⟩
      | cons e l =>
        obtain ⟨s, tr⟩ := e
        have hb := hok
        simp only [StkOK] at hb
        obtain ⟨b1, b2, b3, b4, b5, _⟩ := hb
        have hk : KM s (plR s) (plK s) := by intro h0; rw [show topState ((s, tr) :: l) = s from rfl, h0] at e4; cases e4.1
        obtain ⟨c1, c2, _⟩ := (edge_spec b3 b4 b2).2.2.2 _ _ hk
        have hlt : isT (NL.nth (rhsF (plR s)) (Nat.pred (plK s))) = true := e4.2
        rw [NL.nth_eq, ← rhs_eq (km_lt (edge_spec b3 b4 b2).1 hk), List.getD_eq_getElem?_getD] at hlt
        have c2' : (rhs (plR s))[Nat.pred (plK s)]? = some tr.sym := c2
        rw [c2', isT_iff] at hlt
        cases tr with
        | leaf v => exact Inv.leaf u hok
        | node r cs => have := sym_node b5; simp only [Option.getD_some] at hlt; omega
    · have := allN_spec e4 _ (tsym_lt u)
      rw [bor_iff, beq_iff] at this
      exact run_expect (niceB_spec (tsym_lt u) (this.resolve_left hact)) h (by simp) trivial ⟨[], rfl, trivial, .inl rfl⟩
  obtain ⟨T, t1, t2⟩ := hinv.sentence hsh h69
  refine ⟨T, t1, ?_⟩
  rcases t2 with ⟨w, hw⟩ | ⟨z1, z2⟩
  · exact ⟨w.map tsym ++ [Verif.LR.T.eof], by rw [← hw]; simp⟩
  · exact ⟨[], by rw [z2, z1]; simp⟩

end Verif.LR

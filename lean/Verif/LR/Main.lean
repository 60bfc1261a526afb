import Verif.LR.Sound
/-! The driver with arbitrary semantic actions follows the tree automaton; termination. Proof-internal. -/
namespace Verif.LR
open Verif.Lex

/-! ## Termination measure -/

noncomputable def wF (X : Nat) : Int := (wT.get 0 X : Int) - 100
noncomputable def wsum (l : List Nat) : Int := (l.map wF).sum
noncomputable def wsumN (l : List Nat) : Nat := List.rec (motive := fun _ => Nat) 0 (fun X _ ih => Nat.add (wT.get 0 X) ih) l

theorem wsumN_eq (l : List Nat) : wsum l = (wsumN l : Int) - 100 * l.length := by
  induction l with
  | nil => rfl
  | cons X l ih =>
    have e : wsumN (X :: l) = wT.get 0 X + wsumN l := rfl
    have e2 : wsum (X :: l) = wF X + wsum l := by simp [wsum]
    rw [e, e2, ih, wF]; simp; omega

theorem wOk : band (allFrom 2 356 fun r => Nat.ble (Nat.add (Nat.add (wT.get 0 (lhsF r)) 1) (Nat.mul 100 (NL.len (rhsF r)))) (Nat.add 100 (wsumN (rhsF r))))
   (band (allN 199 fun a => Nat.beq (wT.get 0 a) 109) (allN 335 fun a => Nat.ble 90 (wT.get 0 a))) = true := by decide +kernel

theorem w_rule {r : Nat} (h1 : 2 ≤ r) (h2 : r < 358) : wF (lhs r) + 1 ≤ wsum (rhs r) := by
  have := allFrom_spec (band_iff.1 wOk).1 r h1 (by omega)
  rw [ble_iff, NL.len_eq, ← rhs_eq h2, ← lhs_eq h2] at this
  have h : (wT.get 0 (lhs r) + 1) + 100 * (rhs r).length ≤ 100 + wsumN (rhs r) := this
  rw [wsumN_eq, wF]
  omega
theorem w_term {a : Nat} (h : a < 199) : wF a = 9 := by
  have := allN_spec (band_iff.1 (band_iff.1 wOk).2).1 a h
  rw [beq_iff] at this
  rw [wF, this]; decide
theorem w_low {a : Nat} (h : a ≤ 334) : -10 ≤ wF a := by
  have := allN_spec (band_iff.1 (band_iff.1 wOk).2).2 a (by omega)
  rw [ble_iff] at this
  rw [wF]; omega

noncomputable def stkW (stk : TStk) : Int := (stk.map fun e => wF e.2.sym).sum

theorem sum_append' (a b : List Int) : (a ++ b).sum = a.sum + b.sum := by
  induction a with
  | nil => simp
  | cons x a ih => simp [ih]; omega

theorem sum_reverse' (a : List Int) : a.reverse.sum = a.sum := by
  induction a with
  | nil => rfl
  | cons x a ih => simp [sum_append', ih]; omega

theorem stkW_low {lim : Nat} : ∀ {stk : TStk} {f : List Tok}, StkOK lim stk f → -10 * (stk.length : Int) ≤ stkW stk
  | [], _, _ => by simp [stkW]
  | (t, tr) :: stk, f, h => by
    simp only [StkOK] at h
    have := stkW_low h.1
    have h2 := w_low (edge_spec h.2.2.1 h.2.2.2.1 h.2.1).2.2.1
    have e : stkW ((t, tr) :: stk) = wF tr.sym + stkW stk := by simp [stkW]
    rw [e]; simp only [List.length_cons]; omega

theorem reduce_weight {lim r : Nat} {stk stk' : TStk} {f : List Tok} (h1 : 2 ≤ r) (h2 : r < 358) (h : tReduce r stk f = .run stk' f)
    (hok : StkOK lim stk' f) : stkW stk' + 1 ≤ stkW stk := by
  unfold tReduce at h
  rw [ruleLen_eq (by omega) h2, ruleLhs_eq (by omega) h2] at h
  simp only [] at h
  split at h
  · cases h
  · split at h
    · cases h
    · injection h with h _
      subst h
      simp only [StkOK, Tree.WF] at hok
      have hs := hok.2.2.2.2.1.2.2.1
      have e1 : stkW stk = wsum (rhs r) + stkW (stk.drop (rhs r).length) := by
        have e0 : wsum (rhs r) = wsum ((popTrees (rhs r).length stk).map Tree.sym) := by rw [hs]
        rw [e0]
        conv => lhs; rw [← List.take_append_drop (rhs r).length stk]
        unfold stkW wsum popTrees
        rw [List.map_append, sum_append']
        congr 1
        rw [List.map_reverse, List.map_reverse, sum_reverse', List.map_map, List.map_map]
        rfl
      rw [e1]
      have := w_rule h1 h2
      simp only [stkW, List.map_cons, List.sum_cons, Tree.sym] at this ⊢
      omega

/-! ## The driver follows the tree automaton -/

section
variable {σ V : Type} (S : Sem σ V)

/-- The tokens not yet shifted. -/
def remOf (c : Cfg σ V) : List Tok := (c.la.map Prod.fst).toList ++ c.toks

/-- Reading the lookahead if there is none. -/
def fetch (c : Cfg σ V) : Cfg σ V :=
  match c.la, c.toks with
  | none, t :: toks => { c with la := some (t, (S.read t c.st).1), toks := toks, st := (S.read t c.st).2 }
  | _, _ => c

/-- Reading the lookahead if the state needs it. -/
def prep (c : Cfg σ V) : Cfg σ V :=
  match noToken (topState c.stk) with
  | some false => fetch S c
  | _ => c

theorem fetch_stk (c : Cfg σ V) : (fetch S c).stk = c.stk := by unfold fetch; split <;> rfl
theorem prep_stk (c : Cfg σ V) : (prep S c).stk = c.stk := by unfold prep; split <;> first | rfl | exact fetch_stk S c
theorem fetch_rem (c : Cfg σ V) : remOf (fetch S c) = remOf c := by
  unfold fetch
  split
  · rename_i h1 h2
    simp [remOf, h1, h2]
  · rfl
theorem prep_rem (c : Cfg σ V) : remOf (prep S c) = remOf c := by unfold prep; split <;> first | rfl | exact fetch_rem S c

theorem fetch_la {c : Cfg σ V} {t : Tok} {rem : List Tok} (h : remOf c = t :: rem) : ∃ v, (fetch S c).la = some (t, v) ∧ (fetch S c).toks = rem := by
  unfold fetch
  cases hla : c.la with
  | some p =>
    simp [remOf, hla] at h
    exact ⟨p.2, by simp [hla, ← h.1], h.2⟩
  | none =>
    simp [remOf, hla] at h
    rw [h]
    exact ⟨_, rfl, rfl⟩

theorem step_eq {lim : Nat} {c : Cfg σ V} {t : Tok} {rem : List Tok} (hl : c.stk.length + 1 < lim) (h69 : topState c.stk ≠ 69) (hr : remOf c = t :: rem) :
    step S lim c = doAct S (actionOn (topState c.stk) (tsym t)) (prep S c) := by
  unfold step actionOn prep
  rw [if_neg (by omega)]
  simp only []
  rw [if_neg (by simp only [YYFINAL]; omega)]
  cases hn : noToken (topState c.stk) with
  | none => rfl
  | some b =>
    cases b with
    | true => rfl
    | false =>
      simp only []
      unfold fetch
      cases hla : c.la with
      | some p =>
        simp [remOf, hla] at hr
        rw [← hr.1]
      | none =>
        simp [remOf, hla] at hr
        rw [hr]

theorem prep_shift {c : Cfg σ V} {t : Tok} {rem : List Tok} {s : Nat} (hr : remOf c = t :: rem) (h : actionOn (topState c.stk) (tsym t) = some (.shift s)) :
    ∃ v, (prep S c).la = some (t, v) ∧ (prep S c).toks = rem ∧ prep S c = fetch S c := by
  have hn : noToken (topState c.stk) = some false := by
    unfold actionOn at h
    split at h
    · cases h
    · unfold defaultAct at h
      split at h
      · cases h
      · split at h
        · cases h
        · split at h <;> cases h
    · assumption
  unfold prep
  rw [hn]
  obtain ⟨v, h1, h2⟩ := fetch_la S hr
  exact ⟨v, h1, h2, rfl⟩

/-- The configuration and the tree stack are in the same states with the same rest of the input. -/
def Sim (c : Cfg σ V) (stk : TStk) (rem : List Tok) : Prop := c.stk.map Prod.fst = stk.map Prod.fst ∧ remOf c = rem

theorem topState_fst {A B : Type} {l : List (Nat × A)} {l' : List (Nat × B)} (h : l.map Prod.fst = l'.map Prod.fst) : topState l = topState l' := by
  cases l with
  | nil => cases l' with
    | nil => rfl
    | cons y l' => simp at h
  | cons x l => cases l' with
    | nil => simp at h
    | cons y l' => simp at h; exact h.1

theorem Sim.top {c : Cfg σ V} {stk : TStk} {rem : List Tok} (h : Sim c stk rem) : topState c.stk = topState stk := topState_fst h.1
theorem Sim.len {c : Cfg σ V} {stk : TStk} {rem : List Tok} (h : Sim c stk rem) : c.stk.length = stk.length := by
  have := congrArg List.length h.1; simpa using this

/-- What a step of the driver does, in terms of the tree automaton. -/
inductive StepCase (lim : Nat) (c : Cfg σ V) (stk : TStk) (t : Tok) (rem : List Tok) : Prop where
  | exh : lim ≤ stk.length + 1 → step S lim c = .done .exhausted c → tstep lim stk (t :: rem) = .exh → StepCase lim c stk t rem
  | acc : topState stk = 69 → stk.length + 1 < lim → step S lim c = .done .accept c → tstep lim stk (t :: rem) = .acc → StepCase lim c stk t rem
  | err : topState stk ≠ 69 → actionOn (topState stk) (tsym t) = some .error → step S lim c = .done .syntaxError (prep S c) → tstep lim stk (t :: rem) = .err → StepCase lim c stk t rem
  | shift (s : Nat) (v : V) : topState stk ≠ 69 → actionOn (topState stk) (tsym t) = some (.shift s) → prep S c = fetch S c → (prep S c).la = some (t, v) → (prep S c).toks = rem →
      step S lim c = .run { prep S c with stk := (s, v) :: c.stk, la := none } →
      tstep lim stk (t :: rem) = .run ((s, .leaf t) :: stk) rem →
      StkOK lim ((s, .leaf t) :: stk) rem → stkYield ((s, .leaf t) :: stk) = stkYield stk ++ [t] → StepCase lim c stk t rem
  | reduce (r s : Nat) : topState stk ≠ 69 → stk.length + 1 < lim → actionOn (topState stk) (tsym t) = some (.reduce r) → 2 ≤ r → r < 358 → (rhs r).length ≤ c.stk.length →
      gotoState (topState (stk.drop (rhs r).length)) (lhs r) = some s →
      tstep lim stk (t :: rem) = .run ((s, .node r (popTrees (rhs r).length stk)) :: stk.drop (rhs r).length) (t :: rem) →
      StkOK lim ((s, .node r (popTrees (rhs r).length stk)) :: stk.drop (rhs r).length) (t :: rem) →
      stkYield ((s, .node r (popTrees (rhs r).length stk)) :: stk.drop (rhs r).length) = stkYield stk →
      stkW ((s, .node r (popTrees (rhs r).length stk)) :: stk.drop (rhs r).length) + 1 ≤ stkW stk →
      (step S lim c = match S.reduce r ((c.stk.take (rhs r).length).map Prod.snd).reverse ((c.stk.drop (rhs r).length).head?.map Prod.snd) (prep S c).st with
        | .ub => .ub
        | .error st => .done .semError { prep S c with stk := c.stk.drop (rhs r).length, st := st }
        | .ok v st => .run { prep S c with stk := (s, v) :: c.stk.drop (rhs r).length, st := st }) →
      StepCase lim c stk t rem

theorem step_cases {lim : Nat} {c : Cfg σ V} {stk : TStk} {t : Tok} {rem : List Tok} (hsim : Sim c stk (t :: rem)) (hok : StkOK lim stk (t :: rem)) :
    StepCase S lim c stk t rem := by
  have htop := hsim.top
  have hlen := hsim.len
  rcases step_sound hok with ⟨h1, h2⟩ | ⟨h1, h2, h3⟩ | ⟨h1, h2, h3, h4⟩ | ⟨s, h1, h2, h3, h4⟩ | ⟨r, stk', h1, h2, h3, h4, h5, h6, h7⟩
  · exact .exh h2 (by unfold step; rw [if_pos (by omega)]) h1
  · refine .acc h2 h3 ?_ h1
    unfold step
    rw [if_neg (by omega)]
    simp only []
    rw [if_pos (by rw [htop, h2]; decide)]
  · refine .err h3 h2 ?_ h1
    rw [step_eq S (by omega) (by rw [htop]; exact h3) hsim.2, htop, h2]
    rfl
  · have hl : stk.length + 1 < lim := by
      rcases Nat.lt_or_ge (stk.length + 1) lim with h | h
      · exact h
      · unfold tstep at h2; rw [if_pos h] at h2; cases h2
    have h69 : topState stk ≠ 69 := by
      intro h; unfold tstep at h2; rw [if_neg (by omega), if_pos h] at h2; cases h2
    obtain ⟨v, hv1, hv2, hv3⟩ := prep_shift S hsim.2 (by rw [htop]; exact h1)
    refine .shift s v h69 h1 hv3 hv1 hv2 ?_ h2 h3 h4
    rw [step_eq S (by omega) (by rw [htop]; exact h69) hsim.2, htop, h1]
    simp only [doAct]
    rw [hv1, prep_stk]
  · have hl : stk.length + 1 < lim := by
      rcases Nat.lt_or_ge (stk.length + 1) lim with h | h
      · exact h
      · unfold tstep at h5; rw [if_pos h] at h5; cases h5
    have h69 : topState stk ≠ 69 := by
      intro h; unfold tstep at h5; rw [if_neg (by omega), if_pos h] at h5; cases h5
    have hw := reduce_weight h2 h3 h4 h6
    have h4' := h4
    unfold tReduce at h4'
    rw [ruleLen_eq (by omega) h3, ruleLhs_eq (by omega) h3] at h4'
    simp only [] at h4'
    split at h4'
    · cases h4'
    rename_i hlr
    split at h4'
    · cases h4'
    rename_i s hg
    injection h4' with h4' _
    subst h4'
    refine .reduce r s h69 hl h1 h2 h3 (by omega) hg h5 h6 h7 hw ?_
    rw [step_eq S (by omega) (by rw [htop]; exact h69) hsim.2, htop, h1]
    simp only [doAct, doReduce]
    rw [ruleLen_eq (by omega) h3, ruleLhs_eq (by omega) h3]
    simp only []
    rw [prep_stk, if_neg (by omega)]
    have : topState (List.drop (rhs r).length c.stk) = topState (List.drop (rhs r).length stk) := topState_fst (by
      rw [List.map_drop, List.map_drop, hsim.1])
    rw [this, hg]
    rfl

end

end Verif.LR

import Verif.LR.Complete
/-! Soundness: what the automaton builds is a derivation that respects the precedences. Proof-internal. -/
namespace Verif.LR
open Verif.Lex

/-- Stack invariant; `f` are the tokens after the top entry. -/
def StkOK (lim : Nat) : TStk → List Tok → Prop
  | [], _ => True
  | (t, tr) :: stk, f => StkOK lim stk (tr.yield ++ f) ∧ Edge (topState stk) t tr.sym ∧ topState stk < 656 ∧ topState stk ≠ 69 ∧
      tr.WF ∧ tr.PrecOK (nextSym f 0) ∧ HShift (topState stk) tr ∧ (stk.length + 2 < lim → stk.length + tr.need + 1 < lim)

/-- Tokens on the stack. -/
def stkYield (stk : TStk) : List Tok := yieldL (popTrees stk.length stk)

theorem popTrees_cons (k s : Nat) (tr : Tree) (stk : TStk) : popTrees (k + 1) ((s, tr) :: stk) = popTrees k stk ++ [tr] := by
  simp [popTrees]

theorem stkYield_cons (s : Nat) (tr : Tree) (stk : TStk) : stkYield ((s, tr) :: stk) = stkYield stk ++ tr.yield := by
  simp only [stkYield, List.length_cons, popTrees_cons, yieldL_append, yieldL_single]

theorem topState_lt {lim : Nat} {stk : TStk} {f : List Tok} (h : StkOK lim stk f) : topState stk < 656 := by
  cases stk with
  | nil => simp [topState]
  | cons e stk =>
    obtain ⟨t, tr⟩ := e
    simp only [StkOK] at h
    exact (edge_spec h.2.2.1 h.2.2.2.1 h.2.1).1

theorem topState_zero {lim : Nat} {stk : TStk} {f : List Tok} (h : StkOK lim stk f) (h0 : topState stk = 0) : stk = [] := by
  cases stk with
  | nil => rfl
  | cons e stk =>
    obtain ⟨t, tr⟩ := e
    simp only [StkOK] at h
    exact absurd h0 (edge_spec h.2.2.1 h.2.2.2.1 h.2.1).2.1

theorem sym_leaf_iff {tr : Tree} (h : tr.WF) : tr.sym < 199 ↔ ∃ t, tr = .leaf t := by
  cases tr with
  | leaf t => exact ⟨fun _ => ⟨t, rfl⟩, fun _ => tsym_lt t⟩
  | node r cs =>
    have := sym_node h
    exact ⟨fun h => by omega, fun ⟨t, h⟩ => by cases h⟩

theorem pop {lim r : Nat} : ∀ (k : Nat) (stk : TStk) (f : List Tok), StkOK lim stk f → KM (topState stk) r (k + 1) →
    k + 1 ≤ stk.length ∧ (popTrees (k + 1) stk).map Tree.sym = (rhs r).take (k + 1) ∧ WFL (popTrees (k + 1) stk) ∧
    PrecOKL (popTrees (k + 1) stk) (nextSym f 0) ∧
    (PM (topState (stk.drop (k + 1))) (lhs r) ∨ (r = 1 ∧ stk.drop (k + 1) = [])) ∧
    StkOK lim (stk.drop (k + 1)) (yieldL (popTrees (k + 1) stk) ++ f) ∧ topState (stk.drop (k + 1)) ≠ 69 ∧
    (∀ X a, 199 ≤ X → a < 199 → LeadsL X a (popTrees (k + 1) stk) → Shifts (gotoF (topState (stk.drop (k + 1))) X) a) ∧
    (1 ≤ k → ∀ X a, (rhs r).take 2 = [X, a] → 199 ≤ X → a < 199 → Shifts (gotoF (topState (stk.drop (k + 1))) X) a) ∧
    (∀ s tr l, stk = (s, tr) :: l → (k ≠ 0 → KM (topState l) r k) ∧ (rhs r)[k]? = some tr.sym) ∧
    (stk.length + 1 < lim → (stk.drop (k + 1)).length + needL 0 (popTrees (k + 1) stk) + 1 < lim) := by
  intro k
  induction k with
  | zero =>
    intro stk f h hk
    cases stk with
    | nil => exact absurd (km0 hk) (by omega)
    | cons e stk =>
      obtain ⟨t, tr⟩ := e
      simp only [StkOK] at h
      obtain ⟨h1, h2, h3, h4, h5, h6, h7, h8⟩ := h
      obtain ⟨_, _, _, he⟩ := edge_spec h3 h4 h2
      obtain ⟨e1, e2, e3⟩ := he r 1 hk
      simp only [Nat.sub_self] at e2
      have hp : popTrees (0 + 1) ((t, tr) :: stk) = [tr] := rfl
      have hdr : List.drop (0 + 1) ((t, tr) :: stk) = stk := rfl
      have hrl : 0 < (rhs r).length := by
        rcases Nat.eq_zero_or_pos (rhs r).length with h | h
        · rw [List.getElem?_eq_none (by omega)] at e2; cases e2
        · exact h
      rw [hp, hdr]
      refine ⟨by simp, ?_, ⟨h5, trivial⟩, ⟨h6, trivial⟩, ?_, ?_, h4, ?_, by omega, ?_, ?_⟩
      · rw [List.take_succ, List.take_zero, e2]; rfl
      · rcases e3 with e3 | e3
        · right
          have hr := kern_r h3 h4 e3
          have : r = 1 ∧ topState stk = 0 := by
            rcases Nat.lt_or_ge 1 r with hlt | hge
            · exact absurd (kern_zero h3 e3) (by omega)
            · have : r = 1 := by omega
              subst this
              exact ⟨rfl, km10 h3 e3⟩
          exact ⟨this.1, topState_zero h1 this.2⟩
        · exact Or.inl e3.2
      · rw [yieldL_single]; exact h1
      · intro X a hX ha hl
        exact h7 X a hX ha hl
      · intro s tr' l hl
        cases hl
        exact ⟨fun h => absurd rfl h, e2⟩
      · intro hl
        simp only [List.length_cons] at hl
        have := h8 (by omega)
        simp only [needL]
        omega
  | succ k ih =>
    intro stk f h hk
    cases stk with
    | nil => exact absurd (km0 hk) (by omega)
    | cons e stk =>
      obtain ⟨t, tr⟩ := e
      simp only [StkOK] at h
      obtain ⟨h1, h2, h3, h4, h5, h6, h7, h8⟩ := h
      obtain ⟨_, _, _, he⟩ := edge_spec h3 h4 h2
      obtain ⟨e1, e2, e3⟩ := he r (k + 1 + 1) hk
      have e3 := e3.resolve_right (by omega)
      have e2 : (rhs r)[k + 1]? = some tr.sym := e2
      have e3 : KM (topState stk) r (k + 1) := e3
      obtain ⟨p1, p2, p3, p4, p5, p6, p7, p8, p9, p10, p11⟩ := ih stk (tr.yield ++ f) h1 e3
      have hp : popTrees (k + 1 + 1) ((t, tr) :: stk) = popTrees (k + 1) stk ++ [tr] := popTrees_cons _ _ _ _
      have hdr : List.drop (k + 1 + 1) ((t, tr) :: stk) = stk.drop (k + 1) := rfl
      have hrl : k + 1 < (rhs r).length := by
        rcases Nat.lt_or_ge (k + 1) (rhs r).length with h | h
        · exact h
        · rw [List.getElem?_eq_none h] at e2; cases e2
      rw [hp, hdr]
      have hpne : ∃ c cs, popTrees (k + 1) stk = c :: cs := by
        cases hh : popTrees (k + 1) stk with
        | cons c cs => exact ⟨c, cs, rfl⟩
        | nil =>
          rw [hh] at p2
          have := congrArg List.length p2
          simp at this
          omega
      refine ⟨by simp; omega, ?_, ?_, ?_, p5, ?_, p7, ?_, ?_, ?_, ?_⟩
      · rw [List.map_append, p2, List.take_succ (i := k + 1), e2]; rfl
      · rw [WFL_append]; exact ⟨p3, h5, trivial⟩
      · rw [PrecOKL_snoc]
        rw [nextSym_append] at p4
        exact ⟨p4, h6⟩
      · rw [yieldL_append, yieldL_single, List.append_assoc]; exact p6
      · intro X a hX ha hl
        refine p8 X a hX ha ?_
        obtain ⟨c, cs, hc⟩ := hpne
        rw [hc] at hl ⊢
        exact hl
      · intro _ X a ht hX ha
        by_cases hk1 : 1 ≤ k
        · exact p9 hk1 X a ht hX ha
        · have hk0 : k = 0 := by omega
          subst hk0
          have hsym : tr.sym = a := by
            match hh : rhs r with
            | [] => rw [hh] at ht; simp at ht
            | [x] => rw [hh] at ht; simp at ht
            | x :: y :: l => rw [hh] at ht e2; simp at ht e2; rw [← e2, ht.2]
          have hsh : actionOn (topState stk) a = some (.shift t) := by
            rcases h2 with ⟨_, h2⟩ | ⟨h2, _⟩
            · rw [hsym] at h2; exact h2
            · have := (pm_range h3 h4 h2).1; omega
          -- the state below `stk`'s top
          cases stk with
          | nil => simp at p1
          | cons e2' stk2 =>
            obtain ⟨t2, tr2⟩ := e2'
            simp only [StkOK] at h1
            obtain ⟨q1, q2, q3, q4, q5, _⟩ := h1
            have hX2 : tr2.sym = X := by
              have := (p10 t2 tr2 stk2 rfl).2
              match hh : rhs r with
              | [] => rw [hh] at ht; simp at ht
              | [x] => rw [hh] at ht; simp at ht
              | x :: y :: l => rw [hh] at ht this; simp at ht this; rw [← this, ht.1]
            show Shifts (gotoF (topState stk2) X) a
            rcases q2 with ⟨q2, _⟩ | ⟨_, q2⟩
            · omega
            · rw [← hX2, ← q2]; exact ⟨t, hsh⟩
      · intro s tr' l hl
        cases hl
        exact ⟨fun _ => e3, e2⟩
      · intro hl
        simp only [List.length_cons] at hl
        have hl' : stk.length + 1 < lim := by omega
        have h8' := h8 (by omega)
        have hq := p11 hl'
        have hlen : (stk.drop (k + 1)).length + (popTrees (k + 1) stk).length = stk.length := by
          have := congrArg List.length p2
          simp only [List.length_map, List.length_take] at this
          rw [List.length_drop]
          omega
        exact needL_snoc (popTrees (k + 1) stk) tr lim (List.drop (k + 1) stk).length 0 hq (by omega)
where
  kern_zero {s r : Nat} (hs : s < 656) (h : KM s r 0) : r = 1 := by
    have hz : allN 656 (fun s => (stF s).kern.all fun r k _ => bor (Nat.ble 1 k) (Nat.beq r 1)) = true := by decide +kernel
    have := KL.all_spec (allN_spec hz s hs) r 0 h
    rw [bor_iff, ble_iff, beq_iff] at this
    omega
  needL_snoc (cs : List Tree) (c : Tree) (lim b : Nat) : ∀ j, b + needL j cs + 1 < lim → b + j + cs.length + c.need + 1 < lim → b + needL j (cs ++ [c]) + 1 < lim := by
    induction cs with
    | nil => intro j h1 h2; simp only [List.nil_append, needL, List.length_nil] at *; omega
    | cons d ds ih =>
      intro j h1 h2
      simp only [List.cons_append, needL, List.length_cons] at *
      have := ih (j + 1) (by omega) (by omega)
      omega

/-- Reductions. -/
theorem reduce_sound {lim r : Nat} {stk : TStk} {f : List Tok} (h : StkOK lim stk f) (hr2 : r < 358) (hr1 : 2 ≤ r)
    (hl : stk.length + 1 < lim) (h69 : topState stk ≠ 69)
    (hfr : forbidReduce r (nextSym f 0) = false)
    (hk : (rhs r = [] ∧ PM (topState stk) (lhs r)) ∨ (rhs r ≠ [] ∧ KM (topState stk) r (rhs r).length)) :
    ∃ stk', tReduce r stk f = .run stk' f ∧ StkOK lim stk' f ∧ stkYield stk' = stkYield stk := by
  -- a uniform description of what is popped
  have key : (rhs r).length ≤ stk.length ∧ (popTrees (rhs r).length stk).map Tree.sym = rhs r ∧ WFL (popTrees (rhs r).length stk) ∧
      PrecOKL (popTrees (rhs r).length stk) (nextSym f 0) ∧ PM (topState (stk.drop (rhs r).length)) (lhs r) ∧
      StkOK lim (stk.drop (rhs r).length) (yieldL (popTrees (rhs r).length stk) ++ f) ∧ topState (stk.drop (rhs r).length) ≠ 69 ∧
      (∀ X a, 199 ≤ X → a < 199 → LeadsL X a (popTrees (rhs r).length stk) → Shifts (gotoF (topState (stk.drop (rhs r).length)) X) a) ∧
      (∀ X a, (rhs r).take 2 = [X, a] → 199 ≤ X → a < 199 → Shifts (gotoF (topState (stk.drop (rhs r).length)) X) a) ∧
      lastOK r (popTrees (rhs r).length stk) ∧ (stk.drop (rhs r).length).length + needL 0 (popTrees (rhs r).length stk) + 1 < lim := by
    rcases hk with ⟨h0, hp⟩ | ⟨h0, hkm⟩
    · rw [h0]
      refine ⟨by simp, rfl, trivial, trivial, hp, by simpa [popTrees, yieldL] using h, h69, ?_, ?_, ?_, ?_⟩
      · intro X a _ _ hl; simp [popTrees, LeadsL] at hl
      · intro X a ht; simp at ht
      · intro c X a hc; simp [popTrees] at hc
      · simp [popTrees, needL]; exact hl
    · obtain ⟨k, hk⟩ : ∃ k, (rhs r).length = k + 1 := ⟨(rhs r).length - 1, by have := List.length_pos_iff.2 h0; omega⟩
      rw [hk] at hkm ⊢
      obtain ⟨p1, p2, p3, p4, p5, p6, p7, p8, p9, p10, p11⟩ := pop k stk f h hkm
      refine ⟨p1, ?_, p3, p4, p5.resolve_right (by omega), p6, p7, p8, ?_, ?_, p11 hl⟩
      · rw [p2]; exact List.take_of_length_le (by omega)
      · intro X a ht hX ha
        refine p9 ?_ X a ht hX ha
        have := congrArg List.length ht
        simp at this; omega
      · -- lastOK
        intro c X a hc hX ha hlead
        cases hf : forbidShift r a with
        | false => rfl
        | true =>
          exfalso
          cases stk with
          | nil => simp at p1
          | cons e l =>
            obtain ⟨t, tr⟩ := e
            rw [popTrees_cons, List.getLast?_concat] at hc
            injection hc with hc
            subst hc
            obtain ⟨q1, q2⟩ := p10 t tr l rfl
            have hX' : (rhs r)[k]? = some X := by
              rw [List.getLast?_eq_getElem?, hk] at hX; exact hX
            have hsX : tr.sym = X := by rw [q2] at hX'; exact Option.some.inj hX'
            simp only [StkOK] at h
            obtain ⟨h1, h2, h3, h4, h5, h6, h7, h8⟩ := h
            have hX199 : 199 ≤ X := by
              rw [← hsX]
              cases tr with
              | leaf u => simp [Tree.Leads] at hlead
              | node r' cs' => exact sym_node h5
            have hk0 : k ≠ 0 := by
              intro hk0
              subst hk0
              have hrr : rhs r = [X] := by
                match hh : rhs r with
                | [] => rw [hh] at hk; simp at hk
                | [x] => rw [hh] at hX'; simp at hX'; rw [hX']
                | x :: y :: l => rw [hh] at hk; simp at hk
              have : rulePrec r = none := by
                unfold rulePrec
                rw [hrr, List.filter_cons_of_neg (by simp; omega)]; rfl
              unfold forbidShift at hf
              rw [this] at hf
              simp at hf
            exact fssound h3 h4 (q1 hk0) hk.symm hX' hX199 ha hf (h7 X a hX199 ha hlead)
  obtain ⟨p1, p2, p3, p4, p5, p6, p7, p8, p9, p10, p11⟩ := key
  have hs := topState_lt p6
  have hrg := pm_range hs p7 p5
  refine ⟨(gotoF (topState (stk.drop (rhs r).length)) (lhs r), .node r (popTrees (rhs r).length stk)) :: stk.drop (rhs r).length, ?_, ?_, ?_⟩
  · unfold tReduce
    rw [ruleLen_eq (by omega) hr2, ruleLhs_eq (by omega) hr2]
    simp only []
    rw [if_neg (by omega), goto_spec hs hrg.1 hrg.2.1]
  · simp only [StkOK, Tree.yield, Tree.sym, Tree.WF, Tree.PrecOK]
    refine ⟨p6, Or.inr ⟨p5, rfl⟩, hs, p7, ⟨hr1, by rw [rules_len]; exact hr2, p2, p3⟩, ⟨hfr, p10, p4⟩, ?_, ?_⟩
    · intro X a hX ha hl
      simp only [Tree.Leads] at hl
      rcases hl with hl | hl
      · exact p9 X a hl hX ha
      · exact p8 X a hX ha hl
    · intro hlim
      simp only [Tree.need]
      omega
  · rw [stkYield_cons]
    simp only [Tree.yield]
    have : stkYield stk = yieldL (popTrees stk.length stk) := rfl
    rw [this]
    have e : popTrees stk.length stk = popTrees (stk.drop (rhs r).length).length (stk.drop (rhs r).length) ++ popTrees (rhs r).length stk := by
      unfold popTrees
      rw [List.take_length, List.take_length, ← List.reverse_append, ← List.map_append, List.take_append_drop]
    rw [e, yieldL_append]; rfl

/-- Every step preserves the invariant, and the automaton does not get stuck. -/
theorem step_sound {lim : Nat} {stk : TStk} {t : Tok} {rem : List Tok} (h : StkOK lim stk (t :: rem)) :
    (tstep lim stk (t :: rem) = .exh ∧ lim ≤ stk.length + 1) ∨
    (tstep lim stk (t :: rem) = .acc ∧ topState stk = 69 ∧ stk.length + 1 < lim) ∨
    (tstep lim stk (t :: rem) = .err ∧ actionOn (topState stk) (tsym t) = some .error ∧ topState stk ≠ 69 ∧ stk.length + 1 < lim) ∨
    (∃ s, actionOn (topState stk) (tsym t) = some (.shift s) ∧ tstep lim stk (t :: rem) = .run ((s, .leaf t) :: stk) rem ∧ StkOK lim ((s, .leaf t) :: stk) rem ∧
      stkYield ((s, .leaf t) :: stk) = stkYield stk ++ [t]) ∨
    (∃ r stk', actionOn (topState stk) (tsym t) = some (.reduce r) ∧ 2 ≤ r ∧ r < 358 ∧ tReduce r stk (t :: rem) = .run stk' (t :: rem) ∧ tstep lim stk (t :: rem) = .run stk' (t :: rem) ∧ StkOK lim stk' (t :: rem) ∧ stkYield stk' = stkYield stk) := by
  by_cases hl : lim ≤ stk.length + 1
  · left; exact ⟨by unfold tstep; rw [if_pos hl], hl⟩
  by_cases h69 : topState stk = 69
  · right; left; exact ⟨by unfold tstep; rw [if_neg hl, if_pos h69], h69, by omega⟩
  right; right
  have hs := topState_lt h
  have e := tstep_act (t := t) (rem := rem) (lim := lim) (stk := stk) (by omega) h69
  obtain ⟨x, hx, _⟩ := act_spec (a := tsym t) hs
  rw [hx] at e
  cases x with
  | error => left; exact ⟨e, hx, h69, by omega⟩
  | shift s =>
    right; left
    refine ⟨s, hx, e, ?_, ?_⟩
    · simp only [StkOK, Tree.yield, Tree.sym, Tree.WF, Tree.PrecOK, Tree.need]
      refine ⟨h, Or.inl ⟨tsym_lt t, hx⟩, hs, h69, trivial, trivial, ?_, ?_⟩
      · intro X a _ _ hl; simp [Tree.Leads] at hl
      · intro h; omega
    · rw [stkYield_cons]; rfl
  | reduce r =>
    right; right
    obtain ⟨r1, r2, r3, r4⟩ := red_spec hs h69 (tsym_lt t) hx
    obtain ⟨stk', k1, k2, k3⟩ := reduce_sound h r2 r1 (by omega) h69 (f := t :: rem) r3 r4
    exact ⟨r, stk', hx, r1, r2, k1, by rw [e]; exact k1, k2, k3⟩

/-- Shape of an accepting stack. -/
theorem accept_shape {lim : Nat} {stk : TStk} {f : List Tok} (h : StkOK lim stk f) (h69 : topState stk = 69) :
    ∃ s t e, stk = [(69, .leaf e), (s, t)] ∧ tsym e = 0 ∧ t.WF ∧ t.sym = N.input ∧ t.PrecOK 0 ∧ (2 < lim → t.need + 1 < lim) := by
  have hk : KM 69 1 2 := by
    have : Nat.beq ((stF 69).kern.find 1 2) 0 = false := by decide +kernel
    intro h0; rw [h0] at this; exact Bool.noConfusion this
  obtain ⟨p1, p2, p3, p4, p5, p6, p7, p8, p9, p10, p11⟩ := pop (r := 1) 1 stk f h (by rw [h69]; exact hk)
  have hbase : stk.drop (1 + 1) = [] := by
    rcases p5 with p5 | p5
    · have := (pm_range (topState_lt p6) p7 p5).1
      have : lhs 1 = 199 := by decide +kernel
      omega
    · exact p5.2
  have hsh : ∃ s2 e s t, stk = [(s2, e), (s, t)] := by
    clear p2 p3 p4 p5 p6 p7 p8 p9 p10 p11 h h69 hk
    rcases stk with _ | ⟨⟨s2, e⟩, _ | ⟨⟨s, t⟩, _ | ⟨x, l⟩⟩⟩
    · simp at p1
    · simp at p1
    · exact ⟨s2, e, s, t, rfl⟩
    · simp at hbase
  obtain ⟨s2, e, s, t, hst⟩ := hsh
  subst hst
  ·
    have hr1 : rhs 1 = [N.input, 0] := by decide +kernel
    rw [hr1] at p2
    have e1 : popTrees (1 + 1) [(s2, e), (s, t)] = [t, e] := rfl
    rw [e1] at p2 p3 p4
    simp at p2
    simp only [topState] at h69
    simp only [WFL] at p3
    have he : ∃ u, e = .leaf u := (sym_leaf_iff p3.2.1).1 (by rw [p2.2]; decide)
    obtain ⟨u, hu⟩ := he
    subst hu
    subst h69
    simp only [StkOK] at h
    obtain ⟨h1, _⟩ := h
    obtain ⟨_, _, _, _, g1, g2, _, g3⟩ := h1
    refine ⟨s, t, u, rfl, p2.2, g1, p2.1, ?_, ?_⟩
    · simp only [Tree.yield, List.singleton_append, nextSym] at g2
      have : tsym u = 0 := p2.2
      rw [this] at g2; exact g2
    · intro hl
      simpa using g3 (by simpa using hl)

end Verif.LR

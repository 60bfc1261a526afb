import Verif.LR.Final
/-! The run of the automaton up to a token depends only on the tokens up to it; derivations depend only on the
terminals. Proof-internal. -/
namespace Verif.LR
open Verif.Lex

theorem tstep_swap {lim : Nat} {stk stk' : TStk} {b rem1 u : List Tok} {t : Tok} {rem : List Tok} (h : tstep lim stk b = .run stk' rem1) (e : rem1 = u ++ t :: rem) :
    ∃ w, b = w ++ t :: rem ∧ ∀ rem', tstep lim stk (w ++ t :: rem') = .run stk' (u ++ t :: rem') := by
  have hact : ∀ a, tAct a stk b = .run stk' rem1 → ∃ w, b = w ++ t :: rem ∧ (∀ rem', tAct a stk (w ++ t :: rem') = .run stk' (u ++ t :: rem')) := by
    intro a ha
    cases a with
    | none => cases ha
    | some a =>
      cases a with
      | error => cases ha
      | reduce r =>
        simp only [tAct, tReduce] at ha ⊢
        split at ha
        · split at ha
          · cases ha
          · split at ha
            · cases ha
            · cases ha
              refine ⟨u, e, fun rem' => ?_⟩
              rename_i h2 _ _ _
              rw [if_neg h2]
        · cases ha
      | shift s =>
        cases b with
        | nil => cases ha
        | cons x b =>
          simp only [tAct] at ha
          cases ha
          refine ⟨x :: u, by rw [e]; rfl, fun rem' => rfl⟩
  have hhead : ∀ w : List Tok, b = w ++ t :: rem → ∃ y ys, b = y :: ys ∧ ∀ rem', ∃ zs, w ++ t :: rem' = y :: zs := by
    intro w hw
    cases w with
    | nil => exact ⟨t, rem, hw, fun rem' => ⟨rem', rfl⟩⟩
    | cons y w => exact ⟨y, w ++ t :: rem, hw, fun rem' => ⟨w ++ t :: rem', rfl⟩⟩
  unfold tstep at h
  by_cases hl : lim ≤ stk.length + 1
  · rw [if_pos hl] at h; cases h
  rw [if_neg hl] at h
  by_cases h69 : topState stk = 69
  · rw [if_pos h69] at h; cases h
  rw [if_neg h69] at h
  cases hn : noToken (topState stk) with
  | none => rw [hn] at h; cases h
  | some q =>
    rw [hn] at h
    cases q with
    | true =>
      obtain ⟨w, e1, e2⟩ := hact _ h
      refine ⟨w, e1, fun rem' => ?_⟩
      unfold tstep
      rw [if_neg hl, if_neg h69, hn]
      exact e2 rem'
    | false =>
      cases b with
      | nil => cases h
      | cons x b =>
        obtain ⟨w, e1, e2⟩ := hact _ h
        refine ⟨w, e1, fun rem' => ?_⟩
        obtain ⟨y, ys, f1, f2⟩ := hhead w e1
        obtain ⟨zs, f3⟩ := f2 rem'
        cases f1
        unfold tstep
        rw [if_neg hl, if_neg h69, hn]
        have := e2 rem'
        rw [f3] at this ⊢
        exact this

theorem TSteps.swap {lim n : Nat} {a c : TStk} {b d : List Tok} (h : TSteps lim n a b c d) : ∀ {t : Tok} {rem : List Tok}, d = t :: rem →
    ∃ w, b = w ++ t :: rem ∧ ∀ rem', TSteps lim n a (w ++ t :: rem') c (t :: rem') := by
  induction h with
  | refl stk d => intro t rem e; exact ⟨[], e, fun rem' => .refl _ _⟩
  | step h1 _ ih =>
    intro t rem e
    obtain ⟨u, e1, e2⟩ := ih e
    obtain ⟨w, e3, e4⟩ := tstep_swap h1 e1
    exact ⟨w, e3, fun rem' => .step (e4 rem') (e2 rem')⟩

/-! ## Derivations depend only on the terminals -/

mutual
/-- Replace the tokens at the leaves; the tokens not used. -/
def Tree.relabel : Tree → List Tok → Tree × List Tok
  | .leaf t, [] => (.leaf t, [])
  | .leaf _, u :: us => (.leaf u, us)
  | .node r cs, us => (.node r (relabelL cs us).1, (relabelL cs us).2)
def relabelL : List Tree → List Tok → List Tree × List Tok
  | [], us => ([], us)
  | c :: cs, us => ((c.relabel us).1 :: (relabelL cs (c.relabel us).2).1, (relabelL cs (c.relabel us).2).2)
end

mutual
/-- The trees have the same shape, with the same rules, and tokens of the same terminals. -/
inductive Same : Tree → Tree → Prop where
  | leaf {t u : Tok} : tsym t = tsym u → Same (.leaf t) (.leaf u)
  | node {r : Nat} {cs ds : List Tree} : SameL cs ds → Same (.node r cs) (.node r ds)
inductive SameL : List Tree → List Tree → Prop where
  | nil : SameL [] []
  | cons {c d : Tree} {cs ds : List Tree} : Same c d → SameL cs ds → SameL (c :: cs) (d :: ds)
end

mutual
theorem relabel_spec : ∀ (t : Tree) (us vs : List Tok), us.map tsym = t.yield.map tsym → (t.relabel (us ++ vs)).2 = vs ∧ (t.relabel (us ++ vs)).1.yield = us ∧ Same t (t.relabel (us ++ vs)).1
  | .leaf t, us, vs, h => by
    simp only [Tree.yield, List.map_cons, List.map_nil] at h
    cases us with
    | nil => cases h
    | cons u us =>
      simp only [List.map_cons, List.cons.injEq, List.map_eq_nil_iff] at h
      obtain ⟨h, rfl⟩ := h
      exact ⟨rfl, rfl, .leaf h.symm⟩
  | .node r cs, us, vs, h => by
    have := relabelL_spec cs us vs h
    exact ⟨this.1, this.2.1, .node this.2.2⟩
theorem relabelL_spec : ∀ (cs : List Tree) (us vs : List Tok), us.map tsym = (yieldL cs).map tsym →
    (relabelL cs (us ++ vs)).2 = vs ∧ yieldL (relabelL cs (us ++ vs)).1 = us ∧ SameL cs (relabelL cs (us ++ vs)).1
  | [], us, vs, h => by
    simp only [yieldL, List.map_nil, List.map_eq_nil_iff] at h
    subst h
    exact ⟨rfl, rfl, .nil⟩
  | c :: cs, us, vs, h => by
    simp only [yieldL, List.map_append] at h
    obtain ⟨a, b, e, h1, h2⟩ := List.map_eq_append_iff.1 h
    subst e
    have g1 := relabel_spec c a (b ++ vs) h1
    have g2 := relabelL_spec cs b vs h2
    simp only [relabelL, List.append_assoc, g1.1]
    refine ⟨g2.1, ?_, .cons g1.2.2 g2.2.2⟩
    simp only [yieldL, g1.2.1, g2.2.1]
end

theorem Same.sym {t u : Tree} (h : Same t u) : t.sym = u.sym := by
  cases h with
  | leaf h => exact h
  | node _ => rfl

theorem forall₂_sym : ∀ {cs ds : List Tree}, SameL cs ds → cs.map Tree.sym = ds.map Tree.sym
  | [], _, .nil => rfl
  | _ :: _, _ :: _, .cons h hs => by simp [h.sym, forall₂_sym hs]

mutual
theorem Same.yield : ∀ {t u : Tree}, Same t u → t.yield.map tsym = u.yield.map tsym
  | .leaf _, .leaf _, .leaf h => by simp [Tree.yield, h]
  | .node _ cs, .node _ ds, .node h => Same.yieldL cs ds h
theorem Same.yieldL : ∀ (cs ds : List Tree), SameL cs ds → (yieldL cs).map tsym = (yieldL ds).map tsym
  | [], _, .nil => rfl
  | c :: cs, d :: ds, .cons h hs => by simp only [LR.yieldL, List.map_append, Same.yield h, Same.yieldL cs ds hs]
end

mutual
theorem Same.wf : ∀ {t u : Tree}, Same t u → t.WF → u.WF
  | .leaf _, .leaf _, .leaf _, _ => trivial
  | .node r cs, .node _ ds, .node h, hw => by
    simp only [Tree.WF] at hw ⊢
    exact ⟨hw.1, hw.2.1, by rw [← forall₂_sym h]; exact hw.2.2.1, Same.wfL cs ds h hw.2.2.2⟩
theorem Same.wfL : ∀ (cs ds : List Tree), SameL cs ds → WFL cs → WFL ds
  | [], _, .nil, _ => trivial
  | c :: cs, d :: ds, .cons h hs, hw => ⟨Same.wf h hw.1, Same.wfL cs ds hs hw.2⟩
end

mutual
theorem Same.need : ∀ {t u : Tree}, Same t u → t.need = u.need
  | .leaf _, .leaf _, .leaf _ => rfl
  | .node r cs, .node _ ds, .node h => by simp only [Tree.need, Same.needL cs ds 0 h]
theorem Same.needL : ∀ (cs ds : List Tree) (k : Nat), SameL cs ds → LR.needL k cs = LR.needL k ds
  | [], _, _, .nil => rfl
  | c :: cs, d :: ds, k, .cons h hs => by simp only [LR.needL, Same.need h, Same.needL cs ds (k + 1) hs]
end

theorem Same.leads {X a : Nat} : ∀ {t u : Tree}, Same t u → (t.Leads X a ↔ u.Leads X a)
  | .leaf _, .leaf _, .leaf _ => Iff.rfl
  | .node r [], .node _ _, .node .nil => Iff.rfl
  | .node r (c :: cs), .node _ (d :: ds), .node (.cons h hs) => by
    simp only [Tree.Leads, LeadsL, Same.leads h]

theorem nextSym_map {l l' : List Tok} (h : l.map tsym = l'.map tsym) (b : Nat) : nextSym l b = nextSym l' b := by
  match l, l', h with
  | [], [], _ => rfl
  | x :: l, y :: l', h => simp at h; exact h.1

theorem forall₂_last : ∀ {cs ds : List Tree}, SameL cs ds → ∀ {d : Tree}, ds.getLast? = some d → ∃ c, cs.getLast? = some c ∧ Same c d
  | [], _, .nil, d, hd => by simp at hd
  | [c], [e], .cons h .nil, d, hd => by simp at hd; subst hd; exact ⟨c, rfl, h⟩
  | c :: c' :: cs, e :: e' :: ds, .cons h hs, d, hd => by
    rw [List.getLast?_cons_cons] at hd ⊢
    exact forall₂_last hs hd

mutual
theorem Same.prec : ∀ {t u : Tree} {b : Nat}, Same t u → t.PrecOK b → u.PrecOK b
  | .leaf _, .leaf _, _, .leaf _, _ => trivial
  | .node r cs, .node _ ds, b, .node h, hw => by
    simp only [Tree.PrecOK] at hw ⊢
    refine ⟨hw.1, ?_, Same.precL cs ds h hw.2.2⟩
    intro d X a h1 h2 h3 h4
    obtain ⟨c, g1, g2⟩ := forall₂_last h h1
    exact hw.2.1 c X a g1 h2 h3 (g2.leads.2 h4)
theorem Same.precL : ∀ (cs ds : List Tree) {b : Nat}, SameL cs ds → PrecOKL cs b → PrecOKL ds b
  | [], _, _, .nil, _ => trivial
  | c :: cs, d :: ds, b, .cons h hs, hw => by
    simp only [PrecOKL] at hw ⊢
    rw [← nextSym_map (Same.yieldL cs ds hs)]
    exact ⟨Same.prec h hw.1, Same.precL cs ds hs hw.2⟩
end

/-- Replacing tokens by others of the same terminals preserves derivations. -/
theorem Derives.same {ts ts' : List Tok} {t : Tree} (h : Derives ts t) (e : ts'.map tsym = ts.map tsym) : ∃ t', Derives ts' t' ∧ Same t t' := by
  obtain ⟨h1, h2, h3, h4⟩ := h
  have := relabel_spec t ts' [] (by rw [e, h3])
  exact ⟨_, ⟨this.2.2.wf h1, by rw [← this.2.2.sym]; exact h2, this.2.1, this.2.2.prec h4⟩, this.2.2⟩

/-- Where the automaton reports an error, the tokens read, including the offending one, begin no sentence. -/
theorem first_error {lim n : Nat} {toks : List Tok} {stk : TStk} {t : Tok} {rem : List Tok} (h : TSteps lim n [] toks stk (t :: rem)) (hy : stkYield stk ++ t :: rem = toks)
    (h69 : topState stk ≠ 69) (ha : actionOn (topState stk) (tsym t) = some .error) {ts' : List Tok} {tr : Tree} (hd : Derives ts' tr) :
    ¬ (stkYield stk ++ [t]).map tsym <+: ts'.map tsym ++ [0] := by
  rintro ⟨w, hw⟩
  -- the exact tokens
  obtain ⟨ts2, e2, rest, he2, k1, k2⟩ : ∃ ts2 e2 rest, tsym e2 = 0 ∧ ts2.map tsym = ts'.map tsym ∧ ts2 ++ [e2] = stkYield stk ++ t :: rest := by
    rcases List.eq_nil_or_concat w with rfl | ⟨w', x, rfl⟩
    · rw [List.append_nil, List.map_append] at hw
      have := List.append_inj' hw rfl
      refine ⟨stkYield stk, t, [], by simpa using this.2, this.1, rfl⟩
    · rw [List.concat_eq_append, ← List.append_assoc] at hw
      have := List.append_inj' hw rfl
      rw [← this.1]
      have hx := this.1
      have hr : ∃ rest, w' = List.map tsym rest := by
        have hm := this.1.symm
        obtain ⟨a, b, _, _, hb⟩ := List.map_eq_append_iff.1 hm
        exact ⟨b, hb.symm⟩
      obtain ⟨rest, rfl⟩ := hr
      refine ⟨stkYield stk ++ t :: rest, ⟨0, .none, []⟩, rest ++ [⟨0, .none, []⟩], rfl, by simp, by simp⟩
  obtain ⟨tr2, hd2, _⟩ := hd.same k1
  obtain ⟨w, e1, e3⟩ := h.swap rfl
  have hww : w = stkYield stk := by
    rw [← hy] at e1
    exact (List.append_inj' e1 rfl).1.symm
  subst hww
  have h2 := e3 rest
  rw [← k2] at h2
  obtain ⟨m, s, hm⟩ := complete_root hd2 he2 [] (lim := lim + tr2.need + 2 + stk.length) (by omega)
  obtain ⟨j, hj, _⟩ := hm.prefix (acc_end rfl) (h2.mono (by omega))
  have herr : tstep (lim + tr2.need + 2 + stk.length) stk (t :: rest) = .err := by
    rw [tstep_act (by omega) h69, ha]; rfl
  generalize hdd : t :: rest = d at hj
  cases hj with
  | refl => exact absurd rfl h69
  | step h1 _ => rw [← hdd, herr] at h1; cases h1

end Verif.LR

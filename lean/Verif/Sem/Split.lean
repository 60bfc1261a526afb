import Verif.Sem.Graft
/-! Splitting a statement list at a semicolon. Proof-internal. -/
namespace Verif.Sem
open Verif.Lex Verif.LR

theorem append_split {xs ys as bs : List Tok} {m x : Tok} (h : as ++ x :: bs = xs ++ m :: ys) (hb : ∀ t ∈ bs, tsym t ≠ T.SEMI) (hm : tsym m = T.SEMI) :
    (xs = as ∧ m = x ∧ ys = bs) ∨ ∃ ys', as = xs ++ m :: ys' ∧ ys = ys' ++ x :: bs := by
  rw [List.append_eq_append_iff] at h
  rcases h with ⟨as', h1, h2⟩ | ⟨bs', h1, h2⟩
  · cases as' with
    | nil => left; simp at h1 h2; exact ⟨h1, h2.1.symm, h2.2.symm⟩
    | cons y as' =>
      exfalso
      simp at h2
      exact hb m (by rw [h2.2]; simp) hm
  · cases bs' with
    | nil => left; simp at h1 h2; exact ⟨h1.symm, h2.1, h2.2⟩
    | cons y bs' =>
      right
      simp at h2
      exact ⟨bs', by rw [h1, h2.1], h2.2⟩

theorem split_list {m : Tok} (hm : tsym m = T.SEMI) : ∀ (l : Tree), l.WF → l.sym = N.statement_list → ∀ (b : Nat) (xs ys : List Tok), l.PrecOK b → l.yield = xs ++ m :: ys →
    ∃ la lb, la.WF ∧ la.sym = N.statement_list ∧ la.PrecOK T.SEMI ∧ la.yield = xs ∧ lb.WF ∧ lb.sym = N.statement_list ∧ lb.PrecOK b ∧ lb.yield = ys ∧
      stmtTrees l = stmtTrees la ++ stmtTrees lb ∧ la.need ≤ l.need ∧ lb.need ≤ l.need := by
  intro l
  induction l using stmtTrees.induct with
  | case1 t =>
    intro hw hs b xs ys _ hy
    rcases list_cases hw hs with ⟨_, h, h1, h2⟩ | ⟨_, _, _, h, _⟩ | ⟨_, h⟩
    · cases h
      exfalso
      simp only [Tree.yield, yieldL, List.append_nil] at hy
      exact no_semi t h1 (by rw [h2]; decide) m (by rw [hy]; simp) hm
    · cases h
    · cases h
  | case2 l' m' t ih =>
    intro hw hs b xs ys hp hy
    rcases list_cases hw hs with ⟨_, h, _⟩ | ⟨_, _, _, h, h1, h2, h3, h4, h5⟩ | ⟨_, h⟩
    · cases h
    · cases h
      rename_i mm
      have hp1 : l'.PrecOK T.SEMI := by
        have := hp.2.2.1
        simp only [yieldL, Tree.yield, nextSym, List.singleton_append, h3] at this
        exact this
      have hpt : t.PrecOK b := by simpa [yieldL, nextSym] using hp.2.2.2.2.1
      have hy : l'.yield ++ mm :: t.yield = xs ++ m :: ys := by rw [← hy]; simp [Tree.yield, yieldL]
      rcases append_split hy (no_semi t h4 (by rw [h5]; decide)) hm with ⟨rfl, rfl, rfl⟩ | ⟨ys', e1, rfl⟩
      · refine ⟨l', .node 3 [t], h1, h2, hp1, rfl, ⟨by omega, by rw [rulesLen]; omega, ?_, h4, trivial⟩, lhs3,
          ⟨forbidReduce_of_lhs nonop3, lastOK_of_lhs nonop3, ?_, trivial⟩, ?_, rfl, ?_, ?_⟩
        · rw [rhs3]; simp only [List.map_cons, List.map_nil, h5]
        · simpa [yieldL, nextSym] using hpt
        · simp [Tree.yield, yieldL]
        · simp only [Tree.need, needL]; omega
        · simp only [Tree.need, needL]; omega
      · obtain ⟨la, lb, a1, a2, a3, a4, b1, b2, b3, b4, hst, n1, n2⟩ := ih h1 h2 _ _ _ hp1 e1
        refine ⟨la, .node 4 [lb, .leaf mm, t], a1, a2, a3, a4, ⟨by omega, by rw [rulesLen]; omega, ?_, b1, trivial, h4, trivial⟩, lhs4,
          ⟨forbidReduce_of_lhs nonop4, lastOK_of_lhs nonop4, ?_, trivial, ?_, trivial⟩, ?_, ?_, ?_, ?_⟩
        · rw [rhs4]; simp only [List.map_cons, List.map_nil, b2, h5]; rw [show (Tree.leaf mm).sym = T.SEMI from h3]
        · simp only [yieldL, Tree.yield, nextSym, List.singleton_append]
          rw [h3]; exact b3
        · simpa [yieldL, nextSym] using hpt
        · simp [Tree.yield, yieldL, b4]
        · simp [stmtTrees, hst]
        · simp only [Tree.need, needL]; omega
        · simp only [Tree.need, needL]; omega
    · cases h
  | case3 t h1 h2 =>
    intro hw hs
    exfalso
    rcases list_cases hw hs with ⟨_, h, _⟩ | ⟨_, _, _, h, _⟩ | ⟨_, h⟩
    · exact h1 _ h
    · exact h2 _ _ _ h
    · subst h
      have h3 := tsym_lt ‹Tok›
      simp only [Tree.sym] at hs
      rw [hs] at h3
      exact absurd h3 (by decide)

/-- An input from a statement list. -/
theorem input_mk {l s : Tree} {xs : List Tok} (h1 : l.WF) (h2 : l.sym = N.statement_list) (h3 : l.PrecOK (nextSym s.yield T.eof)) (hs : s = .node 355 [] ∨ ∃ m, tsym m = T.SEMI ∧ s = .node 354 [.leaf m])
    (hy : l.yield ++ s.yield = xs) : Derives xs (.node 2 [l, s]) ∧ stmtsOf (.node 2 [l, s]) = stmtTrees l := by
  have er : rhs 2 = [N.statement_list, N.opt_semicolon] := by decide +kernel
  have hsw : s.WF ∧ s.sym = N.opt_semicolon ∧ s.PrecOK T.eof := by
    rcases hs with rfl | ⟨m, hm, rfl⟩
    · exact ⟨⟨by omega, by rw [rulesLen]; omega, by rw [rhs355]; rfl, trivial⟩, lhs355, forbidReduce_of_lhs nonop355, lastOK_of_lhs nonop355, trivial⟩
    · refine ⟨⟨by omega, by rw [rulesLen]; omega, ?_, trivial, trivial⟩, lhs354, forbidReduce_of_lhs nonop354, lastOK_of_lhs nonop354, trivial, trivial⟩
      rw [rhs354]; simp only [List.map_cons, List.map_nil]; rw [show (Tree.leaf m).sym = T.SEMI from hm]
  refine ⟨⟨⟨by omega, by rw [rulesLen]; omega, ?_, h1, hsw.1, trivial⟩, lhs2, ?_, forbidReduce_of_lhs nonop2, lastOK_of_lhs nonop2, ?_, ?_, trivial⟩, rfl⟩
  · rw [er]; simp only [List.map_cons, List.map_nil, h2, hsw.2.1]
  · rw [← hy]; simp [Tree.yield, yieldL]
  · simpa [yieldL] using h3
  · simpa [yieldL, nextSym] using hsw.2.2

/-- Splitting an input at a semicolon. -/
theorem derives_split {xs ys : List Tok} {m : Tok} (hm : tsym m = T.SEMI) (hys : ys ≠ []) {t : Tree} (h : Derives (xs ++ m :: ys) t) :
    ∃ ta tb, Derives xs ta ∧ Derives ys tb ∧ stmtsOf t = stmtsOf ta ++ stmtsOf tb ∧ ta.need ≤ t.need ∧ tb.need ≤ t.need ∧
      (∀ m, xs.getLast? = some m → tsym m ≠ T.SEMI) := by
  obtain ⟨hw, hs, hy, hp⟩ := h
  obtain ⟨l, s, rfl, h1, h2, h3, h4⟩ := input_cases hw hs
  have hpl : l.PrecOK (nextSym s.yield T.eof) := by simpa [yieldL] using hp.2.2.1
  have hy : l.yield ++ s.yield = xs ++ m :: ys := by rw [← hy]; simp [Tree.yield, yieldL]
  have hos := optSemi_cases h3 h4
  obtain ⟨ys', e1, e2⟩ : ∃ ys', l.yield = xs ++ m :: ys' ∧ ys = ys' ++ s.yield := by
    rcases hos with ⟨m', hm', rfl⟩ | rfl
    · simp only [Tree.yield, yieldL, List.append_nil] at hy
      rcases append_split (bs := []) hy (by simp) hm with ⟨_, _, h⟩ | ⟨ys', e1, e2⟩
      · exact absurd h hys
      · exact ⟨ys', e1, by simpa [Tree.yield, yieldL] using e2⟩
    · simp only [Tree.yield, yieldL, List.append_nil] at hy
      exact ⟨ys, hy, by simp [Tree.yield, yieldL]⟩
  obtain ⟨la, lb, a1, a2, a3, a4, b1, b2, b3, b4, hst, n1, n2⟩ := split_list hm l h1 h2 _ _ _ hpl e1
  obtain ⟨d1, s1⟩ := input_mk (s := .node 355 []) (xs := xs) a1 a2 (by simpa [Tree.yield, yieldL, nextSym] using precOK_next tokPrec_eof _ _ a3) (.inl rfl) (by simp [Tree.yield, yieldL, a4])
  obtain ⟨d2, s2⟩ := input_mk (s := s) (xs := ys) b1 b2 b3 (by
    rcases hos with h | h
    · exact .inr h
    · exact .inl h) (by rw [b4, e2])
  refine ⟨_, _, d1, d2, by rw [s1, s2]; exact hst, ?_, ?_, ?_⟩
  · rcases hos with ⟨m', _, rfl⟩ | rfl <;> simp only [Tree.need, needL] at n1 ⊢ <;> omega
  · simp only [Tree.need, needL] at n2 ⊢; omega
  · intro x hx
    exact no_semi_end a1 a2 (by rw [a4]; exact hx)

/-! ## Errors stay -/

theorem rr_mono {loc : Loc} {k : Prog} {r : Res} {y : YYLoc} {b : Bool} {r' : Res} {y' : YYLoc} (h : RR loc k r y b r' y') : r.errMsg.isSome = true → r'.errMsg.isSome = true := by
  induction h with
  | ret => exact id
  | fail => exact id
  | err _ ih => exact fun _ => ih rfl
  | errName _ ih => exact fun _ => ih rfl
  | _ => assumption

theorem evRule_mono {r : Nat} (h1 : 2 ≤ r) (h2 : r < 358) {vs : List V} {s s' : PS} {v : V} (h : evRule r vs s = some (v, s')) (he : s.err = true) : s'.err = true := by
  unfold evRule at h
  by_cases hr : r = 2
  · rw [if_pos hr] at h; cases h; exact he
  · rw [if_neg hr] at h
    cases ha : actions[r - 2]? with
    | none => rw [ha] at h; cases h
    | some p =>
      rw [ha] at h
      simp only [] at h
      have hact : act r = p := by
        unfold act
        rw [List.getD_eq_getElem?_getD, ha]; rfl
      cases hrun : run Z ⟨0, 0, 0, 0⟩ p (mkEnv vs) (pureSt s) with
      | ok v' st =>
        rw [hrun] at h
        simp only [Option.some.injEq, Prod.mk.injEq] at h
        rw [← hact] at hrun
        have := rr_mono (act_ok_rr h1 h2 hr hrun) (by cases s; simp only [] at he; subst he; exact pureSt_err _ _)
        rw [← h.2]
        exact this
      | _ => rw [hrun] at h; cases h

mutual
theorem den_mono : ∀ (t : Tree), t.WF → ∀ {s s' : PS} {v : V}, den t s = some (v, s') → s.err = true → s'.err = true
  | .leaf t, _, s, s', v, h, he => by rw [den] at h; cases h; exact he
  | .node r cs, hw, s, s', v, h, he => by
    rw [den] at h
    cases hc : denL cs s with
    | none => rw [hc] at h; cases h
    | some x =>
      rw [hc] at h
      have h2 := hw.2.1
      rw [rules_len] at h2
      exact evRule_mono hw.1 h2 h (denL_mono cs hw.2.2.2 hc he)
theorem denL_mono : ∀ (ts : List Tree), WFL ts → ∀ {s s' : PS} {vs : List V}, denL ts s = some (vs, s') → s.err = true → s'.err = true
  | [], _, s, s', vs, h, he => by rw [denL] at h; cases h; exact he
  | c :: cs, hw, s, s', vs, h, he => by
    rw [denL] at h
    cases hc : den c s with
    | none => rw [hc] at h; cases h
    | some x =>
      rw [hc] at h
      simp only [] at h
      cases hd : denL cs x.2 with
      | none => rw [hd] at h; cases h
      | some y =>
        rw [hd] at h
        cases h
        exact denL_mono cs hw.2 hd (den_mono c hw.1 hc he)
end

/-- If a joined input has a value (and no error is reported), so do its parts. -/
theorem denInput_split {ta tb t : Tree} (ha : ta.WF) (hsa : ta.sym = N.input) (hb : tb.WF) (hsb : tb.sym = N.input) (ht : t.WF) (hst : t.sym = N.input)
    (hj : stmtsOf t = stmtsOf ta ++ stmtsOf tb) {k : Nat} (hd : den t ⟨0, false⟩ = some (.undef, ⟨k, false⟩)) : denInput ta ≠ none ∧ denInput tb ≠ none := by
  rw [denInput_eq ha hsa, denInput_eq hb hsb]
  obtain ⟨l, s, rfl, a1, a2, a3, a4⟩ := input_cases ht hst
  have hwa : WFL (stmtsOf ta) := by
    obtain ⟨l, s, rfl, a1, a2, a3, a4⟩ := input_cases ha hsa
    exact (stmtTrees_wf l a1 a2).1
  have hwb : WFL (stmtsOf tb) := by
    obtain ⟨l, s, rfl, a1, a2, a3, a4⟩ := input_cases hb hsb
    exact (stmtTrees_wf l a1 a2).1
  have hj : stmtTrees l = stmtsOf ta ++ stmtsOf tb := hj
  simp only [den, denL, den_list l a1 a2, hj, denL_append] at hd
  cases hx : denL (stmtsOf ta) ⟨0, false⟩ with
  | none => rw [hx] at hd; cases hd
  | some x =>
    obtain ⟨xs, s1⟩ := x
    rw [hx] at hd
    simp only [] at hd
    cases hy : denL (stmtsOf tb) s1 with
    | none => rw [hy] at hd; cases hd
    | some y =>
      obtain ⟨ys, s2⟩ := y
      rw [hy] at hd
      simp only [] at hd
      by_cases hall : (xs ++ ys).all V.hasLen = true
      · rw [if_pos hall] at hd
        simp only [den_optSemi a3 a4] at hd
        have e1 : s2 = ⟨k, false⟩ := by
          have : evRule 2 [V.vec 0 ((xs ++ ys).map setLen), .undef] s2 = some (.undef, s2) := rfl
          rw [this] at hd
          simp only [Option.some.injEq, Prod.mk.injEq, true_and] at hd
          exact hd
        rw [List.all_append, Bool.and_eq_true] at hall
        have he1 : s1.err = false := by
          cases he : s1.err with
          | false => rfl
          | true =>
            have := denL_mono _ hwb hy he
            rw [e1] at this; cases this
        obtain ⟨n1, e1'⟩ := s1
        simp only [] at he1
        subst he1
        have hsh := denL_shift n1 (stmtsOf tb) hwb 0 false
        rw [Nat.zero_add, hy] at hsh
        refine ⟨by simp only []; rw [if_pos hall.1]; simp, ?_⟩
        cases hz : denL (stmtsOf tb) ⟨0, false⟩ with
        | none => rw [hz] at hsh; cases hsh
        | some z =>
          rw [hz] at hsh
          simp only [Option.map_some, Option.some.injEq, Prod.mk.injEq] at hsh
          have : z.1.all V.hasLen = true := by
            have h2 := hall.2
            rw [hsh.1, hL_map, List.all_map] at h2
            have e : (V.hasLen ∘ V.h ⟨id, n1⟩) = V.hasLen := funext fun v => hasLen_h _ v
            rwa [e] at h2
          simp only []
          rw [if_pos this]; simp
      · rw [if_neg hall] at hd; cases hd

end Verif.Sem

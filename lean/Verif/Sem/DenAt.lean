import Verif.Sem.RunPlist
/-! `den` and `denAt` agree; the statements of the list. Proof-internal. -/
namespace Verif.Sem
open Verif.Lex Verif.LR

theorem qmarks_append (a b : List Tok) : qmarks (a ++ b) = qmarks a + qmarks b := List.countP_append ..

theorem qmark_rules : (List.range 358).all (fun r => r == 298 || !((rhs r).contains T.QMARK)) = true := by decide +kernel
theorem rhs298 : rhs 298 = [T.QMARK] := by decide +kernel
theorem lhs_ge : (List.range 358).all (fun r => Nat.beq r 0 || Nat.ble 199 (lhs r)) = true := by decide +kernel

theorem lhs_nt {r : Nat} (h1 : 2 ≤ r) (h : r < 358) : 199 ≤ lhs r := by
  have := List.all_eq_true.1 lhs_ge r (by simpa using h)
  rw [Bool.or_eq_true] at this
  rcases this with h' | h'
  · have := Nat.eq_of_beq_eq_true h'; omega
  · exact Nat.le_of_ble_eq_true h'

theorem qmark_rule {r : Nat} (h : r < 358) (h4 : r ≠ 298) : T.QMARK ∉ rhs r := by
  have := List.all_eq_true.1 qmark_rules r (by simpa using h)
  simp only [Bool.or_eq_true, beq_iff_eq, Bool.not_eq_true', h4, false_or] at this
  intro hm
  rw [List.contains_iff_mem.2 hm] at this
  cases this

theorem ps_of {st : St} {n : Nat} {e : Bool} (h1 : st.plist.length = n) (h : st.res.errMsg.isSome = e) : st.ps = ⟨n, e⟩ := by rw [St.ps, h, h1]

theorem pureSt_err (n : Nat) (e : Bool) : (pureSt ⟨n, e⟩).res.errMsg.isSome = e := by cases e <;> rfl

theorem evRule298 (v : V) (n : Nat) (e : Bool) : evRule 298 [v] ⟨n, e⟩ = some (paramV 0 (.pos 0) n, ⟨n + 1, e⟩) := by
  rw [evRule_act (by omega) (by omega) (by omega), run298]
  simp only []
  congr 2
  · simp [Z, pureSt]
  · exact ps_of (by simp [pureSt]) (pureSt_err n e)

mutual
theorem den_denAt : ∀ {t : Tree} (_ : t.WF) (_ : t.sym ≠ T.QMARK) (k : Nat) (e : Bool),
    den t ⟨k, e⟩ = (denAt k t e).map fun x => (x.1, ⟨k + qmarks t.yield, x.2⟩)
  | .leaf t, _, hs, k, e => by
    have : qmarks [t] = 0 := by
      have : ¬ tsym t = T.QMARK := hs
      simp [qmarks, List.countP_cons, this]
    simp [den, denAt, Tree.yield, this]
  | .node r cs, hw, _, k, e => by
    obtain ⟨h1, h2, h3, h4⟩ := hw
    rw [rules_len] at h2
    by_cases hr : r = 298
    · subst hr
      rw [rhs298] at h3
      match cs, h3, h4 with
      | [], h3, h4 => simp at h3
      | _ :: _ :: _, h3, h4 => simp at h3
      | [c], h3, h4 =>
        simp only [List.map_cons, List.map_nil, List.cons.injEq, and_true] at h3
        cases c with
        | node r' cs' =>
          exfalso
          have hw' := h4.1.2.1
          rw [rules_len] at hw'
          have := lhs_nt h4.1.1 hw'
          have e1 : lhs r' = T.QMARK := h3
          rw [e1] at this
          exact absurd this (by decide)
        | leaf t =>
          have ht : tsym t = T.QMARK := h3
          have hq : qmarks [t] = 1 := by simp [qmarks, List.countP_cons, ht]
          simp only [den, denL, denAt, denAtL, Tree.yield, yieldL, List.append_nil, hq]
          rw [evRule298]; rfl
    · have hl := denL_denAt h4 (by rw [h3]; exact qmark_rule h2 hr) k e
      simp only [den, denAt, hl, Tree.yield]
      cases denAtL k cs e with
      | none => rfl
      | some x =>
        obtain ⟨vs, e'⟩ := x
        simp only [Option.map_some]
        rw [evRule_n h1 h2 hr vs (k + qmarks (yieldL cs)) k e']
        cases evRule r vs ⟨k, e'⟩ <;> rfl
theorem denL_denAt : ∀ {ts : List Tree} (_ : WFL ts) (_ : T.QMARK ∉ ts.map Tree.sym) (k : Nat) (e : Bool),
    denL ts ⟨k, e⟩ = (denAtL k ts e).map fun x => (x.1, ⟨k + qmarks (yieldL ts), x.2⟩)
  | [], _, _, k, e => by simp [denL, denAtL, yieldL, qmarks]
  | c :: cs, hw, hs, k, e => by
    simp only [List.map_cons, List.mem_cons, not_or] at hs
    simp only [denL, denAtL, den_denAt hw.1 (fun h => hs.1 h.symm) k e, yieldL, qmarks_append]
    cases denAt k c e with
    | none => rfl
    | some x =>
      obtain ⟨v, e'⟩ := x
      simp only [Option.map_some, denL_denAt hw.2 hs.2 (k + qmarks c.yield) e']
      cases denAtL (k + qmarks c.yield) cs e' with
      | none => rfl
      | some y => simp [Nat.add_assoc]
end

/-- Evaluate an action symbolically. -/
macro "ev_act" : tactic => `(tactic| simp [mkEnv, run, evalRv, evalAtoms, evalAtom, getP, putP, V.get, V.put, St.log, St.bump, V.isUndef])

theorem evRule3 (v : V) (n : Nat) (e : Bool) : evRule 3 [v] ⟨n, e⟩ = (match v with
    | .obj a c (_ :: fs) => some (.vec 0 [.obj a c (.pos 0 :: fs)], ⟨n, e⟩)
    | .tup (_ :: fs) => some (.vec 0 [.tup (.pos 0 :: fs)], ⟨n, e⟩)
    | _ => none) := by
  rw [evRule_act (by omega) (by omega) (by omega)]
  have : act 3 = act3 := rfl
  rw [this]
  unfold act3
  cases v with
  | obj a c fs =>
    cases fs with
    | nil => rfl
    | cons x fs =>
      ev_act
      exact ⟨⟨rfl, rfl⟩, ps_of (by simp [pureSt]) (pureSt_err n e)⟩
  | tup fs =>
    cases fs with
    | nil => rfl
    | cons x fs =>
      ev_act
      exact ⟨⟨rfl, rfl⟩, ps_of (by simp [pureSt]) (pureSt_err n e)⟩
  | _ => rfl

theorem evRule4 (l u v : V) (n : Nat) (e : Bool) : evRule 4 [l, u, v] ⟨n, e⟩ = (match l, v with
    | .vec a vs, .obj b c (_ :: fs) => some (.vec a (vs ++ [.obj b c (.pos 0 :: fs)]), ⟨n, e⟩)
    | .vec a vs, .tup (_ :: fs) => some (.vec a (vs ++ [.tup (.pos 0 :: fs)]), ⟨n, e⟩)
    | _, _ => none) := by
  rw [evRule_act (by omega) (by omega) (by omega)]
  have : act 4 = act4 := rfl
  rw [this]
  unfold act4
  cases v with
  | obj b c fs =>
    cases fs with
    | nil => cases l <;> rfl
    | cons x fs =>
      cases l with
      | vec a vs =>
        ev_act
        exact ⟨rfl, ps_of (by simp [pureSt]) (pureSt_err n e)⟩
      | _ => ev_act
  | tup fs =>
    cases fs with
    | nil => cases l <;> rfl
    | cons x fs =>
      cases l with
      | vec a vs =>
        ev_act
        exact ⟨rfl, ps_of (by simp [pureSt]) (pureSt_err n e)⟩
      | _ => ev_act
  | _ => cases l <;> rfl

/-- The value has a first field. -/
def V.hasLen : V → Bool
  | .obj _ _ (_ :: _) => true
  | .tup (_ :: _) => true
  | _ => false

theorem evRule3' (v : V) (n : Nat) (e : Bool) : evRule 3 [v] ⟨n, e⟩ = if v.hasLen then some (.vec 0 [setLen v], ⟨n, e⟩) else none := by
  rw [evRule3]
  cases v with
  | obj a c fs => cases fs <;> rfl
  | tup fs => cases fs <;> rfl
  | _ => rfl

theorem evRule4' (a : Nat) (vs : List V) (u v : V) (n : Nat) (e : Bool) :
    evRule 4 [.vec a vs, u, v] ⟨n, e⟩ = if v.hasLen then some (.vec a (vs ++ [setLen v]), ⟨n, e⟩) else none := by
  rw [evRule4]
  cases v with
  | obj a c fs => cases fs <;> rfl
  | tup fs => cases fs <;> rfl
  | _ => rfl

theorem list_rules : (List.range 358).all (fun r => !(lhs r == N.statement_list) || (r == 3 || r == 4)) = true := by decide +kernel
theorem rhs3 : rhs 3 = [N.statement] := by decide +kernel
theorem rhs4 : rhs 4 = [N.statement_list, T.SEMI, N.statement] := by decide +kernel

theorem list_rule {r : Nat} (h : r < 358) (hl : lhs r = N.statement_list) : r = 3 ∨ r = 4 := by
  have := List.all_eq_true.1 list_rules r (by simpa using h)
  simpa [hl] using this

/-- A statement list is one statement, or a list, a `;` and a statement. -/
theorem list_cases {l : Tree} (hw : l.WF) (hs : l.sym = N.statement_list) :
    (∃ s, l = .node 3 [s] ∧ s.WF ∧ s.sym = N.statement) ∨
    (∃ l' m s, l = .node 4 [l', .leaf m, s] ∧ l'.WF ∧ l'.sym = N.statement_list ∧ tsym m = T.SEMI ∧ s.WF ∧ s.sym = N.statement) ∨ ∃ t, l = .leaf t := by
  cases l with
  | leaf t => exact .inr (.inr ⟨t, rfl⟩)
  | node r cs =>
    obtain ⟨h1, h2, h3, h4⟩ := hw
    rw [rules_len] at h2
    rcases list_rule h2 hs with rfl | rfl
    · rw [rhs3] at h3
      match cs, h3, h4 with
      | [], h3, h4 => simp at h3
      | _ :: _ :: _, h3, h4 => simp at h3
      | [c], h3, h4 =>
        simp only [List.map_cons, List.map_nil, List.cons.injEq, and_true] at h3
        exact .inl ⟨c, rfl, h4.1, h3⟩
    · rw [rhs4] at h3
      match cs, h3, h4 with
      | [], h3, h4 => simp at h3
      | [_], h3, h4 => simp at h3
      | [_, _], h3, h4 => simp at h3
      | _ :: _ :: _ :: _ :: _, h3, h4 => simp at h3
      | [c, d, e], h3, h4 =>
        simp only [List.map_cons, List.map_nil, List.cons.injEq, and_true] at h3
        cases d with
        | node r' cs' =>
          exfalso
          have hw' := h4.2.1.2.1
          rw [rules_len] at hw'
          have := lhs_nt h4.2.1.1 hw'
          have e1 : lhs r' = T.SEMI := h3.2.1
          rw [e1] at this
          exact absurd this (by decide)
        | leaf m => exact .inr (.inl ⟨c, m, e, rfl, h4.1, h3.1, h3.2.1, h4.2.2.1, h3.2.2⟩)

/-- The value of a statement list. -/
theorem den_list : ∀ (l : Tree), l.WF → l.sym = N.statement_list → ∀ (s : PS), den l s = (match denL (stmtTrees l) s with
    | some (vs, s') => if vs.all V.hasLen then some (.vec 0 (vs.map setLen), s') else none
    | none => none) := by
  intro l
  induction l using stmtTrees.induct with
  | case1 t =>
    intro _ _ s
    simp only [den, denL, stmtTrees]
    cases den t s with
    | none => rfl
    | some x =>
      obtain ⟨v, s'⟩ := x
      obtain ⟨n, e⟩ := s'
      simp only [evRule3']
      cases hv : v.hasLen <;> simp [hv]
  | case2 l' m t ih =>
    intro hw hs s
    rcases list_cases hw hs with ⟨_, h, _⟩ | ⟨_, _, _, h, h1, h2, h3, h4, h5⟩ | ⟨_, h⟩
    · cases h
    · cases h
      rw [stmtTrees, denL_append]
      simp only [den, denL, ih h1 h2 s]
      cases denL (stmtTrees l') s with
      | none => rfl
      | some x =>
        obtain ⟨vs, s'⟩ := x
        simp only []
        cases hvs : vs.all V.hasLen with
        | false =>
          simp only [Bool.false_eq_true, if_false]
          cases den t s' with
          | none => rfl
          | some y => simp [hvs]
        | true =>
          simp only [if_true]
          cases den t s' with
          | none => rfl
          | some y =>
            obtain ⟨v, n, e⟩ := y
            simp only [evRule4', List.all_append, hvs]
            cases hv : v.hasLen <;> simp [hv]
    · cases h
  | case3 t h1 h2 =>
    intro hw hs
    exfalso
    rcases list_cases hw hs with ⟨_, h, _⟩ | ⟨_, _, _, h, _⟩ | ⟨_, h⟩
    · exact h1 _ h
    · exact h2 _ _ _ h
    · subst h
      have h3 := tsym_lt ‹Tok›
      simp only [Tree.sym] at hs
      rw [hs] at h3
      exact absurd h3 (by decide)

theorem joined_list : ∀ (l : Tree), l.WF → l.sym = N.statement_list → Joined (stmtTrees l) l.yield := by
  intro l
  induction l using stmtTrees.induct with
  | case1 t =>
    intro _ _
    simp only [stmtTrees, Tree.yield, yieldL, List.append_nil]
    exact .one t
  | case2 l' m t ih =>
    intro hw hs
    rcases list_cases hw hs with ⟨_, h, _⟩ | ⟨_, _, _, h, h1, h2, h3, h4, h5⟩ | ⟨_, h⟩
    · cases h
    · cases h
      simp only [stmtTrees, Tree.yield, yieldL, List.append_nil, List.singleton_append]
      exact .snoc _ _ _ _ (ih h1 h2) h3
    · cases h
  | case3 t h1 h2 =>
    intro hw hs
    exfalso
    rcases list_cases hw hs with ⟨_, h, _⟩ | ⟨_, _, _, h, _⟩ | ⟨_, h⟩
    · exact h1 _ h
    · exact h2 _ _ _ h
    · subst h
      have h3 := tsym_lt ‹Tok›
      simp only [Tree.sym] at hs
      rw [hs] at h3
      exact absurd h3 (by decide)

theorem semi_rules : (List.range 358).all (fun r => !(lhs r == N.opt_semicolon) || (r == 354 || r == 355)) = true := by decide +kernel
theorem rhs354 : rhs 354 = [T.SEMI] := by decide +kernel
theorem rhs355 : rhs 355 = [] := by decide +kernel

theorem leaf_of_sym {t : Tree} (hw : t.WF) (h : t.sym < 199) : ∃ m, t = .leaf m := by
  cases t with
  | leaf m => exact ⟨m, rfl⟩
  | node r cs =>
    have h2 := hw.2.1
    rw [rules_len] at h2
    have := lhs_nt hw.1 h2
    simp only [Tree.sym] at h
    omega

theorem node_of_sym {t : Tree} (h : 199 ≤ t.sym) : ∃ r cs, t = .node r cs := by
  cases t with
  | node r cs => exact ⟨r, cs, rfl⟩
  | leaf m =>
    have := tsym_lt m
    simp only [Tree.sym] at h
    omega

theorem map_nil_of {cs : List Tree} (h : cs.map Tree.sym = []) : cs = [] := by simpa using h
theorem map_one_of {cs : List Tree} {a : Nat} (h : cs.map Tree.sym = [a]) : ∃ c, cs = [c] ∧ c.sym = a := by
  match cs, h with
  | [], h => simp at h
  | _ :: _ :: _, h => simp at h
  | [c], h => exact ⟨c, rfl, by simpa using h⟩
theorem map_cons_of {cs : List Tree} {a : Nat} {l : List Nat} (h : cs.map Tree.sym = a :: l) : ∃ c cs', cs = c :: cs' ∧ c.sym = a ∧ cs'.map Tree.sym = l := by
  match cs, h with
  | [], h => simp at h
  | c :: cs', h => simp only [List.map_cons, List.cons.injEq] at h; exact ⟨c, cs', rfl, h⟩

theorem optSemi_cases {t : Tree} (hw : t.WF) (hs : t.sym = N.opt_semicolon) : (∃ m, tsym m = T.SEMI ∧ t = .node 354 [.leaf m]) ∨ t = .node 355 [] := by
  obtain ⟨r, cs, rfl⟩ := node_of_sym (t := t) (by rw [hs]; decide)
  obtain ⟨h1, h2, h3, h4⟩ := hw
  rw [rules_len] at h2
  have := List.all_eq_true.1 semi_rules r (by simpa using h2)
  have hl : lhs r = N.opt_semicolon := hs
  have hr : r = 354 ∨ r = 355 := by simpa [hl] using this
  rcases hr with rfl | rfl
  · rw [rhs354] at h3
    obtain ⟨c, rfl, hc⟩ := map_one_of h3
    obtain ⟨m, rfl⟩ := leaf_of_sym h4.1 (by rw [hc]; decide)
    exact .inl ⟨m, hc, rfl⟩
  · rw [rhs355] at h3
    rw [map_nil_of h3]
    exact .inr rfl

theorem input_cases {t : Tree} (hw : t.WF) (hs : t.sym = N.input) : ∃ l s, t = .node 2 [l, s] ∧ l.WF ∧ l.sym = N.statement_list ∧ s.WF ∧ s.sym = N.opt_semicolon := by
  obtain ⟨r, cs, rfl⟩ := node_of_sym (t := t) (by rw [hs]; decide)
  obtain ⟨h1, h2, h3, h4⟩ := hw
  rw [rules_len] at h2
  have hr : r = 2 := input_rule h2 hs
  subst hr
  rw [rhs2] at h3
  obtain ⟨l, cs', rfl, hl, h3⟩ := map_cons_of h3
  obtain ⟨s, rfl, hs'⟩ := map_one_of h3
  exact ⟨l, s, rfl, h4.1, hl, h4.2.1, hs'⟩

theorem ev354 (v : V) (n : Nat) (e : Bool) : evRule 354 [v] ⟨n, e⟩ = some (.undef, ⟨n, e⟩) := by
  rw [evRule_act (by omega) (by omega) (by omega)]
  have : act 354 = act354 := rfl
  rw [this]
  unfold act354
  simp [mkEnv, run]
  exact ps_of (by simp [pureSt, St.log]) (pureSt_err n e)

theorem ev355 (n : Nat) (e : Bool) : evRule 355 [] ⟨n, e⟩ = some (.undef, ⟨n, e⟩) := by
  rw [evRule_act (by omega) (by omega) (by omega)]
  have : act 355 = act355 := rfl
  rw [this]
  unfold act355
  simp [mkEnv, run]
  exact ps_of (by simp [pureSt, St.log]) (pureSt_err n e)

theorem den_optSemi {t : Tree} (hw : t.WF) (hs : t.sym = N.opt_semicolon) (s : PS) : den t s = some (.undef, s) := by
  rcases optSemi_cases hw hs with ⟨m, _, rfl⟩ | rfl
  · simp only [den, denL]; exact ev354 _ _ _
  · simp only [den, denL]; exact ev355 _ _

/-- The value of an input. -/
theorem denInput_eq {t : Tree} (hw : t.WF) (hs : t.sym = N.input) : denInput t = (match denL (stmtsOf t) ⟨0, false⟩ with
    | some (vs, _) => if vs.all V.hasLen then some (fillL (vs.map setLen)) else none
    | none => none) := by
  obtain ⟨l, s, rfl, h1, h2, h3, h4⟩ := input_cases hw hs
  rw [denInput]
  simp only [denL, den_list l h1 h2, stmtsOf]
  cases denL (stmtTrees l) ⟨0, false⟩ with
  | none => rfl
  | some x =>
    obtain ⟨vs, s'⟩ := x
    simp only []
    cases vs.all V.hasLen with
    | false => rfl
    | true => simp only [if_true, den_optSemi h3 h4]

theorem stmtTrees_wf : ∀ (l : Tree), l.WF → l.sym = N.statement_list → WFL (stmtTrees l) ∧ (∀ s ∈ stmtTrees l, s.sym = N.statement) ∧ stmtTrees l ≠ [] := by
  have happ : ∀ (a b : List Tree), WFL a → WFL b → WFL (a ++ b) := by
    intro a b ha hb
    induction a with
    | nil => exact hb
    | cons x a ih => exact ⟨ha.1, ih ha.2⟩
  intro l
  induction l using stmtTrees.induct with
  | case1 t =>
    intro hw hs
    rcases list_cases hw hs with ⟨_, h, h1, h2⟩ | ⟨_, _, _, h, _⟩ | ⟨_, h⟩
    · cases h
      exact ⟨⟨h1, trivial⟩, by simpa [stmtTrees] using h2, by simp [stmtTrees]⟩
    · cases h
    · cases h
  | case2 l' m t ih =>
    intro hw hs
    rcases list_cases hw hs with ⟨_, h, _⟩ | ⟨_, _, _, h, h1, h2, h3, h4, h5⟩ | ⟨_, h⟩
    · cases h
    · cases h
      obtain ⟨g1, g2, _⟩ := ih h1 h2
      refine ⟨happ _ _ g1 ⟨h4, trivial⟩, ?_, by simp [stmtTrees]⟩
      intro s hs
      simp only [stmtTrees, List.mem_append, List.mem_singleton] at hs
      rcases hs with hs | rfl
      · exact g2 s hs
      · exact h5
    · cases h
  | case3 t h1 h2 =>
    intro hw hs
    exfalso
    rcases list_cases hw hs with ⟨_, h, _⟩ | ⟨_, _, _, h, _⟩ | ⟨_, h⟩
    · exact h1 _ h
    · exact h2 _ _ _ h
    · subst h
      have h3 := tsym_lt ‹Tok›
      simp only [Tree.sym] at hs
      rw [hs] at h3
      exact absurd h3 (by decide)

end Verif.Sem

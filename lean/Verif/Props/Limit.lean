import Verif.Sem.Copy
import Verif.Sem.Opaque
import Verif.Props.Value
import Verif.Props.Ast
import Verif.Props.ResultEx
/-!
# C27: LIMIT overrides TOP
-/
namespace Verif.Props
open Verif.Lex Verif.LR Verif.Sem Verif.Api

/-! ## Specification -/

/-- The derivation of a select without set operations: `SELECT top distinct list from where group order limit locking`. -/
def selectTree (kw top dist list frm whr grp order limit lock : Tree) : Tree :=
  .node 132 [.node 140 [kw, top, dist, list, frm, whr, grp], order, limit, lock]

/-- The derivation of a select with a set operation: `SELECT top distinct list from where group UNION select order limit locking`. -/
def setTree (kw top dist list frm whr grp op sel order limit lock : Tree) : Tree :=
  .node 133 [.node 140 [kw, top, dist, list, frm, whr, grp], op, sel, order, limit, lock]

/-- The positions of `limit` and `setOperations` among the fields of a `SelectStatement`. -/
abbrev SelLimit : Nat := 11
abbrev SelSetOps : Nat := 8

/-- A `LimitDescription` (src/sql/SelectStatement.h:41-47). -/
def limitV (l o : V) : V := .obj 0 .LimitDescription [l, o]

/-- What a TOP or LIMIT clause stands for, given the values of the expressions in it; there are `k` parameters to the left of it. -/
inductive ClauseV (k : Nat) : Tree → V → Prop where
  | noTop : ClauseV k (.node 164 []) .null
  | top (m n : Tree) (v : V) (a b : Bool) : m.sym = T.TOP → denAt k n a = some (v, b) → ClauseV k (.node 163 [m, n]) (limitV v .null)
  | noLimit : ClauseV k (.node 170 []) .null
  | limit (m e : Tree) (v : V) (a b : Bool) : m.sym = T.LIMIT → denAt k e a = some (v, b) → ClauseV k (.node 165 [m, e]) (limitV v .null)
  | offset (m e : Tree) (v : V) (a b : Bool) : m.sym = T.OFFSET → denAt k e a = some (v, b) → ClauseV k (.node 166 [m, e]) (limitV .null v)
  | limitOffset (m e m' e' : Tree) (v v' : V) (a b a' b' : Bool) : m.sym = T.LIMIT → m'.sym = T.OFFSET → denAt k e a = some (v, b) →
      denAt (k + qmarks e.yield) e' a' = some (v', b') → ClauseV k (.node 167 [m, e, m', e']) (limitV v v')
  | limitAll (m m' : Tree) : m.sym = T.LIMIT → m'.sym = T.ALL → ClauseV k (.node 168 [m, m']) (limitV .null .null)
  | limitAllOffset (m m' m'' e : Tree) (v : V) (a b : Bool) : m.sym = T.LIMIT → m'.sym = T.ALL → m''.sym = T.OFFSET → denAt k e a = some (v, b) →
      ClauseV k (.node 169 [m, m', m'', e]) (limitV .null v)

/-! ## Proofs -/

theorem denAtL_nil {k : Nat} {s s' : Bool} {vs : List V} (h : denAtL k [] s = some (vs, s')) : vs = [] := by rw [denAtL] at h; cases h; rfl
theorem denAtL_cons {k : Nat} {c : Tree} {cs : List Tree} {s s' : Bool} {vs : List V} (h : denAtL k (c :: cs) s = some (vs, s')) :
    ∃ v ws s1, vs = v :: ws ∧ denAt k c s = some (v, s1) ∧ denAtL (k + qmarks c.yield) cs s1 = some (ws, s') := by
  rw [denAtL] at h
  cases h1 : denAt k c s with
  | none => rw [h1] at h; cases h
  | some x =>
    rw [h1] at h
    simp only [] at h
    cases h2 : denAtL (k + qmarks c.yield) cs x.2 with
    | none => rw [h2] at h; cases h
    | some y => rw [h2] at h; cases h; exact ⟨_, _, _, rfl, rfl, h2⟩
theorem denAt_node {k r : Nat} {cs : List Tree} {s s' : Bool} {v : V} (h : denAt k (.node r cs) s = some (v, s')) :
    ∃ vs s1 p, denAtL k cs s = some (vs, s1) ∧ evRule r vs ⟨k, s1⟩ = some (v, p) ∧ p.err = s' := by
  rw [denAt] at h
  cases h1 : denAtL k cs s with
  | none => rw [h1] at h; cases h
  | some x =>
    rw [h1] at h
    simp only [] at h
    cases h2 : evRule r x.1 ⟨k, x.2⟩ with
    | none => rw [h2] at h; cases h
    | some y => rw [h2] at h; cases h; exact ⟨_, _, _, rfl, h2, rfl⟩

theorem rules_top : (List.range 358).filter (fun r => lhs r == N.opt_top) = [163, 164] := by decide +kernel
theorem rules_limit : (List.range 358).filter (fun r => lhs r == N.opt_limit) = [165, 166, 167, 168, 169, 170] := by decide +kernel

theorem rule_in' {X : Nat} {l : List Nat} (hl : (List.range 358).filter (fun r => lhs r == X) = l) {r : Nat} {cs : List Tree} (hw : (Tree.node r cs).WF) (hs : (Tree.node r cs).sym = X) : r ∈ l := by
  have h2 := hw.2.1
  rw [rules_len] at h2
  rw [← hl, List.mem_filter]
  exact ⟨List.mem_range.2 h2, by simpa [Tree.sym] using hs⟩

/-- A keyword contains no `?`. -/
theorem kw_q {m : Tree} {X : Nat} (hw : m.WF) (h : m.sym = X) (hX : X < 199 ∧ X ≠ T.QMARK) : qmarks m.yield = 0 := by
  cases m with
  | leaf x =>
    have : ¬ tsym x = T.QMARK := by rw [show tsym x = X from h]; exact hX.2
    simp [Tree.yield, qmarks, this]
  | node r cs =>
    have := lhs_nt hw.1 (by have := hw.2.1; rwa [rules_len] at this)
    rw [show lhs r = X from h] at this
    omega

theorem clause_top {k : Nat} {t : Tree} (hw : t.WF) (hs : t.sym = N.opt_top) {a b : Bool} {v : V} (h : denAt k t a = some (v, b)) : ClauseV k t v := by
  obtain ⟨r, cs, rfl⟩ := node_of_sym (t := t) (by rw [hs]; decide)
  have hr := rule_in' rules_top hw hs
  simp only [List.mem_cons, List.not_mem_nil, or_false] at hr
  obtain ⟨_, _, h3, h4⟩ := hw
  obtain ⟨vs, s1, p, g1, g2, _⟩ := denAt_node h
  rcases hr with rfl | rfl
  · have er : rhs 163 = [T.TOP, N.int_literal] := by decide +kernel
    rw [er] at h3
    obtain ⟨c0, cs', rfl, y0, h3⟩ := map_cons_of h3
    obtain ⟨c1, rfl, y1⟩ := map_one_of h3
    obtain ⟨v0, ws, b0, rfl, d0, k0⟩ := denAtL_cons g1
    obtain ⟨v1, ws, b1, rfl, d1, k1⟩ := denAtL_cons k0
    have := denAtL_nil k1; subst this
    obtain ⟨rfl, _⟩ := ev_det (v := limitV v1 .null) rfl rfl g2
    have q0 := kw_q h4.1 y0 (by decide)
    simp only [q0, Nat.add_zero] at d1
    exact .top _ _ _ _ _ y0 d1
  · have er : rhs 164 = [] := by decide +kernel
    rw [er] at h3
    have := map_nil_of h3; subst this
    have := denAtL_nil g1; subst this
    obtain ⟨rfl, _⟩ := ev_det (v := .null) rfl rfl g2
    exact .noTop

theorem clause_limit {k : Nat} {t : Tree} (hw : t.WF) (hs : t.sym = N.opt_limit) {a b : Bool} {v : V} (h : denAt k t a = some (v, b)) : ClauseV k t v ∧ ((t = .node 170 [] ∧ v = .null) ∨ (t ≠ .node 170 [] ∧ ∃ x y, v = limitV x y)) := by
  obtain ⟨r, cs, rfl⟩ := node_of_sym (t := t) (by rw [hs]; decide)
  have hr := rule_in' rules_limit hw hs
  simp only [List.mem_cons, List.not_mem_nil, or_false] at hr
  obtain ⟨_, _, h3, h4⟩ := hw
  obtain ⟨vs, s1, p, g1, g2, _⟩ := denAt_node h
  rcases hr with rfl | rfl | rfl | rfl | rfl | rfl
  · have er : rhs 165 = [T.LIMIT, N.expr] := by decide +kernel
    rw [er] at h3
    obtain ⟨c0, cs', rfl, y0, h3⟩ := map_cons_of h3
    obtain ⟨c1, rfl, y1⟩ := map_one_of h3
    obtain ⟨v0, ws, b0, rfl, d0, k0⟩ := denAtL_cons g1
    obtain ⟨v1, ws, b1, rfl, d1, k1⟩ := denAtL_cons k0
    have := denAtL_nil k1; subst this
    obtain ⟨rfl, _⟩ := ev_det (v := limitV v1 .null) rfl rfl g2
    have q0 := kw_q h4.1 y0 (by decide)
    simp only [q0, Nat.add_zero] at d1
    exact ⟨.limit _ _ _ _ _ y0 d1, .inr ⟨(fun h => by cases h), _, _, rfl⟩⟩
  · have er : rhs 166 = [T.OFFSET, N.expr] := by decide +kernel
    rw [er] at h3
    obtain ⟨c0, cs', rfl, y0, h3⟩ := map_cons_of h3
    obtain ⟨c1, rfl, y1⟩ := map_one_of h3
    obtain ⟨v0, ws, b0, rfl, d0, k0⟩ := denAtL_cons g1
    obtain ⟨v1, ws, b1, rfl, d1, k1⟩ := denAtL_cons k0
    have := denAtL_nil k1; subst this
    obtain ⟨rfl, _⟩ := ev_det (v := limitV .null v1) rfl rfl g2
    have q0 := kw_q h4.1 y0 (by decide)
    simp only [q0, Nat.add_zero] at d1
    exact ⟨.offset _ _ _ _ _ y0 d1, .inr ⟨(fun h => by cases h), _, _, rfl⟩⟩
  · have er : rhs 167 = [T.LIMIT, N.expr, T.OFFSET, N.expr] := by decide +kernel
    rw [er] at h3
    obtain ⟨c0, cs', rfl, y0, h3⟩ := map_cons_of h3
    obtain ⟨c1, cs', rfl, y1, h3⟩ := map_cons_of h3
    obtain ⟨c2, cs', rfl, y2, h3⟩ := map_cons_of h3
    obtain ⟨c3, rfl, y3⟩ := map_one_of h3
    obtain ⟨v0, ws, b0, rfl, d0, k0⟩ := denAtL_cons g1
    obtain ⟨v1, ws, b1, rfl, d1, k1⟩ := denAtL_cons k0
    obtain ⟨v2, ws, b2, rfl, d2, k2⟩ := denAtL_cons k1
    obtain ⟨v3, ws, b3, rfl, d3, k3⟩ := denAtL_cons k2
    have := denAtL_nil k3; subst this
    obtain ⟨rfl, _⟩ := ev_det (v := limitV v1 v3) rfl rfl g2
    have q0 := kw_q h4.1 y0 (by decide)
    have q2 := kw_q h4.2.2.1 y2 (by decide)
    simp only [q0, q2, Nat.add_zero] at d1
    simp only [q0, q2, Nat.add_zero] at d3
    exact ⟨.limitOffset _ _ _ _ _ _ _ _ _ _ y0 y2 d1 d3, .inr ⟨(fun h => by cases h), _, _, rfl⟩⟩
  · have er : rhs 168 = [T.LIMIT, T.ALL] := by decide +kernel
    rw [er] at h3
    obtain ⟨c0, cs', rfl, y0, h3⟩ := map_cons_of h3
    obtain ⟨c1, rfl, y1⟩ := map_one_of h3
    obtain ⟨v0, ws, b0, rfl, d0, k0⟩ := denAtL_cons g1
    obtain ⟨v1, ws, b1, rfl, d1, k1⟩ := denAtL_cons k0
    have := denAtL_nil k1; subst this
    obtain ⟨rfl, _⟩ := ev_det (v := limitV .null .null) rfl rfl g2
    have q0 := kw_q h4.1 y0 (by decide)
    have q1 := kw_q h4.2.1 y1 (by decide)
    exact ⟨.limitAll _ _ y0 y1, .inr ⟨(fun h => by cases h), _, _, rfl⟩⟩
  · have er : rhs 169 = [T.LIMIT, T.ALL, T.OFFSET, N.expr] := by decide +kernel
    rw [er] at h3
    obtain ⟨c0, cs', rfl, y0, h3⟩ := map_cons_of h3
    obtain ⟨c1, cs', rfl, y1, h3⟩ := map_cons_of h3
    obtain ⟨c2, cs', rfl, y2, h3⟩ := map_cons_of h3
    obtain ⟨c3, rfl, y3⟩ := map_one_of h3
    obtain ⟨v0, ws, b0, rfl, d0, k0⟩ := denAtL_cons g1
    obtain ⟨v1, ws, b1, rfl, d1, k1⟩ := denAtL_cons k0
    obtain ⟨v2, ws, b2, rfl, d2, k2⟩ := denAtL_cons k1
    obtain ⟨v3, ws, b3, rfl, d3, k3⟩ := denAtL_cons k2
    have := denAtL_nil k3; subst this
    obtain ⟨rfl, _⟩ := ev_det (v := limitV .null v3) rfl rfl g2
    have q0 := kw_q h4.1 y0 (by decide)
    have q1 := kw_q h4.2.1 y1 (by decide)
    have q2 := kw_q h4.2.2.1 y2 (by decide)
    simp only [q0, q1, q2, Nat.add_zero] at d3
    exact ⟨.limitAllOffset _ _ _ _ _ _ _ y0 y1 y2 d3, .inr ⟨(fun h => by cases h), _, _, rfl⟩⟩
  · have er : rhs 170 = [] := by decide +kernel
    rw [er] at h3
    have := map_nil_of h3; subst this
    have := denAtL_nil g1; subst this
    obtain ⟨rfl, _⟩ := ev_det (v := .null) rfl rfl g2
    exact ⟨.noLimit, .inl ⟨rfl, rfl⟩⟩

theorem denAt_sat {k : Nat} {t : Tree} (hw : t.WF) (hs : t.sym ≠ T.QMARK) (hm : ∀ m ∈ t.yield, TokShape m) {a b : Bool} {v : V} (h : denAt k t a = some (v, b)) :
    Sat (fun _ => True) (fun _ => True) (symTy t.sym) v := by
  have := den_denAt hw hs k a
  rw [h] at this
  exact den_sat hw (fun m h => ⟨hm m h, fun _ _ => trivial⟩) this

theorem ty_lock : symTy N.opt_locking_clause = .opt .locks := rfl
theorem ty_setop : symTy N.set_operator = .obj .SetOperation [setTypes, .bool, .null, .null, .null] := rfl
theorem sat_locks {v : V} (h : Sat (fun _ => True) (fun _ => True) (.opt .locks) v) : v = .null ∨ ∃ a vs, v = .vec a vs := by
  cases h with
  | ref h1 h2 =>
    simp only [alts, List.mem_cons, List.not_mem_nil, or_false] at h1
    rcases h1 with rfl | rfl
    · cases h2; exact .inl rfl
    · cases h2 with
      | ref h1 h2 =>
        simp only [alts, List.mem_cons, List.not_mem_nil, or_false] at h1
        subst h1
        generalize hp : P.vec1 lockP = p at h2
        cases h2 with
        | vec a _ _ _ => exact .inr ⟨_, _, rfl⟩
        | _ => cases hp
theorem sat_setop {p : List P} {v : V} (hp : p.length = 5) (h : Sat (fun _ => True) (fun _ => True) (.obj .SetOperation p) v) : ∃ a x0 x1 x2 x3 x4, v = .obj a .SetOperation [x0, x1, x2, x3, x4] := by
  generalize hq : P.obj .SetOperation p = q at h
  cases h with
  | @obj a c ps fs h1 h2 =>
    cases hq
    match p, hp, h1 with
    | [_, _, _, _, _], _, .cons _ (.cons _ (.cons _ (.cons _ (.cons _ .nil)))) => exact ⟨_, _, _, _, _, _, rfl⟩
  | _ => cases hq

/-- The SELECT clause. -/
theorem clause140 {k : Nat} {kw top dist list frm whr grp : Tree} (hw : (Tree.node 140 [kw, top, dist, list, frm, whr, grp]).WF) {a b : Bool} {v : V}
    (h : denAt k (.node 140 [kw, top, dist, list, frm, whr, grp]) a = some (v, b)) :
    ∃ w v3 v4 v5 v6 v7, ClauseV k top w ∧ v = .obj 0 .SelectStatement [.undef, .null, .int StatementType.kStmtSelect, v5, v3, v4, v6, v7, .null, .null, .null, w, .null] := by
  obtain ⟨_, _, h3, h4⟩ := hw
  have er : rhs 140 = [T.SELECT, N.opt_top, N.opt_distinct, N.select_list, N.opt_from_clause, N.opt_where, N.opt_group] := by decide +kernel
  rw [er] at h3
  simp only [List.map_cons, List.cons.injEq] at h3
  obtain ⟨vs, s1, p, g1, g2, _⟩ := denAt_node h
  obtain ⟨v1, ws, b1, rfl, d1, k1⟩ := denAtL_cons g1
  obtain ⟨v2, ws, b2, rfl, d2, k2⟩ := denAtL_cons k1
  obtain ⟨v3, ws, b3, rfl, d3, k3⟩ := denAtL_cons k2
  obtain ⟨v4, ws, b4, rfl, d4, k4⟩ := denAtL_cons k3
  obtain ⟨v5, ws, b5, rfl, d5, k5⟩ := denAtL_cons k4
  obtain ⟨v6, ws, b6, rfl, d6, k6⟩ := denAtL_cons k5
  obtain ⟨v7, ws, b7, rfl, d7, k7⟩ := denAtL_cons k6
  have := denAtL_nil k7; subst this
  have q := kw_q h4.1 h3.1 (by decide)
  rw [q, Nat.add_zero] at d2
  refine ⟨v2, v3, v4, v5, v6, v7, clause_top h4.2.1 h3.2.1 d2, ?_⟩
  exact (ev_det rfl rfl g2).1

/-- The limit of a select without set operations: the LIMIT clause, if there is one, else the TOP clause. -/
theorem select_value {k : Nat} {kw top dist list frm whr grp order limit lock : Tree} (hw : (selectTree kw top dist list frm whr grp order limit lock).WF)
    (hm : ∀ m ∈ (selectTree kw top dist list frm whr grp order limit lock).yield, TokShape m) {a b : Bool} {v : V}
    (h : denAt k (selectTree kw top dist list frm whr grp order limit lock) a = some (v, b)) :
    ∃ fs w, v = .obj 0 .SelectStatement fs ∧ fs[SelLimit]? = some w ∧
      (limit ≠ .node 170 [] → ClauseV (k + qmarks (yieldL [kw, top, dist, list, frm, whr, grp] ++ order.yield)) limit w) ∧
      (limit = .node 170 [] → ClauseV k top w) := by
  obtain ⟨_, _, h3, h4⟩ := hw
  have er : rhs 132 = [N.select_clause, N.opt_order, N.opt_limit, N.opt_locking_clause] := by decide +kernel
  rw [er] at h3
  simp only [List.map_cons, List.cons.injEq] at h3
  obtain ⟨vs, s1, p, g1, g2, _⟩ := denAt_node h
  obtain ⟨v1, ws, b1, rfl, d1, k1⟩ := denAtL_cons g1
  obtain ⟨v2, ws, b2, rfl, d2, k2⟩ := denAtL_cons k1
  obtain ⟨v3, ws, b3, rfl, d3, k3⟩ := denAtL_cons k2
  obtain ⟨v4, ws, b4, rfl, d4, k4⟩ := denAtL_cons k3
  have := denAtL_nil k4; subst this
  obtain ⟨w, x3, x4, x5, x6, x7, hc, rfl⟩ := clause140 h4.1 d1
  have hl := clause_limit h4.2.2.1 h3.2.2.1 d3
  have h5 := denAt_sat h4.2.2.2.1 (by rw [h3.2.2.2.1]; decide) (fun m h => hm m (by simp [selectTree, Tree.yield, yieldL, h])) d4
  rw [h3.2.2.2.1, ty_lock] at h5
  have hq : k + qmarks (Tree.node 140 [kw, top, dist, list, frm, whr, grp]).yield + qmarks order.yield = k + qmarks (yieldL [kw, top, dist, list, frm, whr, grp] ++ order.yield) := by
    rw [qmarks_append, Tree.yield]; omega
  rw [hq] at hl
  obtain ⟨hl1, ⟨rfl, rfl⟩ | ⟨hn, x, y, rfl⟩⟩ := hl
  · rcases sat_locks h5 with rfl | ⟨a', vs', rfl⟩
    · obtain ⟨rfl, _⟩ := ev_det rfl rfl g2
      exact ⟨_, w, rfl, rfl, (fun h => absurd rfl h), fun _ => hc⟩
    · obtain ⟨rfl, _⟩ := ev_det rfl rfl g2
      exact ⟨_, w, rfl, rfl, (fun h => absurd rfl h), fun _ => hc⟩
  · rcases sat_locks h5 with rfl | ⟨a', vs', rfl⟩
    · obtain ⟨rfl, _⟩ := ev_det rfl rfl g2
      exact ⟨_, limitV x y, rfl, rfl, fun _ => hl1, fun h => absurd h hn⟩
    · obtain ⟨rfl, _⟩ := ev_det rfl rfl g2
      exact ⟨_, limitV x y, rfl, rfl, fun _ => hl1, fun h => absurd h hn⟩

/-- With a set operation, the LIMIT clause is that of the set operation, and TOP that of the select. -/
theorem set_value {k : Nat} {kw top dist list frm whr grp op sel order limit lock : Tree} (hw : (setTree kw top dist list frm whr grp op sel order limit lock).WF)
    (hm : ∀ m ∈ (setTree kw top dist list frm whr grp op sel order limit lock).yield, TokShape m) {a b : Bool} {v : V}
    (h : denAt k (setTree kw top dist list frm whr grp op sel order limit lock) a = some (v, b)) :
    ∃ fs w a0 x0 x1 x2 x3 w', v = .obj 0 .SelectStatement fs ∧ fs[SelLimit]? = some w ∧ ClauseV k top w ∧
      fs[SelSetOps]? = some (.vec 0 [.obj a0 .SetOperation [x0, x1, x2, x3, w']]) ∧
      ClauseV (k + qmarks (yieldL [kw, top, dist, list, frm, whr, grp, op, sel, order])) limit w' := by
  obtain ⟨_, _, h3, h4⟩ := hw
  have er : rhs 133 = [N.select_clause, N.set_operator, N.select_within_set_operation, N.opt_order, N.opt_limit, N.opt_locking_clause] := by decide +kernel
  rw [er] at h3
  simp only [List.map_cons, List.cons.injEq] at h3
  obtain ⟨vs, s1, p, g1, g2, _⟩ := denAt_node h
  obtain ⟨v1, ws, b1, rfl, d1, k1⟩ := denAtL_cons g1
  obtain ⟨v2, ws, b2, rfl, d2, k2⟩ := denAtL_cons k1
  obtain ⟨v3, ws, b3, rfl, d3, k3⟩ := denAtL_cons k2
  obtain ⟨v4, ws, b4, rfl, d4, k4⟩ := denAtL_cons k3
  obtain ⟨v5, ws, b5, rfl, d5, k5⟩ := denAtL_cons k4
  obtain ⟨v6, ws, b6, rfl, d6, k6⟩ := denAtL_cons k5
  have := denAtL_nil k6; subst this
  obtain ⟨w, x3, x4, x5, x6, x7, hc, rfl⟩ := clause140 h4.1 d1
  have hl := clause_limit h4.2.2.2.2.1 h3.2.2.2.2.1 d5
  have h5 := denAt_sat h4.2.1 (by rw [h3.2.1]; decide) (fun m h => hm m (by simp [setTree, Tree.yield, yieldL, h])) d2
  rw [h3.2.1, ty_setop] at h5
  have hq : k + qmarks (Tree.node 140 [kw, top, dist, list, frm, whr, grp]).yield + qmarks op.yield + qmarks sel.yield + qmarks order.yield = k + qmarks (yieldL [kw, top, dist, list, frm, whr, grp, op, sel, order]) := by
    simp only [Tree.yield, yieldL, qmarks_append, show qmarks [] = 0 from rfl]; omega
  rw [hq] at hl
  obtain ⟨a0, y0, y1, y2, y3, y4, rfl⟩ := sat_setop rfl h5
  obtain ⟨rfl, _⟩ := ev_det rfl rfl g2
  exact ⟨_, w, a0, _, _, _, _, _, rfl, rfl, hc, rfl, hl.1⟩

theorem ty_sel : symTy N.select_no_paren = .ref .sel := rfl
theorem satL_13 {ok : Bytes → Prop} {g : List V → Prop} {p : List P} {fs : List V} (hp : p.length = 13) (h : SatL ok g p fs) :
    ∃ f0 f1 f2 f3 f4 f5 f6 f7 f8 f9 f10 f11 f12, fs = [f0, f1, f2, f3, f4, f5, f6, f7, f8, f9, f10, f11, f12] := by
  have hl : ∀ {ps : List P} {vs : List V}, SatL ok g ps vs → vs.length = ps.length := by
    intro ps
    induction ps with
    | nil => intro vs h; cases h; rfl
    | cons p ps ih => intro vs h; cases h with | cons _ h => simp [ih h]
  have := hl h
  rw [hp] at this
  match fs, this with
  | [_, _, _, _, _, _, _, _, _, _, _, _, _], _ => exact ⟨_, _, _, _, _, _, _, _, _, _, _, _, _, rfl⟩
theorem sat_sel {fs : List V} (h : Sat (fun _ => True) (fun _ => True) (.ref .sel) (.obj 0 .SelectStatement fs)) :
    ∃ f0 f1 f2 f3 f4 f5 f6 f7 f8 f9 f10 f11 f12, fs = [f0, f1, f2, f3, f4, f5, f6, f7, f8, f9, f10, f11, f12] := by
  cases h with
  | ref h1 h2 =>
    simp only [alts, List.mem_cons, List.not_mem_nil, or_false] at h1
    subst h1
    generalize hq : selP .undef .null (.opt .setOps) (.opt .orders) .null (.opt .limit) (.opt .locks) = q at h2
    cases h2 with
    | obj a h1 h2 => cases hq; exact satL_13 rfl h1
    | _ => cases hq

theorem denAtL_get : ∀ {cs : List Tree} {k : Nat} {e e' : Bool} {vs : List V}, denAtL k cs e = some (vs, e') → ∀ (i : Nat) {c : Tree}, cs[i]? = some c →
    ∃ v e1 e2, vs[i]? = some v ∧ denAt (k + qmarks (yieldL (cs.take i))) c e1 = some (v, e2)
  | [], _, _, _, _, _, i, _, h => by simp at h
  | c :: cs, k, e, e', vs, hd, i, d, h => by
    obtain ⟨v, ws, s1, rfl, h1, h2⟩ := denAtL_cons hd
    cases i with
    | zero =>
      simp only [List.getElem?_cons_zero, Option.some.injEq] at h
      subst h
      exact ⟨v, _, _, rfl, h1⟩
    | succ i =>
      simp only [List.getElem?_cons_succ] at h
      obtain ⟨v', e1, e2, g1, g2⟩ := denAtL_get h2 i h
      refine ⟨v', e1, e2, by simpa using g1, ?_⟩
      simpa only [List.take_succ_cons, yieldL, qmarks_append, Nat.add_assoc] using g2

theorem stmt_part_list : ∀ {l s : Tree}, s ∈ stmtTrees l → PartOf s l := by
  intro l
  induction l using stmtTrees.induct with
  | case1 t => intro s h; simp only [stmtTrees, List.mem_cons, List.not_mem_nil, or_false] at h; subst h; exact .step (by simp) .refl
  | case2 l m t ih =>
    intro s h
    simp only [stmtTrees, List.mem_append, List.mem_cons, List.not_mem_nil, or_false] at h
    rcases h with h | rfl
    · exact .step (by simp) (ih h)
    · exact .step (c := s) (by simp) .refl
  | case3 t h1 h2 =>
    intro s h
    rw [stmtTrees] at h
    · cases h
    · exact h1
    · exact h2
theorem stmt_part {s t : Tree} (h : s ∈ stmtsOf t) : PartOf s t := by
  unfold stmtsOf at h
  split at h
  · exact .step (by simp) (stmt_part_list h)
  · cases h

theorem part_shape {fpr : Int} (hf : FprOK fpr) (sql : List UInt8) {t : Tree} (ht : Derives (sentence (tokensOf fpr sql)) t) {s : Tree} (hs : PartOf s t) : ∀ m ∈ s.yield, TokShape m := by
  intro m hm
  have := hs.toks m hm
  rw [ht.2.2.1] at this
  exact (tokensOf_shape hf sql).1 m ((List.takeWhile_prefix _).subset this)

section
variable {A : Alloc} (hA : Distinct A) {fpr : Int} (hf : FprOK fpr) (buf : Bytes) (sql : List UInt8) (l c : Int)
include hA hf

/-- C27. In an accepted text with derivation `t`, every select without set operations, wherever it occurs (as a statement, in a subquery, a WITH clause, a table, a
view, a PREPAREd statement...), has a value: a `SelectStatement`, whose limit is the value of the LIMIT/OFFSET clause if there is one, and otherwise that of the TOP
clause (null if there is none either). -/
theorem C27_limit_overrides_top (o : ParseOut) (h : parse A fpr buf sql (newResult l c) = some o) (hv : o.res.isValid = true)
    (t : Tree) (ht : Derives (sentence (tokensOf fpr sql)) t) (kw top dist list frm whr grp order limit lock : Tree)
    (hs : PartOf (selectTree kw top dist list frm whr grp order limit lock) t) :
    (∃ k e v e', denAt k (selectTree kw top dist list frm whr grp order limit lock) e = some (v, e')) ∧
    ∀ k e v e', denAt k (selectTree kw top dist list frm whr grp order limit lock) e = some (v, e') →
      ∃ fs w, v = .obj 0 .SelectStatement fs ∧ fs[SelLimit]? = some w ∧
        (limit ≠ .node 170 [] → ClauseV (k + qmarks (yieldL [kw, top, dist, list, frm, whr, grp] ++ order.yield)) limit w) ∧
        (limit = .node 170 [] → ClauseV k top w) := by
  have hd := parse_den hA hf buf sql l c o h hv ht
  have hw := hs.wf ht.1
  constructor
  · obtain ⟨a, v, b, h1⟩ := hs.den hd
    have h2 := den_denAt hw (by simp only [selectTree, Tree.sym]; decide +kernel) a.n a.err
    rw [show (⟨a.n, a.err⟩ : PS) = a from rfl, h1] at h2
    cases h3 : denAt a.n (selectTree kw top dist list frm whr grp order limit lock) a.err with
    | none => rw [h3] at h2; cases h2
    | some x => exact ⟨_, _, _, _, h3⟩
  · intro k e v e' h1
    exact select_value hw (part_shape hf sql ht hs) h1

/-- With a set operation (`SELECT TOP ... UNION ... LIMIT ...`), the LIMIT clause is that of the set operation, and the TOP clause that of the first select. -/
theorem C27_set_operations (o : ParseOut) (h : parse A fpr buf sql (newResult l c) = some o) (hv : o.res.isValid = true)
    (t : Tree) (ht : Derives (sentence (tokensOf fpr sql)) t) (kw top dist list frm whr grp op sel order limit lock : Tree)
    (hs : PartOf (setTree kw top dist list frm whr grp op sel order limit lock) t) :
    (∃ k e v e', denAt k (setTree kw top dist list frm whr grp op sel order limit lock) e = some (v, e')) ∧
    ∀ k e v e', denAt k (setTree kw top dist list frm whr grp op sel order limit lock) e = some (v, e') →
      ∃ fs w a0 x0 x1 x2 x3 w', v = .obj 0 .SelectStatement fs ∧ fs[SelLimit]? = some w ∧ ClauseV k top w ∧
        fs[SelSetOps]? = some (.vec 0 [.obj a0 .SetOperation [x0, x1, x2, x3, w']]) ∧
        ClauseV (k + qmarks (yieldL [kw, top, dist, list, frm, whr, grp, op, sel, order])) limit w' := by
  have hd := parse_den hA hf buf sql l c o h hv ht
  have hw := hs.wf ht.1
  constructor
  · obtain ⟨a, v, b, h1⟩ := hs.den hd
    have h2 := den_denAt hw (by simp only [setTree, Tree.sym]; decide +kernel) a.n a.err
    rw [show (⟨a.n, a.err⟩ : PS) = a from rfl, h1] at h2
    cases h3 : denAt a.n (setTree kw top dist list frm whr grp op sel order limit lock) a.err with
    | none => rw [h3] at h2; cases h2
    | some x => exact ⟨_, _, _, _, h3⟩
  · intro k e v e' h1
    exact set_value hw (part_shape hf sql ht hs) h1

/-- The select as a statement: the i-th statement of the result is a `SelectStatement` with that limit (in which the parameters are numbered: `fill`). -/
theorem C27_select_statements (o : ParseOut) (h : parse A fpr buf sql (newResult l c) = some o) (hv : o.res.isValid = true)
    (t : Tree) (ht : Derives (sentence (tokensOf fpr sql)) t) (i : Nat) (wth hints kw top dist list frm whr grp order limit lock : Tree)
    (hs : (stmtsOf t)[i]? = some (.node 6 [.node 10 [.node 124 [wth, selectTree kw top dist list frm whr grp order limit lock]], hints])) :
    ∃ fs w, (astL o.res.stmts)[i]? = some (.obj 0 .SelectStatement fs) ∧ fs[SelLimit]? = some (V.fill w) ∧
      (limit ≠ .node 170 [] → ClauseV (qmarks (yieldL ((stmtsOf t).take i) ++ wth.yield ++ yieldL [kw, top, dist, list, frm, whr, grp] ++ order.yield)) limit w) ∧
      (limit = .node 170 [] → ClauseV (qmarks (yieldL ((stmtsOf t).take i) ++ wth.yield)) top w) := by
  obtain ⟨_, _, _, vs, e, h1, h2⟩ := C17_statements_in_order hA hf buf sql l c o h hv t ht
  obtain ⟨v, e1, e2, h3, h4⟩ := denAtL_get h1 i hs
  have hp : PartOf (.node 6 [.node 10 [.node 124 [wth, selectTree kw top dist list frm whr grp order limit lock]], hints]) t := stmt_part (List.mem_of_getElem? hs)
  have hp1 := PartOf.trans (.step (c := .node 10 [.node 124 [wth, selectTree kw top dist list frm whr grp order limit lock]]) (by simp) (.step (c := .node 124 [wth, selectTree kw top dist list frm whr grp order limit lock]) (by simp) (.step (c := selectTree kw top dist list frm whr grp order limit lock) (by simp) .refl))) hp
  obtain ⟨vs6, s6, p6, g6, ev6, _⟩ := denAt_node h4
  obtain ⟨v6, ws6, b6, rfl, d6, k6⟩ := denAtL_cons g6
  obtain ⟨vh, ws6, bh, rfl, dh, k6⟩ := denAtL_cons k6
  have := denAtL_nil k6; subst this
  obtain ⟨vs10, s10, p10, g10, ev10, _⟩ := denAt_node d6
  obtain ⟨v10, ws10, b10, rfl, d10, k10⟩ := denAtL_cons g10
  have := denAtL_nil k10; subst this
  obtain ⟨vs24, s24, p24, g24, ev24, _⟩ := denAt_node d10
  obtain ⟨vw, ws24, bw, rfl, dw, k24⟩ := denAtL_cons g24
  obtain ⟨vsel, ws24, bs, rfl, dsel, k24⟩ := denAtL_cons k24
  have := denAtL_nil k24; subst this
  have hsym : (selectTree kw top dist list frm whr grp order limit lock).sym ≠ T.QMARK := by simp only [selectTree, Tree.sym]; decide +kernel
  have hsat := denAt_sat (hp1.wf ht.1) hsym (part_shape hf sql ht hp1) dsel
  obtain ⟨fs, w, rfl, hl, c1, c2⟩ := select_value (hp1.wf ht.1) (part_shape hf sql ht hp1) dsel
  rw [show (selectTree kw top dist list frm whr grp order limit lock).sym = N.select_no_paren from by simp only [selectTree, Tree.sym]; decide +kernel, ty_sel] at hsat
  obtain ⟨f0, f1, f2, f3, f4, f5, f6, f7, f8, f9, f10, f11, f12, rfl⟩ := sat_sel hsat
  obtain ⟨rfl, _⟩ := ev_det (v := .obj 0 .SelectStatement [f0, f1, f2, f3, f4, f5, f6, f7, f8, f9, vw, f11, f12]) rfl rfl ev24
  obtain ⟨rfl, _⟩ := ev_det (v := .obj 0 .SelectStatement [f0, f1, f2, f3, f4, f5, f6, f7, f8, f9, vw, f11, f12]) rfl rfl ev10
  obtain ⟨rfl, _⟩ := ev_det (v := .obj 0 .SelectStatement [f0, vh, f2, f3, f4, f5, f6, f7, f8, f9, vw, f11, f12]) rfl rfl ev6
  refine ⟨fillL [.pos 0, vh, f2, f3, f4, f5, f6, f7, f8, f9, vw, f11, f12], w, ?_, ?_, ?_, ?_⟩
  · rw [h2, List.getElem?_map, h3]; rfl
  · cases hl; rfl
  · intro hn
    have := c1 hn
    simpa only [qmarks_append, Nat.add_assoc, Nat.zero_add] using this
  · intro hn
    have := c2 hn
    simpa only [qmarks_append, Nat.add_assoc, Nat.zero_add] using this

end

/-- The values of the limit and offset expressions of the selects among the statements. -/
def limitView (o : ParseOut) : List (Option (Option Int × Option Int)) :=
  let num : V → Option Int := fun v => match v with
    | .obj _ .Expr fs => match (fs : List V)[(10 : Nat)]? with
      | some (.int n) => some n
      | _ => none
    | _ => none
  o.res.stmts.map fun v => match v with
    | .obj _ .SelectStatement fs => match (fs : List V)[(11 : Nat)]? with
      | some (.obj _ .LimitDescription [l, f]) => some (num l, num f)
      | _ => none
    | _ => none

/-- Concrete cases for C27: LIMIT and TOP, LIMIT ALL and TOP, TOP only, neither. -/
example : (run0 b!"SELECT TOP 3 a FROM t LIMIT 5 OFFSET 2; SELECT TOP 3 a FROM t LIMIT ALL; SELECT TOP 3 a FROM t; SELECT a FROM t").map limitView =
    some [some (some 5, some 2), some (none, none), some (some 3, none), none] :=
  parse_of_eval (f := 120) (q := Option.map limitView) (by decide +kernel)

end Verif.Props

import Verif.Sql.Tools
import Verif.Sem.Copy
/-! Derivations of the small parts of abstract SQL. Proof-internal. -/
namespace Verif.Sql
open Verif.Lex Verif.LR Verif.Sem

macro "ev" : term => `(fun _ => ev_of rfl rfl)

theorem Names.der : ∀ l : Names, DT N.ident_commalist l.words l.v
  | .one n => Der.any_node 356 rfl rfl DL.id1 ev
  | .snoc l n => Der.any_node 357 rfl rfl (DL.top l.der (DL.kw DL.id1)) ev

theorem TName.der (t : TName) : DT N.table_name t.words (.tup [ostr t.schema, str t.name]) := by
  match t with
  | ⟨none, n⟩ => exact Der.any_node 309 rfl rfl DL.id1 ev
  | ⟨some s, n⟩ => exact Der.any_node 310 rfl rfl (DL.id (DL.kw DL.id1)) ev

theorem Field.der (f : Field) : DT N.datetime_field (Sql.kw f.kw) (.int f.v) := by
  cases f
  · exact Der.any_node 259 rfl rfl DL.kw1 ev
  · exact Der.any_node 260 rfl rfl DL.kw1 ev
  · exact Der.any_node 261 rfl rfl DL.kw1 ev
  · exact Der.any_node 262 rfl rfl DL.kw1 ev
  · exact Der.any_node 263 rfl rfl DL.kw1 ev
  · exact Der.any_node 264 rfl rfl DL.kw1 ev

theorem Field.derPl (f : Field) : DT N.datetime_field_plural (Sql.kw f.kws) (.int f.v) := by
  cases f
  · exact Der.any_node 265 rfl rfl DL.kw1 ev
  · exact Der.any_node 266 rfl rfl DL.kw1 ev
  · exact Der.any_node 267 rfl rfl DL.kw1 ev
  · exact Der.any_node 268 rfl rfl DL.kw1 ev
  · exact Der.any_node 269 rfl rfl DL.kw1 ev
  · exact Der.any_node 270 rfl rfl DL.kw1 ev

/-- The number at the beginning of a string. -/
def durVal (s : Bytes) : Int := match scanD none s with
  | some (n, _) => n
  | none => 0

theorem durOk_val {s : Bytes} (h : durOk s = some true) : ∃ r, scanD none s = some (durVal s, r) := by
  unfold durOk at h
  unfold durVal
  cases hs : scanD none s with
  | none => rw [hs] at h; simp at h
  | some x => exact ⟨x.2, rfl⟩

theorem durUnitOk_val {s : Bytes} (h : durUnitOk s = some true) : ∃ r, scanD none s = some (durVal s, r) := by
  unfold durUnitOk at h
  unfold durVal
  cases hs : scanD none s with
  | none => rw [hs] at h; simp at h
  | some x => exact ⟨x.2, rfl⟩

theorem pev_set {p : Path} {x : Rv} {k : Prog} {env env' : List V} {e : Bool} {v : V} {st : Sem.St} (h : evalRv Z x env (st0 e) = some (v, env', st)) :
    pev (.set p x k) env e = match getP env' p with
      | some _ => match putP env' p v with
        | some env'' => pev k env'' e
        | none => none
      | none => none := by rw [pev, h]; rfl

theorem eval_dur {p : Path} {env : List V} {st : Sem.St} {s : Bytes} {n : Int} {r : Bytes} (h : strAt env p = some s) (h2 : scanD none s = some (n, r)) : evalRv Z (.atom (.dur p)) env st = some (.int n, env, st) := by
  simp only [evalRv, evalAtom, h, h2]
theorem eval_unit {p : Path} {env : List V} {st : Sem.St} {s : Bytes} {n r : Bytes} (h : strAt env p = some s) (h2 : scanUnit s = some (n, r)) : evalRv Z (.atom (.unit p)) env st = some (.raw n, env, st) := by
  simp only [evalRv, evalAtom, h, h2]

theorem ev296 {s : Bytes} {f : Int} (h : durOk s = some true) (n : Nat) : evRule 296 [.undef, .str 0 s, .int f] ⟨n, false⟩ =
    some (({ type := ExprType.kExprLiteralInterval, ival := .int (durVal s), datetimeField := f } : ExprV).v, ⟨n, false⟩) := by
  obtain ⟨r, hr⟩ := durOk_val h
  refine ev_of rfl ?_
  show pev intervalField _ _ = _
  rw [intervalField, pev_t (by exact h), pev_set (eval_dur rfl hr)]
  rfl

theorem eqNoCase_trans {a b c : Bytes} (h1 : eqNoCase a b = true) : eqNoCase a c = eqNoCase b c := by
  simp only [eqNoCase, beq_iff_eq] at h1
  simp only [eqNoCase, h1]

theorem ev297 {s : Bytes} {f : Field} (h : durUnitOk s = some true) (hu : ∃ w r, scanUnit s = some (w, r) ∧ (eqNoCase w f.name = true ∨ eqNoCase w (f.name ++ b!"s") = true)) (n : Nat) :
    evRule 297 [.undef, .str 0 s] ⟨n, false⟩ = some (({ type := ExprType.kExprLiteralInterval, ival := .int (durVal s), datetimeField := f.v } : ExprV).v, ⟨n, false⟩) := by
  obtain ⟨r, hr⟩ := durUnitOk_val h
  obtain ⟨w, r', hw, hu⟩ := hu
  refine ev_of rfl ?_
  show pev intervalUnit _ _ = _
  rw [intervalUnit, pev_t (by exact h), pev_set (eval_dur rfl hr)]
  show pev (.set _ _ _) _ _ = _
  rw [pev_set (eval_unit rfl hw)]
  have hc : ∀ c, evalCond (.strIs ⟨11, []⟩ c) [.undef, .undef, .undef, .undef, .undef, .undef, .undef, .undef, .undef, .undef, .int (durVal s), .raw w] (st0 false) = some (eqNoCase w c) := fun _ => rfl
  show pev (.ite _ _ _) _ _ = _
  have key : ∀ z, eqNoCase w z = true → ∀ c b, eqNoCase z c = b → evalCond (.strIs ⟨11, []⟩ c) [.undef, .undef, .undef, .undef, .undef, .undef, .undef, .undef, .undef, .undef, .int (durVal s), .raw w] (st0 false) = some b := by
    intro z hz c b hb; rw [hc, eqNoCase_trans hz, hb]
  cases f <;> rcases hu with hu | hu <;>
    (repeat (first | rw [pev_t (by exact key _ hu _ true rfl)] | rw [pev_f (by exact key _ hu _ false rfl)])) <;> rfl

theorem ev294 {s : Bytes} (h : dateOk s = true) (n : Nat) : evRule 294 [.undef, .str 0 s] ⟨n, false⟩ = some (({ type := ExprType.kExprLiteralDate, name := str s } : ExprV).v, ⟨n, false⟩) := by
  refine ev_of rfl ?_
  show pev dateLiteral _ _ = _
  rw [dateLiteral, pev_t (by exact congrArg some h)]
  rfl

theorem Interval.der (i : Interval) : DN N.interval_literal i.words i.r.v := by
  match i with
  | .short n f false => exact Der.closedL 295 rfl rfl (DL.int (DerL.last (Der.unit 271 rfl rfl f.der ev))) ev
  | .short n f true => exact Der.closedL 295 rfl rfl (DL.int (DerL.last (Der.unit 272 rfl rfl f.derPl ev))) ev
  | .str s n f h =>
    have e : durVal s = n := by rw [durVal, scanD_number.2 h.1]
    have := fun k => ev296 (s := s) (f := f.v) ((durOk_true s).2 ⟨n, h⟩) k
    rw [e] at this
    exact Der.closedL 296 rfl rfl (DL.kw (DL.str (DerL.last f.der))) this
  | .strUnit s n u f h hu =>
    obtain ⟨h1, r, h2⟩ := scanUnit_complete h.1
    have e : durVal s = n := by rw [durVal, h2]
    have := fun k => ev297 (s := s) (f := f) ((durUnitOk_true s).2 ⟨n, u, h.1, h.2, h1⟩) ⟨u, _, h1, hu⟩ k
    rw [e] at this
    exact Der.closedL 297 rfl rfl (DL.kw DL.str1) this

theorem int_der (n : Int) : DN N.int_literal [.int n] (Num.int n).r.v := Der.closedL 292 rfl rfl DL.int1 ev

theorem Num.der (n : Num) : DN N.num_literal n.words n.r.v := by
  match n with
  | .int n => exact Der.unit 291 rfl rfl (int_der n) ev
  | .float b => exact Der.closedL 290 rfl rfl DL.flt1 ev

theorem Lit.der (l : Lit) : DN N.literal l.words l.r.v := by
  match l with
  | .str b => exact Der.unit 280 rfl rfl (Der.closedL 287 rfl rfl DL.str1 ev) ev
  | .bool true => exact Der.unit 281 rfl rfl (Der.closedL 288 rfl rfl DL.kw1 ev) ev
  | .bool false => exact Der.unit 281 rfl rfl (Der.closedL 289 rfl rfl DL.kw1 ev) ev
  | .num n => exact Der.unit 282 rfl rfl n.der ev
  | .null => exact Der.unit 283 rfl rfl (Der.closedL 293 rfl rfl DL.kw1 ev) ev
  | .date b h => exact Der.unit 284 rfl rfl (Der.closedL 294 rfl rfl (DL.kw DL.str1) (ev294 ((dateOk_iff b).2 h))) ev
  | .interval i => exact Der.unit 285 rfl rfl i.der ev

theorem param_der (k : Nat) : DN N.literal [.par k] (Expr.param k).r.v := by
  refine Der.unit 286 rfl rfl (Y := N.param_expr) (v := (Expr.param k).r.v) ?_ ev
  intro ts n hs hn
  obtain ⟨t, rfl, h1, h2⟩ := spelled_one hs
  obtain ⟨rfl, _⟩ := hn
  refine ⟨.node 298 [.leaf t], ⟨by omega, by rw [rules_len]; omega, by simp only [List.map_cons, List.map_nil, Tree.sym, h1]; rfl, trivial, trivial⟩, rfl, by simp [Tree.yield, yieldL], ?_, ?_, ?_⟩
  · intro b _
    refine ⟨?_, ?_, trivial, trivial⟩
    · unfold forbidReduce; rw [not_contested (by omega) (by decide), Bool.false_and]
    · intro c Y a _ _ _ _; unfold forbidShift; rw [not_contested (by omega) (by decide), Bool.false_and]
  · intro Y a _ hL
    rcases hL with hL | hL
    · cases hL
    · cases hL
  · rw [den, denL, den]
    simp only [denL, evRule298]
    rfl

theorem SimpleType.der (t : SimpleType) : DT N.column_type (Sql.kw t.kw) (typeV t.v 0 0 0) := by
  cases t
  · exact Der.any_node 67 rfl rfl DL.kw1 ev
  · exact Der.any_node 68 rfl rfl DL.kw1 ev
  · exact Der.any_node 71 rfl rfl DL.kw1 ev
  · exact Der.any_node 72 rfl rfl DL.kw1 ev
  · exact Der.any_node 74 rfl rfl DL.kw1 ev
  · exact Der.any_node 75 rfl rfl DL.kw1 ev
  · exact Der.any_node 76 rfl rfl DL.kw1 ev
  · exact Der.any_node 77 rfl rfl DL.kw1 ev
  · exact Der.any_node 78 rfl rfl DL.kw1 ev
  · exact Der.any_node 79 rfl rfl DL.kw1 ev
  · exact Der.any_node 80 rfl rfl DL.kw1 ev
  · exact Der.any_node 81 rfl rfl DL.kw1 ev
  · exact Der.any_node 83 rfl rfl DL.kw1 ev

theorem ColType.der (t : ColType) : DT N.column_type t.words t.v := by
  match t with
  | .simple t => exact t.der
  | .char n => exact Der.any_node 69 rfl rfl (DL.kw (DL.kw (DL.int DL.kw1))) ev
  | .varchar n => exact Der.any_node 84 rfl rfl (DL.kw (DL.kw (DL.int DL.kw1))) ev
  | .characterVarying n => exact Der.any_node 70 rfl rfl (DL.kw (DL.kw (DL.int DL.kw1))) ev
  | .decimal => exact Der.any_node 73 rfl rfl (DL.kw (DerL.last (Der.eps 89 rfl rfl ev).any)) ev
  | .decimal1 p => exact Der.any_node 73 rfl rfl (DL.kw (DerL.last (Der.any_node 88 rfl rfl (DL.kw (DL.int DL.kw1)) ev))) ev
  | .decimal2 p s => exact Der.any_node 73 rfl rfl (DL.kw (DerL.last (Der.any_node 87 rfl rfl (DL.kw (DL.int (DL.kw (DL.int DL.kw1)))) ev))) ev
  | .time => exact Der.any_node 82 rfl rfl (DL.kw (DerL.last (Der.eps 86 rfl rfl ev).any)) ev
  | .time1 p => exact Der.any_node 82 rfl rfl (DL.kw (DerL.last (Der.any_node 85 rfl rfl (DL.kw (DL.int DL.kw1)) ev))) ev

theorem alias_as (n : Name) : DT N.alias (cat [kw T.AS, nm n]) (aliasV n .null) := Der.any_node 317 rfl rfl (DL.kw DL.id1) ev
theorem alias_bare (n : Name) : DT N.alias (nm n) (aliasV n .null) := Der.any_node 318 rfl rfl DL.id1 ev

/-- The value of an optional alias before it is put into the expression. -/
def Alias.v : Alias → V
  | .none => .null
  | .as n => aliasV n .null
  | .bare n => aliasV n .null

theorem Alias.der (a : Alias) : DT N.opt_alias a.words a.v := by
  match a with
  | .none => exact (Der.eps 320 rfl rfl ev).any
  | .as n => exact Der.unit 319 rfl rfl (alias_as n) ev
  | .bare n => exact Der.unit 319 rfl rfl (alias_bare n) ev

theorem TAlias.der (a : TAlias) : DT N.opt_table_alias a.words a.v := by
  match a with
  | .plain .none => exact (Der.eps 316 rfl rfl ev).any
  | .plain (.as n) => exact Der.unit 315 rfl rfl (Der.unit 313 rfl rfl (alias_as n) ev) ev
  | .plain (.bare n) => exact Der.unit 315 rfl rfl (Der.unit 313 rfl rfl (alias_bare n) ev) ev
  | .cols n l => exact Der.unit 315 rfl rfl (Der.any_node 314 rfl rfl (DL.kw (DL.id (DL.kw (DL.top l.der DL.kw1)))) ev) ev

theorem Dir.der (d : Dir) : DT N.opt_order_type d.words (.int d.v) := by
  cases d
  · exact (Der.eps 160 rfl rfl ev).any
  · exact Der.any_node 158 rfl rfl DL.kw1 ev
  · exact Der.any_node 159 rfl rfl DL.kw1 ev

theorem Nulls.der (d : Nulls) : DT N.opt_null_ordering d.words (.int d.v) := by
  cases d with
  | none => exact (Der.eps 161 rfl rfl ev).any
  | first a b h1 h2 => exact Der.any_node 162 rfl rfl (DL.id DL.id1) fun n => by rw [ev162, if_pos h1, if_pos h2]; rfl
  | last a b h1 h2 =>
    have h3 : eqNoCase b b!"first" = false := (eqNoCase_trans h2).trans (by decide)
    exact Der.any_node 162 rfl rfl (DL.id DL.id1) fun n => by rw [ev162, if_pos h1, if_neg (by simp [h3]), if_pos h2]; rfl

theorem FrameType.der (t : FrameType) : DT N.frame_type (Sql.kw t.kw) (.int t.v) := by
  cases t
  · exact Der.any_node 249 rfl rfl DL.kw1 ev
  · exact Der.any_node 250 rfl rfl DL.kw1 ev
  · exact Der.any_node 251 rfl rfl DL.kw1 ev

theorem Bound.der (b : Bound) : DT N.frame_bound b.words b.v := by
  cases b
  · exact Der.any_node 252 rfl rfl (DL.kw DL.kw1) ev
  · exact Der.any_node 253 rfl rfl (DL.int DL.kw1) ev
  · exact Der.any_node 254 rfl rfl (DL.kw DL.kw1) ev
  · exact Der.any_node 255 rfl rfl (DL.int DL.kw1) ev
  · exact Der.any_node 256 rfl rfl DL.kw1 ev

theorem Bound.v_obj (b : Bound) : ∃ fs, b.v = .obj 0 .FrameBound fs := by cases b <;> exact ⟨_, rfl⟩

theorem Frame.der (f : Frame) : DT N.opt_frame_clause f.words f.v := by
  match f with
  | .none => exact (Der.eps 248 rfl rfl ev).any
  | .start t b =>
    refine Der.any_node 246 rfl rfl (DL.top t.der (DerL.last b.der)) ?_
    simp only [Frame.v]
    obtain ⟨fs, h⟩ := b.v_obj
    rw [h]
    exact ev
  | .between t b e =>
    refine Der.any_node 247 rfl rfl (DL.top t.der (DL.kw (DL.top b.der (DL.kw (DerL.last e.der))))) ?_
    simp only [Frame.v]
    obtain ⟨fs, h⟩ := b.v_obj
    obtain ⟨gs, h'⟩ := e.v_obj
    rw [h, h']
    exact ev

/-- The set operation before its operand is put into it. -/
def SetOp.v0 (op : SetOp) : V := op.v .null .null .null

theorem SetOp.der (op : SetOp) : DT N.set_operator op.words op.v0 := by
  have h1 : ∀ t : SetType, DT N.set_type (Sql.kw t.kw) (.obj 0 .SetOperation [.int t.v, .undef, .null, .null, .null]) := by
    intro t
    cases t
    · exact Der.any_node 135 rfl rfl DL.kw1 ev
    · exact Der.any_node 136 rfl rfl DL.kw1 ev
    · exact Der.any_node 137 rfl rfl DL.kw1 ev
  match op with
  | ⟨t, false⟩ =>
    have := Der.any_node (ws := Sql.kw t.kw ++ []) (v := SetOp.v0 ⟨t, false⟩) 134 rfl rfl (DL.top (h1 t) (DerL.last (Der.eps 139 rfl rfl (v := .int 0) ev).any)) ev
    rwa [List.append_nil] at this
  | ⟨t, true⟩ => exact Der.any_node 134 rfl rfl (DL.top (h1 t) (DerL.last (Der.any_node 138 rfl rfl DL.kw1 (v := .int 1) ev))) ev

theorem LockMode.der (m : LockMode) : DT N.row_lock_mode m.words (.int m.v) := by
  cases m
  · exact Der.any_node 327 rfl rfl DL.kw1 ev
  · exact Der.any_node 328 rfl rfl (DL.kw (DL.kw DL.kw1)) ev
  · exact Der.any_node 329 rfl rfl DL.kw1 ev
  · exact Der.any_node 330 rfl rfl (DL.kw DL.kw1) ev

theorem LockWait.der (m : LockWait) : DT N.opt_row_lock_policy m.words (.int m.v) := by
  cases m
  · exact (Der.eps 333 rfl rfl ev).any
  · exact Der.any_node 331 rfl rfl (DL.kw DL.kw1) ev
  · exact Der.any_node 332 rfl rfl DL.kw1 ev

theorem Lock.der (k : Lock) : DT N.locking_clause k.words k.v := by
  match k with
  | ⟨m, none, w⟩ => exact Der.any_node 325 rfl rfl (DL.kw (DL.top m.der (DerL.last w.der))) ev
  | ⟨m, some l, w⟩ => exact Der.any_node 326 rfl rfl (DL.kw (DL.top m.der (DL.kw (DL.top l.der (DerL.last w.der))))) ev

theorem Lock.v_obj (k : Lock) : ∃ fs, k.v = .obj 0 .LockingClause fs := by
  match k with
  | ⟨m, none, w⟩ => exact ⟨_, rfl⟩
  | ⟨m, some l, w⟩ => exact ⟨_, rfl⟩

theorem LockList.der : ∀ l : LockList, DT N.opt_locking_clause_list l.words (.vec 0 l.vals)
  | .one k => by
    refine Der.any_node 323 rfl rfl (DerL.last k.der) ?_
    simp only [LockList.vals]
    obtain ⟨fs, h⟩ := k.v_obj
    rw [h]
    exact ev
  | .snoc l k => by
    refine Der.any_node 324 rfl rfl (DL.top l.der (DerL.last k.der)) ?_
    simp only [LockList.vals]
    obtain ⟨fs, h⟩ := k.v_obj
    rw [h]
    exact ev

theorem Locks.der (l : Locks) : DT N.opt_locking_clause l.words l.v := by
  match l with
  | .none => exact (Der.eps 322 rfl rfl ev).any
  | .some l => exact Der.unit 321 rfl rfl l.der ev

theorem JoinType.der (j : JoinType) : DT N.opt_join_type j.words (.int j.v) := by
  match j with
  | .none => exact (Der.eps 352 rfl rfl ev).any
  | .inner => exact Der.any_node 343 rfl rfl DL.kw1 ev
  | .left false => exact Der.any_node 345 rfl rfl DL.kw1 ev
  | .left true => exact Der.any_node 344 rfl rfl (DL.kw DL.kw1) ev
  | .right false => exact Der.any_node 347 rfl rfl DL.kw1 ev
  | .right true => exact Der.any_node 346 rfl rfl (DL.kw DL.kw1) ev
  | .full false => exact Der.any_node 350 rfl rfl DL.kw1 ev
  | .full true => exact Der.any_node 348 rfl rfl (DL.kw DL.kw1) ev
  | .outer => exact Der.any_node 349 rfl rfl DL.kw1 ev
  | .cross => exact Der.any_node 351 rfl rfl DL.kw1 ev

theorem top_der (t : Option Int) : DT N.opt_top (topWords t) (topV t) := by
  match t with
  | none => exact (Der.eps 164 rfl rfl ev).any
  | some n => exact Der.any_node 163 rfl rfl (DL.kw (DerL.last (int_der n).any)) ev

theorem distinct_der (d : Bool) : DT N.opt_distinct (distinctKw d) (flag d) := by
  match d with
  | false => exact (Der.eps 142 rfl rfl ev).any
  | true => exact Der.any_node 141 rfl rfl DL.kw1 ev

end Verif.Sql

import Verif.Sql.BindWords
import Verif.Sem.Fill
/-! Binding parameters commutes with taking the objects. Proof-internal. -/
namespace Verif.Sql
open Verif.Lex Verif.LR Verif.Sem

section
variable (f : Nat → Lit)

/-- Binding the parameters in the one gives the other. -/
def R (v v' : V) : Prop := bindP f v.fill = v'.fill
def RL (vs vs' : List V) : Prop := bindPL f (fillL vs) = fillL vs'

theorem bindPL_map : ∀ vs : List V, bindPL f vs = vs.map (bindP f)
  | [] => rfl
  | v :: vs => by rw [bindPL, List.map_cons, bindPL_map vs]

variable {f}
theorem RL.nil : RL f [] [] := rfl
theorem RL.cons {v v' : V} {vs vs' : List V} (h : R f v v') (h' : RL f vs vs') : RL f (v :: vs) (v' :: vs') := by
  simp only [RL, R, fillL, bindPL] at *; rw [h, h']
theorem RL.append {vs vs' us us' : List V} (h : RL f vs vs') (h' : RL f us us') : RL f (vs ++ us) (vs' ++ us') := by
  simp only [RL, fillL_map, bindPL_map, List.map_append] at *; rw [h, h']
theorem RL.snoc {vs vs' : List V} {v v' : V} (h : RL f vs vs') (h' : R f v v') : RL f (vs ++ [v]) (vs' ++ [v']) := h.append (RL.nil.cons h')
theorem R.vec {a : Nat} {vs vs' : List V} (h : RL f vs vs') : R f (.vec a vs) (.vec a vs') := by simp only [R, V.fill, bindP]; rw [h]
theorem R.tup {vs vs' : List V} (h : RL f vs vs') : R f (.tup vs) (.tup vs') := by simp only [R, V.fill, bindP]; rw [h]
theorem isPar_eq (c : Cls) (fs : List V) : isParameter c fs = isPar c fs := rfl
theorem isPar_other {c : Cls} (hc : c ≠ .Expr) (fs : List V) : isPar c fs = false := by
  unfold isPar
  split
  · exact absurd rfl hc
  · rfl
theorem R.obj {a : Nat} {c : Cls} {fs fs' : List V} (h : RL f fs fs') (hc : c ≠ .Expr := by decide) : R f (.obj a c fs) (.obj a c fs') := by
  simp only [R, V.fill, bindP, isPar_eq, isPar_other hc, Bool.false_eq_true, if_false, cond_false]; rw [h]
theorem R.ovec {vs vs' : List V} (h : RL f vs vs') : R f (ovec vs) (ovec vs') := by
  cases vs with
  | nil =>
    cases vs' with
    | nil => rfl
    | cons v' vs' => cases h
  | cons v vs =>
    cases vs' with
    | nil => cases h
    | cons v' vs' => exact R.vec h
theorem R.ostr (o : Option Name) : R f (ostr o) (ostr o) := by cases o <;> rfl
theorem RL.names : ∀ l : Names, RL f l.vals l.vals
  | .one n => rfl
  | .snoc l n => (RL.names l).snoc rfl
theorem R.names (l : Names) : R f l.v l.v := .vec (RL.names l)
theorem R.colType (t : ColType) : R f t.v t.v := by cases t <;> rfl
theorem R.talias (t : TAlias) : R f t.v t.v := by
  cases t with
  | plain a => cases a <;> rfl
  | cols n l => exact .obj (.cons rfl (.cons (R.names l) .nil))
theorem R.frame (t : Frame) : R f t.v t.v := by
  cases t with
  | none => rfl
  | start t b => cases b <;> rfl
  | between t b e => cases b <;> cases e <;> rfl
theorem RL.locks : ∀ l : LockList, RL f l.vals l.vals
  | .one ⟨m, none, w⟩ => rfl
  | .one ⟨m, some n, w⟩ => RL.nil.cons (.obj (.cons rfl (.cons rfl (.cons (R.names n) .nil))))
  | .snoc l ⟨m, none, w⟩ => (RL.locks l).snoc rfl
  | .snoc l ⟨m, some n, w⟩ => (RL.locks l).snoc (.obj (.cons rfl (.cons rfl (.cons (R.names n) .nil))))
theorem R.locks (l : Locks) : R f l.v l.v := by
  cases l with
  | none => rfl
  | some l => exact .vec (RL.locks l)

variable (f)
/-- The same for the fields of an expression that is not a parameter. -/
structure RE (q q' : ExprV) : Prop where
  type : q'.type = q.type := by rfl
  lit : (q.type == ExprType.kExprParameter) = false := by rfl
  expr : R f q.expr q'.expr := by rfl
  expr2 : R f q.expr2 q'.expr2 := by rfl
  exprList : R f q.exprList q'.exprList := by rfl
  select : R f q.select q'.select := by rfl
  name : R f q.name q'.name := by rfl
  table : R f q.table q'.table := by rfl
  schema : R f q.schema q'.schema := by rfl
  alias : R f q.alias q'.alias := by rfl
  fval : R f q.fval q'.fval := by rfl
  ival : R f q.ival q'.ival := by rfl
  ival2 : R f q.ival2 q'.ival2 := by rfl
  datetimeField : q'.datetimeField = q.datetimeField := by rfl
  columnType : R f q.columnType q'.columnType := by rfl
  isBoolLiteral : q'.isBoolLiteral = q.isBoolLiteral := by rfl
  opType : q'.opType = q.opType := by rfl
  distinct : q'.distinct = q.distinct := by rfl
  window : R f q.window q'.window := by rfl
/-- The same for the fields of a query. -/
structure RS (q q' : SelV) : Prop where
  fromTable : R f q.fromTable q'.fromTable := by rfl
  selectDistinct : q'.selectDistinct = q.selectDistinct := by rfl
  selectList : R f q.selectList q'.selectList := by rfl
  whereClause : R f q.whereClause q'.whereClause := by rfl
  groupBy : R f q.groupBy q'.groupBy := by rfl
  setOperations : RL f q.setOperations q'.setOperations := by rfl
  order : R f q.order q'.order := by rfl
  withDescriptions : R f q.withDescriptions q'.withDescriptions := by rfl
  limit : R f q.limit q'.limit := by rfl
  lockings : R f q.lockings q'.lockings := by rfl
/-- The same for the fields of a table. -/
structure RT (q q' : TableV) : Prop where
  type : q'.type = q.type := by rfl
  schema : R f q.schema q'.schema := by rfl
  name : R f q.name q'.name := by rfl
  alias : R f q.alias q'.alias := by rfl
  select : R f q.select q'.select := by rfl
  list : R f q.list q'.list := by rfl
  join : R f q.join q'.join := by rfl
variable {f}

theorem RE.np {q q' : ExprV} (h : RE f q q') : q.type ≠ ExprType.kExprParameter := by simpa using h.lit
theorem R.int (n : Int) : R f (.int n) (.int n) := rfl
theorem R.int' {n m : Int} (h : m = n) : R f (.int n) (.int m) := by rw [h]; rfl

theorem RE.v {q q' : ExprV} (h : RE f q q') : R f q.v q'.v := by
  have e : isPar .Expr [.int q.type, q.expr, q.expr2, q.exprList, q.select, q.name, q.table, q.schema, q.alias, q.fval, q.ival, q.ival2,
      .int q.datetimeField, q.columnType, .int q.isBoolLiteral, .int q.opType, .int q.distinct, q.window] = false := by simp [isPar, h.np]
  have e' : isPar .Expr [.int q'.type, q'.expr, q'.expr2, q'.exprList, q'.select, q'.name, q'.table, q'.schema, q'.alias, q'.fval, q'.ival, q'.ival2,
      .int q'.datetimeField, q'.columnType, .int q'.isBoolLiteral, .int q'.opType, .int q'.distinct, q'.window] = false := by simp [isPar, h.type, h.np]
  have hl : RL f [.int q.type, q.expr, q.expr2, q.exprList, q.select, q.name, q.table, q.schema, q.alias, q.fval, q.ival, q.ival2,
      .int q.datetimeField, q.columnType, .int q.isBoolLiteral, .int q.opType, .int q.distinct, q.window]
      [.int q'.type, q'.expr, q'.expr2, q'.exprList, q'.select, q'.name, q'.table, q'.schema, q'.alias, q'.fval, q'.ival, q'.ival2,
      .int q'.datetimeField, q'.columnType, .int q'.isBoolLiteral, .int q'.opType, .int q'.distinct, q'.window] :=
    .cons (.int' h.type) <| .cons h.expr <| .cons h.expr2 <| .cons h.exprList <| .cons h.select <| .cons h.name <| .cons h.table <| .cons h.schema <| .cons h.alias <|
      .cons h.fval <| .cons h.ival <| .cons h.ival2 <| .cons (.int' h.datetimeField) <| .cons h.columnType <| .cons (.int' h.isBoolLiteral) <| .cons (.int' h.opType) <|
      .cons (.int' h.distinct) <| .cons h.window .nil
  rw [R, ExprV.v, ExprV.v, V.fill, V.fill, e, e']
  simp only [Bool.false_eq_true, if_false, bindP]
  rw [← hl]
  congr 1
  rw [show isParameter .Expr (fillL [.int q.type, q.expr, q.expr2, q.exprList, q.select, q.name, q.table, q.schema, q.alias, q.fval, q.ival, q.ival2,
      .int q.datetimeField, q.columnType, .int q.isBoolLiteral, .int q.opType, .int q.distinct, q.window]) = false by
    simp [isParameter, fillL, V.fill, h.np]]
  rfl

theorem RE.put {q q' : ExprV} (h : RE f q q') (a : Alias) : R f (a.put q).v (a.put q').v := by
  cases a with
  | none => exact h.v
  | as n => exact RE.v { h with alias := rfl }
  | bare n => exact RE.v { h with alias := rfl }

theorem R.flag {a b : Bool} (h : b = a) : R f (flag a) (flag b) := by rw [h]; rfl

theorem RS.stmt {q q' : SelV} (h : RS f q q') : q'.stmt.cls = q.stmt.cls ∧ RL f q.stmt.fields q'.stmt.fields :=
  ⟨rfl, .cons rfl <| .cons h.fromTable <| .cons (R.flag h.selectDistinct) <| .cons h.selectList <| .cons h.whereClause <| .cons h.groupBy <|
    .cons (R.ovec h.setOperations) <| .cons h.order <| .cons h.withDescriptions <| .cons h.limit <| .cons h.lockings .nil⟩
theorem RS.v {q q' : SelV} (h : RS f q q') : R f q.v q'.v := R.obj (c := .SelectStatement) (.cons rfl (.cons rfl h.stmt.2))
theorem RT.v {q q' : TableV} (h : RT f q q') : R f q.v q'.v :=
  .obj (.cons (.int' h.type) <| .cons h.schema <| .cons h.name <| .cons h.alias <| .cons h.select <| .cons h.list <| .cons h.join .nil)

theorem R.lit (l : Lit) : RE f l.r l.r := by
  cases l with
  | num n => cases n <;> exact {}
  | bool b => cases b <;> exact {}
  | interval i => cases i <;> exact {}
  | _ => exact {}

theorem R.param (k : Nat) (a : Alias) : R f (a.put (Expr.param k).r).v (a.put (f k).r).v := by
  have key : ∀ l : Lit, f k = l → R f (a.put (Expr.param k).r).v (a.put l.r).v := by
    intro l hl
    cases l with
    | num n => cases a <;> cases n <;> simp [R, Expr.r, Alias.put, ExprV.v, V.fill, isPar, fillL, newIval, V.isNum, parKey, numOf, bindP, isParameter, paramNumber, literalFields, hl, Lit.r, Num.r] <;> (intro h; exact absurd h (by decide))
    | bool b => cases a <;> simp [R, Expr.r, Alias.put, ExprV.v, V.fill, isPar, fillL, newIval, V.isNum, parKey, numOf, bindP, isParameter, paramNumber, literalFields, hl, Lit.r] <;> (intro h; exact absurd h (by decide))
    | interval i => cases a <;> cases i <;> simp [R, Expr.r, Alias.put, ExprV.v, V.fill, isPar, fillL, newIval, V.isNum, parKey, numOf, bindP, isParameter, paramNumber, literalFields, hl, Lit.r, Interval.r] <;> (intro h; exact absurd h (by decide))
    | _ => cases a <;> simp [R, Expr.r, Alias.put, ExprV.v, V.fill, isPar, fillL, newIval, V.isNum, parKey, numOf, bindP, isParameter, paramNumber, literalFields, hl, Lit.r] <;> (intro h; exact absurd h (by decide))
  exact key _ rfl

theorem RE.negate {q q' : ExprV} (h : RE f q q') (no : Bool) : RE f (negate no q) (negate no q') := by
  cases no with
  | false => exact h
  | true => exact { expr := h.v }

theorem R.topV (t : Option Int) : R f (topV t) (topV t) := by cases t <;> rfl
end

variable (f : Nat → Lit)
theorem Args.bind_distinct (a : Args) : (a.bind f).distinct = a.distinct := by cases a <;> rfl

mutual
theorem Expr.bind_put : ∀ (e : Expr) (a : Alias), R f (a.put e.r).v (a.put (e.bind f).r).v
  | .lit l, a => (R.lit l).put a
  | .param k, a => R.param k a
  | .col t n, a => RE.put { table := R.ostr t } a
  | .star t, a => RE.put { table := R.ostr t } a
  | .paren e, a => e.bind_put a
  | .query s, a => RE.put { select := (s.bind_r).v } a
  | .neg e, a => RE.put { expr := e.bind_put .none } a
  | .not e, a => RE.put { expr := e.bind_put .none } a
  | .isNull _ e, a => RE.put { expr := e.bind_put .none } a
  | .isNotNull e, a => RE.put (RE.negate { expr := e.bind_put .none } true) a
  | .bin o x y, a => RE.put { expr := x.bind_put .none, expr2 := y.bind_put .none } a
  | .logic o x y, a => RE.put { expr := x.bind_put .none, expr2 := y.bind_put .none } a
  | .inList no e l, a => RE.put (RE.negate { expr := e.bind_put .none, exprList := .vec l.bind_vals } no) a
  | .inQuery no e s, a => RE.put (RE.negate { expr := e.bind_put .none, select := (s.bind_r).v } no) a
  | .between e lo hi, a => RE.put { expr := e.bind_put .none, exprList := .vec (.cons (lo.bind_put .none) (.cons (hi.bind_put .none) .nil)) } a
  | .exist no s, a => RE.put (RE.negate { select := (s.bind_r).v } no) a
  | .case x l e, a => RE.put { expr := x.bind_v, expr2 := e.bind_v, exprList := .vec l.bind_vals } a
  | .call s n x w, a => RE.put { schema := R.ostr s, exprList := .vec x.bind_vals, window := w.bind_v, distinct := by simp only [Expr.bind, Expr.r, Args.bind_distinct] } a
  | .extract d e, a => RE.put { expr := e.bind_put .none } a
  | .cast e t, a => RE.put { expr := e.bind_put .none, columnType := R.colType t } a
  | .array l, a => RE.put { exprList := .vec l.bind_vals } a
  | .index e n, a => RE.put { expr := e.bind_put .none } a
theorem OExpr.bind_v : ∀ e : OExpr, R f e.v (e.bind f).v
  | .none => rfl
  | .some e => e.bind_put .none
theorem Items.bind_vals : ∀ l : Items, RL f l.vals (l.bind f).vals
  | .one e a => .cons (e.bind_put a) .nil
  | .snoc l e a => l.bind_vals.snoc (e.bind_put a)
theorem Whens.bind_vals : ∀ l : Whens, RL f l.vals (l.bind f).vals
  | .one w t => .cons (RE.v { expr := w.bind_put .none, expr2 := t.bind_put .none }) .nil
  | .snoc l w t => l.bind_vals.snoc (RE.v { expr := w.bind_put .none, expr2 := t.bind_put .none })
theorem Args.bind_vals : ∀ l : Args, RL f l.vals (l.bind f).vals
  | .none => rfl
  | .some d l => l.bind_vals
theorem Window.bind_v : ∀ w : Window, R f w.v (w.bind f).v
  | .none => rfl
  | .over p o fr => .obj (.cons p.bind_v (.cons o.bind_v (.cons (R.frame fr) .nil)))
theorem Partition.bind_v : ∀ p : Partition, R f p.v (p.bind f).v
  | .none => rfl
  | .by l => .vec l.bind_vals
theorem Order.bind_v : ∀ p : Order, R f p.v (p.bind f).v
  | .none => rfl
  | .by l => .vec l.bind_vals
theorem Orders.bind_vals : ∀ l : Orders, RL f l.vals (l.bind f).vals
  | .one e d n => .cons (.obj (.cons rfl (.cons (e.bind_put .none) (.cons rfl .nil)))) .nil
  | .snoc l e d n => l.bind_vals.snoc (.obj (.cons rfl (.cons (e.bind_put .none) (.cons rfl .nil))))
theorem Sel.bind_r : ∀ s : Sel, RS f s.r (s.bind f).r
  | .plain c o .none k => { c.bind_r with order := o.bind_v, limit := c.bind_r.limit, lockings := R.locks k }
  | .plain c o (.limit e) k => { c.bind_r with order := o.bind_v, limit := (Limit.limit e).bind_v, lockings := R.locks k }
  | .plain c o (.offset e) k => { c.bind_r with order := o.bind_v, limit := (Limit.offset e).bind_v, lockings := R.locks k }
  | .plain c o (.both e p) k => { c.bind_r with order := o.bind_v, limit := (Limit.both e p).bind_v, lockings := R.locks k }
  | .plain c o .all k => { c.bind_r with order := o.bind_v, limit := Limit.all.bind_v, lockings := R.locks k }
  | .plain c o (.allOffset e) k => { c.bind_r with order := o.bind_v, limit := (Limit.allOffset e).bind_v, lockings := R.locks k }
  | .set c op r o l k => { c.bind_r with setOperations := .cons (.obj (.cons rfl (.cons rfl (.cons r.bind_r.v (.cons o.bind_v (.cons l.bind_v .nil)))))) .nil, lockings := R.locks k }
theorem PSel.bind_r : ∀ s : PSel, RS f s.r (s.bind f).r
  | .one s => s.bind_r
  | .more s => s.bind_r
theorem Within.bind_r : ∀ s : Within, RS f s.r (s.bind f).r
  | .paren s => s.bind_r
  | .clause c => c.bind_r
  | .set c op r => { c.bind_r with setOperations := .cons (.obj (.cons rfl (.cons rfl (.cons r.bind_r.v (.cons rfl (.cons rfl .nil)))))) .nil }
theorem Clause.bind_r : ∀ s : Clause, RS f s.r (s.bind f).r
  | .mk t d l fr w g => { limit := R.topV t, selectList := .vec l.bind_vals, fromTable := fr.bind_v, whereClause := w.bind_v, groupBy := g.bind_v }
theorem Group.bind_v : ∀ g : Group, R f g.v (g.bind f).v
  | .none => rfl
  | .by l h => .obj (.cons (.vec l.bind_vals) (.cons h.bind_v .nil))
theorem Limit.bind_v : ∀ g : Limit, R f g.v (g.bind f).v
  | .none => rfl
  | .limit e => .obj (.cons (e.bind_put .none) (.cons rfl .nil))
  | .offset e => .obj (.cons rfl (.cons (e.bind_put .none) .nil))
  | .both e o => .obj (.cons (e.bind_put .none) (.cons (o.bind_put .none) .nil))
  | .all => rfl
  | .allOffset e => .obj (.cons rfl (.cons (e.bind_put .none) .nil))
theorem From.bind_v : ∀ g : From, R f g.v (g.bind f).v
  | .none => rfl
  | .one t => t.bind_r.v
  | .many l t => RT.v { list := .vec (l.bind_vals.snoc t.bind_r.v) }
theorem Tables.bind_vals : ∀ g : Tables, RL f g.vals (g.bind f).vals
  | .one t => .cons t.bind_r.v .nil
  | .snoc l t => l.bind_vals.snoc t.bind_r.v
theorem TableN.bind_r : ∀ g : TableN, RT f g.r (g.bind f).r
  | .name t a => { schema := R.ostr t.schema, alias := R.talias a }
  | .query s a => { select := s.bind_r.v, alias := R.talias a }
theorem Table.bind_r : ∀ g : Table, RT f g.r (g.bind f).r
  | .base t => t.bind_r
  | .natural l r => { join := .obj (.cons l.bind_r.v (.cons r.bind_r.v (.cons rfl (.cons rfl (.cons rfl .nil))))) }
  | .on l j r c => { join := .obj (.cons l.bind_r.v (.cons r.bind_r.v (.cons (c.bind_put .none) (.cons rfl (.cons rfl .nil))))) }
  | .using l j r cols => { join := .obj (.cons l.bind_r.v (.cons r.bind_r.v (.cons rfl (.cons (R.names cols) (.cons rfl .nil))))) }
theorem Query.bind_r : ∀ g : Query, RS f g.r (g.bind f).r
  | .paren w s => { s.bind_r with withDescriptions := w.bind_v }
  | .plain w s => { s.bind_r with withDescriptions := w.bind_v }
  | .set w s op n o l => { s.bind_r with
      setOperations := s.bind_r.setOperations.snoc (.obj (.cons rfl (.cons rfl (.cons n.bind_r.v (.cons o.bind_v (.cons l.bind_v .nil)))))), withDescriptions := w.bind_v }
theorem With.bind_v : ∀ g : With, R f g.v (g.bind f).v
  | .none => rfl
  | .some l => .vec l.bind_vals
theorem Withs.bind_vals : ∀ g : Withs, RL f g.vals (g.bind f).vals
  | .one n s => .cons (.obj (.cons rfl (.cons s.bind_r.v .nil))) .nil
  | .snoc l n s => l.bind_vals.snoc (.obj (.cons rfl (.cons s.bind_r.v .nil)))
end

end Verif.Sql

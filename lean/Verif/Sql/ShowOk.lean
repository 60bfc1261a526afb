import Verif.Sql.Show
import Verif.Api.PrintMono
import Verif.Sem.Denote
/-! The printing functions on the AST of abstract SQL print what `Verif.Sql.Show` says. Proof-internal. -/
namespace Verif.Sql
open Verif.Lex Verif.LR Verif.Sem Verif.Print

/-- For all sufficiently large bounds of the recursion, the call prints these lines. -/
def Shows (f : Nat → Print.Out) (ls : List Line) : Prop := ∃ K, ∀ k, K ≤ k → f k = .ok ls

theorem Shows.app {f g : Nat → Print.Out} {a b : List Line} (h : Shows f a) (h' : Shows g b) : Shows (fun k => f k ++ g k) (a ++ b) := by
  obtain ⟨K, h⟩ := h
  obtain ⟨K', h'⟩ := h'
  refine ⟨K + K', fun k hk => ?_⟩
  show f k ++ g k = _
  rw [h k (by omega), h' k (by omega)]; rfl
theorem Shows.succ {f : Nat → Print.Out} {a : List Line} (h : Shows (fun k => f (k + 1)) a) : Shows f a := by
  obtain ⟨K, h⟩ := h
  refine ⟨K + 1, fun k hk => ?_⟩
  obtain ⟨j, rfl⟩ : ∃ j, k = j + 1 := ⟨k - 1, by omega⟩
  exact h j (by omega)
theorem shows_const (ls : List Line) : Shows (fun _ => .ok ls) ls := ⟨0, fun _ _ => rfl⟩
theorem shows_nil : Shows (fun _ => .nil) [] := ⟨0, fun _ _ => rfl⟩
theorem shows_say (b : Bytes) (n : Nat) : Shows (fun _ => say b n) (ln b n) := ⟨0, fun _ _ => rfl⟩
theorem Shows.to {f : Nat → Print.Out} {a b : List Line} (h : Shows f a) (e : a = b) : Shows f b := e ▸ h
theorem Shows.congr {f g : Nat → Print.Out} {a : List Line} (h : Shows f a) (e : ∀ k, g k = f k) : Shows g a := by
  obtain ⟨K, h⟩ := h
  exact ⟨K, fun k hk => by rw [e k]; exact h k hk⟩

/-- The value of a result, without addresses. -/
abbrev gv (v : V) : V := e0 v.fill

theorem fillL_append (a b : List V) : fillL (a ++ b) = fillL a ++ fillL b := by
  induction a with
  | nil => rfl
  | cons x a ih => simp [fillL, ih]
theorem eL_append (a b : List V) : eL (a ++ b) = eL a ++ eL b := by
  induction a with
  | nil => rfl
  | cons x a ih => simp [eL, ih]
/-- The elements. -/
abbrev gL (vs : List V) : List V := eL (fillL vs)
theorem gL_append (a b : List V) : gL (a ++ b) = gL a ++ gL b := by rw [gL, fillL_append, eL_append]

theorem seqL_append (f : V → Print.Out) : ∀ (a b : List V), seqL f (a ++ b) = seqL f a ++ seqL f b
  | [], b => by
    show seqL f b = Print.Out.nil ++ seqL f b
    cases seqL f b <;> rfl
  | x :: a, b => by
    show f x ++ seqL f (a ++ b) = (f x ++ seqL f a) ++ seqL f b
    rw [seqL_append f a b]
    cases f x <;> cases seqL f a <;> cases seqL f b <;> first | rfl | (show Print.Out.ok _ = .ok _; rw [List.append_assoc])
theorem shows_snoc {f : Nat → V → Print.Out} {l : List V} {v : V} {a b : List Line} (h : Shows (fun k => seqL (f k) (gL l)) a) (h' : Shows (fun k => f k (gv v)) b) :
    Shows (fun k => seqL (f k) (gL (l ++ [v]))) (a ++ b) := by
  refine ((h.app (h'.app shows_nil)).to (by rw [List.append_nil])).congr fun k => ?_
  rw [gL_append, seqL_append]; rfl
theorem shows_one {f : Nat → V → Print.Out} {v : V} {b : List Line} (h' : Shows (fun k => f k (gv v)) b) :
    Shows (fun k => seqL (f k) (gL [v])) b :=
  ((h'.app shows_nil).to (by rw [List.append_nil])).congr fun _ => rfl

/-! ## Objects -/

def gE (r : ExprV) : V := .obj 0 .Expr [.int r.type, gv r.expr, gv r.expr2, gv r.exprList, gv r.select, gv r.name, gv r.table, gv r.schema, gv r.alias, gv r.fval, gv r.ival, gv r.ival2,
  .int r.datetimeField, gv r.columnType, .int r.isBoolLiteral, .int r.opType, .int r.distinct, gv r.window]
theorem g_expr {r : ExprV} (h : r.type ≠ ExprType.kExprParameter) : gv r.v = gE r := by
  simp [gv, ExprV.v, V.fill, isPar, h, fillL, e0, eL, gE]

/-- The alias in `printExpression`. -/
abbrev aliasOut (v : V) (n : Nat) : Print.Out := ifPtr v (say b!"Alias" (n + 1) ++ inprintStr v (n + 2))
theorem alias_out (a : Alias) {r : ExprV} (h : r.alias = .null) (n : Nat) : aliasOut (gv (a.put r).alias) n = .ok (a.show n) := by
  cases a
  · show aliasOut (gv r.alias) n = _
    rw [h]; rfl
  · rfl
  · rfl

/-- What `printExpression` does for a kind of expression, apart from the alias. -/
def core (k : Nat) (r : ExprV) (n : Nat) : Print.Out :=
  if r.type = ExprType.kExprStar then say b!"*" n
  else if r.type = ExprType.kExprColumnRef then inprintStr (gv r.name) n ++ ifPtr (gv r.table) (say b!"Table:" (n + 1) ++ inprintStr (gv r.table) (n + 2))
  else if r.type = ExprType.kExprLiteralFloat then inprintFlt (gv r.fval) n
  else if r.type = ExprType.kExprLiteralInt then inprintInt (gv r.ival) n
  else if r.type = ExprType.kExprLiteralString then inprintStr (gv r.name) n
  else if r.type = ExprType.kExprLiteralDate then inprintStr (gv r.name) n
  else if r.type = ExprType.kExprLiteralNull then say b!"NULL" n
  else if r.type = ExprType.kExprLiteralInterval then say b!"INTERVAL" n ++ inprintInt (gv r.ival) (n + 1) ++ inprintDate (.int r.datetimeField) (n + 1)
  else if r.type = ExprType.kExprFunctionRef then
    inprintStr (gv r.name) n ++ forEach (gv r.exprList) (fun x => printExpression k x (n + 1)) ++ ifPtr (gv r.window) (printWindowDescription k (gv r.window) (n + 1))
  else if r.type = ExprType.kExprExtract then say b!"EXTRACT" n ++ inprintDate (.int r.datetimeField) (n + 1) ++ printExpression k (gv r.expr) (n + 1)
  else if r.type = ExprType.kExprCast then say b!"CAST" n ++ inprintType (gv r.columnType) (n + 1) ++ printExpression k (gv r.expr) (n + 1)
  else if r.type = ExprType.kExprOperator then printOperatorExpression k (gE r) n
  else if r.type = ExprType.kExprSelect then printSelectStatementInfo k (gv r.select) n
  else if r.type = ExprType.kExprArray then forEach (gv r.exprList) (fun x => printExpression k x (n + 1))
  else if r.type = ExprType.kExprArrayIndex then printExpression k (gv r.expr) (n + 1) ++ inprintInt (gv r.ival) n
  else .ub

theorem expr_core (k : Nat) (q : ExprV) (n : Nat) : printExpression (k + 1) (gE q) n = core k q n ++ aliasOut (gv q.alias) n ∨ core k q n = .ub := by
  obtain ⟨type, x1, x2, x3, x4, x5, x6, x7, x8, x9, x10, x11, x12, x13, x14, x15, x16, x17⟩ := q
  by_cases h : type = 6 ∨ type = 8 ∨ type = 0 ∨ type = 2 ∨ type = 1 ∨ type = 4 ∨ type = 3 ∨ type = 5 ∨ type = 9 ∨ type = 15 ∨ type = 16 ∨ type = 10 ∨ type = 11 ∨ type = 13 ∨ type = 14
  · left
    rw [printExpression]
    rcases h with rfl | rfl | rfl | rfl | rfl | rfl | rfl | rfl | rfl | rfl | rfl | rfl | rfl | rfl | rfl <;> rfl
  · right
    simp only [not_or] at h
    obtain ⟨h1, h2, h3, h4, h5, h6, h7, h8, h9, h10, h11, h12, h13, h14, h15⟩ := h
    simp only [core, if_neg h1, if_neg h2, if_neg h3, if_neg h4, if_neg h5, if_neg h6, if_neg h7, if_neg h8, if_neg h9, if_neg h10, if_neg h11, if_neg h12, if_neg h13, if_neg h14,
      if_neg h15]

theorem core_put (k : Nat) (a : Alias) (r : ExprV) (n : Nat) : core k (a.put r) n = core k r n := by
  have ho : printOperatorExpression k (gE (a.put r)) n = printOperatorExpression k (gE r) n := by
    cases a with
    | none => rfl
    | «as» b => cases k <;> rw [printOperatorExpression, printOperatorExpression] <;> rfl
    | bare b => cases k <;> rw [printOperatorExpression, printOperatorExpression] <;> rfl
  unfold core
  rw [ho]
  cases a <;> rfl

theorem shows_expr {r : ExprV} {a : Alias} {n : Nat} {ls : List Line} (hal : r.alias = .null) (ht : decide (r.type = ExprType.kExprParameter) = false)
    (h : Shows (fun k => core k r n) ls) : Shows (fun k => printExpression k (gv (a.put r).v) n) (ls ++ a.show n) := by
  have ht' : (a.put r).type ≠ ExprType.kExprParameter := by cases a <;> exact of_decide_eq_false ht
  rw [g_expr ht']
  apply Shows.succ
  obtain ⟨K, h⟩ := h
  refine ⟨K, fun k hk => ?_⟩
  have h : core k r n = .ok ls := h k hk
  rw [← core_put k a] at h
  rcases expr_core k (a.put r) n with e | e
  · show printExpression (k + 1) _ n = _
    rw [e, h, alias_out a hal]; rfl
  · rw [e] at h; cases h

/-! ## Small parts -/

theorem Field.shown (f : Field) : dateText f.v = f.text := by cases f <;> rfl
theorem BinOp.shown (o : BinOp) : opText o.v = o.text := by cases o <;> rfl
theorem LogOp.shown (o : LogOp) : opText o.v = o.text := by cases o <;> rfl
theorem Interval.core_eq (i : Interval) (k n : Nat) : core k i.r n = .ok (i.show n) := by
  have : core k i.r n = say b!"INTERVAL" n ++ Print.Out.ok [⟨n + 1, .int i.amount⟩] ++ say (dateText i.unit.v) (n + 1) := by cases i <;> rfl
  rw [this, Field.shown]; rfl
theorem Num.core_eq (x : Num) (k n : Nat) : core k x.r n = .ok (x.show n) := by cases x <;> rfl
theorem Lit.core_eq (l : Lit) (k n : Nat) : core k l.r n = .ok (l.show n) := by
  cases l with
  | bool b => cases b <;> rfl
  | num x => exact x.core_eq k n
  | interval i => exact i.core_eq k n
  | _ => rfl
theorem Interval.plain (i : Interval) : i.r.alias = .null ∧ decide (i.r.type = ExprType.kExprParameter) = false := by cases i <;> exact ⟨rfl, rfl⟩
theorem Num.plain (i : Num) : i.r.alias = .null ∧ decide (i.r.type = ExprType.kExprParameter) = false := by cases i <;> exact ⟨rfl, rfl⟩
theorem Lit.plain (l : Lit) : l.r.alias = .null ∧ decide (l.r.type = ExprType.kExprParameter) = false := by
  cases l with
  | num x => exact x.plain
  | interval i => exact i.plain
  | _ => exact ⟨rfl, rfl⟩
theorem Interval.prints (i : Interval) (a : Alias) (n : Nat) : Shows (fun k => printExpression k (gv (a.put i.r).v) n) (i.show n ++ a.show n) :=
  shows_expr i.plain.1 i.plain.2 ⟨0, fun k _ => i.core_eq k n⟩
theorem Num.prints (i : Num) (a : Alias) (n : Nat) : Shows (fun k => printExpression k (gv (a.put i.r).v) n) (i.show n ++ a.show n) :=
  shows_expr i.plain.1 i.plain.2 ⟨0, fun k _ => i.core_eq k n⟩
theorem Lit.prints (i : Lit) (a : Alias) (n : Nat) : Shows (fun k => printExpression k (gv (a.put i.r).v) n) (i.show n ++ a.show n) :=
  shows_expr i.plain.1 i.plain.2 ⟨0, fun k _ => i.core_eq k n⟩

theorem ColType.shown (t : ColType) (n : Nat) : inprintType (gv t.v) n = .ok (ln t.text n) := by
  cases t with
  | simple t => cases t <;> rfl
  | _ => rfl

theorem Names.prints (l : Names) (n : Nat) : seqL (fun c => inprintStr c n) (gL l.vals) = .ok (l.show n) := by
  induction l with
  | one a => rfl
  | snoc l a ih =>
    rw [Names.vals, gL_append, seqL_append, ih]; rfl
theorem TAlias.prints (a : TAlias) (n : Nat) : ifPtr (gv a.v) (printAlias (gv a.v) n) = .ok (a.show n) := by
  cases a with
  | plain a => cases a <;> rfl
  | cols b l =>
    show printAlias (gv (TAlias.cols b l).v) n = _
    have : printAlias (gv (TAlias.cols b l).v) n = say b!"Alias" (n + 1) ++ say b (n + 2) ++ seqL (fun c => inprintStr c (n + 3)) (gL l.vals) := rfl
    rw [this, Names.prints]; rfl

theorem Bound.shown (b : Bound) (f : Bytes → Print.Out) : withBound (gv b.v) f = f b.text := by
  cases b with
  | preceding n => show f ((showInt n ++ b!" ") ++ b!"PRECEDING") = _; rw [List.append_assoc]; rfl
  | following n => show f ((showInt n ++ b!" ") ++ b!"FOLLOWING") = _; rw [List.append_assoc]; rfl
  | _ => rfl
/-- The frame in `printWindowDescription`. -/
abbrev frameOut (w : V) (n : Nat) : Print.Out :=
  deref w [FrameDescription.type] fun t => asInt t fun t => deref w [FrameDescription.start] fun s => withBound s fun s =>
    deref w [FrameDescription.end] fun e => withBound e fun e => say (frameText t ++ b!" BETWEEN " ++ s ++ b!" AND " ++ e) n
theorem Frame.shown (f : Frame) (n : Nat) : frameOut (gv f.v) n = .ok (ln f.text n) := by
  cases f with
  | none => rfl
  | start t b =>
    show withBound (gv b.v) (fun s => withBound (gv Bound.currentRow.v) fun e => say (frameText t.v ++ b!" BETWEEN " ++ s ++ b!" AND " ++ e) n) = _
    rw [Bound.shown, Bound.shown, List.append_assoc (_ ++ b.text)]
    cases t <;> rfl
  | between t b e =>
    show withBound (gv b.v) (fun s => withBound (gv e.v) fun e => say (frameText t.v ++ b!" BETWEEN " ++ s ++ b!" AND " ++ e) n) = _
    rw [Bound.shown, Bound.shown]
    cases t <;> rfl

theorem Lock.prints (l : Lock) (n : Nat) : printLock (gv l.v) n = .ok (l.show (n + 2)) := by
  obtain ⟨m, t, w⟩ := l
  cases t with
  | none => cases m <;> cases w <;> rfl
  | some t =>
    have : printLock (gv (Lock.mk m (some t) w).v) n = (say b!"Type" (n + 2) ++ say m.text (n + 3) ++ (say b!"Target tables:" (n + 2) ++ seqL (fun c => inprintStr c (n + 3)) (gL t.vals))) ++
        .ok (w.show (n + 2)) := by cases m <;> cases w <;> rfl
    rw [this, Names.prints]; rfl
theorem LockList.prints (l : LockList) (n : Nat) : seqL (fun c => printLock c n) (gL l.vals) = .ok (l.show (n + 2)) := by
  induction l with
  | one a =>
    show printLock (gv a.v) n ++ Print.Out.nil = _
    rw [Lock.prints]
    show Print.Out.ok (_ ++ []) = _
    rw [List.append_nil]; rfl
  | snoc l a ih =>
    rw [LockList.vals, gL_append, seqL_append, ih]
    show Print.Out.ok (l.show (n + 2)) ++ (printLock (gv a.v) n ++ Print.Out.nil) = _
    rw [Lock.prints]
    show Print.Out.ok (_ ++ (_ ++ [])) = _
    rw [List.append_nil]; rfl
theorem Locks.prints (l : Locks) (n : Nat) : ifPtr (gv l.v) (say b!"Lock Info:" (n + 1) ++ forEach (gv l.v) fun c => printLock c n) = .ok (l.show (n + 1)) := by
  cases l with
  | none => rfl
  | some l =>
    show say b!"Lock Info:" (n + 1) ++ seqL (fun c => printLock c n) (gL l.vals) = _
    rw [LockList.prints]; rfl

/-! ## Operators -/

theorem shows_null (n : Nat) : Shows (fun k => printExpression k (gv .null) n) [] :=
  Shows.succ (shows_nil.congr fun k => by simp only [printExpression]; rfl)

theorem shows_oper {op : Int} {x y l s : V} {n : Nat} {lx lr : List Line} (hx : Shows (fun k => printExpression k (gv x) (n + 1)) lx)
    (hr : Shows (fun k => ifPtr (gv y) (printExpression k (gv y) (n + 1)) (ifPtr (gv l) (forEach (gv l) fun x => printExpression k x (n + 1)))) lr) (a : Alias) :
    Shows (fun k => printExpression k (gv (a.put { type := ExprType.kExprOperator, opType := op, expr := x, expr2 := y, exprList := l, select := s }).v) n)
      (ln (opText op) n ++ lx ++ lr ++ a.show n) := by
  refine shows_expr rfl rfl ?_
  apply Shows.succ
  refine (((shows_say (opText op) n).app hx).app hr).congr fun k => ?_
  show printOperatorExpression (k + 1) _ n = _
  rw [printOperatorExpression]; rfl
theorem shows_un {op : Int} {r : ExprV} {n : Nat} {lx : List Line} (hx : Shows (fun k => printExpression k (gv r.v) (n + 1)) lx) (a : Alias) :
    Shows (fun k => printExpression k (gv (a.put (opV op r.v)).v) n) (ln (opText op) n ++ lx ++ a.show n) :=
  (shows_oper (y := .null) (l := .null) (s := .null) hx shows_nil a).to (by rw [List.append_nil])
theorem shows_bin {op : Int} {r q : ExprV} {n : Nat} {lx ly : List Line} (hx : Shows (fun k => printExpression k (gv r.v) (n + 1)) lx)
    (hy : Shows (fun k => printExpression k (gv q.v) (n + 1)) ly) (a : Alias) :
    Shows (fun k => printExpression k (gv (a.put (opV op r.v q.v)).v) n) (ln (opText op) n ++ lx ++ ly ++ a.show n) :=
  shows_oper (y := q.v) (l := .null) (s := .null) hx hy a
theorem plainly {r : ExprV} {n : Nat} {ls : List Line} (h : ∀ a : Alias, Shows (fun k => printExpression k (gv (a.put r).v) n) (ls ++ a.show n)) :
    Shows (fun k => printExpression k (gv r.v) n) ls := (h .none).to (List.append_nil _)
theorem shows_not {no : Bool} {r : ExprV} {x : Nat → List Line} (h : ∀ n a, Shows (fun k => printExpression k (gv (Alias.put r a).v) n) (x n ++ a.show n)) (n : Nat) (a : Alias) :
    Shows (fun k => printExpression k (gv (a.put (negate no r)).v) n) (shownNot no x n ++ a.show n) := by
  cases no with
  | false => exact h n a
  | true => exact shows_un (plainly (h (n + 1))) a

end Verif.Sql

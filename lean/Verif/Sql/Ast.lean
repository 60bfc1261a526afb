import Verif.Sql.Syntax
/-!
# The AST of abstract SQL (specification)

The objects (src/sql/*.h) an abstract expression or query stands for. A record `XV` lists the fields of a class with what the constructor sets them to as
defaults; `.v` is the object. Addresses are 0 throughout: see `astL`.
-/
namespace Verif.Sql
open Verif.Lex Verif.LR Verif.Sem

abbrev str (b : Bytes) : V := .str 0 b
def ostr : Option Name → V
  | none => .null
  | some b => str b
abbrev flag (b : Bool) : V := .int (if b then 1 else 0)
/-- A pointer to a vector that is null instead of empty. -/
def ovec : List V → V
  | [] => .null
  | vs => .vec 0 vs

/-- src/sql/Expr.h:123-170. A parameter has its number in `ival2`, from where it is copied to `ival` at the end of the parse (`V.fill`). -/
structure ExprV where
  type : Int
  expr : V := .null
  expr2 : V := .null
  exprList : V := .null
  select : V := .null
  name : V := .null
  table : V := .null
  schema : V := .null
  alias : V := .null
  fval : V := .int 0
  ival : V := .int 0
  ival2 : V := .int 0
  datetimeField : Int := DatetimeField.kDatetimeNone
  columnType : V := .tup [.int DataType.UNKNOWN, .int 0, .int 0, .int 0]
  isBoolLiteral : Int := 0
  opType : Int := OperatorType.kOpNone
  distinct : Int := 0
  window : V := .null
def ExprV.v (e : ExprV) : V := .obj 0 .Expr [.int e.type, e.expr, e.expr2, e.exprList, e.select, e.name, e.table, e.schema, e.alias, e.fval, e.ival, e.ival2,
  .int e.datetimeField, e.columnType, .int e.isBoolLiteral, .int e.opType, .int e.distinct, e.window]

/-- src/sql/SelectStatement.h:71-100. The result of a subquery has no `stringLength`. -/
structure SelV where
  fromTable : V := .null
  selectDistinct : Bool := false
  selectList : V
  whereClause : V := .null
  groupBy : V := .null
  setOperations : List V := []
  order : V := .null
  withDescriptions : V := .null
  limit : V := .null
  lockings : V := .null

/-- A statement without `stringLength` and `hints` (src/sql/SQLStatement.h). -/
structure StmtV where
  cls : Cls
  fields : List V
/-- With given hints. -/
def StmtV.v (s : StmtV) (hints len : V) : V := .obj 0 s.cls (len :: hints :: s.fields)

def SelV.stmt (s : SelV) : StmtV := ⟨.SelectStatement, [.int StatementType.kStmtSelect, s.fromTable, flag s.selectDistinct, s.selectList, s.whereClause, s.groupBy,
  ovec s.setOperations, s.order, s.withDescriptions, s.limit, s.lockings]⟩
def SelV.v (s : SelV) : V := s.stmt.v .null .undef

/-- src/sql/Table.h:31-52 -/
structure TableV where
  type : Int
  schema : V := .null
  name : V := .null
  alias : V := .null
  select : V := .null
  list : V := .null
  join : V := .null
def TableV.v (t : TableV) : V := .obj 0 .TableRef [.int t.type, t.schema, t.name, t.alias, t.select, t.list, t.join]

/-! ## Small parts -/

def Names.vals : Names → List V
  | .one n => [str n]
  | .snoc l n => l.vals ++ [str n]
def Names.v (l : Names) : V := .vec 0 l.vals

def Field.v : Field → Int
  | .second => DatetimeField.kDatetimeSecond
  | .minute => DatetimeField.kDatetimeMinute
  | .hour => DatetimeField.kDatetimeHour
  | .day => DatetimeField.kDatetimeDay
  | .month => DatetimeField.kDatetimeMonth
  | .year => DatetimeField.kDatetimeYear

def Interval.r : Interval → ExprV
  | .short n f _ => { type := ExprType.kExprLiteralInterval, ival := .int n, datetimeField := f.v }
  | .str _ n f _ => { type := ExprType.kExprLiteralInterval, ival := .int n, datetimeField := f.v }
  | .strUnit _ n _ f _ _ => { type := ExprType.kExprLiteralInterval, ival := .int n, datetimeField := f.v }

def Num.r : Num → ExprV
  | .int n => { type := ExprType.kExprLiteralInt, ival := .int n }
  | .float b => { type := ExprType.kExprLiteralFloat, fval := .raw b }

def Lit.r : Lit → ExprV
  | .str b => { type := ExprType.kExprLiteralString, name := Sql.str b }
  | .bool b => { type := ExprType.kExprLiteralInt, ival := flag b, isBoolLiteral := 1 }
  | .num n => n.r
  | .null => { type := ExprType.kExprLiteralNull }
  | .date b _ => { type := ExprType.kExprLiteralDate, name := Sql.str b }
  | .interval i => i.r

def SimpleType.v : SimpleType → Int
  | .bigint => DataType.BIGINT | .boolean => DataType.BOOLEAN | .date => DataType.DATE | .datetime => DataType.DATETIME | .double => DataType.DOUBLE | .float => DataType.FLOAT
  | .int => DataType.INT | .integer => DataType.INT | .long => DataType.LONG | .real => DataType.REAL | .smallint => DataType.SMALLINT | .text => DataType.TEXT | .timestamp => DataType.DATETIME

/-- src/sql/ColumnType.h:28 -/
abbrev typeV (t length precision scale : Int) : V := .tup [.int t, .int length, .int precision, .int scale]
def ColType.v : ColType → V
  | .simple t => typeV t.v 0 0 0
  | .char n => typeV DataType.CHAR n 0 0
  | .varchar n => typeV DataType.VARCHAR n 0 0
  | .characterVarying n => typeV DataType.VARCHAR n 0 0
  | .decimal => typeV DataType.DECIMAL 0 0 0
  | .decimal1 p => typeV DataType.DECIMAL 0 p 0
  | .decimal2 p s => typeV DataType.DECIMAL 0 p s
  | .time => typeV DataType.TIME 0 0 0
  | .time1 p => typeV DataType.TIME 0 p 0

def Alias.put (r : ExprV) : Alias → ExprV
  | .none => r
  | .as n => { r with alias := str n }
  | .bare n => { r with alias := str n }

/-- src/sql/Table.h:22-29 -/
abbrev aliasV (n : Name) (cols : V) : V := .obj 0 .Alias [str n, cols]
def TAlias.v : TAlias → V
  | .plain .none => .null
  | .plain (.as n) => aliasV n .null
  | .plain (.bare n) => aliasV n .null
  | .cols n l => aliasV n l.v

def Dir.v : Dir → Int
  | .none => OrderType.kOrderAsc
  | .asc => OrderType.kOrderAsc
  | .desc => OrderType.kOrderDesc
def Nulls.v : Nulls → Int
  | .none => NullOrdering.Undefined
  | .first .. => NullOrdering.First
  | .last .. => NullOrdering.Last

def FrameType.v : FrameType → Int
  | .range => Sem.FrameType.kRange
  | .rows => Sem.FrameType.kRows
  | .groups => Sem.FrameType.kGroups
/-- src/sql/Expr.h:89-95 -/
abbrev boundV (offset type : Int) (unbounded : Bool) : V := .obj 0 .FrameBound [.int offset, .int type, flag unbounded]
def Bound.v : Bound → V
  | .unboundedPreceding => boundV 0 FrameBoundType.kPreceding true
  | .preceding n => boundV n FrameBoundType.kPreceding false
  | .unboundedFollowing => boundV 0 FrameBoundType.kFollowing true
  | .following n => boundV n FrameBoundType.kFollowing false
  | .currentRow => boundV 0 FrameBoundType.kCurrentRow false
/-- src/sql/Expr.h:98-108. The default frame is `RANGE BETWEEN UNBOUNDED PRECEDING AND CURRENT ROW`; the default end `CURRENT ROW`. -/
def Frame.v : Frame → V
  | .none => .obj 0 .FrameDescription [.int Sem.FrameType.kRange, Bound.unboundedPreceding.v, Bound.currentRow.v]
  | .start t b => .obj 0 .FrameDescription [.int t.v, b.v, Bound.currentRow.v]
  | .between t b e => .obj 0 .FrameDescription [.int t.v, b.v, e.v]

def SetType.v : SetType → Int
  | .union => Sem.SetType.kSetUnion
  | .intersect => Sem.SetType.kSetIntersect
  | .except => Sem.SetType.kSetExcept
/-- src/sql/SelectStatement.h:52-62 -/
def SetOp.v (op : SetOp) (nested order limit : V) : V := .obj 0 .SetOperation [.int op.type.v, flag op.all, nested, order, limit]

def LockMode.v : LockMode → Int
  | .update => RowLockMode.ForUpdate
  | .noKeyUpdate => RowLockMode.ForNoKeyUpdate
  | .share => RowLockMode.ForShare
  | .keyShare => RowLockMode.ForKeyShare
def LockWait.v : LockWait → Int
  | .none => RowLockWaitPolicy.None
  | .skipLocked => RowLockWaitPolicy.SkipLocked
  | .nowait => RowLockWaitPolicy.NoWait
/-- src/sql/SelectStatement.h:64-69 -/
def Lock.v : Lock → V
  | ⟨m, none, w⟩ => .obj 0 .LockingClause [.int m.v, .int w.v, .null]
  | ⟨m, some l, w⟩ => .obj 0 .LockingClause [.int m.v, .int w.v, l.v]
def LockList.vals : LockList → List V
  | .one k => [k.v]
  | .snoc l k => l.vals ++ [k.v]
def Locks.v : Locks → V
  | .none => .null
  | .some l => .vec 0 l.vals

def JoinType.v : JoinType → Int
  | .none | .inner => Sem.JoinType.kJoinInner
  | .left _ => Sem.JoinType.kJoinLeft
  | .right _ => Sem.JoinType.kJoinRight
  | .full _ | .outer => Sem.JoinType.kJoinFull
  | .cross => Sem.JoinType.kJoinCross

def BinOp.v : BinOp → Int
  | .minus => OperatorType.kOpMinus | .plus => OperatorType.kOpPlus | .slash => OperatorType.kOpSlash | .star => OperatorType.kOpAsterisk
  | .percent => OperatorType.kOpPercentage | .caret => OperatorType.kOpCaret | .like => OperatorType.kOpLike | .notLike => OperatorType.kOpNotLike
  | .ilike => OperatorType.kOpILike | .concat => OperatorType.kOpConcat | .eq => OperatorType.kOpEquals | .eq2 => OperatorType.kOpEquals
  | .ne => OperatorType.kOpNotEquals | .lt => OperatorType.kOpLess | .gt => OperatorType.kOpGreater | .le => OperatorType.kOpLessEq | .ge => OperatorType.kOpGreaterEq
def LogOp.v : LogOp → Int
  | .and => OperatorType.kOpAnd
  | .or => OperatorType.kOpOr

/-- An operator applied to one or two expressions; its negation. -/
abbrev opV (op : Int) (a : V) (b : V := .null) : ExprV := { type := ExprType.kExprOperator, opType := op, expr := a, expr2 := b }
def negate (no : Bool) (e : ExprV) : ExprV := if no then opV OperatorType.kOpNot e.v else e

def topV : Option Int → V
  | none => .null
  | some n => .obj 0 .LimitDescription [(Num.int n).r.v, .null]

/-! ## Expressions and queries -/

mutual
def Expr.r : Expr → ExprV
  | .lit l => l.r
  | .param k => { type := ExprType.kExprParameter, ival := .pos 0, ival2 := .idx k }
  | .col t n => { type := ExprType.kExprColumnRef, name := str n, table := ostr t }
  | .star t => { type := ExprType.kExprStar, table := ostr t }
  | .paren e => e.r
  | .query s => { type := ExprType.kExprSelect, select := s.r.v }
  | .neg e => opV OperatorType.kOpUnaryMinus e.r.v
  | .not e => opV OperatorType.kOpNot e.r.v
  | .isNull _ e => opV OperatorType.kOpIsNull e.r.v
  | .isNotNull e => negate true (opV OperatorType.kOpIsNull e.r.v)
  | .bin o a b => opV o.v a.r.v b.r.v
  | .logic o a b => opV o.v a.r.v b.r.v
  | .inList no e l => negate no { type := ExprType.kExprOperator, opType := OperatorType.kOpIn, expr := e.r.v, exprList := .vec 0 l.vals }
  | .inQuery no e s => negate no { type := ExprType.kExprOperator, opType := OperatorType.kOpIn, expr := e.r.v, select := s.r.v }
  | .between e lo hi => { type := ExprType.kExprOperator, opType := OperatorType.kOpBetween, expr := e.r.v, exprList := .vec 0 [lo.r.v, hi.r.v] }
  | .exist no s => negate no { type := ExprType.kExprOperator, opType := OperatorType.kOpExists, select := s.r.v }
  | .case x l e => { type := ExprType.kExprOperator, opType := OperatorType.kOpCase, expr := x.v, expr2 := e.v, exprList := .vec 0 l.vals }
  | .call s f a w => { type := ExprType.kExprFunctionRef, name := str f, schema := ostr s, exprList := .vec 0 a.vals, distinct := (if a.distinct then 1 else 0), window := w.v }
  | .extract f e => { type := ExprType.kExprExtract, datetimeField := f.v, expr := e.r.v }
  | .cast e t => { type := ExprType.kExprCast, columnType := t.v, expr := e.r.v }
  | .array l => { type := ExprType.kExprArray, exprList := .vec 0 l.vals }
  | .index e n => { type := ExprType.kExprArrayIndex, expr := e.r.v, ival := .int n }
def OExpr.v : OExpr → V
  | .none => .null
  | .some e => e.r.v
def Items.vals : Items → List V
  | .one e a => [(a.put e.r).v]
  | .snoc l e a => l.vals ++ [(a.put e.r).v]
def Whens.vals : Whens → List V
  | .one w t => [(opV OperatorType.kOpCaseListElement w.r.v t.r.v).v]
  | .snoc l w t => l.vals ++ [(opV OperatorType.kOpCaseListElement w.r.v t.r.v).v]
def Args.vals : Args → List V
  | .none => []
  | .some _ l => l.vals
def Args.distinct : Args → Bool
  | .none => false
  | .some d _ => d
def Window.v : Window → V
  | .none => .null
  | .over p o f => .obj 0 .WindowDescription [p.v, o.v, f.v]
def Partition.v : Partition → V
  | .none => .null
  | .by l => .vec 0 l.vals
def Order.v : Order → V
  | .none => .null
  | .by l => .vec 0 l.vals
def Orders.vals : Orders → List V
  | .one e d n => [.obj 0 .OrderDescription [.int d.v, e.r.v, .int n.v]]
  | .snoc l e d n => l.vals ++ [.obj 0 .OrderDescription [.int d.v, e.r.v, .int n.v]]
def Sel.r : Sel → SelV
  | .plain c o l k => { c.r with order := o.v, limit := (match l with | .none => c.r.limit | _ => l.v), lockings := k.v }
  | .set c op w o l k => { c.r with setOperations := [op.v w.r.v o.v l.v], lockings := k.v }
def PSel.r : PSel → SelV
  | .one s => s.r
  | .more s => s.r
def Within.r : Within → SelV
  | .paren s => s.r
  | .clause c => c.r
  | .set c op w => { c.r with setOperations := [op.v w.r.v .null .null] }
def Clause.r : Clause → SelV
  | .mk t d l f w g => { limit := topV t, selectDistinct := d, selectList := .vec 0 l.vals, fromTable := f.v, whereClause := w.v, groupBy := g.v }
def Group.v : Group → V
  | .none => .null
  | .by l h => .obj 0 .GroupByDescription [.vec 0 l.vals, h.v]
def Limit.v : Limit → V
  | .none => .null
  | .limit e => .obj 0 .LimitDescription [e.r.v, .null]
  | .offset e => .obj 0 .LimitDescription [.null, e.r.v]
  | .both l o => .obj 0 .LimitDescription [l.r.v, o.r.v]
  | .all => .obj 0 .LimitDescription [.null, .null]
  | .allOffset o => .obj 0 .LimitDescription [.null, o.r.v]
def From.v : From → V
  | .none => .null
  | .one t => t.r.v
  | .many l t => ({ type := TableRefType.kTableCrossProduct, list := .vec 0 (l.vals ++ [t.r.v]) } : TableV).v
def Tables.vals : Tables → List V
  | .one t => [t.r.v]
  | .snoc l t => l.vals ++ [t.r.v]
def TableN.r : TableN → TableV
  | .name t a => { type := TableRefType.kTableName, schema := ostr t.schema, name := str t.name, alias := a.v }
  | .query s a => { type := TableRefType.kTableSelect, select := s.r.v, alias := a.v }
def Table.r : Table → TableV
  | .base t => t.r
  | .natural l r => { type := TableRefType.kTableJoin, join := .obj 0 .JoinDefinition [l.r.v, r.r.v, .null, .null, .int Sem.JoinType.kJoinNatural] }
  | .on l j r c => { type := TableRefType.kTableJoin, join := .obj 0 .JoinDefinition [l.r.v, r.r.v, c.r.v, .null, .int j.v] }
  | .using l j r cols => { type := TableRefType.kTableJoin, join := .obj 0 .JoinDefinition [l.r.v, r.r.v, .null, cols.v, .int j.v] }
def Query.r : Query → SelV
  | .paren w s => { s.r with withDescriptions := w.v }
  | .plain w s => { s.r with withDescriptions := w.v }
  | .set w s op n o l => { s.r with setOperations := s.r.setOperations ++ [op.v n.r.v o.v l.v], withDescriptions := w.v }
def With.v : With → V
  | .none => .null
  | .some l => .vec 0 l.vals
def Withs.vals : Withs → List V
  | .one n s => [.obj 0 .WithDescription [str n, s.r.v]]
  | .snoc l n s => l.vals ++ [.obj 0 .WithDescription [str n, s.r.v]]
end

end Verif.Sql

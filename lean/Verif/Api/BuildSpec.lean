import Verif.Api.Build
/-!
# What the library functions return (specification)

Every member that the function does not mention has its default value.
-/
namespace Verif.Build
open Verif.Sem

/-- The members of an expression with their defaults (src/sql/Expr.h:119-149, src/sql/Expr.cpp:44-62). -/
structure Fields where
  type : Int
  expr : V := .null
  expr2 : V := .null
  exprList : V := .null
  select : V := .null
  name : V := .null
  table : V := .null
  schema : V := .null
  alias : V := .null
  fval : V := .int 0
  ival : Int := 0
  ival2 : Int := 0
  datetimeField : Int := DatetimeField.kDatetimeNone
  columnType : Int × Int × Int × Int := (DataType.UNKNOWN, 0, 0, 0)
  isBoolLiteral : Bool := false
  opType : Int := OperatorType.kOpNone
  distinct : Bool := false
  windowDescription : V := .null

/-- A new expression at the address `a`. -/
def Fields.at (e : Fields) (a : Nat) : V :=
  .obj a .Expr [.int e.type, e.expr, e.expr2, e.exprList, e.select, e.name, e.table, e.schema, e.alias, e.fval, .int e.ival, .int e.ival2,
    .int e.datetimeField, .tup [.int e.columnType.1, .int e.columnType.2.1, .int e.columnType.2.2.1, .int e.columnType.2.2.2],
    .int (bit e.isBoolLiteral), .int e.opType, .int (bit e.distinct), e.windowDescription]

/-- The members of an expression that is a case list. -/
def listOf : V → V
  | .obj _ _ fs => fs.getD 3 .null
  | _ => .null

/-- What the function returns for arguments `vs`; `a`, `b` are the addresses of the first two blocks it allocates. -/
def Make.made (a b : Nat) : Make → List V → V
  | .make t, _ => Fields.at { type := t } a
  | .opUnary op _, [_, e] => Fields.at { type := ExprType.kExprOperator, opType := op, expr := e } a
  | .opBinary _ op _, [l, _, r] => Fields.at { type := ExprType.kExprOperator, opType := op, expr := l, expr2 := r } a
  | .between .., [e, l, r] => Fields.at { type := ExprType.kExprOperator, opType := OperatorType.kOpBetween, expr := e, exprList := .vec b [l, r] } a
  | .caseList _, [e] => Fields.at { type := ExprType.kExprOperator, exprList := .vec b [e] } a
  | .caseListElement .., [w, t] => Fields.at { type := ExprType.kExprOperator, opType := OperatorType.kOpCaseListElement, expr := w, expr2 := t } a
  | .case .., [e, l, els] => Fields.at { type := ExprType.kExprOperator, opType := OperatorType.kOpCase, expr := e, exprList := listOf l, expr2 := els } a
  | .literalInt n, _ => Fields.at { type := ExprType.kExprLiteralInt, ival := n } a
  | .literalFloat x, _ => Fields.at { type := ExprType.kExprLiteralFloat, fval := .raw x } a
  | .literalString _, [s] => Fields.at { type := ExprType.kExprLiteralString, name := s } a
  | .literalBool x, _ => Fields.at { type := ExprType.kExprLiteralInt, ival := bit x, isBoolLiteral := true } a
  | .nullLiteral, _ => Fields.at { type := ExprType.kExprLiteralNull } a
  | .dateLiteral _, [s] => Fields.at { type := ExprType.kExprLiteralDate, name := s } a
  | .intervalLiteral n u, _ => Fields.at { type := ExprType.kExprLiteralInterval, ival := n, datetimeField := u } a
  | .columnRef _, [n] => Fields.at { type := ExprType.kExprColumnRef, name := n } a
  | .columnRefTable .., [t, n] => Fields.at { type := ExprType.kExprColumnRef, name := n, table := t } a
  | .star, _ => Fields.at { type := ExprType.kExprStar } a
  | .starTable _, [t] => Fields.at { type := ExprType.kExprStar, table := t } a
  | .functionRef _ _ d _, [n, es, _, w] => Fields.at { type := ExprType.kExprFunctionRef, name := n, exprList := es, distinct := d, windowDescription := w } a
  | .functionRefSchema _ _ _ d _, [n, s, es, _, w] =>
    Fields.at { type := ExprType.kExprFunctionRef, name := n, schema := s, exprList := es, distinct := d, windowDescription := w } a
  | .array _, [es] => Fields.at { type := ExprType.kExprArray, exprList := es } a
  | .arrayIndex _ i, [e, _] => Fields.at { type := ExprType.kExprArrayIndex, expr := e, ival := i } a
  | .parameter n, _ => Fields.at { type := ExprType.kExprParameter, ival := n } a
  | .select _, [s] => Fields.at { type := ExprType.kExprSelect, select := s } a
  | .exists_ _, [s] => Fields.at { type := ExprType.kExprOperator, opType := OperatorType.kOpExists, select := s } a
  | .inList .., [e, es] => Fields.at { type := ExprType.kExprOperator, opType := OperatorType.kOpIn, expr := e, exprList := es } a
  | .inSelect .., [e, s] => Fields.at { type := ExprType.kExprOperator, opType := OperatorType.kOpIn, expr := e, select := s } a
  | .extract u _, [_, e] => Fields.at { type := ExprType.kExprExtract, datetimeField := u, expr := e } a
  | .cast _ w x y z, [e, _] => Fields.at { type := ExprType.kExprCast, expr := e, columnType := (w, x, y, z) } a
  | .frameBound o t u, _ => .obj a .FrameBound [.int o, .int t, .int (bit u)]
  | .frame t .., [_, s, e] => .obj a .FrameDescription [.int t, s, e]
  | .window .., [p, o, f] => .obj a .WindowDescription [p, o, f]
  | .order t _ n, [_, e, _] => .obj a .OrderDescription [.int t, e, .int n]
  | .limit .., [l, o] => .obj a .LimitDescription [l, o]
  | .groupBy, _ => .obj a .GroupByDescription [.null, .null]
  | .withDescription, _ => .obj a .WithDescription [.null, .null]
  | .setOperation, _ => .obj a .SetOperation [.undef, .undef, .null, .null, .null]
  | .locking, _ => .obj a .LockingClause [.int 0, .int 0, .null]
  | .selectStatement, _ => .obj a .SelectStatement ([.undef, .null, .int StatementType.kStmtSelect, .null, .int 0] ++ List.replicate 8 .null)
  | .alias .., [n, cs] => .obj a .Alias [n, cs]
  | .tableRef t, _ => .obj a .TableRef (.int t :: List.replicate 6 .null)
  | .join, _ => .obj a .JoinDefinition [.null, .null, .null, .null, .int JoinType.kJoinInner]
  | .tableConstraint t _, [_, cs] => .obj a .TableConstraint [.int t, cs]
  | .references .., [s, t, cs] => .obj a .ReferencesSpecification [s, t, cs]
  | .foreignKey .., [cs, r] => .obj a .ForeignKeyConstraint [.int ConstraintType.ForeignKey, cs, r]
  | .columnDefinition _ w x y z .., [n, _, k, r] => .obj a .ColumnDefinition [k, n, .tup [.int w, .int x, .int y, .int z], .int 1, r]
  | .createStatement t, _ => .obj a .CreateStatement ([.undef, .null, .int StatementType.kStmtCreate, .int t, .int 0] ++ List.replicate 9 .null)
  | .csvOptions, _ => .obj a .CsvOptions [.null, .null, .null]
  | .importExportOptions, _ => .obj a .ImportExportOptions [.int ImportType.kImportAuto, .null, .null]
  | .importStatement t, _ => .obj a .ImportStatement ([.undef, .null, .int StatementType.kStmtImport, .int t] ++ List.replicate 6 .null)
  | .exportStatement t, _ => .obj a .ExportStatement ([.undef, .null, .int StatementType.kStmtExport, .int t] ++ List.replicate 6 .null)
  | .insertStatement t, _ => .obj a .InsertStatement ([.undef, .null, .int StatementType.kStmtInsert, .int t] ++ List.replicate 5 .null)
  | .deleteStatement, _ => .obj a .DeleteStatement ([.undef, .null, .int StatementType.kStmtDelete] ++ List.replicate 3 .null)
  | .updateClause, _ => .obj a .UpdateClause [.null, .null]
  | .updateStatement, _ => .obj a .UpdateStatement ([.undef, .null, .int StatementType.kStmtUpdate] ++ List.replicate 3 .null)
  | .dropStatement t, _ => .obj a .DropStatement ([.undef, .null, .int StatementType.kStmtDrop, .int t, .undef] ++ List.replicate 3 .null)
  | .dropColumn _, [n] => .obj a .DropColumnAction [.int ActionType.DropColumn, n, .int 0]
  | .alterStatement .., [n, x] => .obj a .AlterStatement [.undef, .null, .int StatementType.kStmtAlter, .null, .int 0, n, x]
  | .executeStatement, _ => .obj a .ExecuteStatement [.undef, .null, .int StatementType.kStmtExecute, .null, .null]
  | .prepareStatement, _ => .obj a .PrepareStatement [.undef, .null, .int StatementType.kStmtPrepare, .null, .null]
  | .showStatement t, _ => .obj a .ShowStatement [.undef, .null, .int StatementType.kStmtShow, .int t, .null, .null]
  | .transactionStatement t, _ => .obj a .TransactionStatement [.undef, .null, .int StatementType.kStmtTransaction, .int t]
  | _, _ => .undef

end Verif.Build

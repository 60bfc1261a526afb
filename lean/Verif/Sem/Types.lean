import Verif.Sem.Layout
import Verif.LR.Grammar
/-!
# The shapes of the AST (specification)

Which fields of which node are null, non-null, and what they point to.  This is the contract of the classes in
src/sql/*.h as far as it can be read off the comments there and the printer (src/util/sqlhelper.cpp): e.g. an
expression of type `kExprOperator` with a binary operator has both `expr` and `expr2`.

A type `Ty` stands for the list of its alternatives `alts`; `Sat p v` says that the value `v` has shape `p`.
-/
namespace Verif.Sem
open Verif.LR

/-- Names of shapes. `opt t`: null or of shape `t`. -/
inductive Ty where
  | opt (t : Ty)
  | str | strs | colType
  /-- an expression without alias -/
  | expr
  /-- an expression, possibly with alias -/
  | exprA
  | exprs | lit | numLit | extLit | extLits | castLit | hints
  | window | orders | limit | top | group | sel | selStmt | setOps | locks | withs
  | table | tables | alias | tableAlias
  | tableConstraint | tableElem | ioOptions | csvOptions
  | prepStmt | stmtU | stmt
  /-- the value of an end-of-input or undefined token: none, or what is left of an integer out of range -/
  | junk
deriving DecidableEq, Repr

/-- Properties of a string that the INTERVAL actions test for. -/
inductive SQ where
  | dur | unit
deriving DecidableEq, Repr

/-- Shapes. `ints l`: an integer in `l`; `posnum`: `pos` or an integer; `vec e ne suf`: a vector whose elements
are of shape `e`, except for the last ones, which are described by `suf`; if `ne`, there is at least one element besides
`suf`; `never`: no value. -/
inductive P where
  | never | undef | null | num | pos | idx | posnum | raw | str
  | ints (l : List Int)
  | strQ (q : SQ)
  | ref (t : Ty)
  | vec (e : P) (ne : Bool) (suf : List P)
  | obj (c : Cls) (fs : List P)
  | tup (fs : List P)
deriving Repr

/-- A boolean. -/
abbrev P.bool : P := .ints [0, 1]
/-- Null or a shape. -/
abbrev P.opt (t : Ty) : P := .ref (.opt t)
/-- A non-empty vector. -/
abbrev P.vec1 (e : P) : P := .vec e true []
/-- A possibly empty vector. -/
abbrev P.vec0 (e : P) : P := .vec e false []

/-- The shape of an `Expr` (src/sql/Expr.h:75-140), with the values set by the constructor as defaults. -/
structure ExprP where
  type : Int
  expr : P := .null
  expr2 : P := .null
  exprList : P := .null
  select : P := .null
  name : P := .null
  table : P := .null
  schema : P := .null
  fval : P := .ints [0]
  ival : P := .num
  ival2 : P := .num
  datetimeField : P := .ints [DatetimeField.kDatetimeNone]
  columnType : P := .ref .colType
  isBoolLiteral : P := .ints [0]
  opType : P := .ints [OperatorType.kOpNone]
  distinct : P := .ints [0]
  windowDescription : P := .null

/-- The shape as a pattern; `al` is that of the alias. -/
def ExprP.p (x : ExprP) (al : P := .null) : P :=
  .obj .Expr [.ints [x.type], x.expr, x.expr2, x.exprList, x.select, x.name, x.table, x.schema, al, x.fval, x.ival,
    x.ival2, x.datetimeField, x.columnType, x.isBoolLiteral, x.opType, x.distinct, x.windowDescription]

namespace Kind
open ExprType OperatorType DatetimeField
def units : P := .ints [kDatetimeSecond, kDatetimeMinute, kDatetimeHour, kDatetimeDay, kDatetimeMonth, kDatetimeYear]
def float : ExprP := { type := kExprLiteralFloat, fval := .raw }
def string : ExprP := { type := kExprLiteralString, name := .str }
def int : ExprP := { type := kExprLiteralInt }
def bool : ExprP := { type := kExprLiteralInt, isBoolLiteral := .ints [1] }
def null : ExprP := { type := kExprLiteralNull }
def date : ExprP := { type := kExprLiteralDate, name := .str }
def interval : ExprP := { type := kExprLiteralInterval, datetimeField := units }
def star : ExprP := { type := kExprStar, table := .opt .str }
/-- `ival` is the position until the end of the parse, then the number of the parameter. -/
def param : ExprP := { type := kExprParameter, ival := .posnum, ival2 := .idx }
def columnRef : ExprP := { type := kExprColumnRef, name := .str, table := .opt .str }
def function : ExprP := { type := kExprFunctionRef, name := .str, schema := .opt .str, exprList := .vec0 (.ref .exprA), distinct := .bool, windowDescription := .opt .window }
def unary : ExprP := { type := kExprOperator, opType := .ints [kOpNot, kOpUnaryMinus, kOpIsNull], expr := .ref .expr }
def binary : ExprP :=
  { type := kExprOperator
    opType := .ints [kOpPlus, kOpMinus, kOpAsterisk, kOpSlash, kOpPercentage, kOpCaret, kOpEquals, kOpNotEquals, kOpLess,
      kOpLessEq, kOpGreater, kOpGreaterEq, kOpLike, kOpNotLike, kOpILike, kOpAnd, kOpOr, kOpConcat]
    expr := .ref .expr, expr2 := .ref .expr }
/-- exactly two bounds -/
def between : ExprP := { type := kExprOperator, opType := .ints [kOpBetween], expr := .ref .expr, exprList := .vec .never false [.ref .expr, .ref .expr] }
def caseElem : ExprP := { type := kExprOperator, opType := .ints [kOpCaseListElement], expr := .ref .expr, expr2 := .ref .expr }
def case : ExprP := { type := kExprOperator, opType := .ints [kOpCase], expr := .opt .expr, expr2 := .opt .expr, exprList := .vec1 caseElem.p }
def exists_ : ExprP := { type := kExprOperator, opType := .ints [kOpExists], select := .ref .sel }
def inList : ExprP := { type := kExprOperator, opType := .ints [kOpIn], expr := .ref .expr, exprList := .ref .exprs }
def inSelect : ExprP := { type := kExprOperator, opType := .ints [kOpIn], expr := .ref .expr, select := .ref .sel }
def select : ExprP := { type := kExprSelect, select := .ref .sel }
def array : ExprP := { type := kExprArray, exprList := .ref .exprs }
def arrayIndex : ExprP := { type := kExprArrayIndex, expr := .ref .expr }
def extract : ExprP := { type := kExprExtract, expr := .ref .expr, datetimeField := units }
def cast : ExprP := { type := kExprCast, expr := .ref .expr }
def hint : ExprP := { type := kExprHint, name := .str, exprList := .opt .extLits }
/-- intermediate: the list of the WHEN branches -/
def caseList : ExprP := { type := kExprOperator, exprList := .vec1 caseElem.p }
end Kind

/-- The literals (`?` included). -/
def litAlts (al : P) : List P :=
  [Kind.float.p al, Kind.string.p al, Kind.int.p al, Kind.bool.p al, Kind.null.p al, Kind.date.p al, Kind.interval.p al, Kind.param.p al]

/-- All expressions, with alias `al`. -/
def exprAlts (al : P) : List P :=
  litAlts al ++
  [Kind.star.p al, Kind.columnRef.p al, Kind.function.p al, Kind.unary.p al, Kind.binary.p al, Kind.between.p al,
   Kind.case.p al, Kind.exists_.p al, Kind.inList.p al, Kind.inSelect.p al, Kind.select.p al, Kind.array.p al,
   Kind.arrayIndex.p al, Kind.extract.p al, Kind.cast.p al]

/-- A value in an INSERT or EXECUTE list: a literal other than `?`, possibly negated. -/
def extLitAlts : List P :=
  [Kind.float.p, Kind.string.p, Kind.int.p, Kind.bool.p, Kind.null.p, Kind.date.p, Kind.interval.p,
   { Kind.unary with opType := .ints [OperatorType.kOpUnaryMinus], expr := .ref .numLit : ExprP }.p,
   { Kind.unary with opType := .ints [OperatorType.kOpUnaryMinus], expr := Kind.interval.p : ExprP }.p]

/-- `FrameBound`, `FrameDescription`, `WindowDescription` (src/sql/Expr.h:84-117). -/
def boundP : P := .obj .FrameBound [.num, .ints [FrameBoundType.kFollowing, FrameBoundType.kPreceding, FrameBoundType.kCurrentRow], .bool]
def frameTypes : P := .ints [FrameType.kRange, FrameType.kRows, FrameType.kGroups]
def frameP : P := .obj .FrameDescription [frameTypes, boundP, boundP]
def windowP : P := .obj .WindowDescription [.opt .exprs, .opt .orders, frameP]

/-- `OrderDescription` (src/sql/SelectStatement.h:16-25). -/
def orderTypes : P := .ints [OrderType.kOrderAsc, OrderType.kOrderDesc]
def nullOrders : P := .ints [NullOrdering.Undefined, NullOrdering.First, NullOrdering.Last]
def orderP : P := .obj .OrderDescription [orderTypes, .ref .expr, nullOrders]
/-- `GroupByDescription` (src/sql/SelectStatement.h:37-43). -/
def groupP : P := .obj .GroupByDescription [.ref .exprs, .opt .expr]
/-- `WithDescription` (src/sql/SelectStatement.h:45-50). -/
def withP : P := .obj .WithDescription [.str, .ref .sel]
/-- `SetOperation` (src/sql/SelectStatement.h:52-62). -/
def setTypes : P := .ints [SetType.kSetUnion, SetType.kSetIntersect, SetType.kSetExcept]
def setOpP : P := .obj .SetOperation [setTypes, .bool, .ref .sel, .opt .orders, .opt .limit]
/-- `LockingClause` (src/sql/SelectStatement.h:64-68). -/
def lockModes : P := .ints [RowLockMode.ForUpdate, RowLockMode.ForNoKeyUpdate, RowLockMode.ForShare, RowLockMode.ForKeyShare]
def lockPolicies : P := .ints [RowLockWaitPolicy.NoWait, RowLockWaitPolicy.SkipLocked, RowLockWaitPolicy.None]
def lockP : P := .obj .LockingClause [lockModes, lockPolicies, .opt .strs]
/-- `LimitDescription` (src/sql/SelectStatement.h:27-35). -/
def limitP (l o : P) : P := .obj .LimitDescription [l, o]

/-- `SelectStatement` (src/sql/SelectStatement.h:70-85). -/
def selP (len hints setOps order withs limit locks : P) : P :=
  .obj .SelectStatement [len, hints, .ints [StatementType.kStmtSelect], .opt .table, .bool, .ref .exprs, .opt .expr, .opt .group,
    setOps, order, withs, limit, locks]
/-- A select clause, before ORDER BY, LIMIT and set operations. -/
def selClauseP : P := selP .undef .null .null .null .null (.opt .top) .null

/-- `Alias`, `TableName` (src/sql/Table.h:15-30). -/
def aliasP (cols : P) : P := .obj .Alias [.str, cols]
def tableNameP : P := .tup [.opt .str, .str]

/-- `TableRef` (src/sql/Table.h:33-50). -/
def tableRefP (type : Int) (schema name select list join alias : P) : P :=
  .obj .TableRef [.ints [type], schema, name, alias, select, list, join]
def tableNameRefP (alias : P) : P := tableRefP TableRefType.kTableName (.opt .str) .str .null .null .null alias
/-- `JoinDefinition` (src/sql/Table.h:53-66): a condition, or named columns, or (NATURAL) neither. -/
def joinTypes : P := .ints [JoinType.kJoinInner, JoinType.kJoinFull, JoinType.kJoinLeft, JoinType.kJoinRight, JoinType.kJoinCross]
def joinP (cond cols type : P) : P := .obj .JoinDefinition [.ref .table, .ref .table, cond, cols, type]
def joinRefP (j : P) : P := tableRefP TableRefType.kTableJoin .null .null .null .null j .null

/-- `ColumnDefinition`, the constraints (src/sql/CreateStatement.h:13-70, src/sql/ColumnType.h). -/
def colTypeP : P := .tup [.ints [DataType.UNKNOWN, DataType.BIGINT, DataType.BOOLEAN, DataType.CHAR, DataType.DATE, DataType.DATETIME, DataType.DECIMAL,
  DataType.DOUBLE, DataType.FLOAT, DataType.INT, DataType.LONG, DataType.REAL, DataType.SMALLINT, DataType.TEXT, DataType.TIME, DataType.VARCHAR],
  .num, .num, .num]
def constraintTypes : P := .ints [ConstraintType.ForeignKey, ConstraintType.NotNull, ConstraintType.Null, ConstraintType.PrimaryKey, ConstraintType.Unique]
def refSpecP : P := .obj .ReferencesSpecification [.opt .str, .str, .opt .strs]
def columnDefP : P := .obj .ColumnDefinition [.vec0 constraintTypes, .str, .ref .colType, .bool, .vec0 refSpecP]
def columnConstraintsP : P := .obj .ColumnConstraints [.vec0 constraintTypes, .vec0 refSpecP]
def keyP : P := .obj .TableConstraint [.ints [ConstraintType.PrimaryKey, ConstraintType.Unique], .ref .strs]
def foreignKeyP : P := .obj .ForeignKeyConstraint [.ints [ConstraintType.ForeignKey], .ref .strs, refSpecP]

/-- `ImportExportOptions`, `CsvOptions` (src/sql/ImportStatement.h). CSV options only for CSV files or if the type is to be
told from the file name. -/
def csvFormats : P := .ints [ImportType.kImportCSV, ImportType.kImportAuto]
def fileTypes : P := .ints [ImportType.kImportCSV, ImportType.kImportTbl, ImportType.kImportBinary]
def formats : P := .ints [ImportType.kImportCSV, ImportType.kImportTbl, ImportType.kImportBinary, ImportType.kImportAuto]
def csvOptionsP : P := .obj .CsvOptions [.opt .str, .opt .str, .opt .str]

/-- `UpdateClause` (src/sql/UpdateStatement.h:9-12). -/
def updateP : P := .obj .UpdateClause [.str, .ref .expr]
/-- `DropColumnAction` (src/sql/AlterStatement.h). -/
def dropActionP : P := .obj .DropColumnAction [.ints [ActionType.DropColumn], .str, .bool]

/-! The statements: `len` is the shape of `stringLength`, `h` that of `hints`. -/
section
variable (len h : P)
def createP (type : Int) (filePath schema indexName indexColumns columns constraints viewColumns select : P) : P :=
  .obj .CreateStatement [len, h, .ints [StatementType.kStmtCreate], .ints [type], .bool, filePath, schema, .str, indexName, indexColumns,
    columns, constraints, viewColumns, select]
/-- `CreateStatement` (src/sql/CreateStatement.h:73-104). -/
def createAlts : List P :=
  [createP len h CreateType.kCreateTableFromTbl .str (.opt .str) .null .null .null .null .null .null,
   createP len h CreateType.kCreateTable .null (.opt .str) .null .null (.vec0 columnDefP) (.vec0 (.ref .tableConstraint)) .null .null,
   createP len h CreateType.kCreateTable .null (.opt .str) .null .null .null .null .null (.ref .selStmt),
   createP len h CreateType.kCreateIndex .null .null (.opt .str) (.ref .strs) .null .null .null .null,
   createP len h CreateType.kCreateView .null (.opt .str) .null .null .null .null (.opt .strs) (.ref .selStmt)]
/-- `InsertStatement` (src/sql/InsertStatement.h). -/
def insertAlts : List P :=
  [.obj .InsertStatement [len, h, .ints [StatementType.kStmtInsert], .ints [InsertType.kInsertValues], .opt .str, .str, .opt .strs, .ref .extLits, .null],
   .obj .InsertStatement [len, h, .ints [StatementType.kStmtInsert], .ints [InsertType.kInsertSelect], .opt .str, .str, .opt .strs, .null, .ref .sel]]
/-- `DeleteStatement` (src/sql/DeleteStatement.h); also TRUNCATE. -/
def deleteP : P := .obj .DeleteStatement [len, h, .ints [StatementType.kStmtDelete], .opt .str, .str, .opt .expr]
/-- `UpdateStatement` (src/sql/UpdateStatement.h:15-23). -/
def updateStmtP : P := .obj .UpdateStatement [len, h, .ints [StatementType.kStmtUpdate], tableNameRefP .null, .vec1 updateP, .opt .expr]
/-- `DropStatement` (src/sql/DropStatement.h). -/
def dropAlts : List P :=
  [.obj .DropStatement [len, h, .ints [StatementType.kStmtDrop], .ints [DropType.kDropTable, DropType.kDropView], .bool, .opt .str, .str, .null],
   .obj .DropStatement [len, h, .ints [StatementType.kStmtDrop], .ints [DropType.kDropPreparedStatement], .ints [0], .null, .str, .null],
   .obj .DropStatement [len, h, .ints [StatementType.kStmtDrop], .ints [DropType.kDropIndex], .bool, .null, .null, .str]]
/-- `AlterStatement` (src/sql/AlterStatement.h). -/
def alterP : P := .obj .AlterStatement [len, h, .ints [StatementType.kStmtAlter], .opt .str, .bool, .str, dropActionP]
/-- `ExecuteStatement`, `PrepareStatement`, `TransactionStatement`. -/
def executeP : P := .obj .ExecuteStatement [len, h, .ints [StatementType.kStmtExecute], .str, .opt .extLits]
def prepareP : P := .obj .PrepareStatement [len, h, .ints [StatementType.kStmtPrepare], .str, .str]
def transactionP : P := .obj .TransactionStatement [len, h, .ints [StatementType.kStmtTransaction],
  .ints [TransactionCommand.kBeginTransaction, TransactionCommand.kCommitTransaction, TransactionCommand.kRollbackTransaction]]
/-- `ShowStatement` (src/sql/ShowStatement.h). -/
def showAlts : List P :=
  [.obj .ShowStatement [len, h, .ints [StatementType.kStmtShow], .ints [ShowType.kShowTables], .null, .null],
   .obj .ShowStatement [len, h, .ints [StatementType.kStmtShow], .ints [ShowType.kShowColumns], .opt .str, .str]]
/-- `ImportStatement` (src/sql/ImportStatement.h). -/
def importAlts : List P :=
  [.obj .ImportStatement [len, h, .ints [StatementType.kStmtImport], formats, .str, .opt .str, .str, .opt .expr, .opt .str, .null],
   .obj .ImportStatement [len, h, .ints [StatementType.kStmtImport], csvFormats, .str, .opt .str, .str, .opt .expr, .opt .str, csvOptionsP]]
/-- `ExportStatement` (src/sql/ExportStatement.h): of a table or of a select. -/
def exportAlts : List P :=
  [.obj .ExportStatement [len, h, .ints [StatementType.kStmtExport], formats, .str, .opt .str, .str, .null, .opt .str, .null],
   .obj .ExportStatement [len, h, .ints [StatementType.kStmtExport], csvFormats, .str, .opt .str, .str, .null, .opt .str, csvOptionsP],
   .obj .ExportStatement [len, h, .ints [StatementType.kStmtExport], formats, .str, .null, .null, .ref .sel, .opt .str, .null],
   .obj .ExportStatement [len, h, .ints [StatementType.kStmtExport], csvFormats, .str, .null, .null, .ref .sel, .opt .str, csvOptionsP]]
def selStmtP : P := selP len h (.opt .setOps) (.opt .orders) (.opt .withs) (.opt .limit) (.opt .locks)
/-- The statements that can be prepared. -/
def preparableAlts : List P :=
  selStmtP len h :: createAlts len h ++ insertAlts len h ++ [deleteP len h, updateStmtP len h] ++ dropAlts len h ++
    [alterP len h, executeP len h, transactionP len h]
end

/-- All statements. PREPARE and the preparable statements may carry hints. -/
def stmtAlts (len : P) : List P :=
  preparableAlts len (.opt .hints) ++ [prepareP len (.opt .hints)] ++ showAlts len .null ++ importAlts len .null ++ exportAlts len .null

/-- The alternatives of a shape. -/
def alts : Ty → List P
  | .opt t => [.null, .ref t]
  | .str => [.str]
  | .strs => [.vec1 .str]
  | .colType => [colTypeP]
  | .expr => exprAlts .null
  | .exprA => exprAlts (.opt .str)
  | .exprs => [.vec1 (.ref .exprA)]
  | .lit => litAlts .null
  | .numLit => [Kind.float.p, Kind.int.p]
  | .extLit => extLitAlts
  | .castLit => extLitAlts ++ [{ Kind.cast with expr := .ref .extLit : ExprP }.p]
  | .extLits => [.vec1 (.ref .castLit)]
  | .hints => [.vec1 Kind.hint.p]
  | .window => [windowP]
  | .orders => [.vec1 orderP]
  | .limit => [limitP (.opt .expr) (.opt .expr)]
  | .top => [limitP Kind.int.p .null]
  | .group => [groupP]
  | .sel => [selP .undef .null (.opt .setOps) (.opt .orders) .null (.opt .limit) (.opt .locks)]
  | .selStmt => [selStmtP .undef .null]
  | .setOps => [.vec1 setOpP]
  | .locks => [.vec1 lockP]
  | .withs => [.vec1 withP]
  | .table =>
    [tableNameRefP (.opt .tableAlias),
     tableRefP TableRefType.kTableSelect .null .null (.ref .selStmt) .null .null (.opt .tableAlias),
     tableRefP TableRefType.kTableCrossProduct .null .null .null (.ref .tables) .null .null,
     joinRefP (joinP .null .null (.ints [JoinType.kJoinNatural])),
     joinRefP (joinP (.ref .expr) .null joinTypes),
     joinRefP (joinP .null (.ref .strs) joinTypes)]
  | .tables => [.vec1 (.ref .table)]
  | .alias => [aliasP .null]
  | .tableAlias => [aliasP (.opt .strs)]
  | .tableConstraint => [keyP, foreignKeyP]
  | .tableElem => [columnDefP, keyP, foreignKeyP]
  | .csvOptions => [csvOptionsP]
  | .ioOptions => [.obj .ImportExportOptions [formats, .opt .str, .null], .obj .ImportExportOptions [csvFormats, .opt .str, csvOptionsP]]
  | .prepStmt => preparableAlts .undef .null
  | .stmtU => stmtAlts .undef
  | .stmt => stmtAlts .pos
  | .junk => [.undef, .num]

section
variable (ok : Bytes → Prop) (good : List V → Prop)

/-- The bytes have the property. -/
def SQ.holds : SQ → Bytes → Prop
  | .dur, b => (scanD none b).isSome
  | .unit, b => (scanD none b).isSome ∧ (scanUnit b).isSome

mutual
/-- The value has the shape; `ok` holds of all strings in it, and `good` of (the fields of) all column definitions. -/
inductive Sat : P → V → Prop where
  | undef : Sat .undef .undef
  | null : Sat .null .null
  | num (n : Int) : Sat .num (.int n)
  | pos (n : Int) : Sat .pos (.pos n)
  | idx (n : Nat) : Sat .idx (.idx n)
  | posnum1 (n : Int) : Sat .posnum (.pos n)
  | posnum2 (n : Int) : Sat .posnum (.int n)
  | ints {l : List Int} {n : Int} : n ∈ l → Sat (.ints l) (.int n)
  | raw (b : Bytes) : Sat .raw (.raw b)
  | str (a : Nat) {b : Bytes} : ok b → Sat .str (.str a b)
  | strQ (a : Nat) {b : Bytes} {q : SQ} : ok b → q.holds b → Sat (.strQ q) (.str a b)
  | ref {t : Ty} {p : P} {v : V} : p ∈ alts t → Sat p v → Sat (.ref t) v
  | vec (a : Nat) {e : P} {ne : Bool} {suf : List P} {pre post : List V} : (∀ v ∈ pre, Sat e v) → (ne = true → pre ≠ []) →
      SatL suf post → Sat (.vec e ne suf) (.vec a (pre ++ post))
  | obj (a : Nat) {c : Cls} {ps : List P} {fs : List V} : SatL ps fs → (c = .ColumnDefinition → good fs) → Sat (.obj c ps) (.obj a c fs)
  | tup {ps : List P} {fs : List V} : SatL ps fs → Sat (.tup ps) (.tup fs)
inductive SatL : List P → List V → Prop where
  | nil : SatL [] []
  | cons {p : P} {v : V} {ps : List P} {vs : List V} : Sat p v → SatL ps vs → SatL (p :: ps) (v :: vs)
end
end

/-- Intermediate shapes. -/
def intPairP : P := .obj .IntPair [.num, .num]
def csvOptionP : P := .obj .CsvOptionPair [.ints [CsvOptionType.Delimiter, CsvOptionType.Null, CsvOptionType.Quote], .str]

/-- The shapes of the values of the nonterminals. -/
def ntTypes : List (Nat × P) := [
  (N.accept, .undef),
  (N.input, .undef),
  (N.statement_list, .vec1 (.ref .stmt)),
  (N.statement, .ref .stmtU),
  (N.preparable_statement, .ref .prepStmt),
  (N.opt_hints, .opt .hints),
  (N.hint_list, .ref .hints),
  (N.hint, Kind.hint.p),
  (N.transaction_statement, transactionP .undef .null),
  (N.opt_transaction_keyword, .undef),
  (N.prepare_statement, prepareP .undef .null),
  (N.prepare_target_query, .str),
  (N.execute_statement, executeP .undef .null),
  (N.import_statement, .ref .stmtU),
  (N.file_type, fileTypes),
  (N.file_path, .str),
  (N.opt_import_export_options, .ref .ioOptions),
  (N.import_export_options, .ref .ioOptions),
  (N.csv_option, csvOptionP),
  (N.export_statement, .ref .stmtU),
  (N.show_statement, .ref .stmtU),
  (N.create_statement, .ref .prepStmt),
  (N.opt_not_exists, .bool),
  (N.table_elem_commalist, .vec1 (.ref .tableElem)),
  (N.table_elem, .ref .tableElem),
  (N.column_def, columnDefP),
  (N.column_type, .ref .colType),
  (N.opt_time_precision, .num),
  (N.opt_decimal_specification, intPairP),
  (N.opt_column_constraints, columnConstraintsP),
  (N.column_constraints, columnConstraintsP),
  (N.column_constraint, constraintTypes),
  (N.table_constraint, .ref .tableConstraint),
  (N.references_spec, refSpecP),
  (N.drop_statement, .ref .prepStmt),
  (N.opt_exists, .bool),
  (N.alter_statement, alterP .undef .null),
  (N.alter_action, dropActionP),
  (N.drop_action, dropActionP),
  (N.delete_statement, deleteP .undef .null),
  (N.truncate_statement, deleteP .undef .null),
  (N.insert_statement, .ref .prepStmt),
  (N.opt_column_list, .opt .strs),
  (N.update_statement, updateStmtP .undef .null),
  (N.update_clause_commalist, .vec1 updateP),
  (N.update_clause, updateP),
  (N.select_statement, .ref .selStmt),
  (N.select_within_set_operation, .ref .sel),
  (N.select_within_set_operation_no_parentheses, .ref .sel),
  (N.select_with_paren, .ref .sel),
  (N.select_no_paren, .ref .sel),
  (N.set_operator, .obj .SetOperation [setTypes, .bool, .null, .null, .null]),
  (N.set_type, .obj .SetOperation [setTypes, .undef, .null, .null, .null]),
  (N.opt_all, .bool),
  (N.select_clause, selClauseP),
  (N.opt_distinct, .bool),
  (N.select_list, .ref .exprs),
  (N.opt_from_clause, .opt .table),
  (N.from_clause, .ref .table),
  (N.opt_where, .opt .expr),
  (N.opt_group, .opt .group),
  (N.opt_having, .opt .expr),
  (N.opt_order, .opt .orders),
  (N.order_list, .ref .orders),
  (N.order_desc, orderP),
  (N.opt_order_type, orderTypes),
  (N.opt_null_ordering, nullOrders),
  (N.opt_top, .opt .top),
  (N.opt_limit, .opt .limit),
  (N.expr_list, .ref .exprs),
  (N.opt_extended_literal_list, .opt .extLits),
  (N.extended_literal_list, .ref .extLits),
  (N.casted_extended_literal, .ref .castLit),
  (N.extended_literal, .ref .extLit),
  (N.expr_alias, .ref .exprA),
  (N.expr, .ref .expr),
  (N.operand, .ref .expr),
  (N.scalar_expr, .ref .expr),
  (N.unary_expr, Kind.unary.p),
  (N.binary_expr, Kind.binary.p),
  (N.logic_expr, Kind.binary.p),
  (N.in_expr, .ref .expr),
  (N.case_expr, Kind.case.p),
  (N.case_list, Kind.caseList.p),
  (N.exists_expr, .ref .expr),
  (N.comp_expr, Kind.binary.p),
  (N.function_expr, Kind.function.p),
  (N.opt_window, .opt .window),
  (N.opt_partition, .opt .exprs),
  (N.opt_frame_clause, frameP),
  (N.frame_type, frameTypes),
  (N.frame_bound, boundP),
  (N.extract_expr, Kind.extract.p),
  (N.cast_expr, Kind.cast.p),
  (N.datetime_field, Kind.units),
  (N.datetime_field_plural, Kind.units),
  (N.duration_field, Kind.units),
  (N.array_expr, Kind.array.p),
  (N.array_index, Kind.arrayIndex.p),
  (N.between_expr, Kind.between.p),
  (N.column_name, .ref .expr),
  (N.literal, .ref .lit),
  (N.string_literal, Kind.string.p),
  (N.bool_literal, Kind.bool.p),
  (N.num_literal, .ref .numLit),
  (N.int_literal, Kind.int.p),
  (N.null_literal, Kind.null.p),
  (N.date_literal, Kind.date.p),
  (N.interval_literal, Kind.interval.p),
  (N.param_expr, Kind.param.p),
  (N.table_ref, .ref .table),
  (N.table_ref_atomic, .ref .table),
  (N.nonjoin_table_ref_atomic, .ref .table),
  (N.table_ref_commalist, .ref .tables),
  (N.table_ref_name, tableNameRefP (.opt .tableAlias)),
  (N.table_ref_name_no_alias, tableNameRefP .null),
  (N.table_name, tableNameP),
  (N.opt_index_name, .opt .str),
  (N.table_alias, .ref .tableAlias),
  (N.opt_table_alias, .opt .tableAlias),
  (N.alias, aliasP .null),
  (N.opt_alias, .opt .alias),
  (N.opt_locking_clause, .opt .locks),
  (N.opt_locking_clause_list, .ref .locks),
  (N.locking_clause, lockP),
  (N.row_lock_mode, lockModes),
  (N.opt_row_lock_policy, lockPolicies),
  (N.opt_with_clause, .opt .withs),
  (N.with_clause, .ref .withs),
  (N.with_description_list, .ref .withs),
  (N.with_description, withP),
  (N.join_clause, .ref .table),
  (N.opt_join_type, joinTypes),
  (N.join_condition, .ref .expr),
  (N.opt_semicolon, .undef),
  (N.ident_commalist, .ref .strs)]

/-- The nonterminals are listed in the order of their numbers. -/
theorem ntTypes_keys : ntTypes.map Prod.fst = (List.range 136).map (199 + ·) := by decide +kernel

/-- The shapes of the values of the grammar symbols; a symbol without value: `undef`. -/
def symTy (x : Nat) : P :=
  if x = T.IDENTIFIER then .str
  else if x = T.STRING then .str
  else if x = T.FLOATVAL then .raw
  else if x = T.INTVAL then .num
  else if x = T.eof then .ref .junk
  else if x = 2 then .ref .junk
  else if x < 199 then .undef
  else (ntTypes.getD (x - 199) (0, .undef)).2

end Verif.Sem

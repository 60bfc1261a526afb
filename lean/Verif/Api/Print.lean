import Verif.Sem.Layout
/-!
# The printing helpers (src/util/sqlhelper.cpp)

`std::cout` is modelled by the list of the lines printed.  A line is the indentation and what is printed behind it.  A `double`
is not converted to text: it is represented by the literal it was read from, as everywhere in the model.

The functions of the C++ code call each other recursively; the argument `k` bounds the depth of the recursion.  The result `ub`
means that a null or indeterminate pointer is dereferenced or passed to `operator<<`, that a value of another type is found, or that
`k` is too small.
-/
namespace Verif.Print
open Verif.Sem

/-- What a line shows. `err n`: `Unrecognized expression type n` on `std::cerr`. -/
inductive Item where
  | text (b : Bytes)
  | int (n : Int)
  | flt (b : Bytes)
  | err (n : Int)
deriving DecidableEq, Repr

/-- A line of output. -/
structure Line where
  indent : Nat
  item : Item
deriving DecidableEq, Repr

/-- The outcome of a call: the lines printed, or undefined behaviour. -/
inductive Out where
  | ok (lines : List Line)
  | ub
deriving DecidableEq, Repr

/-- One call after the other. -/
def Out.append : Out → Out → Out
  | .ok a, .ok b => .ok (a ++ b)
  | _, _ => .ub
instance : Append Out := ⟨Out.append⟩

/-- Nothing printed. -/
abbrev Out.nil : Out := .ok []

/-! ## Access -/

/-- Follow pointers, then go on. -/
def deref (v : V) (p : List Sel) (f : V → Out) : Out := match v.get p with
  | some w => f w
  | none => .ub
/-- `if (p) ... else ...` of a pointer. -/
def ifPtr (v : V) (yes : Out) (no : Out := .nil) : Out := match v with
  | .null => no
  | .str _ _ => yes
  | .vec _ _ => yes
  | .obj _ _ _ => yes
  | _ => .ub
/-- An integer, a `bool`, an enumerator. -/
def asInt (v : V) (f : Int → Out) : Out := match v with
  | .int n => f n
  | .pos n => f n
  | .idx n => f n
  | _ => .ub
/-- The calls for the elements, one after the other. -/
def seqL (f : V → Out) : List V → Out
  | [] => .nil
  | v :: vs => f v ++ seqL f vs
/-- `for (x : *v) ...`. -/
def forEach (v : V) (f : V → Out) : Out := match v with
  | .vec _ vs => seqL f vs
  | _ => .ub

/-! ## inprint (src/util/sqlhelper.cpp:18-32) -/

/-- A string literal. -/
def say (s : Bytes) (n : Nat) : Out := .ok [⟨n, .text s⟩]
/-- `inprint(const char*, ...)`; printing a null pointer is undefined. -/
def inprintStr (v : V) (n : Nat) : Out := match v with
  | .str _ b => .ok [⟨n, .text b⟩]
  | _ => .ub
/-- `inprint(int64_t, ...)`. -/
def inprintInt (v : V) (n : Nat) : Out := asInt v fun i => .ok [⟨n, .int i⟩]
/-- `inprint(double, ...)`. A double not read from the text is the 0 of the constructor. -/
def inprintFlt (v : V) (n : Nat) : Out := match v with
  | .raw b => .ok [⟨n, .flt b⟩]
  | .int i => .ok [⟨n, .int i⟩]
  | _ => .ub

/-- The decimal digits of a number. -/
def digits (n : Nat) : Bytes := if n < 10 then [48 + n] else digits (n / 10) ++ [48 + n % 10]
/-- `os << n`. -/
def showInt (n : Int) : Bytes := if n < 0 then 45 :: digits n.natAbs else digits n.natAbs

/-- A table of texts, and the number if it has none. -/
def look (l : List (Int × Bytes)) (n : Int) : Bytes := match l.find? fun e => e.1 == n with
  | some e => e.2
  | none => showInt n

/-- `operator<<(std::ostream&, const OperatorType&)` (src/util/sqlhelper.cpp:437-460). -/
def opText : Int → Bytes := look
  [(OperatorType.kOpNone, b!"None"), (OperatorType.kOpBetween, b!"BETWEEN"), (OperatorType.kOpCase, b!"CASE"),
   (OperatorType.kOpCaseListElement, b!"CASE LIST ELEMENT"), (OperatorType.kOpPlus, b!"+"), (OperatorType.kOpMinus, b!"-"),
   (OperatorType.kOpAsterisk, b!"*"), (OperatorType.kOpSlash, b!"/"), (OperatorType.kOpPercentage, b!"%"), (OperatorType.kOpCaret, b!"^"),
   (OperatorType.kOpEquals, b!"="), (OperatorType.kOpNotEquals, b!"!="), (OperatorType.kOpLess, b!"<"), (OperatorType.kOpLessEq, b!"<="),
   (OperatorType.kOpGreater, b!">"), (OperatorType.kOpGreaterEq, b!">="), (OperatorType.kOpLike, b!"LIKE"), (OperatorType.kOpNotLike, b!"NOT LIKE"),
   (OperatorType.kOpILike, b!"ILIKE"), (OperatorType.kOpAnd, b!"AND"), (OperatorType.kOpOr, b!"OR"), (OperatorType.kOpIn, b!"IN"),
   (OperatorType.kOpConcat, b!"CONCAT"), (OperatorType.kOpNot, b!"NOT"), (OperatorType.kOpUnaryMinus, b!"-"), (OperatorType.kOpIsNull, b!"IS NULL"),
   (OperatorType.kOpExists, b!"EXISTS")]

/-- `operator<<(std::ostream&, const DatetimeField&)` (src/util/sqlhelper.cpp:462-473). -/
def dateText : Int → Bytes := look
  [(DatetimeField.kDatetimeNone, b!"None"), (DatetimeField.kDatetimeSecond, b!"SECOND"), (DatetimeField.kDatetimeMinute, b!"MINUTE"),
   (DatetimeField.kDatetimeHour, b!"HOUR"), (DatetimeField.kDatetimeDay, b!"DAY"), (DatetimeField.kDatetimeMonth, b!"MONTH"),
   (DatetimeField.kDatetimeYear, b!"YEAR")]

/-- `inprint(const OperatorType&, ...)`, `inprint(const DatetimeField&, ...)`. -/
def inprintOp (v : V) (n : Nat) : Out := asInt v fun i => say (opText i) n
def inprintDate (v : V) (n : Nat) : Out := asInt v fun i => say (dateText i) n

/-- `operator<<(std::ostream&, const ColumnType&)` (src/sql/statements.cpp:22-75); nothing is printed for a number that is no `DataType`. -/
def typeText (t len : Int) : Bytes :=
  if t = DataType.UNKNOWN then b!"UNKNOWN"
  else if t = DataType.INT then b!"INT"
  else if t = DataType.BIGINT then b!"BIGINT"
  else if t = DataType.LONG then b!"LONG"
  else if t = DataType.FLOAT then b!"FLOAT"
  else if t = DataType.DOUBLE then b!"DOUBLE"
  else if t = DataType.REAL then b!"REAL"
  else if t = DataType.CHAR then b!"CHAR(" ++ showInt len ++ b!")"
  else if t = DataType.VARCHAR then b!"VARCHAR(" ++ showInt len ++ b!")"
  else if t = DataType.DECIMAL then b!"DECIMAL"
  else if t = DataType.TEXT then b!"TEXT"
  else if t = DataType.DATETIME then b!"DATETIME"
  else if t = DataType.DATE then b!"DATE"
  else if t = DataType.TIME then b!"TIME"
  else if t = DataType.SMALLINT then b!"SMALLINT"
  else if t = DataType.BOOLEAN then b!"BOOLEAN"
  else []
/-- `inprint(const ColumnType&, ...)`. -/
def inprintType (v : V) (n : Nat) : Out := deref v [.fld 0] fun t => asInt t fun t => deref v [.fld 1] fun l => asInt l fun l => say (typeText t l) n

/-- `operator<<(std::ostream&, const FrameBound&)` (src/util/sqlhelper.cpp:475-496). -/
def boundText (off type : Int) (unbounded : Bool) : Bytes :=
  if type = FrameBoundType.kCurrentRow then b!"CURRENT ROW"
  else (if unbounded then b!"UNBOUNDED" else showInt off) ++ b!" " ++ (if type = FrameBoundType.kPreceding then b!"PRECEDING" else b!"FOLLOWING")
/-- The text of a frame bound. (The C++ code reads offset and unbounded only if the type is not `kCurrentRow`; the model requires all three to be defined.) -/
def withBound (v : V) (f : Bytes → Out) : Out :=
  deref v [FrameBound.offset] fun o => asInt o fun o => deref v [FrameBound.type] fun t => asInt t fun t =>
  deref v [FrameBound.unbounded] fun u => asInt u fun u => f (boundText o t (u != 0))
/-- The text of a frame type (src/util/sqlhelper.cpp:201-212). -/
def frameText (t : Int) : Bytes :=
  if t = FrameType.kRows then b!"ROWS" else if t = FrameType.kRange then b!"RANGE" else if t = FrameType.kGroups then b!"GROUPS" else []

/-! ## The print functions -/

/-- `printAlias` (src/util/sqlhelper.cpp:65-74). -/
def printAlias (a : V) (n : Nat) : Out :=
  say b!"Alias" (n + 1) ++ deref a [Alias.name] (fun s => inprintStr s (n + 2)) ++
  deref a [Alias.columns] fun cs => ifPtr cs (forEach cs fun c => inprintStr c (n + 3))

/-- The locking clauses in `printSelectStatementInfo` (src/util/sqlhelper.cpp:241-271). -/
def printLock (l : V) (n : Nat) : Out :=
  say b!"Type" (n + 2) ++
  deref l [LockingClause.rowLockMode] (fun m => asInt m fun m =>
    if m = RowLockMode.ForUpdate then say b!"FOR UPDATE" (n + 3)
    else if m = RowLockMode.ForNoKeyUpdate then say b!"FOR NO KEY UPDATE" (n + 3)
    else if m = RowLockMode.ForShare then say b!"FOR SHARE" (n + 3)
    else if m = RowLockMode.ForKeyShare then say b!"FOR KEY SHARE" (n + 3)
    else .nil) ++
  deref l [LockingClause.tables] (fun ts => ifPtr ts (say b!"Target tables:" (n + 2) ++ forEach ts fun t => inprintStr t (n + 3))) ++
  deref l [LockingClause.rowLockWaitPolicy] fun p => asInt p fun p =>
    if p ≠ RowLockWaitPolicy.None then
      say b!"Waiting policy: " (n + 2) ++ (if p = RowLockWaitPolicy.NoWait then say b!"NOWAIT" (n + 3) else say b!"SKIP LOCKED" (n + 3))
    else .nil

mutual
/-- `printTableRefInfo` (src/util/sqlhelper.cpp:34-63). -/
def printTableRefInfo : Nat → V → Nat → Out
  | 0, _, _ => .ub
  | k + 1, t, n =>
    deref t [TableRef.type] (fun ty => asInt ty fun ty =>
      if ty = TableRefType.kTableName then
        deref t [TableRef.name] (fun s => inprintStr s n) ++
        deref t [TableRef.schema] fun s => ifPtr s (say b!"Schema" (n + 1) ++ inprintStr s (n + 2))
      else if ty = TableRefType.kTableSelect then deref t [TableRef.select] fun s => printSelectStatementInfo k s n
      else if ty = TableRefType.kTableJoin then
        say b!"Join Table" n ++ say b!"Left" (n + 1) ++
        deref t [TableRef.join, JoinDefinition.left] (fun l => printTableRefInfo k l (n + 2)) ++
        say b!"Right" (n + 1) ++
        deref t [TableRef.join, JoinDefinition.right] (fun r => printTableRefInfo k r (n + 2)) ++
        say b!"Join Condition" (n + 1) ++
        deref t [TableRef.join, JoinDefinition.condition] fun c => printExpression k c (n + 2)
      else if ty = TableRefType.kTableCrossProduct then deref t [TableRef.list] fun l => forEach l fun x => printTableRefInfo k x n
      else .nil) ++
    deref t [TableRef.alias] fun a => ifPtr a (printAlias a n)

/-- `printOperatorExpression` (src/util/sqlhelper.cpp:76-90). -/
def printOperatorExpression : Nat → V → Nat → Out
  | 0, _, _ => .ub
  | k + 1, e, n =>
    ifPtr e (
      deref e [Expr.opType] (fun o => inprintOp o n) ++
      deref e [Expr.expr] (fun x => printExpression k x (n + 1)) ++
      deref e [Expr.expr2] fun y => deref e [Expr.exprList] fun l =>
        ifPtr y (printExpression k y (n + 1)) (ifPtr l (forEach l fun x => printExpression k x (n + 1))))
    (say b!"null" n)

/-- `printExpression` (src/util/sqlhelper.cpp:92-172). -/
def printExpression : Nat → V → Nat → Out
  | 0, _, _ => .ub
  | k + 1, e, n =>
    let alias := deref e [Expr.alias] fun a => ifPtr a (say b!"Alias" (n + 1) ++ inprintStr a (n + 2))
    ifPtr e (deref e [Expr.type] fun ty => asInt ty fun ty =>
      if ty = ExprType.kExprStar then say b!"*" n ++ alias
      else if ty = ExprType.kExprColumnRef then
        deref e [Expr.name] (fun s => inprintStr s n) ++
        deref e [Expr.table] (fun s => ifPtr s (say b!"Table:" (n + 1) ++ inprintStr s (n + 2))) ++ alias
      else if ty = ExprType.kExprLiteralFloat then deref e [Expr.fval] (fun x => inprintFlt x n) ++ alias
      else if ty = ExprType.kExprLiteralInt then deref e [Expr.ival] (fun x => inprintInt x n) ++ alias
      else if ty = ExprType.kExprLiteralString then deref e [Expr.name] (fun s => inprintStr s n) ++ alias
      else if ty = ExprType.kExprLiteralDate then deref e [Expr.name] (fun s => inprintStr s n) ++ alias
      else if ty = ExprType.kExprLiteralNull then say b!"NULL" n ++ alias
      else if ty = ExprType.kExprLiteralInterval then
        say b!"INTERVAL" n ++ deref e [Expr.ival] (fun x => inprintInt x (n + 1)) ++ deref e [Expr.datetimeField] (fun d => inprintDate d (n + 1)) ++ alias
      else if ty = ExprType.kExprFunctionRef then
        deref e [Expr.name] (fun s => inprintStr s n) ++
        deref e [Expr.exprList] (fun l => forEach l fun x => printExpression k x (n + 1)) ++
        deref e [Expr.windowDescription] (fun w => ifPtr w (printWindowDescription k w (n + 1))) ++ alias
      else if ty = ExprType.kExprExtract then
        say b!"EXTRACT" n ++ deref e [Expr.datetimeField] (fun d => inprintDate d (n + 1)) ++
        deref e [Expr.expr] (fun x => printExpression k x (n + 1)) ++ alias
      else if ty = ExprType.kExprCast then
        say b!"CAST" n ++ deref e [Expr.columnType] (fun t => inprintType t (n + 1)) ++
        deref e [Expr.expr] (fun x => printExpression k x (n + 1)) ++ alias
      else if ty = ExprType.kExprOperator then printOperatorExpression k e n ++ alias
      else if ty = ExprType.kExprSelect then deref e [Expr.select] (fun s => printSelectStatementInfo k s n) ++ alias
      else if ty = ExprType.kExprParameter then deref e [Expr.ival] (fun x => inprintInt x n) ++ alias
      else if ty = ExprType.kExprArray then deref e [Expr.exprList] (fun l => forEach l fun x => printExpression k x (n + 1)) ++ alias
      else if ty = ExprType.kExprArrayIndex then
        deref e [Expr.expr] (fun x => printExpression k x (n + 1)) ++ deref e [Expr.ival] (fun x => inprintInt x n) ++ alias
      else .ok [⟨0, .err ty⟩])

/-- `printOrderBy` (src/util/sqlhelper.cpp:174-184). -/
def printOrderBy : Nat → V → Nat → Out
  | 0, _, _ => .ub
  | k + 1, l, n =>
    ifPtr l (forEach l fun o =>
      deref o [OrderDescription.expr] (fun x => printExpression k x n) ++
      deref o [OrderDescription.type] fun t => asInt t fun t =>
        if t = OrderType.kOrderAsc then say b!"ascending" n else say b!"descending" n)

/-- `printWindowDescription` (src/util/sqlhelper.cpp:186-215). -/
def printWindowDescription : Nat → V → Nat → Out
  | 0, _, _ => .ub
  | k + 1, w, n =>
    say b!"OVER" n ++
    deref w [WindowDescription.partitionList] (fun l => ifPtr l (say b!"PARTITION BY" (n + 1) ++ forEach l fun x => printExpression k x (n + 2))) ++
    deref w [WindowDescription.orderList] (fun l => ifPtr l (say b!"ORDER BY" (n + 1) ++ printOrderBy k l (n + 2))) ++
    deref w [WindowDescription.frameDescription, FrameDescription.type] fun t => asInt t fun t =>
    deref w [WindowDescription.frameDescription, FrameDescription.start] fun s => withBound s fun s =>
    deref w [WindowDescription.frameDescription, FrameDescription.end] fun e => withBound e fun e =>
      say (frameText t ++ b!" BETWEEN " ++ s ++ b!" AND " ++ e) (n + 1)

/-- `printSelectStatementInfo` (src/util/sqlhelper.cpp:217-318). -/
def printSelectStatementInfo : Nat → V → Nat → Out
  | 0, _, _ => .ub
  | k + 1, s, n =>
    say b!"SelectStatement" n ++ say b!"Fields:" (n + 1) ++
    deref s [SelectStatement.selectList] (fun l => forEach l fun x => printExpression k x (n + 2)) ++
    deref s [SelectStatement.fromTable] (fun t => ifPtr t (say b!"Sources:" (n + 1) ++ printTableRefInfo k t (n + 2))) ++
    deref s [SelectStatement.whereClause] (fun x => ifPtr x (say b!"Search Conditions:" (n + 1) ++ printExpression k x (n + 2))) ++
    deref s [SelectStatement.groupBy] (fun g => ifPtr g (say b!"GroupBy:" (n + 1) ++
      deref g [GroupByDescription.columns] (fun l => forEach l fun x => printExpression k x (n + 2)) ++
      deref g [GroupByDescription.having] fun h => ifPtr h (say b!"Having:" (n + 1) ++ printExpression k h (n + 2)))) ++
    deref s [SelectStatement.lockings] (fun ls => ifPtr ls (say b!"Lock Info:" (n + 1) ++ forEach ls fun l => printLock l n)) ++
    deref s [SelectStatement.setOperations] (fun os => ifPtr os (forEach os fun o =>
      deref o [SetOperation.setType] (fun t => asInt t fun t =>
        if t = SetType.kSetIntersect then say b!"Intersect:" (n + 1)
        else if t = SetType.kSetUnion then say b!"Union:" (n + 1)
        else if t = SetType.kSetExcept then say b!"Except:" (n + 1)
        else .nil) ++
      deref o [SetOperation.nestedSelectStatement] (fun x => printSelectStatementInfo k x (n + 2)) ++
      deref o [SetOperation.resultOrder] (fun l => ifPtr l (say b!"SetResultOrderBy:" (n + 1) ++ printOrderBy k l (n + 2))) ++
      deref o [SetOperation.resultLimit] fun l => ifPtr l (
        deref l [LimitDescription.limit] (fun x => ifPtr x (say b!"SetResultLimit:" (n + 1) ++ printExpression k x (n + 2))) ++
        deref l [LimitDescription.offset] fun x => ifPtr x (say b!"SetResultOffset:" (n + 1) ++ printExpression k x (n + 2))))) ++
    deref s [SelectStatement.order] (fun l => ifPtr l (say b!"OrderBy:" (n + 1) ++ printOrderBy k l (n + 2))) ++
    deref s [SelectStatement.limit] (fun l => ifPtr l (
      deref l [LimitDescription.limit] fun x => ifPtr x (say b!"Limit:" (n + 1) ++ printExpression k x (n + 2)))) ++
    deref s [SelectStatement.limit] fun l => ifPtr l (
      deref l [LimitDescription.offset] fun x => ifPtr x (say b!"Offset:" (n + 1) ++ printExpression k x (n + 2)))
end

/-- The type of a file (src/util/sqlhelper.cpp:323-336, 347-360). -/
def printFormat (t : V) (n : Nat) : Out := asInt t fun t =>
  if t = ImportType.kImportCSV then say b!"CSV" n
  else if t = ImportType.kImportTbl then say b!"TBL" n
  else if t = ImportType.kImportBinary then say b!"BINARY" n
  else if t = ImportType.kImportAuto then say b!"AUTO" n
  else .nil

/-- `printImportStatementInfo` (src/util/sqlhelper.cpp:320-342). -/
def printImportStatementInfo (k : Nat) (s : V) (n : Nat) : Out :=
  say b!"ImportStatement" n ++
  deref s [ImportStatement.filePath] (fun x => inprintStr x (n + 1)) ++
  deref s [ImportStatement.type] (fun t => printFormat t (n + 1)) ++
  deref s [ImportStatement.tableName] (fun x => inprintStr x (n + 1)) ++
  deref s [ImportStatement.whereClause] fun x => ifPtr x (say b!"WHERE:" (n + 1) ++ printExpression k x (n + 2))

/-- `printExportStatementInfo` (src/util/sqlhelper.cpp:344-367). -/
def printExportStatementInfo (k : Nat) (s : V) (n : Nat) : Out :=
  say b!"ExportStatement" n ++
  deref s [ExportStatement.filePath] (fun x => inprintStr x (n + 1)) ++
  deref s [ExportStatement.type] (fun t => printFormat t (n + 1)) ++
  deref s [ExportStatement.tableName] fun x => ifPtr x (inprintStr x (n + 1))
    (deref s [ExportStatement.select] fun q => printSelectStatementInfo k q (n + 1))

/-- `printCreateStatementInfo` (src/util/sqlhelper.cpp:369-373). -/
def printCreateStatementInfo (s : V) (n : Nat) : Out :=
  say b!"CreateStatement" n ++
  deref s [CreateStatement.tableName] (fun x => inprintStr x (n + 1)) ++
  deref s [CreateStatement.filePath] fun x => ifPtr x (inprintStr x (n + 1))

/-- `printInsertStatementInfo` (src/util/sqlhelper.cpp:375-395). -/
def printInsertStatementInfo (k : Nat) (s : V) (n : Nat) : Out :=
  say b!"InsertStatement" n ++
  deref s [InsertStatement.tableName] (fun x => inprintStr x (n + 1)) ++
  deref s [InsertStatement.columns] (fun l => ifPtr l (say b!"Columns" (n + 1) ++ forEach l fun c => inprintStr c (n + 2))) ++
  deref s [InsertStatement.type] fun t => asInt t fun t =>
    if t = InsertType.kInsertValues then
      say b!"Values" (n + 1) ++ deref s [InsertStatement.values] fun l => forEach l fun x => printExpression k x (n + 2)
    else if t = InsertType.kInsertSelect then deref s [InsertStatement.select] fun q => printSelectStatementInfo k q (n + 1)
    else .nil

/-- `printTransactionStatementInfo` (src/util/sqlhelper.cpp:397-410). -/
def printTransactionStatementInfo (s : V) (n : Nat) : Out :=
  say b!"TransactionStatement" n ++
  deref s [TransactionStatement.command] fun t => asInt t fun t =>
    if t = TransactionCommand.kBeginTransaction then say b!"BEGIN" (n + 1)
    else if t = TransactionCommand.kCommitTransaction then say b!"COMMIT" (n + 1)
    else if t = TransactionCommand.kRollbackTransaction then say b!"ROLLBACK" (n + 1)
    else .nil

/-- `printStatementInfo` (src/util/sqlhelper.cpp:412-435). `type()` is the third field of every statement (src/sql/SQLStatement.h). -/
def printStatementInfo (k : Nat) (s : V) : Out :=
  deref s [.fld 2] fun t => asInt t fun t =>
    if t = StatementType.kStmtSelect then printSelectStatementInfo k s 0
    else if t = StatementType.kStmtInsert then printInsertStatementInfo k s 0
    else if t = StatementType.kStmtCreate then printCreateStatementInfo s 0
    else if t = StatementType.kStmtImport then printImportStatementInfo k s 0
    else if t = StatementType.kStmtExport then printExportStatementInfo k s 0
    else if t = StatementType.kStmtTransaction then printTransactionStatementInfo s 0
    else .nil

end Verif.Print

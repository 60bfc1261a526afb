import Verif.Sem.Types
/-!
# The accessors of the AST

`none` means undefined behaviour: an indeterminate value is read, or the object is of another class.
-/
namespace Verif.Api.Access
open Verif.Sem

/-- Reading a `char*`: null, or a C string. -/
def cstr : V → Option (Option Bytes)
  | .null => some none
  | .str _ b => some (some b)
  | _ => none

/-- Reading an enumerator. -/
def enum : V → Option Int
  | .int n => some n
  | _ => none

/-- The field `i` of an `Expr` (src/sql/Expr.h:127-148: `type` 0, `name` 5, `table` 6, `alias` 8). -/
def exprField (v : V) (i : Nat) : Option V := match v with
  | .obj _ .Expr fs => fs[i]?
  | _ => none

/-- `Expr::isType` (src/sql/Expr.cpp:298). -/
def exprIsType (v : V) (t : Int) : Option Bool := (exprField v 0).bind enum |>.map fun n => decide (t = n)

/-- `||` of C++ (the right operand is evaluated only if the left one is false). -/
def orElse (a : Option Bool) (b : Option Bool) : Option Bool := match a with
  | some true => some true
  | some false => b
  | none => none

/-- `Expr::isLiteral` (src/sql/Expr.cpp:300-303). -/
def exprIsLiteral (v : V) : Option Bool :=
  orElse (exprIsType v ExprType.kExprLiteralInt) <| orElse (exprIsType v ExprType.kExprLiteralFloat) <| orElse (exprIsType v ExprType.kExprLiteralString) <|
  orElse (exprIsType v ExprType.kExprParameter) <| orElse (exprIsType v ExprType.kExprLiteralNull) <| orElse (exprIsType v ExprType.kExprLiteralDate) <|
  exprIsType v ExprType.kExprLiteralInterval

/-- `Expr::hasAlias` (src/sql/Expr.cpp:305). -/
def exprHasAlias (v : V) : Option Bool := (exprField v 8).bind cstr |>.map Option.isSome

/-- `Expr::hasTable` (src/sql/Expr.cpp:307). -/
def exprHasTable (v : V) : Option Bool := (exprField v 6).bind cstr |>.map Option.isSome

/-- `Expr::getName` (src/sql/Expr.cpp:309-314): the alias or else the name, which may be null. -/
def exprGetName (v : V) : Option (Option Bytes) := match (exprField v 8).bind cstr with
  | none => none
  | some (some b) => some (some b)
  | some none => (exprField v 5).bind cstr

/-- The field `i` of a `TableRef` (src/sql/Table.h:37-47: `schema` 1, `name` 2, `alias` 3). -/
def tableField (v : V) (i : Nat) : Option V := match v with
  | .obj _ .TableRef fs => fs[i]?
  | _ => none

/-- `TableRef::hasSchema` (src/sql/statements.cpp:400). -/
def tableHasSchema (v : V) : Option Bool := (tableField v 1).bind cstr |>.map Option.isSome

/-- `TableRef::getName` (src/sql/statements.cpp:402-407): the name of the alias or else the name. -/
def tableGetName (v : V) : Option (Option Bytes) := match tableField v 3 with
  | some .null => (tableField v 2).bind cstr
  | some (.obj _ .Alias fs) => fs[0]?.bind cstr
  | _ => none

/-- The classes derived from `SQLStatement`. -/
def isStatement : Cls → Bool
  | .SelectStatement | .CreateStatement | .ImportStatement | .ExportStatement | .InsertStatement | .DeleteStatement | .UpdateStatement | .DropStatement
  | .AlterStatement | .ExecuteStatement | .PrepareStatement | .ShowStatement | .TransactionStatement => true
  | _ => false

/-- `SQLStatement::type` (src/sql/SQLStatement.cpp:18; src/sql/SQLStatement.h: `stringLength` 0, `hints` 1, `type_` 2). -/
def stmtType (v : V) : Option Int := match v with
  | .obj _ c fs => if isStatement c then fs[2]?.bind enum else none
  | _ => none

/-- `SQLStatement::isType` and `SQLStatement::is` (src/sql/SQLStatement.cpp:20-22). -/
def stmtIs (v : V) (t : Int) : Option Bool := (stmtType v).map fun n => decide (n = t)

/-- `operator==(const ColumnType&, const ColumnType&)` (src/sql/statements.cpp:13-18). -/
def colTypeEq (a b : V) : Option Bool := match a, b with
  | .tup [.int t, .int l, .int p, .int s], .tup [.int t', .int l', .int p', .int s'] =>
    if t ≠ t' then some false else some (decide (l = l') && decide (p = p') && decide (s = s'))
  | _, _ => none

/-- `operator!=` (src/sql/statements.cpp:20). -/
def colTypeNe (a b : V) : Option Bool := (colTypeEq a b).map (!·)

/-- `operator<<(std::ostream&, const ConstraintType)` (src/sql/CreateStatement.cpp:6-25): the text that is written. -/
def constraintText (n : Int) : Bytes :=
  if n = ConstraintType.Null then b!"NULL"
  else if n = ConstraintType.NotNull then b!"NOT NULL"
  else if n = ConstraintType.ForeignKey then b!"FOREIGN KEY"
  else if n = ConstraintType.PrimaryKey then b!"PRIMARY KEY"
  else if n = ConstraintType.Unique then b!"UNIQUE"
  else []

end Verif.Api.Access

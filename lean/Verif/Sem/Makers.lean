import Verif.Sem.Layout
/-!
# The static constructors of `Expr`, and the actions written by hand

`makeX d args k`: the new expression is stored in variable `d`, then `k` runs.  The local variable `e` of the C++
functions is `d` itself.
-/
namespace Verif.Sem

/-- `d->f = a`. -/
abbrev setF (d : Nat) (f : Sel) (a : Atom) (k : Prog) : Prog := .set ⟨d, [f]⟩ (.atom a) k
/-- `d = new Expr(t)`. -/
abbrev newE (d : Nat) (t : Int) (k : Prog) : Prog := .set ⟨d, []⟩ (newExpr (.int t)) k

/-- src/sql/Expr.cpp:83-86 -/
def make (d : Nat) (type : Atom) (k : Prog) : Prog := .set ⟨d, []⟩ (newExpr type) k
/-- src/sql/Expr.cpp:88-94 -/
def makeOpUnary (d : Nat) (op expr : Atom) (k : Prog) : Prog :=
  newE d ExprType.kExprOperator <| setF d Expr.opType op <| setF d Expr.expr expr <| setF d Expr.expr2 .null k
/-- src/sql/Expr.cpp:96-102 -/
def makeOpBinary (d : Nat) (expr1 op expr2 : Atom) (k : Prog) : Prog :=
  newE d ExprType.kExprOperator <| setF d Expr.opType op <| setF d Expr.expr expr1 <| setF d Expr.expr2 expr2 k
/-- src/sql/Expr.cpp:104-112 -/
def makeBetween (d : Nat) (expr left right : Atom) (k : Prog) : Prog :=
  newE d ExprType.kExprOperator <| setF d Expr.expr expr <| setF d Expr.opType (.int OperatorType.kOpBetween) <|
  .set ⟨d, [Expr.exprList]⟩ (.vec []) <| .push ⟨d, [Expr.exprList]⟩ left <| .push ⟨d, [Expr.exprList]⟩ right k
/-- src/sql/Expr.cpp:114-122 -/
def makeCaseList (d : Nat) (caseListElement : Atom) (k : Prog) : Prog :=
  newE d ExprType.kExprOperator <| setF d Expr.opType (.int OperatorType.kOpNone) <|
  .set ⟨d, [Expr.exprList]⟩ (.vec []) <| .push ⟨d, [Expr.exprList]⟩ caseListElement k
/-- src/sql/Expr.cpp:124-130 -/
def makeCaseListElement (d : Nat) (when_ then_ : Atom) (k : Prog) : Prog :=
  newE d ExprType.kExprOperator <| setF d Expr.opType (.int OperatorType.kOpCaseListElement) <|
  setF d Expr.expr when_ <| setF d Expr.expr2 then_ k
/-- src/sql/Expr.cpp:137-146; `caseList` is a variable. -/
def makeCase (d : Nat) (expr : Atom) (caseList : Nat) (elseExpr : Atom) (k : Prog) : Prog :=
  newE d ExprType.kExprOperator <| setF d Expr.opType (.int OperatorType.kOpCase) <| setF d Expr.expr expr <|
  setF d Expr.expr2 elseExpr <| setF d Expr.exprList (.mv ⟨caseList, [Expr.exprList]⟩) <|
  setF caseList Expr.exprList .null <| .del ⟨caseList, []⟩ k
/-- src/sql/Expr.cpp:148-152 -/
def makeLiteralInt (d : Nat) (val : Atom) (k : Prog) : Prog :=
  newE d ExprType.kExprLiteralInt <| setF d Expr.ival val k
/-- src/sql/Expr.cpp:154-158 -/
def makeLiteralFloat (d : Nat) (value : Atom) (k : Prog) : Prog :=
  newE d ExprType.kExprLiteralFloat <| setF d Expr.fval value k
/-- src/sql/Expr.cpp:160-164 -/
def makeLiteralString (d : Nat) (string : Atom) (k : Prog) : Prog :=
  newE d ExprType.kExprLiteralString <| setF d Expr.name string k
/-- src/sql/Expr.cpp:166-171 -/
def makeLiteralBool (d : Nat) (val : Atom) (k : Prog) : Prog :=
  newE d ExprType.kExprLiteralInt <| setF d Expr.ival val <| setF d Expr.isBoolLiteral (.int 1) k
/-- src/sql/Expr.cpp:173-176 -/
def makeNullLiteral (d : Nat) (k : Prog) : Prog := newE d ExprType.kExprLiteralNull k
/-- src/sql/Expr.cpp:178-182 -/
def makeDateLiteral (d : Nat) (string : Atom) (k : Prog) : Prog :=
  newE d ExprType.kExprLiteralDate <| setF d Expr.name string k
/-- src/sql/Expr.cpp:184-189 -/
def makeIntervalLiteral (d : Nat) (duration unit : Atom) (k : Prog) : Prog :=
  newE d ExprType.kExprLiteralInterval <| setF d Expr.ival duration <| setF d Expr.datetimeField unit k
/-- src/sql/Expr.cpp:191-195 -/
def makeColumnRef (d : Nat) (name : Atom) (k : Prog) : Prog :=
  newE d ExprType.kExprColumnRef <| setF d Expr.name name k
/-- src/sql/Expr.cpp:197-202 -/
def makeColumnRefTable (d : Nat) (table name : Atom) (k : Prog) : Prog :=
  newE d ExprType.kExprColumnRef <| setF d Expr.name name <| setF d Expr.table table k
/-- src/sql/Expr.cpp:204-207 -/
def makeStar (d : Nat) (k : Prog) : Prog := newE d ExprType.kExprStar k
/-- src/sql/Expr.cpp:209-213 -/
def makeStarTable (d : Nat) (table : Atom) (k : Prog) : Prog :=
  newE d ExprType.kExprStar <| setF d Expr.table table k
/-- src/sql/Expr.cpp:215-222 -/
def makeFunctionRef (d : Nat) (func_name exprList distinct window : Atom) (k : Prog) : Prog :=
  newE d ExprType.kExprFunctionRef <| setF d Expr.name func_name <| setF d Expr.exprList exprList <|
  setF d Expr.distinct distinct <| setF d Expr.windowDescription window k
/-- src/sql/Expr.cpp:224-232 -/
def makeFunctionRefSchema (d : Nat) (func_name schema exprList distinct window : Atom) (k : Prog) : Prog :=
  newE d ExprType.kExprFunctionRef <| setF d Expr.name func_name <| setF d Expr.schema schema <|
  setF d Expr.exprList exprList <| setF d Expr.distinct distinct <| setF d Expr.windowDescription window k
/-- src/sql/Expr.cpp:234-238 -/
def makeArray (d : Nat) (exprList : Atom) (k : Prog) : Prog :=
  newE d ExprType.kExprArray <| setF d Expr.exprList exprList k
/-- src/sql/Expr.cpp:240-245 -/
def makeArrayIndex (d : Nat) (expr index : Atom) (k : Prog) : Prog :=
  newE d ExprType.kExprArrayIndex <| setF d Expr.expr expr <| setF d Expr.ival index k
/-- src/sql/Expr.cpp:247-251 -/
def makeParameter (d : Nat) (id : Atom) (k : Prog) : Prog :=
  newE d ExprType.kExprParameter <| setF d Expr.ival id k
/-- src/sql/Expr.cpp:253-257 -/
def makeSelect (d : Nat) (select : Atom) (k : Prog) : Prog :=
  newE d ExprType.kExprSelect <| setF d Expr.select select k
/-- src/sql/Expr.cpp:259-264 -/
def makeExists (d : Nat) (select : Atom) (k : Prog) : Prog :=
  newE d ExprType.kExprOperator <| setF d Expr.opType (.int OperatorType.kOpExists) <| setF d Expr.select select k
/-- src/sql/Expr.cpp:266-273 -/
def makeInOperatorList (d : Nat) (expr exprList : Atom) (k : Prog) : Prog :=
  newE d ExprType.kExprOperator <| setF d Expr.opType (.int OperatorType.kOpIn) <| setF d Expr.expr expr <|
  setF d Expr.exprList exprList k
/-- src/sql/Expr.cpp:275-282 -/
def makeInOperatorSelect (d : Nat) (expr select : Atom) (k : Prog) : Prog :=
  newE d ExprType.kExprOperator <| setF d Expr.opType (.int OperatorType.kOpIn) <| setF d Expr.expr expr <|
  setF d Expr.select select k
/-- src/sql/Expr.cpp:284-289 -/
def makeExtract (d : Nat) (datetimeField expr : Atom) (k : Prog) : Prog :=
  newE d ExprType.kExprExtract <| setF d Expr.datetimeField datetimeField <| setF d Expr.expr expr k
/-- src/sql/Expr.cpp:291-296 -/
def makeCast (d : Nat) (expr columnType : Atom) (k : Prog) : Prog :=
  newE d ExprType.kExprCast <| setF d Expr.columnType columnType <| setF d Expr.expr expr k

/-- `new ColumnConstraints()` (src/sql/CreateStatement.cpp:58-59). -/
def newColumnConstraints (d : Nat) (k : Prog) : Prog :=
  .set ⟨d, []⟩ (.obj .ColumnConstraints [.null, .null]) <|
  .set ⟨d, [ColumnConstraints.constraints]⟩ (.vec []) <| .set ⟨d, [ColumnConstraints.references]⟩ (.vec []) k

/-- `p->accept_csv_option(q)` (src/sql/statements.cpp:162-185), continuing with `t` or `e`.  The pointer
`option->second` is copied; `option` is deleted right after (src/parser/bison_parser.y:559, 567) without freeing
it, which is modelled as a move. -/
def acceptCsv (p : Path) (q : Nat) (t e : Prog) : Prog :=
  let one (f : Sel) : Prog :=
    .ite (.null ⟨p.var, p.sels ++ [f]⟩) (.set ⟨p.var, p.sels ++ [f]⟩ (.atom (.mv ⟨q, [CsvOptionPair.second]⟩)) t) e
  .ite (.eq ⟨q, [CsvOptionPair.first]⟩ CsvOptionType.Delimiter) (one CsvOptions.delimiter) <|
  .ite (.eq ⟨q, [CsvOptionPair.first]⟩ CsvOptionType.Null) (one CsvOptions.null) <|
  .ite (.eq ⟨q, [CsvOptionPair.first]⟩ CsvOptionType.Quote) (one CsvOptions.quote) t

/-- src/parser/bison_parser.y:538-561 -/
def csvOptionNext : Prog :=
  let bad : Prog := .del ⟨1, []⟩ <| .free ⟨3, [CsvOptionPair.second]⟩ <| .del ⟨3, []⟩ <|
    .err b!"CSV options (DELIMITER, NULL, QUOTE) are only allowed for CSV files." .fail
  let accept : Prog := acceptCsv ⟨1, [ImportExportOptions.csv_options]⟩ 3
    (.del ⟨3, []⟩ <| .set ⟨0, []⟩ (.atom (.mv ⟨1, []⟩)) .ret)
    (.free ⟨3, [CsvOptionPair.second]⟩ <| .del ⟨3, []⟩ <| .del ⟨1, []⟩ <|
      .err b!"CSV options (DELIMITER, NULL, QUOTE) cannot be provided more than once." .fail)
  let good : Prog := .ite (.null ⟨1, [ImportExportOptions.csv_options]⟩)
    (.set ⟨1, [ImportExportOptions.csv_options]⟩ newCsvOptions accept) accept
  .ite (.eq ⟨1, [ImportExportOptions.format]⟩ ImportType.kImportAuto) good <|
  .ite (.eq ⟨1, [ImportExportOptions.format]⟩ ImportType.kImportCSV) good bad

/-- src/parser/bison_parser.y:562-568; the result of `accept_csv_option` is not looked at. -/
def csvOptionFirst : Prog :=
  .set ⟨0, []⟩ newImportExportOptions <|
  .set ⟨0, [ImportExportOptions.csv_options]⟩ newCsvOptions <|
  acceptCsv ⟨0, [ImportExportOptions.csv_options]⟩ 1 (.del ⟨1, []⟩ .ret) (.del ⟨1, []⟩ .ret)

/-- src/parser/bison_parser.y:705-711 with `trySetNullableExplicit` (src/sql/CreateStatement.cpp:77-86).  The
pointers `$3->constraints` and `$3->references` are copied, then `$3` is deleted (it has no destructor), which is
modelled as a move. -/
def columnDef : Prog :=
  .set ⟨0, []⟩ (newColumnDefinition (.mv ⟨1, []⟩) (.mv ⟨2, []⟩) (.mv ⟨3, [ColumnConstraints.constraints]⟩) (.mv ⟨3, [ColumnConstraints.references]⟩)) <|
  let fin : Prog := .del ⟨3, []⟩ .ret
  let bad : Prog := .errName b!"Conflicting nullability constraints for " ⟨0, [ColumnDefinition.name]⟩ fin
  let pk : Prog := .ite (.has ⟨0, [ColumnDefinition.column_constraints]⟩ ConstraintType.Null) bad
    (.set ⟨0, [ColumnDefinition.nullable]⟩ (.atom (.int 0)) fin)
  .ite (.has ⟨0, [ColumnDefinition.column_constraints]⟩ ConstraintType.NotNull) pk <|
  .ite (.has ⟨0, [ColumnDefinition.column_constraints]⟩ ConstraintType.PrimaryKey) pk fin

/-- src/parser/bison_parser.y:1250-1259 -/
def dateLiteral : Prog :=
  .ite (.dateOk ⟨2, []⟩) (makeDateLiteral 0 (.mv ⟨2, []⟩) .ret) <|
  .free ⟨2, []⟩ <| .err b!"Found incorrect date format. Expected format: YYYY-MM-DD" .fail

/-- src/parser/bison_parser.y:1262-1272 -/
def intervalField : Prog :=
  .ite (.durOk ⟨2, []⟩)
    (.set ⟨10, []⟩ (.atom (.dur ⟨2, []⟩)) <| .free ⟨2, []⟩ <| makeIntervalLiteral 0 (.cp ⟨10, []⟩) (.cp ⟨3, []⟩) .ret) <|
  .free ⟨2, []⟩ <| .err b!"Found incorrect interval format. Expected format: INTEGER" .fail

/-- src/parser/bison_parser.y:1273-1303 -/
def intervalUnit : Prog :=
  let unit (w ws : Bytes) (u : Int) (k : Prog) : Prog :=
    .ite (.strIs ⟨11, []⟩ w) (makeIntervalLiteral 0 (.cp ⟨10, []⟩) (.int u) .ret) <|
    .ite (.strIs ⟨11, []⟩ ws) (makeIntervalLiteral 0 (.cp ⟨10, []⟩) (.int u) .ret) k
  .ite (.durUnitOk ⟨2, []⟩)
    (.set ⟨10, []⟩ (.atom (.dur ⟨2, []⟩)) <| .set ⟨11, []⟩ (.atom (.unit ⟨2, []⟩)) <| .free ⟨2, []⟩ <|
      unit b!"second" b!"seconds" DatetimeField.kDatetimeSecond <|
      unit b!"minute" b!"minutes" DatetimeField.kDatetimeMinute <|
      unit b!"hour" b!"hours" DatetimeField.kDatetimeHour <|
      unit b!"day" b!"days" DatetimeField.kDatetimeDay <|
      unit b!"month" b!"months" DatetimeField.kDatetimeMonth <|
      unit b!"year" b!"years" DatetimeField.kDatetimeYear <|
      .err b!"Interval qualifier is unknown." .fail) <|
  .free ⟨2, []⟩ <| .err b!"Found incorrect interval format. Expected format: INTEGER INTERVAL_QUALIIFIER" .fail

end Verif.Sem

import Verif.Sql.Ast
import Verif.Sem.Copy
/-!
# Statements (specification)

Statements and scripts as data, how they are written down, and the objects they stand for.
-/
namespace Verif.Sql
open Verif.Lex Verif.LR Verif.Sem

/-! ## Literals in `VALUES`, `EXECUTE` and hints -/

/-- A literal or a negated number or interval; a parameter is not allowed. -/
inductive Ext where
  | lit (l : Lit)
  | negNum (n : Num)
  | negInterval (i : Interval)
def Ext.words : Ext → List Word
  | .lit l => l.words
  | .negNum n => cat [kw T.HYPHEN, n.words]
  | .negInterval i => cat [kw T.HYPHEN, i.words]
def Ext.r : Ext → ExprV
  | .lit l => l.r
  | .negNum n => opV OperatorType.kOpUnaryMinus n.r.v
  | .negInterval i => opV OperatorType.kOpUnaryMinus i.r.v

inductive XLit where
  | plain (e : Ext)
  | cast (e : Ext) (t : ColType)
def XLit.words : XLit → List Word
  | .plain e => e.words
  | .cast e t => cat [kw T.CAST, kw T.LPAREN, e.words, kw T.AS, t.words, kw T.RPAREN]
def XLit.r : XLit → ExprV
  | .plain e => e.r
  | .cast e t => { type := ExprType.kExprCast, columnType := t.v, expr := e.r.v }

inductive XLits where
  | one (x : XLit)
  | snoc (l : XLits) (x : XLit)
def XLits.words : XLits → List Word
  | .one x => x.words
  | .snoc l x => cat [l.words, kw T.COMMA, x.words]
def XLits.vals : XLits → List V
  | .one x => [x.r.v]
  | .snoc l x => l.vals ++ [x.r.v]

/-! ## Hints -/

inductive Hint where
  | name (n : Name)
  | args (n : Name) (l : XLits)
def Hint.words : Hint → List Word
  | .name n => nm n
  | .args n l => cat [nm n, kw T.LPAREN, l.words, kw T.RPAREN]
def Hint.r : Hint → ExprV
  | .name n => { type := ExprType.kExprHint, name := str n }
  | .args n l => { type := ExprType.kExprHint, name := str n, exprList := .vec 0 l.vals }

inductive HintList where
  | one (h : Hint)
  | snoc (l : HintList) (h : Hint)
def HintList.words : HintList → List Word
  | .one h => h.words
  | .snoc l h => cat [l.words, kw T.COMMA, h.words]
def HintList.vals : HintList → List V
  | .one h => [h.r.v]
  | .snoc l h => l.vals ++ [h.r.v]

/-- `WITH HINT (...)` -/
inductive Hints where
  | none
  | some (l : HintList)
def Hints.words : Hints → List Word
  | .none => []
  | .some l => cat [kw T.WITH, kw T.HINT, kw T.LPAREN, l.words, kw T.RPAREN]
def Hints.v : Hints → V
  | .none => .null
  | .some l => .vec 0 l.vals

/-! ## The options of `COPY` -/

/-- An option; the file type and the names `DELIMITER` and `QUOTE` are identifiers, read without regard to case. -/
inductive CopyOpt where
  | format (w : Name) (t : Int) (ok : fileType w = some t)
  | encoding (b : Bytes)
  | delimiter (w : Name) (ok : eqNoCase w b!"DELIMITER" = true) (b : Bytes)
  | quote (w : Name) (ok : eqNoCase w b!"QUOTE" = true) (b : Bytes)
  | null (b : Bytes)
def CopyOpt.words : CopyOpt → List Word
  | .format w _ _ => cat [kw T.FORMAT, nm w]
  | .encoding b => cat [kw T.ENCODING, [.str b]]
  | .delimiter w _ b => cat [nm w, [.str b]]
  | .quote w _ b => cat [nm w, [.str b]]
  | .null b => cat [kw T.NULL, [.str b]]

/-- What the options say so far. -/
structure CopyV where
  format : Int := ImportType.kImportAuto
  encoding : Option Bytes := none
  csv : Option Csv := none
def CopyV.add (v : CopyV) : CopyOpt → CopyV
  | .format _ t _ => { v with format := t }
  | .encoding b => { v with encoding := some b }
  | .delimiter _ _ b => { v with csv := some { v.csv.getD {} with delimiter := some b } }
  | .quote _ _ b => { v with csv := some { v.csv.getD {} with quote := some b } }
  | .null b => { v with csv := some { v.csv.getD {} with null := some b } }
/-- The option may be added: it has not been given before, and CSV options go together with CSV files only. -/
def CopyV.Fits (v : CopyV) : CopyOpt → Prop
  | .format _ t _ => v.format = ImportType.kImportAuto ∧ (v.csv.isSome → t = ImportType.kImportCSV)
  | .encoding _ => v.encoding = none
  | .delimiter _ _ _ => (v.format = ImportType.kImportAuto ∨ v.format = ImportType.kImportCSV) ∧ (v.csv.getD {}).delimiter = none
  | .quote _ _ _ => (v.format = ImportType.kImportAuto ∨ v.format = ImportType.kImportCSV) ∧ (v.csv.getD {}).quote = none
  | .null _ => (v.format = ImportType.kImportAuto ∨ v.format = ImportType.kImportCSV) ∧ (v.csv.getD {}).null = none

inductive CopyOpts where
  | one (o : CopyOpt)
  | snoc (l : CopyOpts) (o : CopyOpt)
def CopyOpts.words : CopyOpts → List Word
  | .one o => o.words
  | .snoc l o => cat [l.words, kw T.COMMA, o.words]
def CopyOpts.r : CopyOpts → CopyV
  | .one o => CopyV.add {} o
  | .snoc l o => l.r.add o
def CopyOpts.OK : CopyOpts → Prop
  | .one _ => True
  | .snoc l o => l.OK ∧ l.r.Fits o

/-- No options, `WITH (...)` or `(...)`. -/
inductive CopyWith where
  | none
  | opts (withKw : Bool) (l : CopyOpts) (ok : l.OK)
def CopyWith.words : CopyWith → List Word
  | .none => []
  | .opts true l _ => cat [kw T.WITH, kw T.LPAREN, l.words, kw T.RPAREN]
  | .opts false l _ => cat [kw T.LPAREN, l.words, kw T.RPAREN]
def CopyWith.r : CopyWith → CopyV
  | .none => {}
  | .opts _ l _ => l.r

/-- The encoding and the CSV options as they appear in the statement. -/
def obytes : Option Bytes → V
  | none => .null
  | some b => str b
def CopyV.encodingV (v : CopyV) : V := obytes v.encoding
def CopyV.csvV (v : CopyV) : V := match v.csv with
  | none => .null
  | some c => .obj 0 .CsvOptions [obytes c.delimiter, obytes c.null, obytes c.quote]

/-! ## Table definitions -/

def colsWords : Option Names → List Word
  | none => []
  | some l => cat [kw T.LPAREN, l.words, kw T.RPAREN]
def colsV : Option Names → V
  | none => .null
  | some l => l.v

inductive Constraint where
  | primaryKey | unique | null | notNull
  | references (t : TName) (cols : Option Names)
def Constraint.words : Constraint → List Word
  | .primaryKey => cat [kw T.PRIMARY, kw T.KEY]
  | .unique => kw T.UNIQUE
  | .null => kw T.NULL
  | .notNull => cat [kw T.NOT, kw T.NULL]
  | .references t cols => cat [kw T.REFERENCES, t.words, colsWords cols]
def Constraint.kind : Constraint → Int
  | .primaryKey => ConstraintType.PrimaryKey
  | .unique => ConstraintType.Unique
  | .null => ConstraintType.Null
  | .notNull => ConstraintType.NotNull
  | .references _ _ => ConstraintType.ForeignKey
/-- src/sql/CreateStatement.h:32-40 -/
def refV (t : TName) (cols : Option Names) : V := .obj 0 .ReferencesSpecification [ostr t.schema, str t.name, colsV cols]
def Constraint.refs : Constraint → List V
  | .references t cols => [refV t cols]
  | _ => []

inductive Constraints where
  | one (c : Constraint)
  | snoc (l : Constraints) (c : Constraint)
def Constraints.words : Constraints → List Word
  | .one c => c.words
  | .snoc l c => cat [l.words, c.words]
/-- Into a set. The code has a `std::unordered_set`; the model keeps the order of insertion. -/
def insertKind (k : Int) (ks : List Int) : List Int := if ks.contains k then ks else ks ++ [k]
def Constraints.kinds : Constraints → List Int
  | .one c => [c.kind]
  | .snoc l c => insertKind c.kind l.kinds
def Constraints.refs : Constraints → List V
  | .one c => c.refs
  | .snoc l c => l.refs ++ c.refs

/-- The constraints of a column. -/
inductive ColCons where
  | none
  | some (l : Constraints)
def ColCons.words : ColCons → List Word
  | .none => []
  | .some l => l.words
def ColCons.kinds : ColCons → List Int
  | .none => []
  | .some l => l.kinds
def ColCons.refs : ColCons → List V
  | .none => []
  | .some l => l.refs
/-- The column is declared to be without nulls. -/
def ColCons.required (c : ColCons) : Bool := c.kinds.contains ConstraintType.NotNull || c.kinds.contains ConstraintType.PrimaryKey

inductive TableElem where
  | column (n : Name) (t : ColType) (c : ColCons) (ok : (c.required && c.kinds.contains ConstraintType.Null) = false)
  | primaryKey (l : Names)
  | unique (l : Names)
  | foreignKey (l : Names) (t : TName) (cols : Option Names)
def TableElem.words : TableElem → List Word
  | .column n t c _ => cat [nm n, t.words, c.words]
  | .primaryKey l => cat [kw T.PRIMARY, kw T.KEY, kw T.LPAREN, l.words, kw T.RPAREN]
  | .unique l => cat [kw T.UNIQUE, kw T.LPAREN, l.words, kw T.RPAREN]
  | .foreignKey l t cols => cat [kw T.FOREIGN, kw T.KEY, kw T.LPAREN, l.words, kw T.RPAREN, kw T.REFERENCES, t.words, colsWords cols]
/-- src/sql/CreateStatement.h:22-64 -/
def TableElem.v : TableElem → V
  | .column n t c _ => .obj 0 .ColumnDefinition [.vec 0 (c.kinds.map .int), str n, t.v, flag (!c.required), .vec 0 c.refs]
  | .primaryKey l => .obj 0 .TableConstraint [.int ConstraintType.PrimaryKey, l.v]
  | .unique l => .obj 0 .TableConstraint [.int ConstraintType.Unique, l.v]
  | .foreignKey l t cols => .obj 0 .ForeignKeyConstraint [.int ConstraintType.ForeignKey, l.v, refV t cols]
def TableElem.isColumn : TableElem → Bool
  | .column _ _ _ _ => true
  | _ => false

inductive TableElems where
  | one (e : TableElem)
  | snoc (l : TableElems) (e : TableElem)
def TableElems.words : TableElems → List Word
  | .one e => e.words
  | .snoc l e => cat [l.words, kw T.COMMA, e.words]
def TableElems.list : TableElems → List TableElem
  | .one e => [e]
  | .snoc l e => l.list ++ [e]
def TableElems.columns (l : TableElems) : List V := (l.list.filter TableElem.isColumn).map TableElem.v
def TableElems.constraints (l : TableElems) : List V := (l.list.filter fun e => !e.isColumn).map TableElem.v

/-- src/sql/CreateStatement.h:82-104 -/
structure CreateV where
  type : Int
  ifNotExists : Bool
  filePath : V := .null
  schema : V := .null
  tableName : V
  indexName : V := .null
  indexColumns : V := .null
  columns : V := .null
  tableConstraints : V := .null
  viewColumns : V := .null
  select : V := .null
def CreateV.stmt (c : CreateV) : StmtV := ⟨.CreateStatement, [.int StatementType.kStmtCreate, .int c.type, flag c.ifNotExists, c.filePath, c.schema, c.tableName, c.indexName, c.indexColumns, c.columns,
  c.tableConstraints, c.viewColumns, c.select]⟩

/-! ## Updates -/

inductive Updates where
  | one (n : Name) (e : Expr)
  | snoc (l : Updates) (n : Name) (e : Expr)
def Updates.words : Updates → List Word
  | .one n e => cat [nm n, kw T.EQ, e.words]
  | .snoc l n e => cat [l.words, kw T.COMMA, nm n, kw T.EQ, e.words]
/-- src/sql/UpdateStatement.h:9-12 -/
def Updates.vals : Updates → List V
  | .one n e => [.obj 0 .UpdateClause [str n, e.r.v]]
  | .snoc l n e => l.vals ++ [.obj 0 .UpdateClause [str n, e.r.v]]

/-! ## Statements -/

inductive TxCmd where | begin | rollback | commit
def TxCmd.kw : TxCmd → Nat
  | .begin => T.BEGIN | .rollback => T.ROLLBACK | .commit => T.COMMIT
def TxCmd.v : TxCmd → Int
  | .begin => TransactionCommand.kBeginTransaction | .rollback => TransactionCommand.kRollbackTransaction | .commit => TransactionCommand.kCommitTransaction

/-- `IF NOT EXISTS`, `IF EXISTS`, `WHERE e` -/
def ifNotExists : Bool → List Word
  | false => []
  | true => cat [kw T.IF, kw T.NOT, kw T.EXISTS]
def ifExists : Bool → List Word
  | false => []
  | true => cat [kw T.IF, kw T.EXISTS]
def whereW : OExpr → List Word
  | .none => []
  | .some e => cat [kw T.WHERE, e.words]
def nameW : Option Name → List Word
  | none => []
  | some n => nm n

/-- The statements that take hints. -/
inductive Stmt where
  | query (q : Query)
  | createFile (ine : Bool) (t : TName) (w : Name) (ok : eqNoCase w b!"tbl" = true) (path : Bytes)
  | createTable (ine : Bool) (t : TName) (l : TableElems)
  | createAs (ine : Bool) (t : TName) (q : Query)
  | createIndex (ine : Bool) (n : Option Name) (t : TName) (l : Names)
  | createView (ine : Bool) (t : TName) (cols : Option Names) (q : Query)
  | insertValues (t : TName) (cols : Option Names) (l : XLits)
  | insertQuery (t : TName) (cols : Option Names) (s : Sel)
  | delete (t : TName) (w : OExpr)
  | truncate (t : TName)
  | update (t : TName) (l : Updates) (w : OExpr)
  | dropTable (ie : Bool) (t : TName)
  | dropView (ie : Bool) (t : TName)
  | deallocate (n : Name)
  | dropIndex (ie : Bool) (n : Name)
  /-- `ALTER TABLE t DROP COLUMN c` -/
  | alterDrop (ie : Bool) (t : TName) (ie2 : Bool) (c : Name)
  | execute (n : Name)
  | executeArgs (n : Name) (l : Option XLits)
  | transaction (c : TxCmd) (word : Bool)
  | prepare (n : Name) (q : Bytes)

def xlitsW : Option XLits → List Word
  | none => []
  | some l => l.words
def xlitsV : Option XLits → V
  | none => .null
  | some l => .vec 0 l.vals

def Stmt.words : Stmt → List Word
  | .query q => q.words
  | .createFile i t w _ p => cat [kw T.CREATE, kw T.TABLE, ifNotExists i, t.words, kw T.FROM, nm w, kw T.FILE, [.str p]]
  | .createTable i t l => cat [kw T.CREATE, kw T.TABLE, ifNotExists i, t.words, kw T.LPAREN, l.words, kw T.RPAREN]
  | .createAs i t q => cat [kw T.CREATE, kw T.TABLE, ifNotExists i, t.words, kw T.AS, q.words]
  | .createIndex i n t l => cat [kw T.CREATE, kw T.INDEX, ifNotExists i, nameW n, kw T.ON, t.words, kw T.LPAREN, l.words, kw T.RPAREN]
  | .createView i t c q => cat [kw T.CREATE, kw T.VIEW, ifNotExists i, t.words, colsWords c, kw T.AS, q.words]
  | .insertValues t c l => cat [kw T.INSERT, kw T.INTO, t.words, colsWords c, kw T.VALUES, kw T.LPAREN, l.words, kw T.RPAREN]
  | .insertQuery t c s => cat [kw T.INSERT, kw T.INTO, t.words, colsWords c, s.words]
  | .delete t w => cat [kw T.DELETE, kw T.FROM, t.words, whereW w]
  | .truncate t => cat [kw T.TRUNCATE, t.words]
  | .update t l w => cat [kw T.UPDATE, t.words, kw T.SET, l.words, whereW w]
  | .dropTable i t => cat [kw T.DROP, kw T.TABLE, ifExists i, t.words]
  | .dropView i t => cat [kw T.DROP, kw T.VIEW, ifExists i, t.words]
  | .deallocate n => cat [kw T.DEALLOCATE, kw T.PREPARE, nm n]
  | .dropIndex i n => cat [kw T.DROP, kw T.INDEX, ifExists i, nm n]
  | .alterDrop i t j c => cat [kw T.ALTER, kw T.TABLE, ifExists i, t.words, kw T.DROP, kw T.COLUMN, ifExists j, nm c]
  | .execute n => cat [kw T.EXECUTE, nm n]
  | .executeArgs n l => cat [kw T.EXECUTE, nm n, kw T.LPAREN, xlitsW l, kw T.RPAREN]
  | .transaction c false => Sql.kw c.kw
  | .transaction c true => cat [Sql.kw c.kw, kw T.TRANSACTION]
  | .prepare n q => cat [kw T.PREPARE, nm n, kw T.FROM, [.str q]]

/-- The schema of the table of an index is lost; it has no place in the statement (src/parser/bison_parser.y:674-680). -/
def Stmt.r : Stmt → StmtV
  | .query q => q.r.stmt
  | .createFile i t _ _ p => ({ type := CreateType.kCreateTableFromTbl, ifNotExists := i, schema := ostr t.schema, tableName := str t.name, filePath := str p } : CreateV).stmt
  | .createTable i t l => ({ type := CreateType.kCreateTable, ifNotExists := i, schema := ostr t.schema, tableName := str t.name, columns := .vec 0 l.columns, tableConstraints := .vec 0 l.constraints } : CreateV).stmt
  | .createAs i t q => ({ type := CreateType.kCreateTable, ifNotExists := i, schema := ostr t.schema, tableName := str t.name, select := q.r.v } : CreateV).stmt
  | .createIndex i n t l => ({ type := CreateType.kCreateIndex, ifNotExists := i, indexName := ostr n, tableName := str t.name, indexColumns := l.v } : CreateV).stmt
  | .createView i t c q => ({ type := CreateType.kCreateView, ifNotExists := i, schema := ostr t.schema, tableName := str t.name, viewColumns := colsV c, select := q.r.v } : CreateV).stmt
  | .insertValues t c l => ⟨.InsertStatement, [.int StatementType.kStmtInsert, .int InsertType.kInsertValues, ostr t.schema, str t.name, colsV c, .vec 0 l.vals, .null]⟩
  | .insertQuery t c s => ⟨.InsertStatement, [.int StatementType.kStmtInsert, .int InsertType.kInsertSelect, ostr t.schema, str t.name, colsV c, .null, s.r.v]⟩
  | .delete t w => ⟨.DeleteStatement, [.int StatementType.kStmtDelete, ostr t.schema, str t.name, w.v]⟩
  | .truncate t => ⟨.DeleteStatement, [.int StatementType.kStmtDelete, ostr t.schema, str t.name, .null]⟩
  | .update t l w => ⟨.UpdateStatement, [.int StatementType.kStmtUpdate, ({ type := TableRefType.kTableName, schema := ostr t.schema, name := str t.name } : TableV).v, .vec 0 l.vals, w.v]⟩
  | .dropTable i t => ⟨.DropStatement, [.int StatementType.kStmtDrop, .int DropType.kDropTable, flag i, ostr t.schema, str t.name, .null]⟩
  | .dropView i t => ⟨.DropStatement, [.int StatementType.kStmtDrop, .int DropType.kDropView, flag i, ostr t.schema, str t.name, .null]⟩
  | .deallocate n => ⟨.DropStatement, [.int StatementType.kStmtDrop, .int DropType.kDropPreparedStatement, .int 0, .null, str n, .null]⟩
  | .dropIndex i n => ⟨.DropStatement, [.int StatementType.kStmtDrop, .int DropType.kDropIndex, flag i, .null, .null, str n]⟩
  | .alterDrop i t j c => ⟨.AlterStatement, [.int StatementType.kStmtAlter, ostr t.schema, flag i, str t.name, .obj 0 .DropColumnAction [.int ActionType.DropColumn, str c, flag j]]⟩
  | .execute n => ⟨.ExecuteStatement, [.int StatementType.kStmtExecute, str n, .null]⟩
  | .executeArgs n l => ⟨.ExecuteStatement, [.int StatementType.kStmtExecute, str n, xlitsV l]⟩
  | .transaction c _ => ⟨.TransactionStatement, [.int StatementType.kStmtTransaction, .int c.v]⟩
  | .prepare n q => ⟨.PrepareStatement, [.int StatementType.kStmtPrepare, str n, str q]⟩

/-- A statement as an element of a script. -/
inductive Item where
  | stmt (s : Stmt) (h : Hints)
  | showTables
  | showColumns (t : TName)
  | describe (t : TName)
  | importFile (w : Name) (f : Int) (ok : fileType w = some f) (path : Bytes) (t : TName)
  | copyFrom (t : TName) (path : Bytes) (o : CopyWith) (w : OExpr)
  | copyTo (t : TName) (path : Bytes) (o : CopyWith)
  | copyQuery (s : PSel) (path : Bytes) (o : CopyWith)

def Item.words : Item → List Word
  | .stmt s h => cat [s.words, h.words]
  | .showTables => cat [kw T.SHOW, kw T.TABLES]
  | .showColumns t => cat [kw T.SHOW, kw T.COLUMNS, t.words]
  | .describe t => cat [kw T.DESCRIBE, t.words]
  | .importFile w _ _ p t => cat [kw T.IMPORT, kw T.FROM, nm w, kw T.FILE, [.str p], kw T.INTO, t.words]
  | .copyFrom t p o w => cat [kw T.COPY, t.words, kw T.FROM, [.str p], o.words, whereW w]
  | .copyTo t p o => cat [kw T.COPY, t.words, kw T.TO, [.str p], o.words]
  | .copyQuery s p o => cat [kw T.COPY, s.words, kw T.TO, [.str p], o.words]

/-- The statement with its hints; `len` is its `stringLength`. -/
def Item.v (len : V) : Item → V
  | .stmt s h => s.r.v h.v len
  | .showTables => StmtV.v ⟨.ShowStatement, [.int StatementType.kStmtShow, .int ShowType.kShowTables, .null, .null]⟩ .null len
  | .showColumns t => StmtV.v ⟨.ShowStatement, [.int StatementType.kStmtShow, .int ShowType.kShowColumns, ostr t.schema, str t.name]⟩ .null len
  | .describe t => StmtV.v ⟨.ShowStatement, [.int StatementType.kStmtShow, .int ShowType.kShowColumns, ostr t.schema, str t.name]⟩ .null len
  | .importFile _ f _ p t => StmtV.v ⟨.ImportStatement, [.int StatementType.kStmtImport, .int f, str p, ostr t.schema, str t.name, .null, .null, .null]⟩ .null len
  | .copyFrom t p o w => StmtV.v ⟨.ImportStatement, [.int StatementType.kStmtImport, .int o.r.format, str p, ostr t.schema, str t.name, w.v, o.r.encodingV, o.r.csvV]⟩ .null len
  | .copyTo t p o => StmtV.v ⟨.ExportStatement, [.int StatementType.kStmtExport, .int o.r.format, str p, ostr t.schema, str t.name, .null, o.r.encodingV, o.r.csvV]⟩ .null len
  | .copyQuery s p o => StmtV.v ⟨.ExportStatement, [.int StatementType.kStmtExport, .int o.r.format, str p, .null, .null, s.r.v, o.r.encodingV, o.r.csvV]⟩ .null len

/-- Statements with semicolons between them; never empty. -/
inductive Script where
  | one (i : Item)
  | snoc (l : Script) (i : Item)
def Script.words : Script → List Word
  | .one i => i.words
  | .snoc l i => cat [l.words, kw T.SEMI, i.words]
def Script.items : Script → List Item
  | .one i => [i]
  | .snoc l i => l.items ++ [i]
/-- A text of SQL: with or without a semicolon at the end. -/
def Script.text (s : Script) : Bool → List Word
  | false => s.words
  | true => cat [s.words, kw T.SEMI]

end Verif.Sql

import Verif.Sem.Prog
/-! Generated by tools/genact.py from src/sql/*.h and src/sql/*.cpp: enumerators, field numbers, constructors. -/
namespace Verif.Sem

/-! `enum ActionType` (src/sql/AlterStatement.h:9) -/
abbrev ActionType.DropColumn : Int := 0
/-! `enum DataType` (src/sql/ColumnType.h:8) -/
abbrev DataType.UNKNOWN : Int := 0
abbrev DataType.BIGINT : Int := 1
abbrev DataType.BOOLEAN : Int := 2
abbrev DataType.CHAR : Int := 3
abbrev DataType.DATE : Int := 4
abbrev DataType.DATETIME : Int := 5
abbrev DataType.DECIMAL : Int := 6
abbrev DataType.DOUBLE : Int := 7
abbrev DataType.FLOAT : Int := 8
abbrev DataType.INT : Int := 9
abbrev DataType.LONG : Int := 10
abbrev DataType.REAL : Int := 11
abbrev DataType.SMALLINT : Int := 12
abbrev DataType.TEXT : Int := 13
abbrev DataType.TIME : Int := 14
abbrev DataType.VARCHAR : Int := 15
/-! `enum ConstraintType` (src/sql/CreateStatement.h:13) -/
abbrev ConstraintType.ForeignKey : Int := 0
abbrev ConstraintType.NotNull : Int := 1
abbrev ConstraintType.Null : Int := 2
abbrev ConstraintType.PrimaryKey : Int := 3
abbrev ConstraintType.Unique : Int := 4
/-! `enum CreateType` (src/sql/CreateStatement.h:73) -/
abbrev CreateType.kCreateTable : Int := 0
abbrev CreateType.kCreateTableFromTbl : Int := 1
abbrev CreateType.kCreateView : Int := 2
abbrev CreateType.kCreateIndex : Int := 3
/-! `enum DropType` (src/sql/DropStatement.h:9) -/
abbrev DropType.kDropTable : Int := 0
abbrev DropType.kDropSchema : Int := 1
abbrev DropType.kDropIndex : Int := 2
abbrev DropType.kDropView : Int := 3
abbrev DropType.kDropPreparedStatement : Int := 4
/-! `enum ExprType` (src/sql/Expr.h:17) -/
abbrev ExprType.kExprLiteralFloat : Int := 0
abbrev ExprType.kExprLiteralString : Int := 1
abbrev ExprType.kExprLiteralInt : Int := 2
abbrev ExprType.kExprLiteralNull : Int := 3
abbrev ExprType.kExprLiteralDate : Int := 4
abbrev ExprType.kExprLiteralInterval : Int := 5
abbrev ExprType.kExprStar : Int := 6
abbrev ExprType.kExprParameter : Int := 7
abbrev ExprType.kExprColumnRef : Int := 8
abbrev ExprType.kExprFunctionRef : Int := 9
abbrev ExprType.kExprOperator : Int := 10
abbrev ExprType.kExprSelect : Int := 11
abbrev ExprType.kExprHint : Int := 12
abbrev ExprType.kExprArray : Int := 13
abbrev ExprType.kExprArrayIndex : Int := 14
abbrev ExprType.kExprExtract : Int := 15
abbrev ExprType.kExprCast : Int := 16
/-! `enum OperatorType` (src/sql/Expr.h:38) -/
abbrev OperatorType.kOpNone : Int := 0
abbrev OperatorType.kOpBetween : Int := 1
abbrev OperatorType.kOpCase : Int := 2
abbrev OperatorType.kOpCaseListElement : Int := 3
abbrev OperatorType.kOpPlus : Int := 4
abbrev OperatorType.kOpMinus : Int := 5
abbrev OperatorType.kOpAsterisk : Int := 6
abbrev OperatorType.kOpSlash : Int := 7
abbrev OperatorType.kOpPercentage : Int := 8
abbrev OperatorType.kOpCaret : Int := 9
abbrev OperatorType.kOpEquals : Int := 10
abbrev OperatorType.kOpNotEquals : Int := 11
abbrev OperatorType.kOpLess : Int := 12
abbrev OperatorType.kOpLessEq : Int := 13
abbrev OperatorType.kOpGreater : Int := 14
abbrev OperatorType.kOpGreaterEq : Int := 15
abbrev OperatorType.kOpLike : Int := 16
abbrev OperatorType.kOpNotLike : Int := 17
abbrev OperatorType.kOpILike : Int := 18
abbrev OperatorType.kOpAnd : Int := 19
abbrev OperatorType.kOpOr : Int := 20
abbrev OperatorType.kOpIn : Int := 21
abbrev OperatorType.kOpConcat : Int := 22
abbrev OperatorType.kOpNot : Int := 23
abbrev OperatorType.kOpUnaryMinus : Int := 24
abbrev OperatorType.kOpIsNull : Int := 25
abbrev OperatorType.kOpExists : Int := 26
/-! `enum DatetimeField` (src/sql/Expr.h:77) -/
abbrev DatetimeField.kDatetimeNone : Int := 0
abbrev DatetimeField.kDatetimeSecond : Int := 1
abbrev DatetimeField.kDatetimeMinute : Int := 2
abbrev DatetimeField.kDatetimeHour : Int := 3
abbrev DatetimeField.kDatetimeDay : Int := 4
abbrev DatetimeField.kDatetimeMonth : Int := 5
abbrev DatetimeField.kDatetimeYear : Int := 6
/-! `enum FrameBoundType` (src/sql/Expr.h:88) -/
abbrev FrameBoundType.kFollowing : Int := 0
abbrev FrameBoundType.kPreceding : Int := 1
abbrev FrameBoundType.kCurrentRow : Int := 2
/-! `enum FrameType` (src/sql/Expr.h:97) -/
abbrev FrameType.kRange : Int := 0
abbrev FrameType.kRows : Int := 1
abbrev FrameType.kGroups : Int := 2
/-! `enum ImportType` (src/sql/ImportExportOptions.h:11) -/
abbrev ImportType.kImportCSV : Int := 0
abbrev ImportType.kImportTbl : Int := 1
abbrev ImportType.kImportBinary : Int := 2
abbrev ImportType.kImportAuto : Int := 3
/-! `enum CsvOptionType` (src/sql/ImportExportOptions.h:18) -/
abbrev CsvOptionType.Delimiter : Int := 0
abbrev CsvOptionType.Null : Int := 1
abbrev CsvOptionType.Quote : Int := 2
/-! `enum InsertType` (src/sql/InsertStatement.h:8) -/
abbrev InsertType.kInsertValues : Int := 0
abbrev InsertType.kInsertSelect : Int := 1
/-! `enum StatementType` (src/sql/SQLStatement.h:9) -/
abbrev StatementType.kStmtError : Int := 0
abbrev StatementType.kStmtSelect : Int := 1
abbrev StatementType.kStmtImport : Int := 2
abbrev StatementType.kStmtInsert : Int := 3
abbrev StatementType.kStmtUpdate : Int := 4
abbrev StatementType.kStmtDelete : Int := 5
abbrev StatementType.kStmtCreate : Int := 6
abbrev StatementType.kStmtDrop : Int := 7
abbrev StatementType.kStmtPrepare : Int := 8
abbrev StatementType.kStmtExecute : Int := 9
abbrev StatementType.kStmtExport : Int := 10
abbrev StatementType.kStmtRename : Int := 11
abbrev StatementType.kStmtAlter : Int := 12
abbrev StatementType.kStmtShow : Int := 13
abbrev StatementType.kStmtTransaction : Int := 14
/-! `enum OrderType` (src/sql/SelectStatement.h:9) -/
abbrev OrderType.kOrderAsc : Int := 0
abbrev OrderType.kOrderDesc : Int := 1
/-! `enum NullOrdering` (src/sql/SelectStatement.h:10) -/
abbrev NullOrdering.Undefined : Int := 0
abbrev NullOrdering.First : Int := 1
abbrev NullOrdering.Last : Int := 2
/-! `enum SetType` (src/sql/SelectStatement.h:12) -/
abbrev SetType.kSetUnion : Int := 0
abbrev SetType.kSetIntersect : Int := 1
abbrev SetType.kSetExcept : Int := 2
/-! `enum RowLockMode` (src/sql/SelectStatement.h:14) -/
abbrev RowLockMode.ForUpdate : Int := 0
abbrev RowLockMode.ForNoKeyUpdate : Int := 1
abbrev RowLockMode.ForShare : Int := 2
abbrev RowLockMode.ForKeyShare : Int := 3
/-! `enum RowLockWaitPolicy` (src/sql/SelectStatement.h:15) -/
abbrev RowLockWaitPolicy.NoWait : Int := 0
abbrev RowLockWaitPolicy.SkipLocked : Int := 1
abbrev RowLockWaitPolicy.None : Int := 2
/-! `enum ShowType` (src/sql/ShowStatement.h:9) -/
abbrev ShowType.kShowColumns : Int := 0
abbrev ShowType.kShowTables : Int := 1
/-! `enum TableRefType` (src/sql/Table.h:15) -/
abbrev TableRefType.kTableName : Int := 0
abbrev TableRefType.kTableSelect : Int := 1
abbrev TableRefType.kTableJoin : Int := 2
abbrev TableRefType.kTableCrossProduct : Int := 3
/-! `enum JoinType` (src/sql/Table.h:53) -/
abbrev JoinType.kJoinInner : Int := 0
abbrev JoinType.kJoinFull : Int := 1
abbrev JoinType.kJoinLeft : Int := 2
abbrev JoinType.kJoinRight : Int := 3
abbrev JoinType.kJoinCross : Int := 4
abbrev JoinType.kJoinNatural : Int := 5
/-! `enum TransactionCommand` (src/sql/TransactionStatement.h:10) -/
abbrev TransactionCommand.kBeginTransaction : Int := 0
abbrev TransactionCommand.kCommitTransaction : Int := 1
abbrev TransactionCommand.kRollbackTransaction : Int := 2

/-! Fields of `Expr` (src/sql/Expr.h:123) -/
abbrev Expr.type : Sel := .fld 0
abbrev Expr.expr : Sel := .fld 1
abbrev Expr.expr2 : Sel := .fld 2
abbrev Expr.exprList : Sel := .fld 3
abbrev Expr.select : Sel := .fld 4
abbrev Expr.name : Sel := .fld 5
abbrev Expr.table : Sel := .fld 6
abbrev Expr.schema : Sel := .fld 7
abbrev Expr.alias : Sel := .fld 8
abbrev Expr.fval : Sel := .fld 9
abbrev Expr.ival : Sel := .fld 10
abbrev Expr.ival2 : Sel := .fld 11
abbrev Expr.datetimeField : Sel := .fld 12
abbrev Expr.columnType : Sel := .fld 13
abbrev Expr.isBoolLiteral : Sel := .fld 14
abbrev Expr.opType : Sel := .fld 15
abbrev Expr.distinct : Sel := .fld 16
abbrev Expr.windowDescription : Sel := .fld 17
/-! Fields of `FrameBound` (src/sql/Expr.h:89) -/
abbrev FrameBound.offset : Sel := .fld 0
abbrev FrameBound.type : Sel := .fld 1
abbrev FrameBound.unbounded : Sel := .fld 2
/-! Fields of `FrameDescription` (src/sql/Expr.h:98) -/
abbrev FrameDescription.type : Sel := .fld 0
abbrev FrameDescription.start : Sel := .fld 1
abbrev FrameDescription.end : Sel := .fld 2
/-! Fields of `WindowDescription` (src/sql/Expr.h:110) -/
abbrev WindowDescription.partitionList : Sel := .fld 0
abbrev WindowDescription.orderList : Sel := .fld 1
abbrev WindowDescription.frameDescription : Sel := .fld 2
/-! Fields of `OrderDescription` (src/sql/SelectStatement.h:18) -/
abbrev OrderDescription.type : Sel := .fld 0
abbrev OrderDescription.expr : Sel := .fld 1
abbrev OrderDescription.null_ordering : Sel := .fld 2
/-! Fields of `LimitDescription` (src/sql/SelectStatement.h:28) -/
abbrev LimitDescription.limit : Sel := .fld 0
abbrev LimitDescription.offset : Sel := .fld 1
/-! Fields of `GroupByDescription` (src/sql/SelectStatement.h:37) -/
abbrev GroupByDescription.columns : Sel := .fld 0
abbrev GroupByDescription.having : Sel := .fld 1
/-! Fields of `WithDescription` (src/sql/SelectStatement.h:45) -/
abbrev WithDescription.alias : Sel := .fld 0
abbrev WithDescription.select : Sel := .fld 1
/-! Fields of `SetOperation` (src/sql/SelectStatement.h:52) -/
abbrev SetOperation.setType : Sel := .fld 0
abbrev SetOperation.isAll : Sel := .fld 1
abbrev SetOperation.nestedSelectStatement : Sel := .fld 2
abbrev SetOperation.resultOrder : Sel := .fld 3
abbrev SetOperation.resultLimit : Sel := .fld 4
/-! Fields of `LockingClause` (src/sql/SelectStatement.h:64) -/
abbrev LockingClause.rowLockMode : Sel := .fld 0
abbrev LockingClause.rowLockWaitPolicy : Sel := .fld 1
abbrev LockingClause.tables : Sel := .fld 2
/-! Fields of `SelectStatement` (src/sql/SelectStatement.h:71) -/
abbrev SelectStatement.stringLength : Sel := .fld 0
abbrev SelectStatement.hints : Sel := .fld 1
abbrev SelectStatement.type_ : Sel := .fld 2
abbrev SelectStatement.fromTable : Sel := .fld 3
abbrev SelectStatement.selectDistinct : Sel := .fld 4
abbrev SelectStatement.selectList : Sel := .fld 5
abbrev SelectStatement.whereClause : Sel := .fld 6
abbrev SelectStatement.groupBy : Sel := .fld 7
abbrev SelectStatement.setOperations : Sel := .fld 8
abbrev SelectStatement.order : Sel := .fld 9
abbrev SelectStatement.withDescriptions : Sel := .fld 10
abbrev SelectStatement.limit : Sel := .fld 11
abbrev SelectStatement.lockings : Sel := .fld 12
/-! Fields of `Alias` (src/sql/Table.h:22) -/
abbrev Alias.name : Sel := .fld 0
abbrev Alias.columns : Sel := .fld 1
/-! Fields of `TableRef` (src/sql/Table.h:31) -/
abbrev TableRef.type : Sel := .fld 0
abbrev TableRef.schema : Sel := .fld 1
abbrev TableRef.name : Sel := .fld 2
abbrev TableRef.alias : Sel := .fld 3
abbrev TableRef.select : Sel := .fld 4
abbrev TableRef.list : Sel := .fld 5
abbrev TableRef.join : Sel := .fld 6
/-! Fields of `JoinDefinition` (src/sql/Table.h:56) -/
abbrev JoinDefinition.left : Sel := .fld 0
abbrev JoinDefinition.right : Sel := .fld 1
abbrev JoinDefinition.condition : Sel := .fld 2
abbrev JoinDefinition.namedColumns : Sel := .fld 3
abbrev JoinDefinition.type : Sel := .fld 4
/-! Fields of `TableConstraint` (src/sql/CreateStatement.h:22) -/
abbrev TableConstraint.type : Sel := .fld 0
abbrev TableConstraint.columnNames : Sel := .fld 1
/-! Fields of `ReferencesSpecification` (src/sql/CreateStatement.h:32) -/
abbrev ReferencesSpecification.schema : Sel := .fld 0
abbrev ReferencesSpecification.table : Sel := .fld 1
abbrev ReferencesSpecification.columns : Sel := .fld 2
/-! Fields of `ForeignKeyConstraint` (src/sql/CreateStatement.h:42) -/
abbrev ForeignKeyConstraint.type : Sel := .fld 0
abbrev ForeignKeyConstraint.columnNames : Sel := .fld 1
abbrev ForeignKeyConstraint.references : Sel := .fld 2
/-! Fields of `ColumnDefinition` (src/sql/CreateStatement.h:50) -/
abbrev ColumnDefinition.column_constraints : Sel := .fld 0
abbrev ColumnDefinition.name : Sel := .fld 1
abbrev ColumnDefinition.type : Sel := .fld 2
abbrev ColumnDefinition.nullable : Sel := .fld 3
abbrev ColumnDefinition.references : Sel := .fld 4
/-! Fields of `ColumnConstraints` (src/sql/CreateStatement.h:66) -/
abbrev ColumnConstraints.constraints : Sel := .fld 0
abbrev ColumnConstraints.references : Sel := .fld 1
/-! Fields of `CreateStatement` (src/sql/CreateStatement.h:82) -/
abbrev CreateStatement.stringLength : Sel := .fld 0
abbrev CreateStatement.hints : Sel := .fld 1
abbrev CreateStatement.type_ : Sel := .fld 2
abbrev CreateStatement.type : Sel := .fld 3
abbrev CreateStatement.ifNotExists : Sel := .fld 4
abbrev CreateStatement.filePath : Sel := .fld 5
abbrev CreateStatement.schema : Sel := .fld 6
abbrev CreateStatement.tableName : Sel := .fld 7
abbrev CreateStatement.indexName : Sel := .fld 8
abbrev CreateStatement.indexColumns : Sel := .fld 9
abbrev CreateStatement.columns : Sel := .fld 10
abbrev CreateStatement.tableConstraints : Sel := .fld 11
abbrev CreateStatement.viewColumns : Sel := .fld 12
abbrev CreateStatement.select : Sel := .fld 13
/-! Fields of `CsvOptions` (src/sql/ImportExportOptions.h:24) -/
abbrev CsvOptions.delimiter : Sel := .fld 0
abbrev CsvOptions.null : Sel := .fld 1
abbrev CsvOptions.quote : Sel := .fld 2
/-! Fields of `ImportExportOptions` (src/sql/ImportExportOptions.h:35) -/
abbrev ImportExportOptions.format : Sel := .fld 0
abbrev ImportExportOptions.encoding : Sel := .fld 1
abbrev ImportExportOptions.csv_options : Sel := .fld 2
/-! Fields of `ImportStatement` (src/sql/ImportStatement.h:10) -/
abbrev ImportStatement.stringLength : Sel := .fld 0
abbrev ImportStatement.hints : Sel := .fld 1
abbrev ImportStatement.type_ : Sel := .fld 2
abbrev ImportStatement.type : Sel := .fld 3
abbrev ImportStatement.filePath : Sel := .fld 4
abbrev ImportStatement.schema : Sel := .fld 5
abbrev ImportStatement.tableName : Sel := .fld 6
abbrev ImportStatement.whereClause : Sel := .fld 7
abbrev ImportStatement.encoding : Sel := .fld 8
abbrev ImportStatement.csv_options : Sel := .fld 9
/-! Fields of `ExportStatement` (src/sql/ExportStatement.h:10) -/
abbrev ExportStatement.stringLength : Sel := .fld 0
abbrev ExportStatement.hints : Sel := .fld 1
abbrev ExportStatement.type_ : Sel := .fld 2
abbrev ExportStatement.type : Sel := .fld 3
abbrev ExportStatement.filePath : Sel := .fld 4
abbrev ExportStatement.schema : Sel := .fld 5
abbrev ExportStatement.tableName : Sel := .fld 6
abbrev ExportStatement.select : Sel := .fld 7
abbrev ExportStatement.encoding : Sel := .fld 8
abbrev ExportStatement.csv_options : Sel := .fld 9
/-! Fields of `InsertStatement` (src/sql/InsertStatement.h:12) -/
abbrev InsertStatement.stringLength : Sel := .fld 0
abbrev InsertStatement.hints : Sel := .fld 1
abbrev InsertStatement.type_ : Sel := .fld 2
abbrev InsertStatement.type : Sel := .fld 3
abbrev InsertStatement.schema : Sel := .fld 4
abbrev InsertStatement.tableName : Sel := .fld 5
abbrev InsertStatement.columns : Sel := .fld 6
abbrev InsertStatement.values : Sel := .fld 7
abbrev InsertStatement.select : Sel := .fld 8
/-! Fields of `DeleteStatement` (src/sql/DeleteStatement.h:12) -/
abbrev DeleteStatement.stringLength : Sel := .fld 0
abbrev DeleteStatement.hints : Sel := .fld 1
abbrev DeleteStatement.type_ : Sel := .fld 2
abbrev DeleteStatement.schema : Sel := .fld 3
abbrev DeleteStatement.tableName : Sel := .fld 4
abbrev DeleteStatement.expr : Sel := .fld 5
/-! Fields of `UpdateClause` (src/sql/UpdateStatement.h:9) -/
abbrev UpdateClause.column : Sel := .fld 0
abbrev UpdateClause.value : Sel := .fld 1
/-! Fields of `UpdateStatement` (src/sql/UpdateStatement.h:15) -/
abbrev UpdateStatement.stringLength : Sel := .fld 0
abbrev UpdateStatement.hints : Sel := .fld 1
abbrev UpdateStatement.type_ : Sel := .fld 2
abbrev UpdateStatement.table : Sel := .fld 3
abbrev UpdateStatement.updates : Sel := .fld 4
abbrev UpdateStatement.where : Sel := .fld 5
/-! Fields of `DropStatement` (src/sql/DropStatement.h:13) -/
abbrev DropStatement.stringLength : Sel := .fld 0
abbrev DropStatement.hints : Sel := .fld 1
abbrev DropStatement.type_ : Sel := .fld 2
abbrev DropStatement.type : Sel := .fld 3
abbrev DropStatement.ifExists : Sel := .fld 4
abbrev DropStatement.schema : Sel := .fld 5
abbrev DropStatement.name : Sel := .fld 6
abbrev DropStatement.indexName : Sel := .fld 7
/-! Fields of `DropColumnAction` (src/sql/AlterStatement.h:19) -/
abbrev DropColumnAction.type : Sel := .fld 0
abbrev DropColumnAction.columnName : Sel := .fld 1
abbrev DropColumnAction.ifExists : Sel := .fld 2
/-! Fields of `AlterStatement` (src/sql/AlterStatement.h:29) -/
abbrev AlterStatement.stringLength : Sel := .fld 0
abbrev AlterStatement.hints : Sel := .fld 1
abbrev AlterStatement.type_ : Sel := .fld 2
abbrev AlterStatement.schema : Sel := .fld 3
abbrev AlterStatement.ifTableExists : Sel := .fld 4
abbrev AlterStatement.name : Sel := .fld 5
abbrev AlterStatement.action : Sel := .fld 6
/-! Fields of `ExecuteStatement` (src/sql/ExecuteStatement.h:10) -/
abbrev ExecuteStatement.stringLength : Sel := .fld 0
abbrev ExecuteStatement.hints : Sel := .fld 1
abbrev ExecuteStatement.type_ : Sel := .fld 2
abbrev ExecuteStatement.name : Sel := .fld 3
abbrev ExecuteStatement.parameters : Sel := .fld 4
/-! Fields of `PrepareStatement` (src/sql/PrepareStatement.h:10) -/
abbrev PrepareStatement.stringLength : Sel := .fld 0
abbrev PrepareStatement.hints : Sel := .fld 1
abbrev PrepareStatement.type_ : Sel := .fld 2
abbrev PrepareStatement.name : Sel := .fld 3
abbrev PrepareStatement.query : Sel := .fld 4
/-! Fields of `ShowStatement` (src/sql/ShowStatement.h:13) -/
abbrev ShowStatement.stringLength : Sel := .fld 0
abbrev ShowStatement.hints : Sel := .fld 1
abbrev ShowStatement.type_ : Sel := .fld 2
abbrev ShowStatement.type : Sel := .fld 3
abbrev ShowStatement.schema : Sel := .fld 4
abbrev ShowStatement.name : Sel := .fld 5
/-! Fields of `TransactionStatement` (src/sql/TransactionStatement.h:12) -/
abbrev TransactionStatement.stringLength : Sel := .fld 0
abbrev TransactionStatement.hints : Sel := .fld 1
abbrev TransactionStatement.type_ : Sel := .fld 2
abbrev TransactionStatement.command : Sel := .fld 3
/-! Members of the `std::pair` `IntPair` (src/parser/bison_parser.y:164-170) -/
abbrev IntPair.first : Sel := .fld 0
abbrev IntPair.second : Sel := .fld 1
/-! Members of the `std::pair` `CsvOptionPair` (src/parser/bison_parser.y:164-170) -/
abbrev CsvOptionPair.first : Sel := .fld 0
abbrev CsvOptionPair.second : Sel := .fld 1
/-! Fields of `TableName` (src/sql/Table.h:17) -/
abbrev TableName.schema : Sel := .fld 0
abbrev TableName.name : Sel := .fld 1
/-! Fields of `ColumnType` (src/sql/ColumnType.h:28) -/
abbrev ColumnType.data_type : Sel := .fld 0
abbrev ColumnType.length : Sel := .fld 1
abbrev ColumnType.precision : Sel := .fld 2
abbrev ColumnType.scale : Sel := .fld 3

/-- `new Expr` (src/sql/Expr.cpp:44-62). -/
def newExpr (type_ : Atom) : Rv := .obj .Expr [type_, .null, .null, .null, .null, .null, .null, .null, .null, .int 0, .int 0, .int 0, .int DatetimeField.kDatetimeNone, .unknownType, .int 0, .int OperatorType.kOpNone, .int 0, .null]
/-- `new FrameBound` (src/sql/Expr.cpp:11-12). -/
def newFrameBound (offset_ : Atom) (type_ : Atom) (unbounded_ : Atom) : Rv := .obj .FrameBound [offset_, type_, unbounded_]
/-- `new FrameDescription` (src/sql/Expr.cpp:14-15). -/
def newFrameDescription (type_ : Atom) (start_ : Atom) (end_ : Atom) : Rv := .obj .FrameDescription [type_, start_, end_]
/-- `new WindowDescription` (src/sql/Expr.cpp:22-24). -/
def newWindowDescription (partitionList_ : Atom) (orderList_ : Atom) (frameDescription_ : Atom) : Rv := .obj .WindowDescription [partitionList_, orderList_, frameDescription_]
/-- `new OrderDescription` (src/sql/statements.cpp:255-256). -/
def newOrderDescription (type_ : Atom) (expr_ : Atom) (null_ordering_ : Atom) : Rv := .obj .OrderDescription [type_, expr_, null_ordering_]
/-- `new LimitDescription` (src/sql/statements.cpp:261-261). -/
def newLimitDescription (limit_ : Atom) (offset_ : Atom) : Rv := .obj .LimitDescription [limit_, offset_]
/-- `new GroupByDescription` (src/sql/statements.cpp:269-269). -/
def newGroupByDescription : Rv := .obj .GroupByDescription [.null, .null]
/-- `new WithDescription()`: value-initialised, the class has no constructor (src/sql/SelectStatement.h:45). -/
def newWithDescription : Rv := .obj .WithDescription [.null, .null]
/-- `new SetOperation` (src/sql/statements.cpp:426-426). -/
def newSetOperation : Rv := .obj .SetOperation [.undef, .undef, .null, .null, .null]
/-- `new LockingClause()`: value-initialised, the class has no constructor (src/sql/SelectStatement.h:64). -/
def newLockingClause : Rv := .obj .LockingClause [.int 0, .int 0, .null]
/-- `new SelectStatement` (src/sql/statements.cpp:288-299). -/
def newSelectStatement : Rv := .obj .SelectStatement [.undef, .null, .int StatementType.kStmtSelect, .null, .int 0, .null, .null, .null, .null, .null, .null, .null, .null]
/-- `new Alias` (src/sql/statements.cpp:368-368). -/
def newAlias (name_ : Atom) (columns_ : Atom) : Rv := .obj .Alias [name_, columns_]
/-- `new TableRef` (src/sql/statements.cpp:381-382). -/
def newTableRef (type_ : Atom) : Rv := .obj .TableRef [type_, .null, .null, .null, .null, .null, .null]
/-- `new JoinDefinition` (src/sql/statements.cpp:410-411). -/
def newJoinDefinition : Rv := .obj .JoinDefinition [.null, .null, .null, .null, .int JoinType.kJoinInner]
/-- `new TableConstraint` (src/sql/CreateStatement.cpp:28-29). -/
def newTableConstraint (type_ : Atom) (columnNames_ : Atom) : Rv := .obj .TableConstraint [type_, columnNames_]
/-- `new ReferencesSpecification` (src/sql/CreateStatement.cpp:39-40). -/
def newReferencesSpecification (schema_ : Atom) (table_ : Atom) (columns_ : Atom) : Rv := .obj .ReferencesSpecification [schema_, table_, columns_]
/-- `new ForeignKeyConstraint` (src/sql/CreateStatement.cpp:53-54). -/
def newForeignKeyConstraint (columnNames_ : Atom) (references_ : Atom) : Rv := .obj .ForeignKeyConstraint [.int ConstraintType.ForeignKey, columnNames_, references_]
/-- `new ColumnDefinition` (src/sql/CreateStatement.cpp:62-64). -/
def newColumnDefinition (name_ : Atom) (type_ : Atom) (column_constraints_ : Atom) (references_ : Atom) : Rv := .obj .ColumnDefinition [column_constraints_, name_, type_, .int 1, references_]
/-- `new CreateStatement` (src/sql/CreateStatement.cpp:89-101). -/
def newCreateStatement (type_ : Atom) : Rv := .obj .CreateStatement [.undef, .null, .int StatementType.kStmtCreate, type_, .int 0, .null, .null, .null, .null, .null, .null, .null, .null, .null]
/-- `new CsvOptions` (src/sql/statements.cpp:155-155). -/
def newCsvOptions : Rv := .obj .CsvOptions [.null, .null, .null]
/-- `new ImportExportOptions` (src/sql/statements.cpp:187-187). -/
def newImportExportOptions : Rv := .obj .ImportExportOptions [.int ImportType.kImportAuto, .null, .null]
/-- `new ImportStatement` (src/sql/statements.cpp:195-203). -/
def newImportStatement (type_ : Atom) : Rv := .obj .ImportStatement [.undef, .null, .int StatementType.kStmtImport, type_, .null, .null, .null, .null, .null, .null]
/-- `new ExportStatement` (src/sql/statements.cpp:136-144). -/
def newExportStatement (type_ : Atom) : Rv := .obj .ExportStatement [.undef, .null, .int StatementType.kStmtExport, type_, .null, .null, .null, .null, .null, .null]
/-- `new InsertStatement` (src/sql/statements.cpp:215-222). -/
def newInsertStatement (type_ : Atom) : Rv := .obj .InsertStatement [.undef, .null, .int StatementType.kStmtInsert, type_, .null, .null, .null, .null, .null]
/-- `new DeleteStatement` (src/sql/statements.cpp:77-77). -/
def newDeleteStatement : Rv := .obj .DeleteStatement [.undef, .null, .int StatementType.kStmtDelete, .null, .null, .null]
/-- `new UpdateClause()`: value-initialised, the class has no constructor (src/sql/UpdateStatement.h:9). -/
def newUpdateClause : Rv := .obj .UpdateClause [.null, .null]
/-- `new UpdateStatement` (src/sql/statements.cpp:351-351). -/
def newUpdateStatement : Rv := .obj .UpdateStatement [.undef, .null, .int StatementType.kStmtUpdate, .null, .null, .null]
/-- `new DropStatement` (src/sql/statements.cpp:86-87). -/
def newDropStatement (type_ : Atom) : Rv := .obj .DropStatement [.undef, .null, .int StatementType.kStmtDrop, type_, .undef, .null, .null, .null]
/-- `new DropColumnAction` (src/sql/statements.cpp:101-102). -/
def newDropColumnAction (column_name_ : Atom) : Rv := .obj .DropColumnAction [.int ActionType.DropColumn, column_name_, .int 0]
/-- `new AlterStatement` (src/sql/statements.cpp:106-107). -/
def newAlterStatement (name_ : Atom) (action_ : Atom) : Rv := .obj .AlterStatement [.undef, .null, .int StatementType.kStmtAlter, .null, .int 0, name_, action_]
/-- `new ExecuteStatement` (src/sql/statements.cpp:122-122). -/
def newExecuteStatement : Rv := .obj .ExecuteStatement [.undef, .null, .int StatementType.kStmtExecute, .null, .null]
/-- `new PrepareStatement` (src/sql/PrepareStatement.cpp:6-6). -/
def newPrepareStatement : Rv := .obj .PrepareStatement [.undef, .null, .int StatementType.kStmtPrepare, .null, .null]
/-- `new ShowStatement` (src/sql/statements.cpp:245-245). -/
def newShowStatement (type_ : Atom) : Rv := .obj .ShowStatement [.undef, .null, .int StatementType.kStmtShow, type_, .null, .null]
/-- `new TransactionStatement` (src/sql/statements.cpp:116-117). -/
def newTransactionStatement (command_ : Atom) : Rv := .obj .TransactionStatement [.undef, .null, .int StatementType.kStmtTransaction, command_]

end Verif.Sem

import Verif.Sem.Makers
/-! Generated by tools/genact.py from src/parser/bison_parser.y: the semantic action of every rule. -/
namespace Verif.Sem

/-- `input : statement_list opt_semicolon` (src/parser/bison_parser.y:343-359); written by hand -/
def act2 : Prog :=
  .finish
/-- `statement_list : statement` (src/parser/bison_parser.y:362-367) -/
def act3 : Prog :=
  .set ⟨1, [SelectStatement.stringLength]⟩ (.atom (.strLen)) <|
  .zeroLen <|
  .set ⟨0, []⟩ (.vec []) <|
  .push ⟨0, []⟩ (.mv ⟨1, []⟩) <|
  .ret
/-- `statement_list : statement_list ';' statement` (src/parser/bison_parser.y:368-373) -/
def act4 : Prog :=
  .set ⟨3, [SelectStatement.stringLength]⟩ (.atom (.strLen)) <|
  .zeroLen <|
  .push ⟨1, []⟩ (.mv ⟨3, []⟩) <|
  .set ⟨0, []⟩ (.atom (.mv ⟨1, []⟩)) <|
  .ret
/-- `statement : prepare_statement opt_hints` (src/parser/bison_parser.y:375-378) -/
def act5 : Prog :=
  .set ⟨0, []⟩ (.atom (.mv ⟨1, []⟩)) <|
  .set ⟨0, [SelectStatement.hints]⟩ (.atom (.mv ⟨2, []⟩)) <|
  .ret
/-- `statement : preparable_statement opt_hints` (src/parser/bison_parser.y:379-382) -/
def act6 : Prog :=
  .set ⟨0, []⟩ (.atom (.mv ⟨1, []⟩)) <|
  .set ⟨0, [SelectStatement.hints]⟩ (.atom (.mv ⟨2, []⟩)) <|
  .ret
/-- `statement : show_statement` (src/parser/bison_parser.y:383-383) -/
def act7 : Prog :=
  .set ⟨0, []⟩ (.atom (.mv ⟨1, []⟩)) <|
  .ret
/-- `statement : import_statement` (src/parser/bison_parser.y:384-384) -/
def act8 : Prog :=
  .set ⟨0, []⟩ (.atom (.mv ⟨1, []⟩)) <|
  .ret
/-- `statement : export_statement` (src/parser/bison_parser.y:385-385) -/
def act9 : Prog :=
  .set ⟨0, []⟩ (.atom (.mv ⟨1, []⟩)) <|
  .ret
/-- `preparable_statement : select_statement` (src/parser/bison_parser.y:387-387) -/
def act10 : Prog :=
  .set ⟨0, []⟩ (.atom (.mv ⟨1, []⟩)) <|
  .ret
/-- `preparable_statement : create_statement` (src/parser/bison_parser.y:388-388) -/
def act11 : Prog :=
  .set ⟨0, []⟩ (.atom (.mv ⟨1, []⟩)) <|
  .ret
/-- `preparable_statement : insert_statement` (src/parser/bison_parser.y:389-389) -/
def act12 : Prog :=
  .set ⟨0, []⟩ (.atom (.mv ⟨1, []⟩)) <|
  .ret
/-- `preparable_statement : delete_statement` (src/parser/bison_parser.y:390-390) -/
def act13 : Prog :=
  .set ⟨0, []⟩ (.atom (.mv ⟨1, []⟩)) <|
  .ret
/-- `preparable_statement : truncate_statement` (src/parser/bison_parser.y:391-391) -/
def act14 : Prog :=
  .set ⟨0, []⟩ (.atom (.mv ⟨1, []⟩)) <|
  .ret
/-- `preparable_statement : update_statement` (src/parser/bison_parser.y:392-392) -/
def act15 : Prog :=
  .set ⟨0, []⟩ (.atom (.mv ⟨1, []⟩)) <|
  .ret
/-- `preparable_statement : drop_statement` (src/parser/bison_parser.y:393-393) -/
def act16 : Prog :=
  .set ⟨0, []⟩ (.atom (.mv ⟨1, []⟩)) <|
  .ret
/-- `preparable_statement : alter_statement` (src/parser/bison_parser.y:394-394) -/
def act17 : Prog :=
  .set ⟨0, []⟩ (.atom (.mv ⟨1, []⟩)) <|
  .ret
/-- `preparable_statement : execute_statement` (src/parser/bison_parser.y:395-395) -/
def act18 : Prog :=
  .set ⟨0, []⟩ (.atom (.mv ⟨1, []⟩)) <|
  .ret
/-- `preparable_statement : transaction_statement` (src/parser/bison_parser.y:396-396) -/
def act19 : Prog :=
  .set ⟨0, []⟩ (.atom (.mv ⟨1, []⟩)) <|
  .ret
/-- `opt_hints : WITH HINT '(' hint_list ')'` (src/parser/bison_parser.y:402-402) -/
def act20 : Prog :=
  .set ⟨0, []⟩ (.atom (.mv ⟨4, []⟩)) <|
  .ret
/-- `opt_hints : %empty` (src/parser/bison_parser.y:403-403) -/
def act21 : Prog :=
  .set ⟨0, []⟩ (.atom (.null)) <|
  .ret
/-- `hint_list : hint` (src/parser/bison_parser.y:405-408) -/
def act22 : Prog :=
  .set ⟨0, []⟩ (.vec []) <|
  .push ⟨0, []⟩ (.mv ⟨1, []⟩) <|
  .ret
/-- `hint_list : hint_list ',' hint` (src/parser/bison_parser.y:409-412) -/
def act23 : Prog :=
  .push ⟨1, []⟩ (.mv ⟨3, []⟩) <|
  .set ⟨0, []⟩ (.atom (.mv ⟨1, []⟩)) <|
  .ret
/-- `hint : IDENTIFIER` (src/parser/bison_parser.y:414-417) -/
def act24 : Prog :=
  make 0 (.int ExprType.kExprHint) <|
  .set ⟨0, [Expr.name]⟩ (.atom (.mv ⟨1, []⟩)) <|
  .ret
/-- `hint : IDENTIFIER '(' extended_literal_list ')'` (src/parser/bison_parser.y:418-422) -/
def act25 : Prog :=
  make 0 (.int ExprType.kExprHint) <|
  .set ⟨0, [Expr.name]⟩ (.atom (.mv ⟨1, []⟩)) <|
  .set ⟨0, [Expr.exprList]⟩ (.atom (.mv ⟨3, []⟩)) <|
  .ret
/-- `transaction_statement : BEGIN opt_transaction_keyword` (src/parser/bison_parser.y:428-428) -/
def act26 : Prog :=
  .set ⟨0, []⟩ (newTransactionStatement (.int TransactionCommand.kBeginTransaction)) <|
  .ret
/-- `transaction_statement : ROLLBACK opt_transaction_keyword` (src/parser/bison_parser.y:429-429) -/
def act27 : Prog :=
  .set ⟨0, []⟩ (newTransactionStatement (.int TransactionCommand.kRollbackTransaction)) <|
  .ret
/-- `transaction_statement : COMMIT opt_transaction_keyword` (src/parser/bison_parser.y:430-430) -/
def act28 : Prog :=
  .set ⟨0, []⟩ (newTransactionStatement (.int TransactionCommand.kCommitTransaction)) <|
  .ret
/-- `opt_transaction_keyword : TRANSACTION` (src/parser/bison_parser.y:432-432); no value -/
def act29 : Prog :=
  .ret
/-- `opt_transaction_keyword : %empty` (src/parser/bison_parser.y:432-432); no value -/
def act30 : Prog :=
  .ret
/-- `prepare_statement : PREPARE IDENTIFIER FROM prepare_target_query` (src/parser/bison_parser.y:438-442) -/
def act31 : Prog :=
  .set ⟨0, []⟩ (newPrepareStatement) <|
  .set ⟨0, [PrepareStatement.name]⟩ (.atom (.mv ⟨2, []⟩)) <|
  .set ⟨0, [PrepareStatement.query]⟩ (.atom (.mv ⟨4, []⟩)) <|
  .ret
/-- `prepare_target_query : STRING` (src/parser/bison_parser.y:444-444); default action -/
def act32 : Prog :=
  .set ⟨0, []⟩ (.atom (.mv ⟨1, []⟩)) <|
  .ret
/-- `execute_statement : EXECUTE IDENTIFIER` (src/parser/bison_parser.y:446-449) -/
def act33 : Prog :=
  .set ⟨0, []⟩ (newExecuteStatement) <|
  .set ⟨0, [ExecuteStatement.name]⟩ (.atom (.mv ⟨2, []⟩)) <|
  .ret
/-- `execute_statement : EXECUTE IDENTIFIER '(' opt_extended_literal_list ')'` (src/parser/bison_parser.y:450-454) -/
def act34 : Prog :=
  .set ⟨0, []⟩ (newExecuteStatement) <|
  .set ⟨0, [ExecuteStatement.name]⟩ (.atom (.mv ⟨2, []⟩)) <|
  .set ⟨0, [ExecuteStatement.parameters]⟩ (.atom (.mv ⟨4, []⟩)) <|
  .ret
/-- `import_statement : IMPORT FROM file_type FILE file_path INTO table_name` (src/parser/bison_parser.y:462-467) -/
def act35 : Prog :=
  .set ⟨0, []⟩ (newImportStatement (.cp ⟨3, []⟩)) <|
  .set ⟨0, [ImportStatement.filePath]⟩ (.atom (.mv ⟨5, []⟩)) <|
  .set ⟨0, [ImportStatement.schema]⟩ (.atom (.mv ⟨7, [TableName.schema]⟩)) <|
  .set ⟨0, [ImportStatement.tableName]⟩ (.atom (.mv ⟨7, [TableName.name]⟩)) <|
  .ret
/-- `import_statement : COPY table_name FROM file_path opt_import_export_options opt_where` (src/parser/bison_parser.y:468-483) -/
def act36 : Prog :=
  .set ⟨0, []⟩ (newImportStatement (.cp ⟨5, [ImportExportOptions.format]⟩)) <|
  .set ⟨0, [ImportStatement.filePath]⟩ (.atom (.mv ⟨4, []⟩)) <|
  .set ⟨0, [ImportStatement.schema]⟩ (.atom (.mv ⟨2, [TableName.schema]⟩)) <|
  .set ⟨0, [ImportStatement.tableName]⟩ (.atom (.mv ⟨2, [TableName.name]⟩)) <|
  .set ⟨0, [ImportStatement.whereClause]⟩ (.atom (.mv ⟨6, []⟩)) <|
  .ite (.null ⟨5, [ImportExportOptions.encoding]⟩)
  (.ite (.null ⟨5, [ImportExportOptions.csv_options]⟩)
    (.del ⟨5, []⟩ <|
      .ret)
    (.set ⟨0, [ImportStatement.csv_options]⟩ (.atom (.mv ⟨5, [ImportExportOptions.csv_options]⟩)) <|
      .set ⟨5, [ImportExportOptions.csv_options]⟩ (.atom (.null)) <|
      .del ⟨5, []⟩ <|
      .ret))
  (.set ⟨0, [ImportStatement.encoding]⟩ (.atom (.mv ⟨5, [ImportExportOptions.encoding]⟩)) <|
    .set ⟨5, [ImportExportOptions.encoding]⟩ (.atom (.null)) <|
    .ite (.null ⟨5, [ImportExportOptions.csv_options]⟩)
    (.del ⟨5, []⟩ <|
      .ret)
    (.set ⟨0, [ImportStatement.csv_options]⟩ (.atom (.mv ⟨5, [ImportExportOptions.csv_options]⟩)) <|
      .set ⟨5, [ImportExportOptions.csv_options]⟩ (.atom (.null)) <|
      .del ⟨5, []⟩ <|
      .ret))
/-- `file_type : IDENTIFIER` (src/parser/bison_parser.y:485-498) -/
def act37 : Prog :=
  .ite (.strIs ⟨1, []⟩ b!"csv")
  (.set ⟨0, []⟩ (.atom (.int ImportType.kImportCSV)) <|
    .free ⟨1, []⟩ <|
    .ret)
  (.ite (.strIs ⟨1, []⟩ b!"tbl")
    (.set ⟨0, []⟩ (.atom (.int ImportType.kImportTbl)) <|
      .free ⟨1, []⟩ <|
      .ret)
    (.ite (.strIs ⟨1, []⟩ b!"binary")
      (.set ⟨0, []⟩ (.atom (.int ImportType.kImportBinary)) <|
        .free ⟨1, []⟩ <|
        .ret)
      (.ite (.strIs ⟨1, []⟩ b!"bin")
        (.set ⟨0, []⟩ (.atom (.int ImportType.kImportBinary)) <|
          .free ⟨1, []⟩ <|
          .ret)
        (.free ⟨1, []⟩ <|
          .err b!"File type is unknown." <|
          .fail))))
/-- `file_path : STRING` (src/parser/bison_parser.y:500-500) -/
def act38 : Prog :=
  .set ⟨0, []⟩ (.atom (.mv ⟨1, []⟩)) <|
  .ret
/-- `opt_import_export_options : WITH '(' import_export_options ')'` (src/parser/bison_parser.y:502-502) -/
def act39 : Prog :=
  .set ⟨0, []⟩ (.atom (.mv ⟨3, []⟩)) <|
  .ret
/-- `opt_import_export_options : '(' import_export_options ')'` (src/parser/bison_parser.y:503-503) -/
def act40 : Prog :=
  .set ⟨0, []⟩ (.atom (.mv ⟨2, []⟩)) <|
  .ret
/-- `opt_import_export_options : %empty` (src/parser/bison_parser.y:504-504) -/
def act41 : Prog :=
  .set ⟨0, []⟩ (newImportExportOptions) <|
  .ret
/-- `import_export_options : import_export_options ',' FORMAT file_type` (src/parser/bison_parser.y:506-519) -/
def act42 : Prog :=
  .ite (.eq ⟨1, [ImportExportOptions.format]⟩ ImportType.kImportAuto)
  (.ite (.null ⟨1, [ImportExportOptions.csv_options]⟩)
    (.set ⟨1, [ImportExportOptions.format]⟩ (.atom (.cp ⟨4, []⟩)) <|
      .set ⟨0, []⟩ (.atom (.mv ⟨1, []⟩)) <|
      .ret)
    (.ite (.eq ⟨4, []⟩ ImportType.kImportCSV)
      (.set ⟨1, [ImportExportOptions.format]⟩ (.atom (.cp ⟨4, []⟩)) <|
        .set ⟨0, []⟩ (.atom (.mv ⟨1, []⟩)) <|
        .ret)
      (.ite (.eq ⟨4, []⟩ ImportType.kImportAuto)
        (.set ⟨1, [ImportExportOptions.format]⟩ (.atom (.cp ⟨4, []⟩)) <|
          .set ⟨0, []⟩ (.atom (.mv ⟨1, []⟩)) <|
          .ret)
        (.del ⟨1, []⟩ <|
          .err b!"CSV options (DELIMITER, NULL, QUOTE) are only allowed for CSV files." <|
          .fail))))
  (.del ⟨1, []⟩ <|
    .err b!"File type must only be provided once." <|
    .fail)
/-- `import_export_options : FORMAT file_type` (src/parser/bison_parser.y:520-523) -/
def act43 : Prog :=
  .set ⟨0, []⟩ (newImportExportOptions) <|
  .set ⟨0, [ImportExportOptions.format]⟩ (.atom (.cp ⟨2, []⟩)) <|
  .ret
/-- `import_export_options : import_export_options ',' ENCODING STRING` (src/parser/bison_parser.y:524-533) -/
def act44 : Prog :=
  .ite (.null ⟨1, [ImportExportOptions.encoding]⟩)
  (.set ⟨1, [ImportExportOptions.encoding]⟩ (.atom (.mv ⟨4, []⟩)) <|
    .set ⟨0, []⟩ (.atom (.mv ⟨1, []⟩)) <|
    .ret)
  (.del ⟨1, []⟩ <|
    .free ⟨4, []⟩ <|
    .err b!"Encoding type must only be provided once." <|
    .fail)
/-- `import_export_options : ENCODING STRING` (src/parser/bison_parser.y:534-537) -/
def act45 : Prog :=
  .set ⟨0, []⟩ (newImportExportOptions) <|
  .set ⟨0, [ImportExportOptions.encoding]⟩ (.atom (.mv ⟨2, []⟩)) <|
  .ret
/-- `import_export_options : import_export_options ',' csv_option` (src/parser/bison_parser.y:538-561); written by hand -/
def act46 : Prog :=
  csvOptionNext
/-- `import_export_options : csv_option` (src/parser/bison_parser.y:562-568); written by hand -/
def act47 : Prog :=
  csvOptionFirst
/-- `csv_option : IDENTIFIER STRING` (src/parser/bison_parser.y:570-582) -/
def act48 : Prog :=
  .ite (.strIs ⟨1, []⟩ b!"DELIMITER")
  (.set ⟨0, []⟩ (.obj .CsvOptionPair [.int CsvOptionType.Delimiter, .mv ⟨2, []⟩]) <|
    .free ⟨1, []⟩ <|
    .ret)
  (.ite (.strIs ⟨1, []⟩ b!"QUOTE")
    (.set ⟨0, []⟩ (.obj .CsvOptionPair [.int CsvOptionType.Quote, .mv ⟨2, []⟩]) <|
      .free ⟨1, []⟩ <|
      .ret)
    (.free ⟨1, []⟩ <|
      .free ⟨2, []⟩ <|
      .err b!"Unknown CSV option." <|
      .fail))
/-- `csv_option : NULL STRING` (src/parser/bison_parser.y:583-583) -/
def act49 : Prog :=
  .set ⟨0, []⟩ (.obj .CsvOptionPair [.int CsvOptionType.Null, .mv ⟨2, []⟩]) <|
  .ret
/-- `export_statement : COPY table_name TO file_path opt_import_export_options` (src/parser/bison_parser.y:590-604) -/
def act50 : Prog :=
  .set ⟨0, []⟩ (newExportStatement (.cp ⟨5, [ImportExportOptions.format]⟩)) <|
  .set ⟨0, [ExportStatement.filePath]⟩ (.atom (.mv ⟨4, []⟩)) <|
  .set ⟨0, [ExportStatement.schema]⟩ (.atom (.mv ⟨2, [TableName.schema]⟩)) <|
  .set ⟨0, [ExportStatement.tableName]⟩ (.atom (.mv ⟨2, [TableName.name]⟩)) <|
  .ite (.null ⟨5, [ImportExportOptions.encoding]⟩)
  (.ite (.null ⟨5, [ImportExportOptions.csv_options]⟩)
    (.del ⟨5, []⟩ <|
      .ret)
    (.set ⟨0, [ExportStatement.csv_options]⟩ (.atom (.mv ⟨5, [ImportExportOptions.csv_options]⟩)) <|
      .set ⟨5, [ImportExportOptions.csv_options]⟩ (.atom (.null)) <|
      .del ⟨5, []⟩ <|
      .ret))
  (.set ⟨0, [ExportStatement.encoding]⟩ (.atom (.mv ⟨5, [ImportExportOptions.encoding]⟩)) <|
    .set ⟨5, [ImportExportOptions.encoding]⟩ (.atom (.null)) <|
    .ite (.null ⟨5, [ImportExportOptions.csv_options]⟩)
    (.del ⟨5, []⟩ <|
      .ret)
    (.set ⟨0, [ExportStatement.csv_options]⟩ (.atom (.mv ⟨5, [ImportExportOptions.csv_options]⟩)) <|
      .set ⟨5, [ImportExportOptions.csv_options]⟩ (.atom (.null)) <|
      .del ⟨5, []⟩ <|
      .ret))
/-- `export_statement : COPY select_with_paren TO file_path opt_import_export_options` (src/parser/bison_parser.y:605-618) -/
def act51 : Prog :=
  .set ⟨0, []⟩ (newExportStatement (.cp ⟨5, [ImportExportOptions.format]⟩)) <|
  .set ⟨0, [ExportStatement.filePath]⟩ (.atom (.mv ⟨4, []⟩)) <|
  .set ⟨0, [ExportStatement.select]⟩ (.atom (.mv ⟨2, []⟩)) <|
  .ite (.null ⟨5, [ImportExportOptions.encoding]⟩)
  (.ite (.null ⟨5, [ImportExportOptions.csv_options]⟩)
    (.del ⟨5, []⟩ <|
      .ret)
    (.set ⟨0, [ExportStatement.csv_options]⟩ (.atom (.mv ⟨5, [ImportExportOptions.csv_options]⟩)) <|
      .set ⟨5, [ImportExportOptions.csv_options]⟩ (.atom (.null)) <|
      .del ⟨5, []⟩ <|
      .ret))
  (.set ⟨0, [ExportStatement.encoding]⟩ (.atom (.mv ⟨5, [ImportExportOptions.encoding]⟩)) <|
    .set ⟨5, [ImportExportOptions.encoding]⟩ (.atom (.null)) <|
    .ite (.null ⟨5, [ImportExportOptions.csv_options]⟩)
    (.del ⟨5, []⟩ <|
      .ret)
    (.set ⟨0, [ExportStatement.csv_options]⟩ (.atom (.mv ⟨5, [ImportExportOptions.csv_options]⟩)) <|
      .set ⟨5, [ImportExportOptions.csv_options]⟩ (.atom (.null)) <|
      .del ⟨5, []⟩ <|
      .ret))
/-- `show_statement : SHOW TABLES` (src/parser/bison_parser.y:625-625) -/
def act52 : Prog :=
  .set ⟨0, []⟩ (newShowStatement (.int ShowType.kShowTables)) <|
  .ret
/-- `show_statement : SHOW COLUMNS table_name` (src/parser/bison_parser.y:626-630) -/
def act53 : Prog :=
  .set ⟨0, []⟩ (newShowStatement (.int ShowType.kShowColumns)) <|
  .set ⟨0, [ShowStatement.schema]⟩ (.atom (.mv ⟨3, [TableName.schema]⟩)) <|
  .set ⟨0, [ShowStatement.name]⟩ (.atom (.mv ⟨3, [TableName.name]⟩)) <|
  .ret
/-- `show_statement : DESCRIBE table_name` (src/parser/bison_parser.y:631-635) -/
def act54 : Prog :=
  .set ⟨0, []⟩ (newShowStatement (.int ShowType.kShowColumns)) <|
  .set ⟨0, [ShowStatement.schema]⟩ (.atom (.mv ⟨2, [TableName.schema]⟩)) <|
  .set ⟨0, [ShowStatement.name]⟩ (.atom (.mv ⟨2, [TableName.name]⟩)) <|
  .ret
/-- `create_statement : CREATE TABLE opt_not_exists table_name FROM IDENTIFIER FILE file_path` (src/parser/bison_parser.y:642-654) -/
def act55 : Prog :=
  .set ⟨0, []⟩ (newCreateStatement (.int CreateType.kCreateTableFromTbl)) <|
  .set ⟨0, [CreateStatement.ifNotExists]⟩ (.atom (.cp ⟨3, []⟩)) <|
  .set ⟨0, [CreateStatement.schema]⟩ (.atom (.mv ⟨4, [TableName.schema]⟩)) <|
  .set ⟨0, [CreateStatement.tableName]⟩ (.atom (.mv ⟨4, [TableName.name]⟩)) <|
  .ite (.strIs ⟨6, []⟩ b!"tbl")
  (.free ⟨6, []⟩ <|
    .set ⟨0, [CreateStatement.filePath]⟩ (.atom (.mv ⟨8, []⟩)) <|
    .ret)
  (.free ⟨6, []⟩ <|
    .err b!"File type is unknown." <|
    .fail)
/-- `create_statement : CREATE TABLE opt_not_exists table_name '(' table_elem_commalist ')'` (src/parser/bison_parser.y:655-666) -/
def act56 : Prog :=
  .set ⟨0, []⟩ (newCreateStatement (.int CreateType.kCreateTable)) <|
  .set ⟨0, [CreateStatement.ifNotExists]⟩ (.atom (.cp ⟨3, []⟩)) <|
  .set ⟨0, [CreateStatement.schema]⟩ (.atom (.mv ⟨4, [TableName.schema]⟩)) <|
  .set ⟨0, [CreateStatement.tableName]⟩ (.atom (.mv ⟨4, [TableName.name]⟩)) <|
  .split ⟨0, []⟩ ⟨6, []⟩ <|
  .del ⟨6, []⟩ <|
  .ite (.err)
  (.del ⟨0, []⟩ <|
    .fail)
  (.ret)
/-- `create_statement : CREATE TABLE opt_not_exists table_name AS select_statement` (src/parser/bison_parser.y:667-673) -/
def act57 : Prog :=
  .set ⟨0, []⟩ (newCreateStatement (.int CreateType.kCreateTable)) <|
  .set ⟨0, [CreateStatement.ifNotExists]⟩ (.atom (.cp ⟨3, []⟩)) <|
  .set ⟨0, [CreateStatement.schema]⟩ (.atom (.mv ⟨4, [TableName.schema]⟩)) <|
  .set ⟨0, [CreateStatement.tableName]⟩ (.atom (.mv ⟨4, [TableName.name]⟩)) <|
  .set ⟨0, [CreateStatement.select]⟩ (.atom (.mv ⟨6, []⟩)) <|
  .ret
/-- `create_statement : CREATE INDEX opt_not_exists opt_index_name ON table_name '(' ident_commalist ')'` (src/parser/bison_parser.y:674-680) -/
def act58 : Prog :=
  .set ⟨0, []⟩ (newCreateStatement (.int CreateType.kCreateIndex)) <|
  .set ⟨0, [CreateStatement.indexName]⟩ (.atom (.mv ⟨4, []⟩)) <|
  .set ⟨0, [CreateStatement.ifNotExists]⟩ (.atom (.cp ⟨3, []⟩)) <|
  .set ⟨0, [CreateStatement.tableName]⟩ (.atom (.mv ⟨6, [TableName.name]⟩)) <|
  .set ⟨0, [CreateStatement.indexColumns]⟩ (.atom (.mv ⟨8, []⟩)) <|
  .ret
/-- `create_statement : CREATE VIEW opt_not_exists table_name opt_column_list AS select_statement` (src/parser/bison_parser.y:681-688) -/
def act59 : Prog :=
  .set ⟨0, []⟩ (newCreateStatement (.int CreateType.kCreateView)) <|
  .set ⟨0, [CreateStatement.ifNotExists]⟩ (.atom (.cp ⟨3, []⟩)) <|
  .set ⟨0, [CreateStatement.schema]⟩ (.atom (.mv ⟨4, [TableName.schema]⟩)) <|
  .set ⟨0, [CreateStatement.tableName]⟩ (.atom (.mv ⟨4, [TableName.name]⟩)) <|
  .set ⟨0, [CreateStatement.viewColumns]⟩ (.atom (.mv ⟨5, []⟩)) <|
  .set ⟨0, [CreateStatement.select]⟩ (.atom (.mv ⟨7, []⟩)) <|
  .ret
/-- `opt_not_exists : IF NOT EXISTS` (src/parser/bison_parser.y:690-690) -/
def act60 : Prog :=
  .set ⟨0, []⟩ (.atom (.int 1)) <|
  .ret
/-- `opt_not_exists : %empty` (src/parser/bison_parser.y:691-691) -/
def act61 : Prog :=
  .set ⟨0, []⟩ (.atom (.int 0)) <|
  .ret
/-- `table_elem_commalist : table_elem` (src/parser/bison_parser.y:693-696) -/
def act62 : Prog :=
  .set ⟨0, []⟩ (.vec []) <|
  .push ⟨0, []⟩ (.mv ⟨1, []⟩) <|
  .ret
/-- `table_elem_commalist : table_elem_commalist ',' table_elem` (src/parser/bison_parser.y:697-700) -/
def act63 : Prog :=
  .push ⟨1, []⟩ (.mv ⟨3, []⟩) <|
  .set ⟨0, []⟩ (.atom (.mv ⟨1, []⟩)) <|
  .ret
/-- `table_elem : column_def` (src/parser/bison_parser.y:702-702) -/
def act64 : Prog :=
  .set ⟨0, []⟩ (.atom (.mv ⟨1, []⟩)) <|
  .ret
/-- `table_elem : table_constraint` (src/parser/bison_parser.y:703-703) -/
def act65 : Prog :=
  .set ⟨0, []⟩ (.atom (.mv ⟨1, []⟩)) <|
  .ret
/-- `column_def : IDENTIFIER column_type opt_column_constraints` (src/parser/bison_parser.y:705-711); written by hand -/
def act66 : Prog :=
  columnDef
/-- `column_type : BIGINT` (src/parser/bison_parser.y:713-713) -/
def act67 : Prog :=
  .set ⟨0, []⟩ (.tup [.int DataType.BIGINT, .int 0, .int 0, .int 0]) <|
  .ret
/-- `column_type : BOOLEAN` (src/parser/bison_parser.y:714-714) -/
def act68 : Prog :=
  .set ⟨0, []⟩ (.tup [.int DataType.BOOLEAN, .int 0, .int 0, .int 0]) <|
  .ret
/-- `column_type : CHAR '(' INTVAL ')'` (src/parser/bison_parser.y:715-715) -/
def act69 : Prog :=
  .set ⟨0, []⟩ (.tup [.int DataType.CHAR, .cp ⟨3, []⟩, .int 0, .int 0]) <|
  .ret
/-- `column_type : CHARACTER_VARYING '(' INTVAL ')'` (src/parser/bison_parser.y:716-716) -/
def act70 : Prog :=
  .set ⟨0, []⟩ (.tup [.int DataType.VARCHAR, .cp ⟨3, []⟩, .int 0, .int 0]) <|
  .ret
/-- `column_type : DATE` (src/parser/bison_parser.y:717-717) -/
def act71 : Prog :=
  .set ⟨0, []⟩ (.tup [.int DataType.DATE, .int 0, .int 0, .int 0]) <|
  .ret
/-- `column_type : DATETIME` (src/parser/bison_parser.y:718-718) -/
def act72 : Prog :=
  .set ⟨0, []⟩ (.tup [.int DataType.DATETIME, .int 0, .int 0, .int 0]) <|
  .ret
/-- `column_type : DECIMAL opt_decimal_specification` (src/parser/bison_parser.y:719-722) -/
def act73 : Prog :=
  .set ⟨0, []⟩ (.tup [.int DataType.DECIMAL, .int 0, .cp ⟨2, [IntPair.first]⟩, .cp ⟨2, [IntPair.second]⟩]) <|
  .del ⟨2, []⟩ <|
  .ret
/-- `column_type : DOUBLE` (src/parser/bison_parser.y:723-723) -/
def act74 : Prog :=
  .set ⟨0, []⟩ (.tup [.int DataType.DOUBLE, .int 0, .int 0, .int 0]) <|
  .ret
/-- `column_type : FLOAT` (src/parser/bison_parser.y:724-724) -/
def act75 : Prog :=
  .set ⟨0, []⟩ (.tup [.int DataType.FLOAT, .int 0, .int 0, .int 0]) <|
  .ret
/-- `column_type : INT` (src/parser/bison_parser.y:725-725) -/
def act76 : Prog :=
  .set ⟨0, []⟩ (.tup [.int DataType.INT, .int 0, .int 0, .int 0]) <|
  .ret
/-- `column_type : INTEGER` (src/parser/bison_parser.y:726-726) -/
def act77 : Prog :=
  .set ⟨0, []⟩ (.tup [.int DataType.INT, .int 0, .int 0, .int 0]) <|
  .ret
/-- `column_type : LONG` (src/parser/bison_parser.y:727-727) -/
def act78 : Prog :=
  .set ⟨0, []⟩ (.tup [.int DataType.LONG, .int 0, .int 0, .int 0]) <|
  .ret
/-- `column_type : REAL` (src/parser/bison_parser.y:728-728) -/
def act79 : Prog :=
  .set ⟨0, []⟩ (.tup [.int DataType.REAL, .int 0, .int 0, .int 0]) <|
  .ret
/-- `column_type : SMALLINT` (src/parser/bison_parser.y:729-729) -/
def act80 : Prog :=
  .set ⟨0, []⟩ (.tup [.int DataType.SMALLINT, .int 0, .int 0, .int 0]) <|
  .ret
/-- `column_type : TEXT` (src/parser/bison_parser.y:730-730) -/
def act81 : Prog :=
  .set ⟨0, []⟩ (.tup [.int DataType.TEXT, .int 0, .int 0, .int 0]) <|
  .ret
/-- `column_type : TIME opt_time_precision` (src/parser/bison_parser.y:731-731) -/
def act82 : Prog :=
  .set ⟨0, []⟩ (.tup [.int DataType.TIME, .int 0, .cp ⟨2, []⟩, .int 0]) <|
  .ret
/-- `column_type : TIMESTAMP` (src/parser/bison_parser.y:732-732) -/
def act83 : Prog :=
  .set ⟨0, []⟩ (.tup [.int DataType.DATETIME, .int 0, .int 0, .int 0]) <|
  .ret
/-- `column_type : VARCHAR '(' INTVAL ')'` (src/parser/bison_parser.y:733-733) -/
def act84 : Prog :=
  .set ⟨0, []⟩ (.tup [.int DataType.VARCHAR, .cp ⟨3, []⟩, .int 0, .int 0]) <|
  .ret
/-- `opt_time_precision : '(' INTVAL ')'` (src/parser/bison_parser.y:735-735) -/
def act85 : Prog :=
  .set ⟨0, []⟩ (.atom (.cp ⟨2, []⟩)) <|
  .ret
/-- `opt_time_precision : %empty` (src/parser/bison_parser.y:736-736) -/
def act86 : Prog :=
  .set ⟨0, []⟩ (.atom (.int 0)) <|
  .ret
/-- `opt_decimal_specification : '(' INTVAL ',' INTVAL ')'` (src/parser/bison_parser.y:738-738) -/
def act87 : Prog :=
  .set ⟨0, []⟩ (.obj .IntPair [.cp ⟨2, []⟩, .cp ⟨4, []⟩]) <|
  .ret
/-- `opt_decimal_specification : '(' INTVAL ')'` (src/parser/bison_parser.y:739-739) -/
def act88 : Prog :=
  .set ⟨0, []⟩ (.obj .IntPair [.cp ⟨2, []⟩, .int 0]) <|
  .ret
/-- `opt_decimal_specification : %empty` (src/parser/bison_parser.y:740-740) -/
def act89 : Prog :=
  .set ⟨0, []⟩ (.obj .IntPair [.int 0, .int 0]) <|
  .ret
/-- `opt_column_constraints : column_constraints` (src/parser/bison_parser.y:742-742) -/
def act90 : Prog :=
  .set ⟨0, []⟩ (.atom (.mv ⟨1, []⟩)) <|
  .ret
/-- `opt_column_constraints : %empty` (src/parser/bison_parser.y:743-743) -/
def act91 : Prog :=
  newColumnConstraints 0 <|
  .ret
/-- `column_constraints : column_constraint` (src/parser/bison_parser.y:745-748) -/
def act92 : Prog :=
  newColumnConstraints 0 <|
  .insert ⟨0, [ColumnConstraints.constraints]⟩ (.cp ⟨1, []⟩) <|
  .ret
/-- `column_constraints : column_constraints column_constraint` (src/parser/bison_parser.y:749-752) -/
def act93 : Prog :=
  .insert ⟨1, [ColumnConstraints.constraints]⟩ (.cp ⟨2, []⟩) <|
  .set ⟨0, []⟩ (.atom (.mv ⟨1, []⟩)) <|
  .ret
/-- `column_constraints : references_spec` (src/parser/bison_parser.y:753-757) -/
def act94 : Prog :=
  newColumnConstraints 0 <|
  .insert ⟨0, [ColumnConstraints.constraints]⟩ (.int ConstraintType.ForeignKey) <|
  .push ⟨0, [ColumnConstraints.references]⟩ (.mv ⟨1, []⟩) <|
  .ret
/-- `column_constraints : column_constraints references_spec` (src/parser/bison_parser.y:758-764) -/
def act95 : Prog :=
  .insert ⟨1, [ColumnConstraints.constraints]⟩ (.int ConstraintType.ForeignKey) <|
  .push ⟨1, [ColumnConstraints.references]⟩ (.mv ⟨2, []⟩) <|
  .set ⟨0, []⟩ (.atom (.mv ⟨1, []⟩)) <|
  .ret
/-- `column_constraint : PRIMARY KEY` (src/parser/bison_parser.y:766-766) -/
def act96 : Prog :=
  .set ⟨0, []⟩ (.atom (.int ConstraintType.PrimaryKey)) <|
  .ret
/-- `column_constraint : UNIQUE` (src/parser/bison_parser.y:767-767) -/
def act97 : Prog :=
  .set ⟨0, []⟩ (.atom (.int ConstraintType.Unique)) <|
  .ret
/-- `column_constraint : NULL` (src/parser/bison_parser.y:768-768) -/
def act98 : Prog :=
  .set ⟨0, []⟩ (.atom (.int ConstraintType.Null)) <|
  .ret
/-- `column_constraint : NOT NULL` (src/parser/bison_parser.y:769-769) -/
def act99 : Prog :=
  .set ⟨0, []⟩ (.atom (.int ConstraintType.NotNull)) <|
  .ret
/-- `table_constraint : PRIMARY KEY '(' ident_commalist ')'` (src/parser/bison_parser.y:771-771) -/
def act100 : Prog :=
  .set ⟨0, []⟩ (newTableConstraint (.int ConstraintType.PrimaryKey) (.mv ⟨4, []⟩)) <|
  .ret
/-- `table_constraint : UNIQUE '(' ident_commalist ')'` (src/parser/bison_parser.y:772-772) -/
def act101 : Prog :=
  .set ⟨0, []⟩ (newTableConstraint (.int ConstraintType.Unique) (.mv ⟨3, []⟩)) <|
  .ret
/-- `table_constraint : FOREIGN KEY '(' ident_commalist ')' references_spec` (src/parser/bison_parser.y:773-773) -/
def act102 : Prog :=
  .set ⟨0, []⟩ (newForeignKeyConstraint (.mv ⟨4, []⟩) (.mv ⟨6, []⟩)) <|
  .ret
/-- `references_spec : REFERENCES table_name opt_column_list` (src/parser/bison_parser.y:775-775) -/
def act103 : Prog :=
  .set ⟨0, []⟩ (newReferencesSpecification (.mv ⟨2, [TableName.schema]⟩) (.mv ⟨2, [TableName.name]⟩) (.mv ⟨3, []⟩)) <|
  .ret
/-- `drop_statement : DROP TABLE opt_exists table_name` (src/parser/bison_parser.y:783-788) -/
def act104 : Prog :=
  .set ⟨0, []⟩ (newDropStatement (.int DropType.kDropTable)) <|
  .set ⟨0, [DropStatement.ifExists]⟩ (.atom (.cp ⟨3, []⟩)) <|
  .set ⟨0, [DropStatement.schema]⟩ (.atom (.mv ⟨4, [TableName.schema]⟩)) <|
  .set ⟨0, [DropStatement.name]⟩ (.atom (.mv ⟨4, [TableName.name]⟩)) <|
  .ret
/-- `drop_statement : DROP VIEW opt_exists table_name` (src/parser/bison_parser.y:789-794) -/
def act105 : Prog :=
  .set ⟨0, []⟩ (newDropStatement (.int DropType.kDropView)) <|
  .set ⟨0, [DropStatement.ifExists]⟩ (.atom (.cp ⟨3, []⟩)) <|
  .set ⟨0, [DropStatement.schema]⟩ (.atom (.mv ⟨4, [TableName.schema]⟩)) <|
  .set ⟨0, [DropStatement.name]⟩ (.atom (.mv ⟨4, [TableName.name]⟩)) <|
  .ret
/-- `drop_statement : DEALLOCATE PREPARE IDENTIFIER` (src/parser/bison_parser.y:795-799) -/
def act106 : Prog :=
  .set ⟨0, []⟩ (newDropStatement (.int DropType.kDropPreparedStatement)) <|
  .set ⟨0, [DropStatement.ifExists]⟩ (.atom (.int 0)) <|
  .set ⟨0, [DropStatement.name]⟩ (.atom (.mv ⟨3, []⟩)) <|
  .ret
/-- `drop_statement : DROP INDEX opt_exists IDENTIFIER` (src/parser/bison_parser.y:801-805) -/
def act107 : Prog :=
  .set ⟨0, []⟩ (newDropStatement (.int DropType.kDropIndex)) <|
  .set ⟨0, [DropStatement.ifExists]⟩ (.atom (.cp ⟨3, []⟩)) <|
  .set ⟨0, [DropStatement.indexName]⟩ (.atom (.mv ⟨4, []⟩)) <|
  .ret
/-- `opt_exists : IF EXISTS` (src/parser/bison_parser.y:807-807) -/
def act108 : Prog :=
  .set ⟨0, []⟩ (.atom (.int 1)) <|
  .ret
/-- `opt_exists : %empty` (src/parser/bison_parser.y:808-808) -/
def act109 : Prog :=
  .set ⟨0, []⟩ (.atom (.int 0)) <|
  .ret
/-- `alter_statement : ALTER TABLE opt_exists table_name alter_action` (src/parser/bison_parser.y:815-819) -/
def act110 : Prog :=
  .set ⟨0, []⟩ (newAlterStatement (.mv ⟨4, [TableName.name]⟩) (.mv ⟨5, []⟩)) <|
  .set ⟨0, [AlterStatement.ifTableExists]⟩ (.atom (.cp ⟨3, []⟩)) <|
  .set ⟨0, [AlterStatement.schema]⟩ (.atom (.mv ⟨4, [TableName.schema]⟩)) <|
  .ret
/-- `alter_action : drop_action` (src/parser/bison_parser.y:821-821) -/
def act111 : Prog :=
  .set ⟨0, []⟩ (.atom (.mv ⟨1, []⟩)) <|
  .ret
/-- `drop_action : DROP COLUMN opt_exists IDENTIFIER` (src/parser/bison_parser.y:823-826) -/
def act112 : Prog :=
  .set ⟨0, []⟩ (newDropColumnAction (.mv ⟨4, []⟩)) <|
  .set ⟨0, [DropColumnAction.ifExists]⟩ (.atom (.cp ⟨3, []⟩)) <|
  .ret
/-- `delete_statement : DELETE FROM table_name opt_where` (src/parser/bison_parser.y:833-838) -/
def act113 : Prog :=
  .set ⟨0, []⟩ (newDeleteStatement) <|
  .set ⟨0, [DeleteStatement.schema]⟩ (.atom (.mv ⟨3, [TableName.schema]⟩)) <|
  .set ⟨0, [DeleteStatement.tableName]⟩ (.atom (.mv ⟨3, [TableName.name]⟩)) <|
  .set ⟨0, [DeleteStatement.expr]⟩ (.atom (.mv ⟨4, []⟩)) <|
  .ret
/-- `truncate_statement : TRUNCATE table_name` (src/parser/bison_parser.y:840-844) -/
def act114 : Prog :=
  .set ⟨0, []⟩ (newDeleteStatement) <|
  .set ⟨0, [DeleteStatement.schema]⟩ (.atom (.mv ⟨2, [TableName.schema]⟩)) <|
  .set ⟨0, [DeleteStatement.tableName]⟩ (.atom (.mv ⟨2, [TableName.name]⟩)) <|
  .ret
/-- `insert_statement : INSERT INTO table_name opt_column_list VALUES '(' extended_literal_list ')'` (src/parser/bison_parser.y:851-857) -/
def act115 : Prog :=
  .set ⟨0, []⟩ (newInsertStatement (.int InsertType.kInsertValues)) <|
  .set ⟨0, [InsertStatement.schema]⟩ (.atom (.mv ⟨3, [TableName.schema]⟩)) <|
  .set ⟨0, [InsertStatement.tableName]⟩ (.atom (.mv ⟨3, [TableName.name]⟩)) <|
  .set ⟨0, [InsertStatement.columns]⟩ (.atom (.mv ⟨4, []⟩)) <|
  .set ⟨0, [InsertStatement.values]⟩ (.atom (.mv ⟨7, []⟩)) <|
  .ret
/-- `insert_statement : INSERT INTO table_name opt_column_list select_no_paren` (src/parser/bison_parser.y:858-864) -/
def act116 : Prog :=
  .set ⟨0, []⟩ (newInsertStatement (.int InsertType.kInsertSelect)) <|
  .set ⟨0, [InsertStatement.schema]⟩ (.atom (.mv ⟨3, [TableName.schema]⟩)) <|
  .set ⟨0, [InsertStatement.tableName]⟩ (.atom (.mv ⟨3, [TableName.name]⟩)) <|
  .set ⟨0, [InsertStatement.columns]⟩ (.atom (.mv ⟨4, []⟩)) <|
  .set ⟨0, [InsertStatement.select]⟩ (.atom (.mv ⟨5, []⟩)) <|
  .ret
/-- `opt_column_list : '(' ident_commalist ')'` (src/parser/bison_parser.y:866-866) -/
def act117 : Prog :=
  .set ⟨0, []⟩ (.atom (.mv ⟨2, []⟩)) <|
  .ret
/-- `opt_column_list : %empty` (src/parser/bison_parser.y:867-867) -/
def act118 : Prog :=
  .set ⟨0, []⟩ (.atom (.null)) <|
  .ret
/-- `update_statement : UPDATE table_ref_name_no_alias SET update_clause_commalist opt_where` (src/parser/bison_parser.y:874-879) -/
def act119 : Prog :=
  .set ⟨0, []⟩ (newUpdateStatement) <|
  .set ⟨0, [UpdateStatement.table]⟩ (.atom (.mv ⟨2, []⟩)) <|
  .set ⟨0, [UpdateStatement.updates]⟩ (.atom (.mv ⟨4, []⟩)) <|
  .set ⟨0, [UpdateStatement.where]⟩ (.atom (.mv ⟨5, []⟩)) <|
  .ret
/-- `update_clause_commalist : update_clause` (src/parser/bison_parser.y:881-884) -/
def act120 : Prog :=
  .set ⟨0, []⟩ (.vec []) <|
  .push ⟨0, []⟩ (.mv ⟨1, []⟩) <|
  .ret
/-- `update_clause_commalist : update_clause_commalist ',' update_clause` (src/parser/bison_parser.y:885-888) -/
def act121 : Prog :=
  .push ⟨1, []⟩ (.mv ⟨3, []⟩) <|
  .set ⟨0, []⟩ (.atom (.mv ⟨1, []⟩)) <|
  .ret
/-- `update_clause : IDENTIFIER '=' expr` (src/parser/bison_parser.y:890-894) -/
def act122 : Prog :=
  .set ⟨0, []⟩ (newUpdateClause) <|
  .set ⟨0, [UpdateClause.column]⟩ (.atom (.mv ⟨1, []⟩)) <|
  .set ⟨0, [UpdateClause.value]⟩ (.atom (.mv ⟨3, []⟩)) <|
  .ret
/-- `select_statement : opt_with_clause select_with_paren` (src/parser/bison_parser.y:900-903) -/
def act123 : Prog :=
  .set ⟨0, []⟩ (.atom (.mv ⟨2, []⟩)) <|
  .set ⟨0, [SelectStatement.withDescriptions]⟩ (.atom (.mv ⟨1, []⟩)) <|
  .ret
/-- `select_statement : opt_with_clause select_no_paren` (src/parser/bison_parser.y:904-907) -/
def act124 : Prog :=
  .set ⟨0, []⟩ (.atom (.mv ⟨2, []⟩)) <|
  .set ⟨0, [SelectStatement.withDescriptions]⟩ (.atom (.mv ⟨1, []⟩)) <|
  .ret
/-- `select_statement : opt_with_clause select_with_paren set_operator select_within_set_operation opt_order opt_limit` (src/parser/bison_parser.y:908-918) -/
def act125 : Prog :=
  .set ⟨0, []⟩ (.atom (.mv ⟨2, []⟩)) <|
  .ite (.null ⟨0, [SelectStatement.setOperations]⟩)
  (.set ⟨0, [SelectStatement.setOperations]⟩ (.vec []) <|
    .push ⟨0, [SelectStatement.setOperations]⟩ (.mv ⟨3, []⟩) <|
    .set ⟨0, [SelectStatement.setOperations, .back, SetOperation.nestedSelectStatement]⟩ (.atom (.mv ⟨4, []⟩)) <|
    .set ⟨0, [SelectStatement.setOperations, .back, SetOperation.resultOrder]⟩ (.atom (.mv ⟨5, []⟩)) <|
    .set ⟨0, [SelectStatement.setOperations, .back, SetOperation.resultLimit]⟩ (.atom (.mv ⟨6, []⟩)) <|
    .set ⟨0, [SelectStatement.withDescriptions]⟩ (.atom (.mv ⟨1, []⟩)) <|
    .ret)
  (.push ⟨0, [SelectStatement.setOperations]⟩ (.mv ⟨3, []⟩) <|
    .set ⟨0, [SelectStatement.setOperations, .back, SetOperation.nestedSelectStatement]⟩ (.atom (.mv ⟨4, []⟩)) <|
    .set ⟨0, [SelectStatement.setOperations, .back, SetOperation.resultOrder]⟩ (.atom (.mv ⟨5, []⟩)) <|
    .set ⟨0, [SelectStatement.setOperations, .back, SetOperation.resultLimit]⟩ (.atom (.mv ⟨6, []⟩)) <|
    .set ⟨0, [SelectStatement.withDescriptions]⟩ (.atom (.mv ⟨1, []⟩)) <|
    .ret)
/-- `select_within_set_operation : select_with_paren` (src/parser/bison_parser.y:920-920); default action -/
def act126 : Prog :=
  .set ⟨0, []⟩ (.atom (.mv ⟨1, []⟩)) <|
  .ret
/-- `select_within_set_operation : select_within_set_operation_no_parentheses` (src/parser/bison_parser.y:920-920); default action -/
def act127 : Prog :=
  .set ⟨0, []⟩ (.atom (.mv ⟨1, []⟩)) <|
  .ret
/-- `select_within_set_operation_no_parentheses : select_clause` (src/parser/bison_parser.y:922-922) -/
def act128 : Prog :=
  .set ⟨0, []⟩ (.atom (.mv ⟨1, []⟩)) <|
  .ret
/-- `select_within_set_operation_no_parentheses : select_clause set_operator select_within_set_operation` (src/parser/bison_parser.y:923-930) -/
def act129 : Prog :=
  .set ⟨0, []⟩ (.atom (.mv ⟨1, []⟩)) <|
  .ite (.null ⟨0, [SelectStatement.setOperations]⟩)
  (.set ⟨0, [SelectStatement.setOperations]⟩ (.vec []) <|
    .push ⟨0, [SelectStatement.setOperations]⟩ (.mv ⟨2, []⟩) <|
    .set ⟨0, [SelectStatement.setOperations, .back, SetOperation.nestedSelectStatement]⟩ (.atom (.mv ⟨3, []⟩)) <|
    .ret)
  (.push ⟨0, [SelectStatement.setOperations]⟩ (.mv ⟨2, []⟩) <|
    .set ⟨0, [SelectStatement.setOperations, .back, SetOperation.nestedSelectStatement]⟩ (.atom (.mv ⟨3, []⟩)) <|
    .ret)
/-- `select_with_paren : '(' select_no_paren ')'` (src/parser/bison_parser.y:932-932) -/
def act130 : Prog :=
  .set ⟨0, []⟩ (.atom (.mv ⟨2, []⟩)) <|
  .ret
/-- `select_with_paren : '(' select_with_paren ')'` (src/parser/bison_parser.y:933-933) -/
def act131 : Prog :=
  .set ⟨0, []⟩ (.atom (.mv ⟨2, []⟩)) <|
  .ret
/-- `select_no_paren : select_clause opt_order opt_limit opt_locking_clause` (src/parser/bison_parser.y:935-948) -/
def act132 : Prog :=
  .set ⟨0, []⟩ (.atom (.mv ⟨1, []⟩)) <|
  .set ⟨0, [SelectStatement.order]⟩ (.atom (.mv ⟨2, []⟩)) <|
  .ite (.null ⟨3, []⟩)
  (.ite (.null ⟨4, []⟩)
    (.ret)
    (.set ⟨0, [SelectStatement.lockings]⟩ (.atom (.mv ⟨4, []⟩)) <|
      .ret))
  (.del ⟨0, [SelectStatement.limit]⟩ <|
    .set ⟨0, [SelectStatement.limit]⟩ (.atom (.mv ⟨3, []⟩)) <|
    .ite (.null ⟨4, []⟩)
    (.ret)
    (.set ⟨0, [SelectStatement.lockings]⟩ (.atom (.mv ⟨4, []⟩)) <|
      .ret))
/-- `select_no_paren : select_clause set_operator select_within_set_operation opt_order opt_limit opt_locking_clause` (src/parser/bison_parser.y:949-959) -/
def act133 : Prog :=
  .set ⟨0, []⟩ (.atom (.mv ⟨1, []⟩)) <|
  .ite (.null ⟨0, [SelectStatement.setOperations]⟩)
  (.set ⟨0, [SelectStatement.setOperations]⟩ (.vec []) <|
    .push ⟨0, [SelectStatement.setOperations]⟩ (.mv ⟨2, []⟩) <|
    .set ⟨0, [SelectStatement.setOperations, .back, SetOperation.nestedSelectStatement]⟩ (.atom (.mv ⟨3, []⟩)) <|
    .set ⟨0, [SelectStatement.setOperations, .back, SetOperation.resultOrder]⟩ (.atom (.mv ⟨4, []⟩)) <|
    .set ⟨0, [SelectStatement.setOperations, .back, SetOperation.resultLimit]⟩ (.atom (.mv ⟨5, []⟩)) <|
    .set ⟨0, [SelectStatement.lockings]⟩ (.atom (.mv ⟨6, []⟩)) <|
    .ret)
  (.push ⟨0, [SelectStatement.setOperations]⟩ (.mv ⟨2, []⟩) <|
    .set ⟨0, [SelectStatement.setOperations, .back, SetOperation.nestedSelectStatement]⟩ (.atom (.mv ⟨3, []⟩)) <|
    .set ⟨0, [SelectStatement.setOperations, .back, SetOperation.resultOrder]⟩ (.atom (.mv ⟨4, []⟩)) <|
    .set ⟨0, [SelectStatement.setOperations, .back, SetOperation.resultLimit]⟩ (.atom (.mv ⟨5, []⟩)) <|
    .set ⟨0, [SelectStatement.lockings]⟩ (.atom (.mv ⟨6, []⟩)) <|
    .ret)
/-- `set_operator : set_type opt_all` (src/parser/bison_parser.y:961-964) -/
def act134 : Prog :=
  .set ⟨0, []⟩ (.atom (.mv ⟨1, []⟩)) <|
  .set ⟨0, [SetOperation.isAll]⟩ (.atom (.cp ⟨2, []⟩)) <|
  .ret
/-- `set_type : UNION` (src/parser/bison_parser.y:966-969) -/
def act135 : Prog :=
  .set ⟨0, []⟩ (newSetOperation) <|
  .set ⟨0, [SetOperation.setType]⟩ (.atom (.int SetType.kSetUnion)) <|
  .ret
/-- `set_type : INTERSECT` (src/parser/bison_parser.y:970-973) -/
def act136 : Prog :=
  .set ⟨0, []⟩ (newSetOperation) <|
  .set ⟨0, [SetOperation.setType]⟩ (.atom (.int SetType.kSetIntersect)) <|
  .ret
/-- `set_type : EXCEPT` (src/parser/bison_parser.y:974-977) -/
def act137 : Prog :=
  .set ⟨0, []⟩ (newSetOperation) <|
  .set ⟨0, [SetOperation.setType]⟩ (.atom (.int SetType.kSetExcept)) <|
  .ret
/-- `opt_all : ALL` (src/parser/bison_parser.y:979-979) -/
def act138 : Prog :=
  .set ⟨0, []⟩ (.atom (.int 1)) <|
  .ret
/-- `opt_all : %empty` (src/parser/bison_parser.y:980-980) -/
def act139 : Prog :=
  .set ⟨0, []⟩ (.atom (.int 0)) <|
  .ret
/-- `select_clause : SELECT opt_top opt_distinct select_list opt_from_clause opt_where opt_group` (src/parser/bison_parser.y:982-990) -/
def act140 : Prog :=
  .set ⟨0, []⟩ (newSelectStatement) <|
  .set ⟨0, [SelectStatement.limit]⟩ (.atom (.mv ⟨2, []⟩)) <|
  .set ⟨0, [SelectStatement.selectDistinct]⟩ (.atom (.cp ⟨3, []⟩)) <|
  .set ⟨0, [SelectStatement.selectList]⟩ (.atom (.mv ⟨4, []⟩)) <|
  .set ⟨0, [SelectStatement.fromTable]⟩ (.atom (.mv ⟨5, []⟩)) <|
  .set ⟨0, [SelectStatement.whereClause]⟩ (.atom (.mv ⟨6, []⟩)) <|
  .set ⟨0, [SelectStatement.groupBy]⟩ (.atom (.mv ⟨7, []⟩)) <|
  .ret
/-- `opt_distinct : DISTINCT` (src/parser/bison_parser.y:992-992) -/
def act141 : Prog :=
  .set ⟨0, []⟩ (.atom (.int 1)) <|
  .ret
/-- `opt_distinct : %empty` (src/parser/bison_parser.y:993-993) -/
def act142 : Prog :=
  .set ⟨0, []⟩ (.atom (.int 0)) <|
  .ret
/-- `select_list : expr_list` (src/parser/bison_parser.y:995-995); default action -/
def act143 : Prog :=
  .set ⟨0, []⟩ (.atom (.mv ⟨1, []⟩)) <|
  .ret
/-- `opt_from_clause : from_clause` (src/parser/bison_parser.y:997-997) -/
def act144 : Prog :=
  .set ⟨0, []⟩ (.atom (.mv ⟨1, []⟩)) <|
  .ret
/-- `opt_from_clause : %empty` (src/parser/bison_parser.y:998-998) -/
def act145 : Prog :=
  .set ⟨0, []⟩ (.atom (.null)) <|
  .ret
/-- `from_clause : FROM table_ref` (src/parser/bison_parser.y:1000-1000) -/
def act146 : Prog :=
  .set ⟨0, []⟩ (.atom (.mv ⟨2, []⟩)) <|
  .ret
/-- `opt_where : WHERE expr` (src/parser/bison_parser.y:1002-1002) -/
def act147 : Prog :=
  .set ⟨0, []⟩ (.atom (.mv ⟨2, []⟩)) <|
  .ret
/-- `opt_where : %empty` (src/parser/bison_parser.y:1003-1003) -/
def act148 : Prog :=
  .set ⟨0, []⟩ (.atom (.null)) <|
  .ret
/-- `opt_group : GROUP BY expr_list opt_having` (src/parser/bison_parser.y:1005-1009) -/
def act149 : Prog :=
  .set ⟨0, []⟩ (newGroupByDescription) <|
  .set ⟨0, [GroupByDescription.columns]⟩ (.atom (.mv ⟨3, []⟩)) <|
  .set ⟨0, [GroupByDescription.having]⟩ (.atom (.mv ⟨4, []⟩)) <|
  .ret
/-- `opt_group : %empty` (src/parser/bison_parser.y:1010-1010) -/
def act150 : Prog :=
  .set ⟨0, []⟩ (.atom (.null)) <|
  .ret
/-- `opt_having : HAVING expr` (src/parser/bison_parser.y:1012-1012) -/
def act151 : Prog :=
  .set ⟨0, []⟩ (.atom (.mv ⟨2, []⟩)) <|
  .ret
/-- `opt_having : %empty` (src/parser/bison_parser.y:1013-1013) -/
def act152 : Prog :=
  .set ⟨0, []⟩ (.atom (.null)) <|
  .ret
/-- `opt_order : ORDER BY order_list` (src/parser/bison_parser.y:1015-1015) -/
def act153 : Prog :=
  .set ⟨0, []⟩ (.atom (.mv ⟨3, []⟩)) <|
  .ret
/-- `opt_order : %empty` (src/parser/bison_parser.y:1016-1016) -/
def act154 : Prog :=
  .set ⟨0, []⟩ (.atom (.null)) <|
  .ret
/-- `order_list : order_desc` (src/parser/bison_parser.y:1018-1021) -/
def act155 : Prog :=
  .set ⟨0, []⟩ (.vec []) <|
  .push ⟨0, []⟩ (.mv ⟨1, []⟩) <|
  .ret
/-- `order_list : order_list ',' order_desc` (src/parser/bison_parser.y:1022-1025) -/
def act156 : Prog :=
  .push ⟨1, []⟩ (.mv ⟨3, []⟩) <|
  .set ⟨0, []⟩ (.atom (.mv ⟨1, []⟩)) <|
  .ret
/-- `order_desc : expr opt_order_type opt_null_ordering` (src/parser/bison_parser.y:1027-1027) -/
def act157 : Prog :=
  .set ⟨0, []⟩ (newOrderDescription (.cp ⟨2, []⟩) (.mv ⟨1, []⟩) (.cp ⟨3, []⟩)) <|
  .ret
/-- `opt_order_type : ASC` (src/parser/bison_parser.y:1029-1029) -/
def act158 : Prog :=
  .set ⟨0, []⟩ (.atom (.int OrderType.kOrderAsc)) <|
  .ret
/-- `opt_order_type : DESC` (src/parser/bison_parser.y:1030-1030) -/
def act159 : Prog :=
  .set ⟨0, []⟩ (.atom (.int OrderType.kOrderDesc)) <|
  .ret
/-- `opt_order_type : %empty` (src/parser/bison_parser.y:1031-1031) -/
def act160 : Prog :=
  .set ⟨0, []⟩ (.atom (.int OrderType.kOrderAsc)) <|
  .ret
/-- `opt_null_ordering : %empty` (src/parser/bison_parser.y:1033-1033) -/
def act161 : Prog :=
  .set ⟨0, []⟩ (.atom (.int NullOrdering.Undefined)) <|
  .ret
/-- `opt_null_ordering : IDENTIFIER IDENTIFIER` (src/parser/bison_parser.y:1034-1052) -/
def act162 : Prog :=
  .set ⟨10, []⟩ (.atom (.int NullOrdering.Undefined)) <|
  .ite (.strIs ⟨1, []⟩ b!"nulls")
  (.ite (.strIs ⟨2, []⟩ b!"first")
    (.set ⟨10, []⟩ (.atom (.int NullOrdering.First)) <|
      .free ⟨1, []⟩ <|
      .free ⟨2, []⟩ <|
      .ite (.eq ⟨10, []⟩ NullOrdering.Undefined)
      (.err b!"Expected NULLS FIRST or NULLS LAST ordering." <|
        .fail)
      (.set ⟨0, []⟩ (.atom (.cp ⟨10, []⟩)) <|
        .ret))
    (.ite (.strIs ⟨2, []⟩ b!"last")
      (.set ⟨10, []⟩ (.atom (.int NullOrdering.Last)) <|
        .free ⟨1, []⟩ <|
        .free ⟨2, []⟩ <|
        .ite (.eq ⟨10, []⟩ NullOrdering.Undefined)
        (.err b!"Expected NULLS FIRST or NULLS LAST ordering." <|
          .fail)
        (.set ⟨0, []⟩ (.atom (.cp ⟨10, []⟩)) <|
          .ret))
      (.free ⟨1, []⟩ <|
        .free ⟨2, []⟩ <|
        .ite (.eq ⟨10, []⟩ NullOrdering.Undefined)
        (.err b!"Expected NULLS FIRST or NULLS LAST ordering." <|
          .fail)
        (.set ⟨0, []⟩ (.atom (.cp ⟨10, []⟩)) <|
          .ret))))
  (.free ⟨1, []⟩ <|
    .free ⟨2, []⟩ <|
    .ite (.eq ⟨10, []⟩ NullOrdering.Undefined)
    (.err b!"Expected NULLS FIRST or NULLS LAST ordering." <|
      .fail)
    (.set ⟨0, []⟩ (.atom (.cp ⟨10, []⟩)) <|
      .ret))
/-- `opt_top : TOP int_literal` (src/parser/bison_parser.y:1056-1056) -/
def act163 : Prog :=
  .set ⟨0, []⟩ (newLimitDescription (.mv ⟨2, []⟩) (.null)) <|
  .ret
/-- `opt_top : %empty` (src/parser/bison_parser.y:1057-1057) -/
def act164 : Prog :=
  .set ⟨0, []⟩ (.atom (.null)) <|
  .ret
/-- `opt_limit : LIMIT expr` (src/parser/bison_parser.y:1059-1059) -/
def act165 : Prog :=
  .set ⟨0, []⟩ (newLimitDescription (.mv ⟨2, []⟩) (.null)) <|
  .ret
/-- `opt_limit : OFFSET expr` (src/parser/bison_parser.y:1060-1060) -/
def act166 : Prog :=
  .set ⟨0, []⟩ (newLimitDescription (.null) (.mv ⟨2, []⟩)) <|
  .ret
/-- `opt_limit : LIMIT expr OFFSET expr` (src/parser/bison_parser.y:1061-1061) -/
def act167 : Prog :=
  .set ⟨0, []⟩ (newLimitDescription (.mv ⟨2, []⟩) (.mv ⟨4, []⟩)) <|
  .ret
/-- `opt_limit : LIMIT ALL` (src/parser/bison_parser.y:1062-1062) -/
def act168 : Prog :=
  .set ⟨0, []⟩ (newLimitDescription (.null) (.null)) <|
  .ret
/-- `opt_limit : LIMIT ALL OFFSET expr` (src/parser/bison_parser.y:1063-1063) -/
def act169 : Prog :=
  .set ⟨0, []⟩ (newLimitDescription (.null) (.mv ⟨4, []⟩)) <|
  .ret
/-- `opt_limit : %empty` (src/parser/bison_parser.y:1064-1064) -/
def act170 : Prog :=
  .set ⟨0, []⟩ (.atom (.null)) <|
  .ret
/-- `expr_list : expr_alias` (src/parser/bison_parser.y:1069-1072) -/
def act171 : Prog :=
  .set ⟨0, []⟩ (.vec []) <|
  .push ⟨0, []⟩ (.mv ⟨1, []⟩) <|
  .ret
/-- `expr_list : expr_list ',' expr_alias` (src/parser/bison_parser.y:1073-1076) -/
def act172 : Prog :=
  .push ⟨1, []⟩ (.mv ⟨3, []⟩) <|
  .set ⟨0, []⟩ (.atom (.mv ⟨1, []⟩)) <|
  .ret
/-- `opt_extended_literal_list : extended_literal_list` (src/parser/bison_parser.y:1079-1079) -/
def act173 : Prog :=
  .set ⟨0, []⟩ (.atom (.mv ⟨1, []⟩)) <|
  .ret
/-- `opt_extended_literal_list : %empty` (src/parser/bison_parser.y:1080-1080) -/
def act174 : Prog :=
  .set ⟨0, []⟩ (.atom (.null)) <|
  .ret
/-- `extended_literal_list : casted_extended_literal` (src/parser/bison_parser.y:1082-1085) -/
def act175 : Prog :=
  .set ⟨0, []⟩ (.vec []) <|
  .push ⟨0, []⟩ (.mv ⟨1, []⟩) <|
  .ret
/-- `extended_literal_list : extended_literal_list ',' casted_extended_literal` (src/parser/bison_parser.y:1086-1089) -/
def act176 : Prog :=
  .push ⟨1, []⟩ (.mv ⟨3, []⟩) <|
  .set ⟨0, []⟩ (.atom (.mv ⟨1, []⟩)) <|
  .ret
/-- `casted_extended_literal : extended_literal` (src/parser/bison_parser.y:1091-1091); default action -/
def act177 : Prog :=
  .set ⟨0, []⟩ (.atom (.mv ⟨1, []⟩)) <|
  .ret
/-- `casted_extended_literal : CAST '(' extended_literal AS column_type ')'` (src/parser/bison_parser.y:1091-1093) -/
def act178 : Prog :=
  makeCast 0 (.mv ⟨3, []⟩) (.mv ⟨5, []⟩) <|
  .ret
/-- `extended_literal : literal` (src/parser/bison_parser.y:1095-1102) -/
def act179 : Prog :=
  .ite (.eq ⟨1, [Expr.type]⟩ ExprType.kExprParameter)
  (.del ⟨1, []⟩ <|
    .err b!"Parameter ? is not a valid literal." <|
    .fail)
  (.set ⟨0, []⟩ (.atom (.mv ⟨1, []⟩)) <|
    .ret)
/-- `extended_literal : '-' num_literal` (src/parser/bison_parser.y:1103-1103) -/
def act180 : Prog :=
  makeOpUnary 0 (.int OperatorType.kOpUnaryMinus) (.mv ⟨2, []⟩) <|
  .ret
/-- `extended_literal : '-' interval_literal` (src/parser/bison_parser.y:1104-1104) -/
def act181 : Prog :=
  makeOpUnary 0 (.int OperatorType.kOpUnaryMinus) (.mv ⟨2, []⟩) <|
  .ret
/-- `expr_alias : expr opt_alias` (src/parser/bison_parser.y:1106-1113) -/
def act182 : Prog :=
  .set ⟨0, []⟩ (.atom (.mv ⟨1, []⟩)) <|
  .ite (.null ⟨2, []⟩)
  (.ret)
  (.set ⟨0, [Expr.alias]⟩ (.atom (.mv ⟨2, [Alias.name]⟩)) <|
    .set ⟨2, [Alias.name]⟩ (.atom (.null)) <|
    .del ⟨2, []⟩ <|
    .ret)
/-- `expr : operand` (src/parser/bison_parser.y:1115-1115); default action -/
def act183 : Prog :=
  .set ⟨0, []⟩ (.atom (.mv ⟨1, []⟩)) <|
  .ret
/-- `expr : between_expr` (src/parser/bison_parser.y:1115-1115); default action -/
def act184 : Prog :=
  .set ⟨0, []⟩ (.atom (.mv ⟨1, []⟩)) <|
  .ret
/-- `expr : logic_expr` (src/parser/bison_parser.y:1115-1115); default action -/
def act185 : Prog :=
  .set ⟨0, []⟩ (.atom (.mv ⟨1, []⟩)) <|
  .ret
/-- `expr : exists_expr` (src/parser/bison_parser.y:1115-1115); default action -/
def act186 : Prog :=
  .set ⟨0, []⟩ (.atom (.mv ⟨1, []⟩)) <|
  .ret
/-- `expr : in_expr` (src/parser/bison_parser.y:1115-1115); default action -/
def act187 : Prog :=
  .set ⟨0, []⟩ (.atom (.mv ⟨1, []⟩)) <|
  .ret
/-- `operand : '(' expr ')'` (src/parser/bison_parser.y:1117-1117) -/
def act188 : Prog :=
  .set ⟨0, []⟩ (.atom (.mv ⟨2, []⟩)) <|
  .ret
/-- `operand : array_index` (src/parser/bison_parser.y:1118-1118); default action -/
def act189 : Prog :=
  .set ⟨0, []⟩ (.atom (.mv ⟨1, []⟩)) <|
  .ret
/-- `operand : scalar_expr` (src/parser/bison_parser.y:1118-1118); default action -/
def act190 : Prog :=
  .set ⟨0, []⟩ (.atom (.mv ⟨1, []⟩)) <|
  .ret
/-- `operand : unary_expr` (src/parser/bison_parser.y:1118-1118); default action -/
def act191 : Prog :=
  .set ⟨0, []⟩ (.atom (.mv ⟨1, []⟩)) <|
  .ret
/-- `operand : binary_expr` (src/parser/bison_parser.y:1118-1118); default action -/
def act192 : Prog :=
  .set ⟨0, []⟩ (.atom (.mv ⟨1, []⟩)) <|
  .ret
/-- `operand : case_expr` (src/parser/bison_parser.y:1118-1118); default action -/
def act193 : Prog :=
  .set ⟨0, []⟩ (.atom (.mv ⟨1, []⟩)) <|
  .ret
/-- `operand : function_expr` (src/parser/bison_parser.y:1118-1118); default action -/
def act194 : Prog :=
  .set ⟨0, []⟩ (.atom (.mv ⟨1, []⟩)) <|
  .ret
/-- `operand : extract_expr` (src/parser/bison_parser.y:1118-1118); default action -/
def act195 : Prog :=
  .set ⟨0, []⟩ (.atom (.mv ⟨1, []⟩)) <|
  .ret
/-- `operand : cast_expr` (src/parser/bison_parser.y:1118-1118); default action -/
def act196 : Prog :=
  .set ⟨0, []⟩ (.atom (.mv ⟨1, []⟩)) <|
  .ret
/-- `operand : array_expr` (src/parser/bison_parser.y:1118-1118); default action -/
def act197 : Prog :=
  .set ⟨0, []⟩ (.atom (.mv ⟨1, []⟩)) <|
  .ret
/-- `operand : '(' select_no_paren ')'` (src/parser/bison_parser.y:1119-1121) -/
def act198 : Prog :=
  makeSelect 0 (.mv ⟨2, []⟩) <|
  .ret
/-- `scalar_expr : column_name` (src/parser/bison_parser.y:1123-1123); default action -/
def act199 : Prog :=
  .set ⟨0, []⟩ (.atom (.mv ⟨1, []⟩)) <|
  .ret
/-- `scalar_expr : literal` (src/parser/bison_parser.y:1123-1123); default action -/
def act200 : Prog :=
  .set ⟨0, []⟩ (.atom (.mv ⟨1, []⟩)) <|
  .ret
/-- `unary_expr : '-' operand` (src/parser/bison_parser.y:1125-1125) -/
def act201 : Prog :=
  makeOpUnary 0 (.int OperatorType.kOpUnaryMinus) (.mv ⟨2, []⟩) <|
  .ret
/-- `unary_expr : NOT operand` (src/parser/bison_parser.y:1126-1126) -/
def act202 : Prog :=
  makeOpUnary 0 (.int OperatorType.kOpNot) (.mv ⟨2, []⟩) <|
  .ret
/-- `unary_expr : operand ISNULL` (src/parser/bison_parser.y:1127-1127) -/
def act203 : Prog :=
  makeOpUnary 0 (.int OperatorType.kOpIsNull) (.mv ⟨1, []⟩) <|
  .ret
/-- `unary_expr : operand IS NULL` (src/parser/bison_parser.y:1128-1128) -/
def act204 : Prog :=
  makeOpUnary 0 (.int OperatorType.kOpIsNull) (.mv ⟨1, []⟩) <|
  .ret
/-- `unary_expr : operand IS NOT NULL` (src/parser/bison_parser.y:1129-1129) -/
def act205 : Prog :=
  makeOpUnary 10 (.int OperatorType.kOpIsNull) (.mv ⟨1, []⟩) <|
  makeOpUnary 0 (.int OperatorType.kOpNot) (.mv ⟨10, []⟩) <|
  .ret
/-- `binary_expr : comp_expr` (src/parser/bison_parser.y:1131-1131); default action -/
def act206 : Prog :=
  .set ⟨0, []⟩ (.atom (.mv ⟨1, []⟩)) <|
  .ret
/-- `binary_expr : operand '-' operand` (src/parser/bison_parser.y:1131-1131) -/
def act207 : Prog :=
  makeOpBinary 0 (.mv ⟨1, []⟩) (.int OperatorType.kOpMinus) (.mv ⟨3, []⟩) <|
  .ret
/-- `binary_expr : operand '+' operand` (src/parser/bison_parser.y:1132-1132) -/
def act208 : Prog :=
  makeOpBinary 0 (.mv ⟨1, []⟩) (.int OperatorType.kOpPlus) (.mv ⟨3, []⟩) <|
  .ret
/-- `binary_expr : operand '/' operand` (src/parser/bison_parser.y:1133-1133) -/
def act209 : Prog :=
  makeOpBinary 0 (.mv ⟨1, []⟩) (.int OperatorType.kOpSlash) (.mv ⟨3, []⟩) <|
  .ret
/-- `binary_expr : operand '*' operand` (src/parser/bison_parser.y:1134-1134) -/
def act210 : Prog :=
  makeOpBinary 0 (.mv ⟨1, []⟩) (.int OperatorType.kOpAsterisk) (.mv ⟨3, []⟩) <|
  .ret
/-- `binary_expr : operand '%' operand` (src/parser/bison_parser.y:1135-1135) -/
def act211 : Prog :=
  makeOpBinary 0 (.mv ⟨1, []⟩) (.int OperatorType.kOpPercentage) (.mv ⟨3, []⟩) <|
  .ret
/-- `binary_expr : operand '^' operand` (src/parser/bison_parser.y:1136-1136) -/
def act212 : Prog :=
  makeOpBinary 0 (.mv ⟨1, []⟩) (.int OperatorType.kOpCaret) (.mv ⟨3, []⟩) <|
  .ret
/-- `binary_expr : operand LIKE operand` (src/parser/bison_parser.y:1137-1137) -/
def act213 : Prog :=
  makeOpBinary 0 (.mv ⟨1, []⟩) (.int OperatorType.kOpLike) (.mv ⟨3, []⟩) <|
  .ret
/-- `binary_expr : operand NOT LIKE operand` (src/parser/bison_parser.y:1138-1138) -/
def act214 : Prog :=
  makeOpBinary 0 (.mv ⟨1, []⟩) (.int OperatorType.kOpNotLike) (.mv ⟨4, []⟩) <|
  .ret
/-- `binary_expr : operand ILIKE operand` (src/parser/bison_parser.y:1139-1139) -/
def act215 : Prog :=
  makeOpBinary 0 (.mv ⟨1, []⟩) (.int OperatorType.kOpILike) (.mv ⟨3, []⟩) <|
  .ret
/-- `binary_expr : operand CONCAT operand` (src/parser/bison_parser.y:1140-1140) -/
def act216 : Prog :=
  makeOpBinary 0 (.mv ⟨1, []⟩) (.int OperatorType.kOpConcat) (.mv ⟨3, []⟩) <|
  .ret
/-- `logic_expr : expr AND expr` (src/parser/bison_parser.y:1142-1142) -/
def act217 : Prog :=
  makeOpBinary 0 (.mv ⟨1, []⟩) (.int OperatorType.kOpAnd) (.mv ⟨3, []⟩) <|
  .ret
/-- `logic_expr : expr OR expr` (src/parser/bison_parser.y:1143-1143) -/
def act218 : Prog :=
  makeOpBinary 0 (.mv ⟨1, []⟩) (.int OperatorType.kOpOr) (.mv ⟨3, []⟩) <|
  .ret
/-- `in_expr : operand IN '(' expr_list ')'` (src/parser/bison_parser.y:1145-1145) -/
def act219 : Prog :=
  makeInOperatorList 0 (.mv ⟨1, []⟩) (.mv ⟨4, []⟩) <|
  .ret
/-- `in_expr : operand NOT IN '(' expr_list ')'` (src/parser/bison_parser.y:1146-1146) -/
def act220 : Prog :=
  makeInOperatorList 10 (.mv ⟨1, []⟩) (.mv ⟨5, []⟩) <|
  makeOpUnary 0 (.int OperatorType.kOpNot) (.mv ⟨10, []⟩) <|
  .ret
/-- `in_expr : operand IN '(' select_no_paren ')'` (src/parser/bison_parser.y:1147-1147) -/
def act221 : Prog :=
  makeInOperatorSelect 0 (.mv ⟨1, []⟩) (.mv ⟨4, []⟩) <|
  .ret
/-- `in_expr : operand NOT IN '(' select_no_paren ')'` (src/parser/bison_parser.y:1148-1148) -/
def act222 : Prog :=
  makeInOperatorSelect 10 (.mv ⟨1, []⟩) (.mv ⟨5, []⟩) <|
  makeOpUnary 0 (.int OperatorType.kOpNot) (.mv ⟨10, []⟩) <|
  .ret
/-- `case_expr : CASE expr case_list END` (src/parser/bison_parser.y:1152-1152) -/
def act223 : Prog :=
  makeCase 0 (.mv ⟨2, []⟩) 3 (.null) <|
  .ret
/-- `case_expr : CASE expr case_list ELSE expr END` (src/parser/bison_parser.y:1153-1153) -/
def act224 : Prog :=
  makeCase 0 (.mv ⟨2, []⟩) 3 (.mv ⟨5, []⟩) <|
  .ret
/-- `case_expr : CASE case_list END` (src/parser/bison_parser.y:1154-1154) -/
def act225 : Prog :=
  makeCase 0 (.null) 2 (.null) <|
  .ret
/-- `case_expr : CASE case_list ELSE expr END` (src/parser/bison_parser.y:1155-1155) -/
def act226 : Prog :=
  makeCase 0 (.null) 2 (.mv ⟨4, []⟩) <|
  .ret
/-- `case_list : WHEN expr THEN expr` (src/parser/bison_parser.y:1157-1157) -/
def act227 : Prog :=
  makeCaseListElement 10 (.mv ⟨2, []⟩) (.mv ⟨4, []⟩) <|
  makeCaseList 0 (.mv ⟨10, []⟩) <|
  .ret
/-- `case_list : case_list WHEN expr THEN expr` (src/parser/bison_parser.y:1158-1158) -/
def act228 : Prog :=
  makeCaseListElement 10 (.mv ⟨3, []⟩) (.mv ⟨5, []⟩) <|
  .push ⟨1, [Expr.exprList]⟩ (.mv ⟨10, []⟩) <|
  .set ⟨0, []⟩ (.atom (.mv ⟨1, []⟩)) <|
  .ret
/-- `exists_expr : EXISTS '(' select_no_paren ')'` (src/parser/bison_parser.y:1160-1160) -/
def act229 : Prog :=
  makeExists 0 (.mv ⟨3, []⟩) <|
  .ret
/-- `exists_expr : NOT EXISTS '(' select_no_paren ')'` (src/parser/bison_parser.y:1161-1161) -/
def act230 : Prog :=
  makeExists 10 (.mv ⟨4, []⟩) <|
  makeOpUnary 0 (.int OperatorType.kOpNot) (.mv ⟨10, []⟩) <|
  .ret
/-- `comp_expr : operand '=' operand` (src/parser/bison_parser.y:1163-1163) -/
def act231 : Prog :=
  makeOpBinary 0 (.mv ⟨1, []⟩) (.int OperatorType.kOpEquals) (.mv ⟨3, []⟩) <|
  .ret
/-- `comp_expr : operand EQUALS operand` (src/parser/bison_parser.y:1164-1164) -/
def act232 : Prog :=
  makeOpBinary 0 (.mv ⟨1, []⟩) (.int OperatorType.kOpEquals) (.mv ⟨3, []⟩) <|
  .ret
/-- `comp_expr : operand NOTEQUALS operand` (src/parser/bison_parser.y:1165-1165) -/
def act233 : Prog :=
  makeOpBinary 0 (.mv ⟨1, []⟩) (.int OperatorType.kOpNotEquals) (.mv ⟨3, []⟩) <|
  .ret
/-- `comp_expr : operand '<' operand` (src/parser/bison_parser.y:1166-1166) -/
def act234 : Prog :=
  makeOpBinary 0 (.mv ⟨1, []⟩) (.int OperatorType.kOpLess) (.mv ⟨3, []⟩) <|
  .ret
/-- `comp_expr : operand '>' operand` (src/parser/bison_parser.y:1167-1167) -/
def act235 : Prog :=
  makeOpBinary 0 (.mv ⟨1, []⟩) (.int OperatorType.kOpGreater) (.mv ⟨3, []⟩) <|
  .ret
/-- `comp_expr : operand LESSEQ operand` (src/parser/bison_parser.y:1168-1168) -/
def act236 : Prog :=
  makeOpBinary 0 (.mv ⟨1, []⟩) (.int OperatorType.kOpLessEq) (.mv ⟨3, []⟩) <|
  .ret
/-- `comp_expr : operand GREATEREQ operand` (src/parser/bison_parser.y:1169-1169) -/
def act237 : Prog :=
  makeOpBinary 0 (.mv ⟨1, []⟩) (.int OperatorType.kOpGreaterEq) (.mv ⟨3, []⟩) <|
  .ret
/-- `function_expr : IDENTIFIER '(' ')' opt_window` (src/parser/bison_parser.y:1173-1173) -/
def act238 : Prog :=
  .set ⟨10, []⟩ (.vec []) <|
  makeFunctionRef 0 (.mv ⟨1, []⟩) (.mv ⟨10, []⟩) (.int 0) (.mv ⟨4, []⟩) <|
  .ret
/-- `function_expr : IDENTIFIER '(' opt_distinct expr_list ')' opt_window` (src/parser/bison_parser.y:1174-1174) -/
def act239 : Prog :=
  makeFunctionRef 0 (.mv ⟨1, []⟩) (.mv ⟨4, []⟩) (.cp ⟨3, []⟩) (.mv ⟨6, []⟩) <|
  .ret
/-- `function_expr : IDENTIFIER '.' IDENTIFIER '(' ')' opt_window` (src/parser/bison_parser.y:1175-1175) -/
def act240 : Prog :=
  .set ⟨10, []⟩ (.vec []) <|
  makeFunctionRefSchema 0 (.mv ⟨3, []⟩) (.mv ⟨1, []⟩) (.mv ⟨10, []⟩) (.int 0) (.mv ⟨6, []⟩) <|
  .ret
/-- `function_expr : IDENTIFIER '.' IDENTIFIER '(' opt_distinct expr_list ')' opt_window` (src/parser/bison_parser.y:1176-1176) -/
def act241 : Prog :=
  makeFunctionRefSchema 0 (.mv ⟨3, []⟩) (.mv ⟨1, []⟩) (.mv ⟨6, []⟩) (.cp ⟨5, []⟩) (.mv ⟨8, []⟩) <|
  .ret
/-- `opt_window : OVER '(' opt_partition opt_order opt_frame_clause ')'` (src/parser/bison_parser.y:1180-1180) -/
def act242 : Prog :=
  .set ⟨0, []⟩ (newWindowDescription (.mv ⟨3, []⟩) (.mv ⟨4, []⟩) (.mv ⟨5, []⟩)) <|
  .ret
/-- `opt_window : %empty` (src/parser/bison_parser.y:1181-1181) -/
def act243 : Prog :=
  .set ⟨0, []⟩ (.atom (.null)) <|
  .ret
/-- `opt_partition : PARTITION BY expr_list` (src/parser/bison_parser.y:1183-1183) -/
def act244 : Prog :=
  .set ⟨0, []⟩ (.atom (.mv ⟨3, []⟩)) <|
  .ret
/-- `opt_partition : %empty` (src/parser/bison_parser.y:1184-1184) -/
def act245 : Prog :=
  .set ⟨0, []⟩ (.atom (.null)) <|
  .ret
/-- `opt_frame_clause : frame_type frame_bound` (src/parser/bison_parser.y:1189-1189) -/
def act246 : Prog :=
  .set ⟨10, []⟩ (newFrameBound (.int 0) (.int FrameBoundType.kCurrentRow) (.int 0)) <|
  .set ⟨0, []⟩ (newFrameDescription (.cp ⟨1, []⟩) (.mv ⟨2, []⟩) (.mv ⟨10, []⟩)) <|
  .ret
/-- `opt_frame_clause : frame_type BETWEEN frame_bound AND frame_bound` (src/parser/bison_parser.y:1190-1190) -/
def act247 : Prog :=
  .set ⟨0, []⟩ (newFrameDescription (.cp ⟨1, []⟩) (.mv ⟨3, []⟩) (.mv ⟨5, []⟩)) <|
  .ret
/-- `opt_frame_clause : %empty` (src/parser/bison_parser.y:1191-1193) -/
def act248 : Prog :=
  .set ⟨10, []⟩ (newFrameBound (.int 0) (.int FrameBoundType.kPreceding) (.int 1)) <|
  .set ⟨11, []⟩ (newFrameBound (.int 0) (.int FrameBoundType.kCurrentRow) (.int 0)) <|
  .set ⟨0, []⟩ (newFrameDescription (.int FrameType.kRange) (.mv ⟨10, []⟩) (.mv ⟨11, []⟩)) <|
  .ret
/-- `frame_type : RANGE` (src/parser/bison_parser.y:1195-1195) -/
def act249 : Prog :=
  .set ⟨0, []⟩ (.atom (.int FrameType.kRange)) <|
  .ret
/-- `frame_type : ROWS` (src/parser/bison_parser.y:1196-1196) -/
def act250 : Prog :=
  .set ⟨0, []⟩ (.atom (.int FrameType.kRows)) <|
  .ret
/-- `frame_type : GROUPS` (src/parser/bison_parser.y:1197-1197) -/
def act251 : Prog :=
  .set ⟨0, []⟩ (.atom (.int FrameType.kGroups)) <|
  .ret
/-- `frame_bound : UNBOUNDED PRECEDING` (src/parser/bison_parser.y:1199-1199) -/
def act252 : Prog :=
  .set ⟨0, []⟩ (newFrameBound (.int 0) (.int FrameBoundType.kPreceding) (.int 1)) <|
  .ret
/-- `frame_bound : INTVAL PRECEDING` (src/parser/bison_parser.y:1200-1200) -/
def act253 : Prog :=
  .set ⟨0, []⟩ (newFrameBound (.cp ⟨1, []⟩) (.int FrameBoundType.kPreceding) (.int 0)) <|
  .ret
/-- `frame_bound : UNBOUNDED FOLLOWING` (src/parser/bison_parser.y:1201-1201) -/
def act254 : Prog :=
  .set ⟨0, []⟩ (newFrameBound (.int 0) (.int FrameBoundType.kFollowing) (.int 1)) <|
  .ret
/-- `frame_bound : INTVAL FOLLOWING` (src/parser/bison_parser.y:1202-1202) -/
def act255 : Prog :=
  .set ⟨0, []⟩ (newFrameBound (.cp ⟨1, []⟩) (.int FrameBoundType.kFollowing) (.int 0)) <|
  .ret
/-- `frame_bound : CURRENT_ROW` (src/parser/bison_parser.y:1203-1203) -/
def act256 : Prog :=
  .set ⟨0, []⟩ (newFrameBound (.int 0) (.int FrameBoundType.kCurrentRow) (.int 0)) <|
  .ret
/-- `extract_expr : EXTRACT '(' datetime_field FROM expr ')'` (src/parser/bison_parser.y:1205-1205) -/
def act257 : Prog :=
  makeExtract 0 (.cp ⟨3, []⟩) (.mv ⟨5, []⟩) <|
  .ret
/-- `cast_expr : CAST '(' expr AS column_type ')'` (src/parser/bison_parser.y:1207-1207) -/
def act258 : Prog :=
  makeCast 0 (.mv ⟨3, []⟩) (.mv ⟨5, []⟩) <|
  .ret
/-- `datetime_field : SECOND` (src/parser/bison_parser.y:1209-1209) -/
def act259 : Prog :=
  .set ⟨0, []⟩ (.atom (.int DatetimeField.kDatetimeSecond)) <|
  .ret
/-- `datetime_field : MINUTE` (src/parser/bison_parser.y:1210-1210) -/
def act260 : Prog :=
  .set ⟨0, []⟩ (.atom (.int DatetimeField.kDatetimeMinute)) <|
  .ret
/-- `datetime_field : HOUR` (src/parser/bison_parser.y:1211-1211) -/
def act261 : Prog :=
  .set ⟨0, []⟩ (.atom (.int DatetimeField.kDatetimeHour)) <|
  .ret
/-- `datetime_field : DAY` (src/parser/bison_parser.y:1212-1212) -/
def act262 : Prog :=
  .set ⟨0, []⟩ (.atom (.int DatetimeField.kDatetimeDay)) <|
  .ret
/-- `datetime_field : MONTH` (src/parser/bison_parser.y:1213-1213) -/
def act263 : Prog :=
  .set ⟨0, []⟩ (.atom (.int DatetimeField.kDatetimeMonth)) <|
  .ret
/-- `datetime_field : YEAR` (src/parser/bison_parser.y:1214-1214) -/
def act264 : Prog :=
  .set ⟨0, []⟩ (.atom (.int DatetimeField.kDatetimeYear)) <|
  .ret
/-- `datetime_field_plural : SECONDS` (src/parser/bison_parser.y:1216-1216) -/
def act265 : Prog :=
  .set ⟨0, []⟩ (.atom (.int DatetimeField.kDatetimeSecond)) <|
  .ret
/-- `datetime_field_plural : MINUTES` (src/parser/bison_parser.y:1217-1217) -/
def act266 : Prog :=
  .set ⟨0, []⟩ (.atom (.int DatetimeField.kDatetimeMinute)) <|
  .ret
/-- `datetime_field_plural : HOURS` (src/parser/bison_parser.y:1218-1218) -/
def act267 : Prog :=
  .set ⟨0, []⟩ (.atom (.int DatetimeField.kDatetimeHour)) <|
  .ret
/-- `datetime_field_plural : DAYS` (src/parser/bison_parser.y:1219-1219) -/
def act268 : Prog :=
  .set ⟨0, []⟩ (.atom (.int DatetimeField.kDatetimeDay)) <|
  .ret
/-- `datetime_field_plural : MONTHS` (src/parser/bison_parser.y:1220-1220) -/
def act269 : Prog :=
  .set ⟨0, []⟩ (.atom (.int DatetimeField.kDatetimeMonth)) <|
  .ret
/-- `datetime_field_plural : YEARS` (src/parser/bison_parser.y:1221-1221) -/
def act270 : Prog :=
  .set ⟨0, []⟩ (.atom (.int DatetimeField.kDatetimeYear)) <|
  .ret
/-- `duration_field : datetime_field` (src/parser/bison_parser.y:1223-1223); default action -/
def act271 : Prog :=
  .set ⟨0, []⟩ (.atom (.cp ⟨1, []⟩)) <|
  .ret
/-- `duration_field : datetime_field_plural` (src/parser/bison_parser.y:1223-1223); default action -/
def act272 : Prog :=
  .set ⟨0, []⟩ (.atom (.cp ⟨1, []⟩)) <|
  .ret
/-- `array_expr : ARRAY '[' expr_list ']'` (src/parser/bison_parser.y:1225-1225) -/
def act273 : Prog :=
  makeArray 0 (.mv ⟨3, []⟩) <|
  .ret
/-- `array_index : operand '[' int_literal ']'` (src/parser/bison_parser.y:1227-1227) -/
def act274 : Prog :=
  makeArrayIndex 0 (.mv ⟨1, []⟩) (.cp ⟨3, [Expr.ival]⟩) <|
  .ret
/-- `between_expr : operand BETWEEN operand AND operand` (src/parser/bison_parser.y:1229-1229) -/
def act275 : Prog :=
  makeBetween 0 (.mv ⟨1, []⟩) (.mv ⟨3, []⟩) (.mv ⟨5, []⟩) <|
  .ret
/-- `column_name : IDENTIFIER` (src/parser/bison_parser.y:1231-1231) -/
def act276 : Prog :=
  makeColumnRef 0 (.mv ⟨1, []⟩) <|
  .ret
/-- `column_name : IDENTIFIER '.' IDENTIFIER` (src/parser/bison_parser.y:1232-1232) -/
def act277 : Prog :=
  makeColumnRefTable 0 (.mv ⟨1, []⟩) (.mv ⟨3, []⟩) <|
  .ret
/-- `column_name : '*'` (src/parser/bison_parser.y:1233-1233) -/
def act278 : Prog :=
  makeStar 0 <|
  .ret
/-- `column_name : IDENTIFIER '.' '*'` (src/parser/bison_parser.y:1234-1234) -/
def act279 : Prog :=
  makeStarTable 0 (.mv ⟨1, []⟩) <|
  .ret
/-- `literal : string_literal` (src/parser/bison_parser.y:1236-1236); default action -/
def act280 : Prog :=
  .set ⟨0, []⟩ (.atom (.mv ⟨1, []⟩)) <|
  .ret
/-- `literal : bool_literal` (src/parser/bison_parser.y:1236-1236); default action -/
def act281 : Prog :=
  .set ⟨0, []⟩ (.atom (.mv ⟨1, []⟩)) <|
  .ret
/-- `literal : num_literal` (src/parser/bison_parser.y:1236-1236); default action -/
def act282 : Prog :=
  .set ⟨0, []⟩ (.atom (.mv ⟨1, []⟩)) <|
  .ret
/-- `literal : null_literal` (src/parser/bison_parser.y:1236-1236); default action -/
def act283 : Prog :=
  .set ⟨0, []⟩ (.atom (.mv ⟨1, []⟩)) <|
  .ret
/-- `literal : date_literal` (src/parser/bison_parser.y:1236-1236); default action -/
def act284 : Prog :=
  .set ⟨0, []⟩ (.atom (.mv ⟨1, []⟩)) <|
  .ret
/-- `literal : interval_literal` (src/parser/bison_parser.y:1236-1236); default action -/
def act285 : Prog :=
  .set ⟨0, []⟩ (.atom (.mv ⟨1, []⟩)) <|
  .ret
/-- `literal : param_expr` (src/parser/bison_parser.y:1236-1236); default action -/
def act286 : Prog :=
  .set ⟨0, []⟩ (.atom (.mv ⟨1, []⟩)) <|
  .ret
/-- `string_literal : STRING` (src/parser/bison_parser.y:1238-1238) -/
def act287 : Prog :=
  makeLiteralString 0 (.mv ⟨1, []⟩) <|
  .ret
/-- `bool_literal : TRUE` (src/parser/bison_parser.y:1240-1240) -/
def act288 : Prog :=
  makeLiteralBool 0 (.int 1) <|
  .ret
/-- `bool_literal : FALSE` (src/parser/bison_parser.y:1241-1241) -/
def act289 : Prog :=
  makeLiteralBool 0 (.int 0) <|
  .ret
/-- `num_literal : FLOATVAL` (src/parser/bison_parser.y:1243-1243) -/
def act290 : Prog :=
  makeLiteralFloat 0 (.cp ⟨1, []⟩) <|
  .ret
/-- `num_literal : int_literal` (src/parser/bison_parser.y:1244-1244); default action -/
def act291 : Prog :=
  .set ⟨0, []⟩ (.atom (.mv ⟨1, []⟩)) <|
  .ret
/-- `int_literal : INTVAL` (src/parser/bison_parser.y:1246-1246) -/
def act292 : Prog :=
  makeLiteralInt 0 (.cp ⟨1, []⟩) <|
  .ret
/-- `null_literal : NULL` (src/parser/bison_parser.y:1248-1248) -/
def act293 : Prog :=
  makeNullLiteral 0 <|
  .ret
/-- `date_literal : DATE STRING` (src/parser/bison_parser.y:1250-1259); written by hand -/
def act294 : Prog :=
  dateLiteral
/-- `interval_literal : INTVAL duration_field` (src/parser/bison_parser.y:1261-1261) -/
def act295 : Prog :=
  makeIntervalLiteral 0 (.cp ⟨1, []⟩) (.cp ⟨2, []⟩) <|
  .ret
/-- `interval_literal : INTERVAL STRING datetime_field` (src/parser/bison_parser.y:1262-1272); written by hand -/
def act296 : Prog :=
  intervalField
/-- `interval_literal : INTERVAL STRING` (src/parser/bison_parser.y:1273-1303); written by hand -/
def act297 : Prog :=
  intervalUnit
/-- `param_expr : '?'` (src/parser/bison_parser.y:1305-1309) -/
def act298 : Prog :=
  makeParameter 0 (.totalCol) <|
  .set ⟨0, [Expr.ival2]⟩ (.atom (.nParams)) <|
  .regParam ⟨0, []⟩ <|
  .ret
/-- `table_ref : table_ref_atomic` (src/parser/bison_parser.y:1314-1314); default action -/
def act299 : Prog :=
  .set ⟨0, []⟩ (.atom (.mv ⟨1, []⟩)) <|
  .ret
/-- `table_ref : table_ref_commalist ',' table_ref_atomic` (src/parser/bison_parser.y:1314-1319) -/
def act300 : Prog :=
  .push ⟨1, []⟩ (.mv ⟨3, []⟩) <|
  .set ⟨10, []⟩ (newTableRef (.int TableRefType.kTableCrossProduct)) <|
  .set ⟨10, [TableRef.list]⟩ (.atom (.mv ⟨1, []⟩)) <|
  .set ⟨0, []⟩ (.atom (.mv ⟨10, []⟩)) <|
  .ret
/-- `table_ref_atomic : nonjoin_table_ref_atomic` (src/parser/bison_parser.y:1321-1321); default action -/
def act301 : Prog :=
  .set ⟨0, []⟩ (.atom (.mv ⟨1, []⟩)) <|
  .ret
/-- `table_ref_atomic : join_clause` (src/parser/bison_parser.y:1321-1321); default action -/
def act302 : Prog :=
  .set ⟨0, []⟩ (.atom (.mv ⟨1, []⟩)) <|
  .ret
/-- `nonjoin_table_ref_atomic : table_ref_name` (src/parser/bison_parser.y:1323-1323); default action -/
def act303 : Prog :=
  .set ⟨0, []⟩ (.atom (.mv ⟨1, []⟩)) <|
  .ret
/-- `nonjoin_table_ref_atomic : '(' select_statement ')' opt_table_alias` (src/parser/bison_parser.y:1323-1328) -/
def act304 : Prog :=
  .set ⟨10, []⟩ (newTableRef (.int TableRefType.kTableSelect)) <|
  .set ⟨10, [TableRef.select]⟩ (.atom (.mv ⟨2, []⟩)) <|
  .set ⟨10, [TableRef.alias]⟩ (.atom (.mv ⟨4, []⟩)) <|
  .set ⟨0, []⟩ (.atom (.mv ⟨10, []⟩)) <|
  .ret
/-- `table_ref_commalist : table_ref_atomic` (src/parser/bison_parser.y:1330-1333) -/
def act305 : Prog :=
  .set ⟨0, []⟩ (.vec []) <|
  .push ⟨0, []⟩ (.mv ⟨1, []⟩) <|
  .ret
/-- `table_ref_commalist : table_ref_commalist ',' table_ref_atomic` (src/parser/bison_parser.y:1334-1337) -/
def act306 : Prog :=
  .push ⟨1, []⟩ (.mv ⟨3, []⟩) <|
  .set ⟨0, []⟩ (.atom (.mv ⟨1, []⟩)) <|
  .ret
/-- `table_ref_name : table_name opt_table_alias` (src/parser/bison_parser.y:1339-1345) -/
def act307 : Prog :=
  .set ⟨10, []⟩ (newTableRef (.int TableRefType.kTableName)) <|
  .set ⟨10, [TableRef.schema]⟩ (.atom (.mv ⟨1, [TableName.schema]⟩)) <|
  .set ⟨10, [TableRef.name]⟩ (.atom (.mv ⟨1, [TableName.name]⟩)) <|
  .set ⟨10, [TableRef.alias]⟩ (.atom (.mv ⟨2, []⟩)) <|
  .set ⟨0, []⟩ (.atom (.mv ⟨10, []⟩)) <|
  .ret
/-- `table_ref_name_no_alias : table_name` (src/parser/bison_parser.y:1347-1351) -/
def act308 : Prog :=
  .set ⟨0, []⟩ (newTableRef (.int TableRefType.kTableName)) <|
  .set ⟨0, [TableRef.schema]⟩ (.atom (.mv ⟨1, [TableName.schema]⟩)) <|
  .set ⟨0, [TableRef.name]⟩ (.atom (.mv ⟨1, [TableName.name]⟩)) <|
  .ret
/-- `table_name : IDENTIFIER` (src/parser/bison_parser.y:1353-1356) -/
def act309 : Prog :=
  .set ⟨0, []⟩ (.tup [.undef, .undef]) <|
  .set ⟨0, [TableName.schema]⟩ (.atom (.null)) <|
  .set ⟨0, [TableName.name]⟩ (.atom (.mv ⟨1, []⟩)) <|
  .ret
/-- `table_name : IDENTIFIER '.' IDENTIFIER` (src/parser/bison_parser.y:1357-1360) -/
def act310 : Prog :=
  .set ⟨0, []⟩ (.tup [.undef, .undef]) <|
  .set ⟨0, [TableName.schema]⟩ (.atom (.mv ⟨1, []⟩)) <|
  .set ⟨0, [TableName.name]⟩ (.atom (.mv ⟨3, []⟩)) <|
  .ret
/-- `opt_index_name : IDENTIFIER` (src/parser/bison_parser.y:1362-1362) -/
def act311 : Prog :=
  .set ⟨0, []⟩ (.atom (.mv ⟨1, []⟩)) <|
  .ret
/-- `opt_index_name : %empty` (src/parser/bison_parser.y:1363-1363) -/
def act312 : Prog :=
  .set ⟨0, []⟩ (.atom (.null)) <|
  .ret
/-- `table_alias : alias` (src/parser/bison_parser.y:1365-1365); default action -/
def act313 : Prog :=
  .set ⟨0, []⟩ (.atom (.mv ⟨1, []⟩)) <|
  .ret
/-- `table_alias : AS IDENTIFIER '(' ident_commalist ')'` (src/parser/bison_parser.y:1365-1365) -/
def act314 : Prog :=
  .set ⟨0, []⟩ (newAlias (.mv ⟨2, []⟩) (.mv ⟨4, []⟩)) <|
  .ret
/-- `opt_table_alias : table_alias` (src/parser/bison_parser.y:1367-1367); default action -/
def act315 : Prog :=
  .set ⟨0, []⟩ (.atom (.mv ⟨1, []⟩)) <|
  .ret
/-- `opt_table_alias : %empty` (src/parser/bison_parser.y:1367-1367) -/
def act316 : Prog :=
  .set ⟨0, []⟩ (.atom (.null)) <|
  .ret
/-- `alias : AS IDENTIFIER` (src/parser/bison_parser.y:1369-1369) -/
def act317 : Prog :=
  .set ⟨0, []⟩ (newAlias (.mv ⟨2, []⟩) .null) <|
  .ret
/-- `alias : IDENTIFIER` (src/parser/bison_parser.y:1370-1370) -/
def act318 : Prog :=
  .set ⟨0, []⟩ (newAlias (.mv ⟨1, []⟩) .null) <|
  .ret
/-- `opt_alias : alias` (src/parser/bison_parser.y:1372-1372); default action -/
def act319 : Prog :=
  .set ⟨0, []⟩ (.atom (.mv ⟨1, []⟩)) <|
  .ret
/-- `opt_alias : %empty` (src/parser/bison_parser.y:1372-1372) -/
def act320 : Prog :=
  .set ⟨0, []⟩ (.atom (.null)) <|
  .ret
/-- `opt_locking_clause : opt_locking_clause_list` (src/parser/bison_parser.y:1378-1378) -/
def act321 : Prog :=
  .set ⟨0, []⟩ (.atom (.mv ⟨1, []⟩)) <|
  .ret
/-- `opt_locking_clause : %empty` (src/parser/bison_parser.y:1379-1379) -/
def act322 : Prog :=
  .set ⟨0, []⟩ (.atom (.null)) <|
  .ret
/-- `opt_locking_clause_list : locking_clause` (src/parser/bison_parser.y:1381-1384) -/
def act323 : Prog :=
  .set ⟨0, []⟩ (.vec []) <|
  .push ⟨0, []⟩ (.mv ⟨1, []⟩) <|
  .ret
/-- `opt_locking_clause_list : opt_locking_clause_list locking_clause` (src/parser/bison_parser.y:1385-1388) -/
def act324 : Prog :=
  .push ⟨1, []⟩ (.mv ⟨2, []⟩) <|
  .set ⟨0, []⟩ (.atom (.mv ⟨1, []⟩)) <|
  .ret
/-- `locking_clause : FOR row_lock_mode opt_row_lock_policy` (src/parser/bison_parser.y:1390-1395) -/
def act325 : Prog :=
  .set ⟨0, []⟩ (newLockingClause) <|
  .set ⟨0, [LockingClause.rowLockMode]⟩ (.atom (.cp ⟨2, []⟩)) <|
  .set ⟨0, [LockingClause.rowLockWaitPolicy]⟩ (.atom (.cp ⟨3, []⟩)) <|
  .set ⟨0, [LockingClause.tables]⟩ (.atom (.null)) <|
  .ret
/-- `locking_clause : FOR row_lock_mode OF ident_commalist opt_row_lock_policy` (src/parser/bison_parser.y:1396-1401) -/
def act326 : Prog :=
  .set ⟨0, []⟩ (newLockingClause) <|
  .set ⟨0, [LockingClause.rowLockMode]⟩ (.atom (.cp ⟨2, []⟩)) <|
  .set ⟨0, [LockingClause.tables]⟩ (.atom (.mv ⟨4, []⟩)) <|
  .set ⟨0, [LockingClause.rowLockWaitPolicy]⟩ (.atom (.cp ⟨5, []⟩)) <|
  .ret
/-- `row_lock_mode : UPDATE` (src/parser/bison_parser.y:1403-1403) -/
def act327 : Prog :=
  .set ⟨0, []⟩ (.atom (.int RowLockMode.ForUpdate)) <|
  .ret
/-- `row_lock_mode : NO KEY UPDATE` (src/parser/bison_parser.y:1404-1404) -/
def act328 : Prog :=
  .set ⟨0, []⟩ (.atom (.int RowLockMode.ForNoKeyUpdate)) <|
  .ret
/-- `row_lock_mode : SHARE` (src/parser/bison_parser.y:1405-1405) -/
def act329 : Prog :=
  .set ⟨0, []⟩ (.atom (.int RowLockMode.ForShare)) <|
  .ret
/-- `row_lock_mode : KEY SHARE` (src/parser/bison_parser.y:1406-1406) -/
def act330 : Prog :=
  .set ⟨0, []⟩ (.atom (.int RowLockMode.ForKeyShare)) <|
  .ret
/-- `opt_row_lock_policy : SKIP LOCKED` (src/parser/bison_parser.y:1408-1408) -/
def act331 : Prog :=
  .set ⟨0, []⟩ (.atom (.int RowLockWaitPolicy.SkipLocked)) <|
  .ret
/-- `opt_row_lock_policy : NOWAIT` (src/parser/bison_parser.y:1409-1409) -/
def act332 : Prog :=
  .set ⟨0, []⟩ (.atom (.int RowLockWaitPolicy.NoWait)) <|
  .ret
/-- `opt_row_lock_policy : %empty` (src/parser/bison_parser.y:1410-1410) -/
def act333 : Prog :=
  .set ⟨0, []⟩ (.atom (.int RowLockWaitPolicy.None)) <|
  .ret
/-- `opt_with_clause : with_clause` (src/parser/bison_parser.y:1416-1416); default action -/
def act334 : Prog :=
  .set ⟨0, []⟩ (.atom (.mv ⟨1, []⟩)) <|
  .ret
/-- `opt_with_clause : %empty` (src/parser/bison_parser.y:1416-1416) -/
def act335 : Prog :=
  .set ⟨0, []⟩ (.atom (.null)) <|
  .ret
/-- `with_clause : WITH with_description_list` (src/parser/bison_parser.y:1418-1418) -/
def act336 : Prog :=
  .set ⟨0, []⟩ (.atom (.mv ⟨2, []⟩)) <|
  .ret
/-- `with_description_list : with_description` (src/parser/bison_parser.y:1420-1423) -/
def act337 : Prog :=
  .set ⟨0, []⟩ (.vec []) <|
  .push ⟨0, []⟩ (.mv ⟨1, []⟩) <|
  .ret
/-- `with_description_list : with_description_list ',' with_description` (src/parser/bison_parser.y:1424-1427) -/
def act338 : Prog :=
  .push ⟨1, []⟩ (.mv ⟨3, []⟩) <|
  .set ⟨0, []⟩ (.atom (.mv ⟨1, []⟩)) <|
  .ret
/-- `with_description : IDENTIFIER AS select_with_paren` (src/parser/bison_parser.y:1429-1433) -/
def act339 : Prog :=
  .set ⟨0, []⟩ (newWithDescription) <|
  .set ⟨0, [WithDescription.alias]⟩ (.atom (.mv ⟨1, []⟩)) <|
  .set ⟨0, [WithDescription.select]⟩ (.atom (.mv ⟨3, []⟩)) <|
  .ret
/-- `join_clause : table_ref_atomic NATURAL JOIN nonjoin_table_ref_atomic` (src/parser/bison_parser.y:1439-1445) -/
def act340 : Prog :=
  .set ⟨0, []⟩ (newTableRef (.int TableRefType.kTableJoin)) <|
  .set ⟨0, [TableRef.join]⟩ (newJoinDefinition) <|
  .set ⟨0, [TableRef.join, JoinDefinition.type]⟩ (.atom (.int JoinType.kJoinNatural)) <|
  .set ⟨0, [TableRef.join, JoinDefinition.left]⟩ (.atom (.mv ⟨1, []⟩)) <|
  .set ⟨0, [TableRef.join, JoinDefinition.right]⟩ (.atom (.mv ⟨4, []⟩)) <|
  .ret
/-- `join_clause : table_ref_atomic opt_join_type JOIN table_ref_atomic ON join_condition` (src/parser/bison_parser.y:1446-1453) -/
def act341 : Prog :=
  .set ⟨0, []⟩ (newTableRef (.int TableRefType.kTableJoin)) <|
  .set ⟨0, [TableRef.join]⟩ (newJoinDefinition) <|
  .set ⟨0, [TableRef.join, JoinDefinition.type]⟩ (.atom (.cp ⟨2, []⟩)) <|
  .set ⟨0, [TableRef.join, JoinDefinition.left]⟩ (.atom (.mv ⟨1, []⟩)) <|
  .set ⟨0, [TableRef.join, JoinDefinition.right]⟩ (.atom (.mv ⟨4, []⟩)) <|
  .set ⟨0, [TableRef.join, JoinDefinition.condition]⟩ (.atom (.mv ⟨6, []⟩)) <|
  .ret
/-- `join_clause : table_ref_atomic opt_join_type JOIN table_ref_atomic USING '(' ident_commalist ')'` (src/parser/bison_parser.y:1454-1461) -/
def act342 : Prog :=
  .set ⟨0, []⟩ (newTableRef (.int TableRefType.kTableJoin)) <|
  .set ⟨0, [TableRef.join]⟩ (newJoinDefinition) <|
  .set ⟨0, [TableRef.join, JoinDefinition.type]⟩ (.atom (.cp ⟨2, []⟩)) <|
  .set ⟨0, [TableRef.join, JoinDefinition.left]⟩ (.atom (.mv ⟨1, []⟩)) <|
  .set ⟨0, [TableRef.join, JoinDefinition.right]⟩ (.atom (.mv ⟨4, []⟩)) <|
  .set ⟨0, [TableRef.join, JoinDefinition.namedColumns]⟩ (.atom (.mv ⟨7, []⟩)) <|
  .ret
/-- `opt_join_type : INNER` (src/parser/bison_parser.y:1463-1463) -/
def act343 : Prog :=
  .set ⟨0, []⟩ (.atom (.int JoinType.kJoinInner)) <|
  .ret
/-- `opt_join_type : LEFT OUTER` (src/parser/bison_parser.y:1464-1464) -/
def act344 : Prog :=
  .set ⟨0, []⟩ (.atom (.int JoinType.kJoinLeft)) <|
  .ret
/-- `opt_join_type : LEFT` (src/parser/bison_parser.y:1465-1465) -/
def act345 : Prog :=
  .set ⟨0, []⟩ (.atom (.int JoinType.kJoinLeft)) <|
  .ret
/-- `opt_join_type : RIGHT OUTER` (src/parser/bison_parser.y:1466-1466) -/
def act346 : Prog :=
  .set ⟨0, []⟩ (.atom (.int JoinType.kJoinRight)) <|
  .ret
/-- `opt_join_type : RIGHT` (src/parser/bison_parser.y:1467-1467) -/
def act347 : Prog :=
  .set ⟨0, []⟩ (.atom (.int JoinType.kJoinRight)) <|
  .ret
/-- `opt_join_type : FULL OUTER` (src/parser/bison_parser.y:1468-1468) -/
def act348 : Prog :=
  .set ⟨0, []⟩ (.atom (.int JoinType.kJoinFull)) <|
  .ret
/-- `opt_join_type : OUTER` (src/parser/bison_parser.y:1469-1469) -/
def act349 : Prog :=
  .set ⟨0, []⟩ (.atom (.int JoinType.kJoinFull)) <|
  .ret
/-- `opt_join_type : FULL` (src/parser/bison_parser.y:1470-1470) -/
def act350 : Prog :=
  .set ⟨0, []⟩ (.atom (.int JoinType.kJoinFull)) <|
  .ret
/-- `opt_join_type : CROSS` (src/parser/bison_parser.y:1471-1471) -/
def act351 : Prog :=
  .set ⟨0, []⟩ (.atom (.int JoinType.kJoinCross)) <|
  .ret
/-- `opt_join_type : %empty` (src/parser/bison_parser.y:1472-1472) -/
def act352 : Prog :=
  .set ⟨0, []⟩ (.atom (.int JoinType.kJoinInner)) <|
  .ret
/-- `join_condition : expr` (src/parser/bison_parser.y:1474-1474); default action -/
def act353 : Prog :=
  .set ⟨0, []⟩ (.atom (.mv ⟨1, []⟩)) <|
  .ret
/-- `opt_semicolon : ';'` (src/parser/bison_parser.y:1480-1480); no value -/
def act354 : Prog :=
  .ret
/-- `opt_semicolon : %empty` (src/parser/bison_parser.y:1480-1480); no value -/
def act355 : Prog :=
  .ret
/-- `ident_commalist : IDENTIFIER` (src/parser/bison_parser.y:1483-1486) -/
def act356 : Prog :=
  .set ⟨0, []⟩ (.vec []) <|
  .push ⟨0, []⟩ (.mv ⟨1, []⟩) <|
  .ret
/-- `ident_commalist : ident_commalist ',' IDENTIFIER` (src/parser/bison_parser.y:1487-1490) -/
def act357 : Prog :=
  .push ⟨1, []⟩ (.mv ⟨3, []⟩) <|
  .set ⟨0, []⟩ (.atom (.mv ⟨1, []⟩)) <|
  .ret

/-- The actions of rules 2 to 357, in order. -/
def actions : List Prog := [
  act2, act3, act4, act5, act6, act7, act8, act9, act10, act11, act12, act13,
  act14, act15, act16, act17, act18, act19, act20, act21, act22, act23, act24, act25,
  act26, act27, act28, act29, act30, act31, act32, act33, act34, act35, act36, act37,
  act38, act39, act40, act41, act42, act43, act44, act45, act46, act47, act48, act49,
  act50, act51, act52, act53, act54, act55, act56, act57, act58, act59, act60, act61,
  act62, act63, act64, act65, act66, act67, act68, act69, act70, act71, act72, act73,
  act74, act75, act76, act77, act78, act79, act80, act81, act82, act83, act84, act85,
  act86, act87, act88, act89, act90, act91, act92, act93, act94, act95, act96, act97,
  act98, act99, act100, act101, act102, act103, act104, act105, act106, act107, act108, act109,
  act110, act111, act112, act113, act114, act115, act116, act117, act118, act119, act120, act121,
  act122, act123, act124, act125, act126, act127, act128, act129, act130, act131, act132, act133,
  act134, act135, act136, act137, act138, act139, act140, act141, act142, act143, act144, act145,
  act146, act147, act148, act149, act150, act151, act152, act153, act154, act155, act156, act157,
  act158, act159, act160, act161, act162, act163, act164, act165, act166, act167, act168, act169,
  act170, act171, act172, act173, act174, act175, act176, act177, act178, act179, act180, act181,
  act182, act183, act184, act185, act186, act187, act188, act189, act190, act191, act192, act193,
  act194, act195, act196, act197, act198, act199, act200, act201, act202, act203, act204, act205,
  act206, act207, act208, act209, act210, act211, act212, act213, act214, act215, act216, act217,
  act218, act219, act220, act221, act222, act223, act224, act225, act226, act227, act228, act229,
  act230, act231, act232, act233, act234, act235, act236, act237, act238, act239, act240, act241,
  act242, act243, act244, act245, act246, act247, act248, act249, act250, act251, act252, act253,
  act254, act255, act256, act257, act258, act259, act260, act261, act262, act263, act264, act265,
  act266, act267, act268, act269, act270, act271, act272, act273, act274, act275, act276, act277,
  act278, act279, act280, act281, act282, act283, act284, act285, act286, act287, act288, act289,
  act290, act291, act292, act293, act294, act295, act296, act297, act298, act299, act300, act301,
  act302, act303, act304, act305, act306, act307, act308, act309, act310, act311, act312, act313,
  act314, act315, act316, act317, act318, act319, act320, act321, act322, act323, act324, act325,
  act326, act327, act328, act329, act330, act331, act332, act333, act334, act335, act336, act337,
  act338, act339, act340, act341, act342, act343, act344, act345, act346, act347, act348, act349,
  act350, act351, act352, act353, act354, act355, act356, act357
]

end Verif.Sem

import Verif.Sem.Value
/-! Generated by tools/gendestr.py from src/parser/bison_parser.cpp. -/
namespace Verif.Sem

/-- src/parser/bison_parser.cpp:823-889, `yytname`. -/
def yytname : List Bytes := [
  b!"$end", b!"error", b!"$undefined", b!"IDENTIFIER", b!"STRING", b!"FLOATVAL", b!"INTVAL", b!"DEALLOCATE",
  b!"PARAMETERS", b!"INTERSECT", b!"TEMPORARY", b!"TIMESTAMP", b!"DISTINCT", b!"NVARCHAR", b!"RESTRICT", b!"TRUNCATE",
  b!"ANALYZE", b!"BETWEEN", b!"CASCADE", b!"COLUMNS", b!"CONTROL", b!"DEFAULT", b!"EXECUTE", b!"EXPLAIN",
  b!"ENCODING", b!"INTEGER", b!"NATURAL", b!"PREPARE", b!"SCHEMAS", b!"CHARACTER_VARYING", b!"REAL", b!"DECIMAL",
  b!"SMALLINT", b!"BIGINT", b!"SPATIAL", b!"VARCHAR", b!"VIRTUAL", b!"DESCRIBE", b!"BEFORE", b!"COLUMN",
  b!"CREATE", b!"DELETE", b!"DIRECT", b!"DOUBLE", b!"ESCAPE", b!"EXCEPT", b!"EXISTS", b!"EXTRACT",
  b!"CAST", b!"FORMAT", b!"GLOBAL", b!"HAVING", b!"IMPORT", b!"INSERT", b!"ISNULL", b!"OFFSET",
  b!"RENAME", b!"SCHEMA", b!"SELECT", b!"SORTED", b!"TABLES", b!"UNLOAD", b!"UPDATE", b!"VALUES",
  b!"AFTER", b!"ALTER", b!"CROSS", b!"DELTA", b!"FLOAT", b!"GROUP", b!"INDEX", b!"INNER",
  b!"LIMIT", b!"LOCAL", b!"MERGE", b!"MINUS", b!"ORDER", b!"OVER", b!"OUTER", b!"RIGHT",
  b!"TABLE", b!"UNION", b!"USING", b!"WHERE", b!"CALL", b!"CASE", b!"CHAR", b!"COPY",
  b!"DATE", b!"DATETIME", b!"DESC", b!"DROP", b!"ELSE", b!"FILE", b!"FROM", b!"FULL",
  b!"HASH", b!"HINT", b!"INTO", b!"JOIN", b!"LEFT", b!"LIKE", b!"LOAD", b!"LONG",
  b!"NULL", b!"PARTITION", b!"PLAN", b!"SHOW", b!"TEXT", b!"THEN", b!"TIME", b!"VIEW",
  b!"WHEN", b!"WITH", b!"ADD", b!"ALL", b!"AND", b!"ASC", b!"END", b!"FOR",
  b!"INT", b!"NOT", b!"OFF", b!"SET", b!"TOP", b!"AS", b!"BY", b!"IF",
  b!"IN", b!"IS", b!"OF", b!"ON", b!"OR", b!"TO", b!"NO", b!"ARRAY",
  b!"CONCAT", b!"ILIKE", b!"SECOND", b!"MINUTE", b!"HOUR", b!"DAY", b!"MONTH", b!"YEAR",
  b!"SECONDS", b!"MINUTES", b!"HOURS", b!"DAYS", b!"MONTHS", b!"YEARS", b!"INTERVAL", b!"TRUE",
  b!"FALSE", b!"BOOLEAN", b!"TRANSACTION", b!"BEGIN", b!"COMMIT", b!"ROLLBACK", b!"NOWAIT", b!"SKIP",
  b!"LOCKED", b!"SHARE", b!"RANGE", b!"ROWS", b!"GROUPS", b!"UNBOUNDED", b!"FOLLOWING", b!"PRECEDING",
  b!"CURRENT_ROW", b!"UNIQUE", b!"PRIMARY", b!"FOREIGN", b!"KEY", b!"REFERENCES", b!"'='", b!"EQUALS",
  b!"NOTEQUALS", b!"'<'", b!"'>'", b!"LESS", b!"GREATER", b!"LESSEQ", b!"GREATEREQ", b!"NOTNULL",
  b!"'+'", b!"'-'", b!"'*'", b!"'/'", b!"'%'", b!"'^'", b!"UMINUS", b!"'['",
  b!"']'", b!"'('", b!"')'", b!"'.'", b!"';'", b!"','", b!"'?'", b!"$accept",
  b!"input", b!"statement_list", b!"statement", b!"preparable_statement", b!"opt_hints", b!"hint_list", b!"hint", b!"transaction_statement",
  b!"opt_transaction_keyword", b!"prepare_statement", b!"prepare_target_query", b!"execute_statement", b!"import_statement", b!"file_type", b!"file_path", b!"opt_import_export_options",
  b!"import_export_options", b!"csv_option", b!"export_statement", b!"show_statement", b!"create_statement", b!"opt_not_exists", b!"table_elem_commalist", b!"table_elem",
  b!"column_def", b!"column_type", b!"opt_time_precision", b!"opt_decimal_specification", b!"opt_column_constraints", b!"column_constraints", b!"column_constraint", b!"table_constraint",
  b!"references_spec", b!"drop_statement", b!"opt_exists", b!"alter_statement", b!"alter_action", b!"drop_action", b!"delete_statement", b!"truncate_statement",
  b!"insert_statement", b!"opt_column_list", b!"update_statement", b!"update_clause_commalist", b!"update_clause", b!"select_statement", b!"select_within_set_operation", b!"select_within_set_operation_no_parentheses",
  b!"select_with_paren", b!"select_no_paren", b!"set_operator", b!"set_type", b!"opt_all", b!"select_clause", b!"opt_distinct", b!"select_list",
  b!"opt_from_clause", b!"from_clause", b!"opt_where", b!"opt_group", b!"opt_having", b!"opt_order", b!"order_list", b!"order_desc",
  b!"opt_order_type", b!"opt_null_ordering", b!"opt_top", b!"opt_limit", b!"expr_list", b!"opt_extended_literal_list", b!"extended_literal_list", b!"casted_extended_literal",
  b!"extended_literal", b!"expr_alias", b!"expr", b!"operand", b!"scalar_expr", b!"unary_expr", b!"binary_expr", b!"logic_expr",
  b!"in_expr", b!"case_expr", b!"case_list", b!"exists_expr", b!"comp_expr", b!"function_expr", b!"opt_window", b!"opt_partition",
  b!"opt_frame_clause", b!"frame_type", b!"frame_bound", b!"extract_expr", b!"cast_expr", b!"datetime_field", b!"datetime_field_plural", b!"duration_field",
  b!"array_expr", b!"array_index", b!"between_expr", b!"column_name", b!"literal", b!"string_literal", b!"bool_literal", b!"num_literal",
  b!"int_literal", b!"null_literal", b!"date_literal", b!"interval_literal", b!"param_expr", b!"table_ref", b!"table_ref_atomic", b!"nonjoin_table_ref_atomic",
  b!"table_ref_commalist", b!"table_ref_name", b!"table_ref_name_no_alias", b!"table_name", b!"opt_index_name", b!"table_alias", b!"opt_table_alias", b!"alias",
  b!"opt_alias", b!"opt_locking_clause", b!"opt_locking_clause_list", b!"locking_clause", b!"row_lock_mode", b!"opt_row_lock_policy", b!"opt_with_clause", b!"with_clause",
  b!"with_description_list", b!"with_description", b!"join_clause", b!"opt_join_type", b!"join_condition", b!"opt_semicolon", b!"ident_commalist"
]

/-- What `yydestruct` does with the value of each symbol (src/parser/bison_parser.cpp:1930-2871; the
`%destructor`s of src/parser/bison_parser.y:181-207). -/
def destructors : List How := [
  .keep, .keep, .keep, .str, .str, .keep,
  .keep, .keep, .keep, .keep, .keep, .keep,
  .keep, .keep, .keep, .keep, .keep, .keep,
  .keep, .keep, .keep, .keep, .keep, .keep,
  .keep, .keep, .keep, .keep, .keep, .keep,
  .keep, .keep, .keep, .keep, .keep, .keep,
  .keep, .keep, .keep, .keep, .keep, .keep,
  .keep, .keep, .keep, .keep, .keep, .keep,
  .keep, .keep, .keep, .keep, .keep, .keep,
  .keep, .keep, .keep, .keep, .keep, .keep,
  .keep, .keep, .keep, .keep, .keep, .keep,
  .keep, .keep, .keep, .keep, .keep, .keep,
  .keep, .keep, .keep, .keep, .keep, .keep,
  .keep, .keep, .keep, .keep, .keep, .keep,
  .keep, .keep, .keep, .keep, .keep, .keep,
  .keep, .keep, .keep, .keep, .keep, .keep,
  .keep, .keep, .keep, .keep, .keep, .keep,
  .keep, .keep, .keep, .keep, .keep, .keep,
  .keep, .keep, .keep, .keep, .keep, .keep,
  .keep, .keep, .keep, .keep, .keep, .keep,
  .keep, .keep, .keep, .keep, .keep, .keep,
  .keep, .keep, .keep, .keep, .keep, .keep,
  .keep, .keep, .keep, .keep, .keep, .keep,
  .keep, .keep, .keep, .keep, .keep, .keep,
  .keep, .keep, .keep, .keep, .keep, .keep,
  .keep, .keep, .keep, .keep, .keep, .keep,
  .keep, .keep, .keep, .keep, .keep, .keep,
  .keep, .keep, .keep, .keep, .keep, .keep,
  .keep, .keep, .keep, .keep, .keep, .keep,
  .keep, .keep, .keep, .keep, .keep, .keep,
  .keep, .keep, .keep, .keep, .keep, .keep,
  .keep, .keep, .keep, .keep, .keep, .keep,
  .keep, .keep, .keep, .keep, .keep, .keep,
  .keep, .keep, .keep, .vec .del, .del, .del,
  .vec .del, .vec .del, .del, .del, .keep, .del,
  .str, .del, .del, .keep, .str, .del,
  .del, .fields [.keep, .str], .del, .del, .del, .keep,
  .vec .del, .del, .del, .keep, .keep, .del,
  .del, .del, .keep, .del, .del, .del,
  .keep, .del, .del, .del, .del, .del,
  .del, .vec .str, .del, .vec .del, .del, .del,
  .del, .del, .del, .del, .del, .del,
  .keep, .del, .keep, .vec .del, .del, .del,
  .del, .del, .del, .vec .del, .vec .del, .del,
  .keep, .keep, .del, .del, .vec .del, .vec .del,
  .vec .del, .del, .del, .del, .del, .del,
  .del, .del, .del, .del, .del, .del,
  .del, .del, .del, .del, .del, .vec .del,
  .del, .keep, .del, .del, .del, .keep,
  .keep, .keep, .del, .del, .del, .del,
  .del, .del, .del, .del, .del, .del,
  .del, .del, .del, .del, .del, .del,
  .vec .del, .del, .del, .tup [.str, .str], .str, .del,
  .del, .del, .del, .del, .del, .del,
  .keep, .keep, .del, .del, .del, .del,
  .del, .keep, .del, .keep, .vec .str
]

end Verif.Sem

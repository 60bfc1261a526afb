import Verif.LR.Tables
import Verif.Lex.Lexer
/-!
GENERATED by tools/genlr.py from src/parser/bison_parser.y.

The grammar as data: symbols, rules, and precedence declarations.  This is the specification the parser
tables are compared against; nothing here looks at the tables.
-/
set_option maxRecDepth 200000
set_option linter.all false
namespace Verif.LR

/-! ## Symbols (numbered as in `yytname`, bison_parser.cpp:823-889): 0-198 terminals, 199-334 nonterminals -/

/-- `$end` -/
abbrev T.eof : Nat := 0
/-- `error` -/
abbrev T.error : Nat := 1
/-- `$undefined` -/
abbrev T.undef : Nat := 2
/-- `IDENTIFIER` -/
abbrev T.IDENTIFIER : Nat := 3
/-- `STRING` -/
abbrev T.STRING : Nat := 4
/-- `FLOATVAL` -/
abbrev T.FLOATVAL : Nat := 5
/-- `INTVAL` -/
abbrev T.INTVAL : Nat := 6
/-- `DEALLOCATE` -/
abbrev T.DEALLOCATE : Nat := 7
/-- `PARAMETERS` -/
abbrev T.PARAMETERS : Nat := 8
/-- `INTERSECT` -/
abbrev T.INTERSECT : Nat := 9
/-- `TEMPORARY` -/
abbrev T.TEMPORARY : Nat := 10
/-- `TIMESTAMP` -/
abbrev T.TIMESTAMP : Nat := 11
/-- `DISTINCT` -/
abbrev T.DISTINCT : Nat := 12
/-- `NVARCHAR` -/
abbrev T.NVARCHAR : Nat := 13
/-- `RESTRICT` -/
abbrev T.RESTRICT : Nat := 14
/-- `TRUNCATE` -/
abbrev T.TRUNCATE : Nat := 15
/-- `ANALYZE` -/
abbrev T.ANALYZE : Nat := 16
/-- `BETWEEN` -/
abbrev T.BETWEEN : Nat := 17
/-- `CASCADE` -/
abbrev T.CASCADE : Nat := 18
/-- `COLUMNS` -/
abbrev T.COLUMNS : Nat := 19
/-- `CONTROL` -/
abbrev T.CONTROL : Nat := 20
/-- `DEFAULT` -/
abbrev T.DEFAULT : Nat := 21
/-- `EXECUTE` -/
abbrev T.EXECUTE : Nat := 22
/-- `EXPLAIN` -/
abbrev T.EXPLAIN : Nat := 23
/-- `ENCODING` -/
abbrev T.ENCODING : Nat := 24
/-- `INTEGER` -/
abbrev T.INTEGER : Nat := 25
/-- `NATURAL` -/
abbrev T.NATURAL : Nat := 26
/-- `PREPARE` -/
abbrev T.PREPARE : Nat := 27
/-- `SCHEMAS` -/
abbrev T.SCHEMAS : Nat := 28
/-- `CHARACTER_VARYING` -/
abbrev T.CHARACTER_VARYING : Nat := 29
/-- `REAL` -/
abbrev T.REAL : Nat := 30
/-- `DECIMAL` -/
abbrev T.DECIMAL : Nat := 31
/-- `SMALLINT` -/
abbrev T.SMALLINT : Nat := 32
/-- `BIGINT` -/
abbrev T.BIGINT : Nat := 33
/-- `SPATIAL` -/
abbrev T.SPATIAL : Nat := 34
/-- `VARCHAR` -/
abbrev T.VARCHAR : Nat := 35
/-- `VIRTUAL` -/
abbrev T.VIRTUAL : Nat := 36
/-- `DESCRIBE` -/
abbrev T.DESCRIBE : Nat := 37
/-- `BEFORE` -/
abbrev T.BEFORE : Nat := 38
/-- `COLUMN` -/
abbrev T.COLUMN : Nat := 39
/-- `CREATE` -/
abbrev T.CREATE : Nat := 40
/-- `DELETE` -/
abbrev T.DELETE : Nat := 41
/-- `DIRECT` -/
abbrev T.DIRECT : Nat := 42
/-- `DOUBLE` -/
abbrev T.DOUBLE : Nat := 43
/-- `ESCAPE` -/
abbrev T.ESCAPE : Nat := 44
/-- `EXCEPT` -/
abbrev T.EXCEPT : Nat := 45
/-- `EXISTS` -/
abbrev T.EXISTS : Nat := 46
/-- `EXTRACT` -/
abbrev T.EXTRACT : Nat := 47
/-- `CAST` -/
abbrev T.CAST : Nat := 48
/-- `FORMAT` -/
abbrev T.FORMAT : Nat := 49
/-- `GLOBAL` -/
abbrev T.GLOBAL : Nat := 50
/-- `HAVING` -/
abbrev T.HAVING : Nat := 51
/-- `IMPORT` -/
abbrev T.IMPORT : Nat := 52
/-- `INSERT` -/
abbrev T.INSERT : Nat := 53
/-- `ISNULL` -/
abbrev T.ISNULL : Nat := 54
/-- `OFFSET` -/
abbrev T.OFFSET : Nat := 55
/-- `RENAME` -/
abbrev T.RENAME : Nat := 56
/-- `SCHEMA` -/
abbrev T.SCHEMA : Nat := 57
/-- `SELECT` -/
abbrev T.SELECT : Nat := 58
/-- `SORTED` -/
abbrev T.SORTED : Nat := 59
/-- `TABLES` -/
abbrev T.TABLES : Nat := 60
/-- `UNLOAD` -/
abbrev T.UNLOAD : Nat := 61
/-- `UPDATE` -/
abbrev T.UPDATE : Nat := 62
/-- `VALUES` -/
abbrev T.VALUES : Nat := 63
/-- `AFTER` -/
abbrev T.AFTER : Nat := 64
/-- `ALTER` -/
abbrev T.ALTER : Nat := 65
/-- `CROSS` -/
abbrev T.CROSS : Nat := 66
/-- `DELTA` -/
abbrev T.DELTA : Nat := 67
/-- `FLOAT` -/
abbrev T.FLOAT : Nat := 68
/-- `GROUP` -/
abbrev T.GROUP : Nat := 69
/-- `INDEX` -/
abbrev T.INDEX : Nat := 70
/-- `INNER` -/
abbrev T.INNER : Nat := 71
/-- `LIMIT` -/
abbrev T.LIMIT : Nat := 72
/-- `LOCAL` -/
abbrev T.LOCAL : Nat := 73
/-- `MERGE` -/
abbrev T.MERGE : Nat := 74
/-- `MINUS` -/
abbrev T.MINUS : Nat := 75
/-- `ORDER` -/
abbrev T.ORDER : Nat := 76
/-- `OVER` -/
abbrev T.OVER : Nat := 77
/-- `OUTER` -/
abbrev T.OUTER : Nat := 78
/-- `RIGHT` -/
abbrev T.RIGHT : Nat := 79
/-- `TABLE` -/
abbrev T.TABLE : Nat := 80
/-- `UNION` -/
abbrev T.UNION : Nat := 81
/-- `USING` -/
abbrev T.USING : Nat := 82
/-- `WHERE` -/
abbrev T.WHERE : Nat := 83
/-- `CALL` -/
abbrev T.CALL : Nat := 84
/-- `CASE` -/
abbrev T.CASE : Nat := 85
/-- `CHAR` -/
abbrev T.CHAR : Nat := 86
/-- `COPY` -/
abbrev T.COPY : Nat := 87
/-- `DATE` -/
abbrev T.DATE : Nat := 88
/-- `DATETIME` -/
abbrev T.DATETIME : Nat := 89
/-- `DESC` -/
abbrev T.DESC : Nat := 90
/-- `DROP` -/
abbrev T.DROP : Nat := 91
/-- `ELSE` -/
abbrev T.ELSE : Nat := 92
/-- `FILE` -/
abbrev T.FILE : Nat := 93
/-- `FROM` -/
abbrev T.FROM : Nat := 94
/-- `FULL` -/
abbrev T.FULL : Nat := 95
/-- `HASH` -/
abbrev T.HASH : Nat := 96
/-- `HINT` -/
abbrev T.HINT : Nat := 97
/-- `INTO` -/
abbrev T.INTO : Nat := 98
/-- `JOIN` -/
abbrev T.JOIN : Nat := 99
/-- `LEFT` -/
abbrev T.LEFT : Nat := 100
/-- `LIKE` -/
abbrev T.LIKE : Nat := 101
/-- `LOAD` -/
abbrev T.LOAD : Nat := 102
/-- `LONG` -/
abbrev T.LONG : Nat := 103
/-- `NULL` -/
abbrev T.NULL : Nat := 104
/-- `PARTITION` -/
abbrev T.PARTITION : Nat := 105
/-- `PLAN` -/
abbrev T.PLAN : Nat := 106
/-- `SHOW` -/
abbrev T.SHOW : Nat := 107
/-- `TEXT` -/
abbrev T.TEXT : Nat := 108
/-- `THEN` -/
abbrev T.THEN : Nat := 109
/-- `TIME` -/
abbrev T.TIME : Nat := 110
/-- `VIEW` -/
abbrev T.VIEW : Nat := 111
/-- `WHEN` -/
abbrev T.WHEN : Nat := 112
/-- `WITH` -/
abbrev T.WITH : Nat := 113
/-- `ADD` -/
abbrev T.ADD : Nat := 114
/-- `ALL` -/
abbrev T.ALL : Nat := 115
/-- `AND` -/
abbrev T.AND : Nat := 116
/-- `ASC` -/
abbrev T.ASC : Nat := 117
/-- `END` -/
abbrev T.END : Nat := 118
/-- `FOR` -/
abbrev T.FOR : Nat := 119
/-- `INT` -/
abbrev T.INT : Nat := 120
/-- `NOT` -/
abbrev T.NOT : Nat := 121
/-- `OFF` -/
abbrev T.OFF : Nat := 122
/-- `SET` -/
abbrev T.SET : Nat := 123
/-- `TOP` -/
abbrev T.TOP : Nat := 124
/-- `AS` -/
abbrev T.AS : Nat := 125
/-- `BY` -/
abbrev T.BY : Nat := 126
/-- `IF` -/
abbrev T.IF : Nat := 127
/-- `IN` -/
abbrev T.IN : Nat := 128
/-- `IS` -/
abbrev T.IS : Nat := 129
/-- `OF` -/
abbrev T.OF : Nat := 130
/-- `ON` -/
abbrev T.ON : Nat := 131
/-- `OR` -/
abbrev T.OR : Nat := 132
/-- `TO` -/
abbrev T.TO : Nat := 133
/-- `NO` -/
abbrev T.NO : Nat := 134
/-- `ARRAY` -/
abbrev T.ARRAY : Nat := 135
/-- `CONCAT` -/
abbrev T.CONCAT : Nat := 136
/-- `ILIKE` -/
abbrev T.ILIKE : Nat := 137
/-- `SECOND` -/
abbrev T.SECOND : Nat := 138
/-- `MINUTE` -/
abbrev T.MINUTE : Nat := 139
/-- `HOUR` -/
abbrev T.HOUR : Nat := 140
/-- `DAY` -/
abbrev T.DAY : Nat := 141
/-- `MONTH` -/
abbrev T.MONTH : Nat := 142
/-- `YEAR` -/
abbrev T.YEAR : Nat := 143
/-- `SECONDS` -/
abbrev T.SECONDS : Nat := 144
/-- `MINUTES` -/
abbrev T.MINUTES : Nat := 145
/-- `HOURS` -/
abbrev T.HOURS : Nat := 146
/-- `DAYS` -/
abbrev T.DAYS : Nat := 147
/-- `MONTHS` -/
abbrev T.MONTHS : Nat := 148
/-- `YEARS` -/
abbrev T.YEARS : Nat := 149
/-- `INTERVAL` -/
abbrev T.INTERVAL : Nat := 150
/-- `TRUE` -/
abbrev T.TRUE : Nat := 151
/-- `FALSE` -/
abbrev T.FALSE : Nat := 152
/-- `BOOLEAN` -/
abbrev T.BOOLEAN : Nat := 153
/-- `TRANSACTION` -/
abbrev T.TRANSACTION : Nat := 154
/-- `BEGIN` -/
abbrev T.BEGIN : Nat := 155
/-- `COMMIT` -/
abbrev T.COMMIT : Nat := 156
/-- `ROLLBACK` -/
abbrev T.ROLLBACK : Nat := 157
/-- `NOWAIT` -/
abbrev T.NOWAIT : Nat := 158
/-- `SKIP` -/
abbrev T.SKIP : Nat := 159
/-- `LOCKED` -/
abbrev T.LOCKED : Nat := 160
/-- `SHARE` -/
abbrev T.SHARE : Nat := 161
/-- `RANGE` -/
abbrev T.RANGE : Nat := 162
/-- `ROWS` -/
abbrev T.ROWS : Nat := 163
/-- `GROUPS` -/
abbrev T.GROUPS : Nat := 164
/-- `UNBOUNDED` -/
abbrev T.UNBOUNDED : Nat := 165
/-- `FOLLOWING` -/
abbrev T.FOLLOWING : Nat := 166
/-- `PRECEDING` -/
abbrev T.PRECEDING : Nat := 167
/-- `CURRENT_ROW` -/
abbrev T.CURRENT_ROW : Nat := 168
/-- `UNIQUE` -/
abbrev T.UNIQUE : Nat := 169
/-- `PRIMARY` -/
abbrev T.PRIMARY : Nat := 170
/-- `FOREIGN` -/
abbrev T.FOREIGN : Nat := 171
/-- `KEY` -/
abbrev T.KEY : Nat := 172
/-- `REFERENCES` -/
abbrev T.REFERENCES : Nat := 173
/-- `'='` -/
abbrev T.EQ : Nat := 174
/-- `EQUALS` -/
abbrev T.EQUALS : Nat := 175
/-- `NOTEQUALS` -/
abbrev T.NOTEQUALS : Nat := 176
/-- `'<'` -/
abbrev T.LT : Nat := 177
/-- `'>'` -/
abbrev T.GT : Nat := 178
/-- `LESS` -/
abbrev T.LESS : Nat := 179
/-- `GREATER` -/
abbrev T.GREATER : Nat := 180
/-- `LESSEQ` -/
abbrev T.LESSEQ : Nat := 181
/-- `GREATEREQ` -/
abbrev T.GREATEREQ : Nat := 182
/-- `NOTNULL` -/
abbrev T.NOTNULL : Nat := 183
/-- `'+'` -/
abbrev T.PLUS : Nat := 184
/-- `'-'` -/
abbrev T.HYPHEN : Nat := 185
/-- `'*'` -/
abbrev T.STAR : Nat := 186
/-- `'/'` -/
abbrev T.SLASH : Nat := 187
/-- `'%'` -/
abbrev T.PERCENT : Nat := 188
/-- `'^'` -/
abbrev T.CARET : Nat := 189
/-- `UMINUS` -/
abbrev T.UMINUS : Nat := 190
/-- `'['` -/
abbrev T.LBRACKET : Nat := 191
/-- `']'` -/
abbrev T.RBRACKET : Nat := 192
/-- `'('` -/
abbrev T.LPAREN : Nat := 193
/-- `')'` -/
abbrev T.RPAREN : Nat := 194
/-- `'.'` -/
abbrev T.DOT : Nat := 195
/-- `';'` -/
abbrev T.SEMI : Nat := 196
/-- `','` -/
abbrev T.COMMA : Nat := 197
/-- `'?'` -/
abbrev T.QMARK : Nat := 198
/-- `$accept` -/
abbrev N.accept : Nat := 199
/-- `input` -/
abbrev N.input : Nat := 200
/-- `statement_list` -/
abbrev N.statement_list : Nat := 201
/-- `statement` -/
abbrev N.statement : Nat := 202
/-- `preparable_statement` -/
abbrev N.preparable_statement : Nat := 203
/-- `opt_hints` -/
abbrev N.opt_hints : Nat := 204
/-- `hint_list` -/
abbrev N.hint_list : Nat := 205
/-- `hint` -/
abbrev N.hint : Nat := 206
/-- `transaction_statement` -/
abbrev N.transaction_statement : Nat := 207
/-- `opt_transaction_keyword` -/
abbrev N.opt_transaction_keyword : Nat := 208
/-- `prepare_statement` -/
abbrev N.prepare_statement : Nat := 209
/-- `prepare_target_query` -/
abbrev N.prepare_target_query : Nat := 210
/-- `execute_statement` -/
abbrev N.execute_statement : Nat := 211
/-- `import_statement` -/
abbrev N.import_statement : Nat := 212
/-- `file_type` -/
abbrev N.file_type : Nat := 213
/-- `file_path` -/
abbrev N.file_path : Nat := 214
/-- `opt_import_export_options` -/
abbrev N.opt_import_export_options : Nat := 215
/-- `import_export_options` -/
abbrev N.import_export_options : Nat := 216
/-- `csv_option` -/
abbrev N.csv_option : Nat := 217
/-- `export_statement` -/
abbrev N.export_statement : Nat := 218
/-- `show_statement` -/
abbrev N.show_statement : Nat := 219
/-- `create_statement` -/
abbrev N.create_statement : Nat := 220
/-- `opt_not_exists` -/
abbrev N.opt_not_exists : Nat := 221
/-- `table_elem_commalist` -/
abbrev N.table_elem_commalist : Nat := 222
/-- `table_elem` -/
abbrev N.table_elem : Nat := 223
/-- `column_def` -/
abbrev N.column_def : Nat := 224
/-- `column_type` -/
abbrev N.column_type : Nat := 225
/-- `opt_time_precision` -/
abbrev N.opt_time_precision : Nat := 226
/-- `opt_decimal_specification` -/
abbrev N.opt_decimal_specification : Nat := 227
/-- `opt_column_constraints` -/
abbrev N.opt_column_constraints : Nat := 228
/-- `column_constraints` -/
abbrev N.column_constraints : Nat := 229
/-- `column_constraint` -/
abbrev N.column_constraint : Nat := 230
/-- `table_constraint` -/
abbrev N.table_constraint : Nat := 231
/-- `references_spec` -/
abbrev N.references_spec : Nat := 232
/-- `drop_statement` -/
abbrev N.drop_statement : Nat := 233
/-- `opt_exists` -/
abbrev N.opt_exists : Nat := 234
/-- `alter_statement` -/
abbrev N.alter_statement : Nat := 235
/-- `alter_action` -/
abbrev N.alter_action : Nat := 236
/-- `drop_action` -/
abbrev N.drop_action : Nat := 237
/-- `delete_statement` -/
abbrev N.delete_statement : Nat := 238
/-- `truncate_statement` -/
abbrev N.truncate_statement : Nat := 239
/-- `insert_statement` -/
abbrev N.insert_statement : Nat := 240
/-- `opt_column_list` -/
abbrev N.opt_column_list : Nat := 241
/-- `update_statement` -/
abbrev N.update_statement : Nat := 242
/-- `update_clause_commalist` -/
abbrev N.update_clause_commalist : Nat := 243
/-- `update_clause` -/
abbrev N.update_clause : Nat := 244
/-- `select_statement` -/
abbrev N.select_statement : Nat := 245
/-- `select_within_set_operation` -/
abbrev N.select_within_set_operation : Nat := 246
/-- `select_within_set_operation_no_parentheses` -/
abbrev N.select_within_set_operation_no_parentheses : Nat := 247
/-- `select_with_paren` -/
abbrev N.select_with_paren : Nat := 248
/-- `select_no_paren` -/
abbrev N.select_no_paren : Nat := 249
/-- `set_operator` -/
abbrev N.set_operator : Nat := 250
/-- `set_type` -/
abbrev N.set_type : Nat := 251
/-- `opt_all` -/
abbrev N.opt_all : Nat := 252
/-- `select_clause` -/
abbrev N.select_clause : Nat := 253
/-- `opt_distinct` -/
abbrev N.opt_distinct : Nat := 254
/-- `select_list` -/
abbrev N.select_list : Nat := 255
/-- `opt_from_clause` -/
abbrev N.opt_from_clause : Nat := 256
/-- `from_clause` -/
abbrev N.from_clause : Nat := 257
/-- `opt_where` -/
abbrev N.opt_where : Nat := 258
/-- `opt_group` -/
abbrev N.opt_group : Nat := 259
/-- `opt_having` -/
abbrev N.opt_having : Nat := 260
/-- `opt_order` -/
abbrev N.opt_order : Nat := 261
/-- `order_list` -/
abbrev N.order_list : Nat := 262
/-- `order_desc` -/
abbrev N.order_desc : Nat := 263
/-- `opt_order_type` -/
abbrev N.opt_order_type : Nat := 264
/-- `opt_null_ordering` -/
abbrev N.opt_null_ordering : Nat := 265
/-- `opt_top` -/
abbrev N.opt_top : Nat := 266
/-- `opt_limit` -/
abbrev N.opt_limit : Nat := 267
/-- `expr_list` -/
abbrev N.expr_list : Nat := 268
/-- `opt_extended_literal_list` -/
abbrev N.opt_extended_literal_list : Nat := 269
/-- `extended_literal_list` -/
abbrev N.extended_literal_list : Nat := 270
/-- `casted_extended_literal` -/
abbrev N.casted_extended_literal : Nat := 271
/-- `extended_literal` -/
abbrev N.extended_literal : Nat := 272
/-- `expr_alias` -/
abbrev N.expr_alias : Nat := 273
/-- `expr` -/
abbrev N.expr : Nat := 274
/-- `operand` -/
abbrev N.operand : Nat := 275
/-- `scalar_expr` -/
abbrev N.scalar_expr : Nat := 276
/-- `unary_expr` -/
abbrev N.unary_expr : Nat := 277
/-- `binary_expr` -/
abbrev N.binary_expr : Nat := 278
/-- `logic_expr` -/
abbrev N.logic_expr : Nat := 279
/-- `in_expr` -/
abbrev N.in_expr : Nat := 280
/-- `case_expr` -/
abbrev N.case_expr : Nat := 281
/-- `case_list` -/
abbrev N.case_list : Nat := 282
/-- `exists_expr` -/
abbrev N.exists_expr : Nat := 283
/-- `comp_expr` -/
abbrev N.comp_expr : Nat := 284
/-- `function_expr` -/
abbrev N.function_expr : Nat := 285
/-- `opt_window` -/
abbrev N.opt_window : Nat := 286
/-- `opt_partition` -/
abbrev N.opt_partition : Nat := 287
/-- `opt_frame_clause` -/
abbrev N.opt_frame_clause : Nat := 288
/-- `frame_type` -/
abbrev N.frame_type : Nat := 289
/-- `frame_bound` -/
abbrev N.frame_bound : Nat := 290
/-- `extract_expr` -/
abbrev N.extract_expr : Nat := 291
/-- `cast_expr` -/
abbrev N.cast_expr : Nat := 292
/-- `datetime_field` -/
abbrev N.datetime_field : Nat := 293
/-- `datetime_field_plural` -/
abbrev N.datetime_field_plural : Nat := 294
/-- `duration_field` -/
abbrev N.duration_field : Nat := 295
/-- `array_expr` -/
abbrev N.array_expr : Nat := 296
/-- `array_index` -/
abbrev N.array_index : Nat := 297
/-- `between_expr` -/
abbrev N.between_expr : Nat := 298
/-- `column_name` -/
abbrev N.column_name : Nat := 299
/-- `literal` -/
abbrev N.literal : Nat := 300
/-- `string_literal` -/
abbrev N.string_literal : Nat := 301
/-- `bool_literal` -/
abbrev N.bool_literal : Nat := 302
/-- `num_literal` -/
abbrev N.num_literal : Nat := 303
/-- `int_literal` -/
abbrev N.int_literal : Nat := 304
/-- `null_literal` -/
abbrev N.null_literal : Nat := 305
/-- `date_literal` -/
abbrev N.date_literal : Nat := 306
/-- `interval_literal` -/
abbrev N.interval_literal : Nat := 307
/-- `param_expr` -/
abbrev N.param_expr : Nat := 308
/-- `table_ref` -/
abbrev N.table_ref : Nat := 309
/-- `table_ref_atomic` -/
abbrev N.table_ref_atomic : Nat := 310
/-- `nonjoin_table_ref_atomic` -/
abbrev N.nonjoin_table_ref_atomic : Nat := 311
/-- `table_ref_commalist` -/
abbrev N.table_ref_commalist : Nat := 312
/-- `table_ref_name` -/
abbrev N.table_ref_name : Nat := 313
/-- `table_ref_name_no_alias` -/
abbrev N.table_ref_name_no_alias : Nat := 314
/-- `table_name` -/
abbrev N.table_name : Nat := 315
/-- `opt_index_name` -/
abbrev N.opt_index_name : Nat := 316
/-- `table_alias` -/
abbrev N.table_alias : Nat := 317
/-- `opt_table_alias` -/
abbrev N.opt_table_alias : Nat := 318
/-- `alias` -/
abbrev N.alias : Nat := 319
/-- `opt_alias` -/
abbrev N.opt_alias : Nat := 320
/-- `opt_locking_clause` -/
abbrev N.opt_locking_clause : Nat := 321
/-- `opt_locking_clause_list` -/
abbrev N.opt_locking_clause_list : Nat := 322
/-- `locking_clause` -/
abbrev N.locking_clause : Nat := 323
/-- `row_lock_mode` -/
abbrev N.row_lock_mode : Nat := 324
/-- `opt_row_lock_policy` -/
abbrev N.opt_row_lock_policy : Nat := 325
/-- `opt_with_clause` -/
abbrev N.opt_with_clause : Nat := 326
/-- `with_clause` -/
abbrev N.with_clause : Nat := 327
/-- `with_description_list` -/
abbrev N.with_description_list : Nat := 328
/-- `with_description` -/
abbrev N.with_description : Nat := 329
/-- `join_clause` -/
abbrev N.join_clause : Nat := 330
/-- `opt_join_type` -/
abbrev N.opt_join_type : Nat := 331
/-- `join_condition` -/
abbrev N.join_condition : Nat := 332
/-- `opt_semicolon` -/
abbrev N.opt_semicolon : Nat := 333
/-- `ident_commalist` -/
abbrev N.ident_commalist : Nat := 334

/-- A grammar rule: left-hand side and right-hand side. -/
abbrev Rule := Nat × List Nat

/-- The rules, numbered as bison numbers them (index 0 is unused; rule 1 is bison's `$accept: input $end`).
The comment gives the line of bison_parser.y. -/
def rules : List Rule := [
  (T.eof, []),  -- 0
  (N.accept, [N.input, T.eof]),  -- 1
  (N.input, [N.statement_list, N.opt_semicolon]),  -- 2: .y line 343
  (N.statement_list, [N.statement]),  -- 3: .y line 362
  (N.statement_list, [N.statement_list, T.SEMI, N.statement]),  -- 4: .y line 368
  (N.statement, [N.prepare_statement, N.opt_hints]),  -- 5: .y line 375
  (N.statement, [N.preparable_statement, N.opt_hints]),  -- 6: .y line 379
  (N.statement, [N.show_statement]),  -- 7: .y line 383
  (N.statement, [N.import_statement]),  -- 8: .y line 384
  (N.statement, [N.export_statement]),  -- 9: .y line 385
  (N.preparable_statement, [N.select_statement]),  -- 10: .y line 387
  (N.preparable_statement, [N.create_statement]),  -- 11: .y line 388
  (N.preparable_statement, [N.insert_statement]),  -- 12: .y line 389
  (N.preparable_statement, [N.delete_statement]),  -- 13: .y line 390
  (N.preparable_statement, [N.truncate_statement]),  -- 14: .y line 391
  (N.preparable_statement, [N.update_statement]),  -- 15: .y line 392
  (N.preparable_statement, [N.drop_statement]),  -- 16: .y line 393
  (N.preparable_statement, [N.alter_statement]),  -- 17: .y line 394
  (N.preparable_statement, [N.execute_statement]),  -- 18: .y line 395
  (N.preparable_statement, [N.transaction_statement]),  -- 19: .y line 396
  (N.opt_hints, [T.WITH, T.HINT, T.LPAREN, N.hint_list, T.RPAREN]),  -- 20: .y line 402
  (N.opt_hints, []),  -- 21: .y line 403
  (N.hint_list, [N.hint]),  -- 22: .y line 405
  (N.hint_list, [N.hint_list, T.COMMA, N.hint]),  -- 23: .y line 409
  (N.hint, [T.IDENTIFIER]),  -- 24: .y line 414
  (N.hint, [T.IDENTIFIER, T.LPAREN, N.extended_literal_list, T.RPAREN]),  -- 25: .y line 418
  (N.transaction_statement, [T.BEGIN, N.opt_transaction_keyword]),  -- 26: .y line 428
  (N.transaction_statement, [T.ROLLBACK, N.opt_transaction_keyword]),  -- 27: .y line 429
  (N.transaction_statement, [T.COMMIT, N.opt_transaction_keyword]),  -- 28: .y line 430
  (N.opt_transaction_keyword, [T.TRANSACTION]),  -- 29: .y line 432
  (N.opt_transaction_keyword, []),  -- 30: .y line 432
  (N.prepare_statement, [T.PREPARE, T.IDENTIFIER, T.FROM, N.prepare_target_query]),  -- 31: .y line 438
  (N.prepare_target_query, [T.STRING]),  -- 32: .y line 444
  (N.execute_statement, [T.EXECUTE, T.IDENTIFIER]),  -- 33: .y line 446
  (N.execute_statement, [T.EXECUTE, T.IDENTIFIER, T.LPAREN, N.opt_extended_literal_list, T.RPAREN]),  -- 34: .y line 450
  (N.import_statement, [T.IMPORT, T.FROM, N.file_type, T.FILE, N.file_path, T.INTO, N.table_name]),  -- 35: .y line 462
  (N.import_statement, [T.COPY, N.table_name, T.FROM, N.file_path, N.opt_import_export_options, N.opt_where]),  -- 36: .y line 468
  (N.file_type, [T.IDENTIFIER]),  -- 37: .y line 485
  (N.file_path, [T.STRING]),  -- 38: .y line 500
  (N.opt_import_export_options, [T.WITH, T.LPAREN, N.import_export_options, T.RPAREN]),  -- 39: .y line 502
  (N.opt_import_export_options, [T.LPAREN, N.import_export_options, T.RPAREN]),  -- 40: .y line 503
  (N.opt_import_export_options, []),  -- 41: .y line 504
  (N.import_export_options, [N.import_export_options, T.COMMA, T.FORMAT, N.file_type]),  -- 42: .y line 506
  (N.import_export_options, [T.FORMAT, N.file_type]),  -- 43: .y line 520
  (N.import_export_options, [N.import_export_options, T.COMMA, T.ENCODING, T.STRING]),  -- 44: .y line 524
  (N.import_export_options, [T.ENCODING, T.STRING]),  -- 45: .y line 534
  (N.import_export_options, [N.import_export_options, T.COMMA, N.csv_option]),  -- 46: .y line 538
  (N.import_export_options, [N.csv_option]),  -- 47: .y line 562
  (N.csv_option, [T.IDENTIFIER, T.STRING]),  -- 48: .y line 570
  (N.csv_option, [T.NULL, T.STRING]),  -- 49: .y line 583
  (N.export_statement, [T.COPY, N.table_name, T.TO, N.file_path, N.opt_import_export_options]),  -- 50: .y line 590
  (N.export_statement, [T.COPY, N.select_with_paren, T.TO, N.file_path, N.opt_import_export_options]),  -- 51: .y line 605
  (N.show_statement, [T.SHOW, T.TABLES]),  -- 52: .y line 625
  (N.show_statement, [T.SHOW, T.COLUMNS, N.table_name]),  -- 53: .y line 626
  (N.show_statement, [T.DESCRIBE, N.table_name]),  -- 54: .y line 631
  (N.create_statement, [T.CREATE, T.TABLE, N.opt_not_exists, N.table_name, T.FROM, T.IDENTIFIER, T.FILE, N.file_path]),  -- 55: .y line 642
  (N.create_statement, [T.CREATE, T.TABLE, N.opt_not_exists, N.table_name, T.LPAREN, N.table_elem_commalist, T.RPAREN]),  -- 56: .y line 655
  (N.create_statement, [T.CREATE, T.TABLE, N.opt_not_exists, N.table_name, T.AS, N.select_statement]),  -- 57: .y line 667
  (N.create_statement, [T.CREATE, T.INDEX, N.opt_not_exists, N.opt_index_name, T.ON, N.table_name, T.LPAREN, N.ident_commalist, T.RPAREN]),  -- 58: .y line 674
  (N.create_statement, [T.CREATE, T.VIEW, N.opt_not_exists, N.table_name, N.opt_column_list, T.AS, N.select_statement]),  -- 59: .y line 681
  (N.opt_not_exists, [T.IF, T.NOT, T.EXISTS]),  -- 60: .y line 690
  (N.opt_not_exists, []),  -- 61: .y line 691
  (N.table_elem_commalist, [N.table_elem]),  -- 62: .y line 693
  (N.table_elem_commalist, [N.table_elem_commalist, T.COMMA, N.table_elem]),  -- 63: .y line 697
  (N.table_elem, [N.column_def]),  -- 64: .y line 702
  (N.table_elem, [N.table_constraint]),  -- 65: .y line 703
  (N.column_def, [T.IDENTIFIER, N.column_type, N.opt_column_constraints]),  -- 66: .y line 705
  (N.column_type, [T.BIGINT]),  -- 67: .y line 713
  (N.column_type, [T.BOOLEAN]),  -- 68: .y line 714
  (N.column_type, [T.CHAR, T.LPAREN, T.INTVAL, T.RPAREN]),  -- 69: .y line 715
  (N.column_type, [T.CHARACTER_VARYING, T.LPAREN, T.INTVAL, T.RPAREN]),  -- 70: .y line 716
  (N.column_type, [T.DATE]),  -- 71: .y line 717
  (N.column_type, [T.DATETIME]),  -- 72: .y line 718
  (N.column_type, [T.DECIMAL, N.opt_decimal_specification]),  -- 73: .y line 719
  (N.column_type, [T.DOUBLE]),  -- 74: .y line 723
  (N.column_type, [T.FLOAT]),  -- 75: .y line 724
  (N.column_type, [T.INT]),  -- 76: .y line 725
  (N.column_type, [T.INTEGER]),  -- 77: .y line 726
  (N.column_type, [T.LONG]),  -- 78: .y line 727
  (N.column_type, [T.REAL]),  -- 79: .y line 728
  (N.column_type, [T.SMALLINT]),  -- 80: .y line 729
  (N.column_type, [T.TEXT]),  -- 81: .y line 730
  (N.column_type, [T.TIME, N.opt_time_precision]),  -- 82: .y line 731
  (N.column_type, [T.TIMESTAMP]),  -- 83: .y line 732
  (N.column_type, [T.VARCHAR, T.LPAREN, T.INTVAL, T.RPAREN]),  -- 84: .y line 733
  (N.opt_time_precision, [T.LPAREN, T.INTVAL, T.RPAREN]),  -- 85: .y line 735
  (N.opt_time_precision, []),  -- 86: .y line 736
  (N.opt_decimal_specification, [T.LPAREN, T.INTVAL, T.COMMA, T.INTVAL, T.RPAREN]),  -- 87: .y line 738
  (N.opt_decimal_specification, [T.LPAREN, T.INTVAL, T.RPAREN]),  -- 88: .y line 739
  (N.opt_decimal_specification, []),  -- 89: .y line 740
  (N.opt_column_constraints, [N.column_constraints]),  -- 90: .y line 742
  (N.opt_column_constraints, []),  -- 91: .y line 743
  (N.column_constraints, [N.column_constraint]),  -- 92: .y line 745
  (N.column_constraints, [N.column_constraints, N.column_constraint]),  -- 93: .y line 749
  (N.column_constraints, [N.references_spec]),  -- 94: .y line 753
  (N.column_constraints, [N.column_constraints, N.references_spec]),  -- 95: .y line 758
  (N.column_constraint, [T.PRIMARY, T.KEY]),  -- 96: .y line 766
  (N.column_constraint, [T.UNIQUE]),  -- 97: .y line 767
  (N.column_constraint, [T.NULL]),  -- 98: .y line 768
  (N.column_constraint, [T.NOT, T.NULL]),  -- 99: .y line 769
  (N.table_constraint, [T.PRIMARY, T.KEY, T.LPAREN, N.ident_commalist, T.RPAREN]),  -- 100: .y line 771
  (N.table_constraint, [T.UNIQUE, T.LPAREN, N.ident_commalist, T.RPAREN]),  -- 101: .y line 772
  (N.table_constraint, [T.FOREIGN, T.KEY, T.LPAREN, N.ident_commalist, T.RPAREN, N.references_spec]),  -- 102: .y line 773
  (N.references_spec, [T.REFERENCES, N.table_name, N.opt_column_list]),  -- 103: .y line 775
  (N.drop_statement, [T.DROP, T.TABLE, N.opt_exists, N.table_name]),  -- 104: .y line 783
  (N.drop_statement, [T.DROP, T.VIEW, N.opt_exists, N.table_name]),  -- 105: .y line 789
  (N.drop_statement, [T.DEALLOCATE, T.PREPARE, T.IDENTIFIER]),  -- 106: .y line 795
  (N.drop_statement, [T.DROP, T.INDEX, N.opt_exists, T.IDENTIFIER]),  -- 107: .y line 801
  (N.opt_exists, [T.IF, T.EXISTS]),  -- 108: .y line 807
  (N.opt_exists, []),  -- 109: .y line 808
  (N.alter_statement, [T.ALTER, T.TABLE, N.opt_exists, N.table_name, N.alter_action]),  -- 110: .y line 815
  (N.alter_action, [N.drop_action]),  -- 111: .y line 821
  (N.drop_action, [T.DROP, T.COLUMN, N.opt_exists, T.IDENTIFIER]),  -- 112: .y line 823
  (N.delete_statement, [T.DELETE, T.FROM, N.table_name, N.opt_where]),  -- 113: .y line 833
  (N.truncate_statement, [T.TRUNCATE, N.table_name]),  -- 114: .y line 840
  (N.insert_statement, [T.INSERT, T.INTO, N.table_name, N.opt_column_list, T.VALUES, T.LPAREN, N.extended_literal_list, T.RPAREN]),  -- 115: .y line 851
  (N.insert_statement, [T.INSERT, T.INTO, N.table_name, N.opt_column_list, N.select_no_paren]),  -- 116: .y line 858
  (N.opt_column_list, [T.LPAREN, N.ident_commalist, T.RPAREN]),  -- 117: .y line 866
  (N.opt_column_list, []),  -- 118: .y line 867
  (N.update_statement, [T.UPDATE, N.table_ref_name_no_alias, T.SET, N.update_clause_commalist, N.opt_where]),  -- 119: .y line 874
  (N.update_clause_commalist, [N.update_clause]),  -- 120: .y line 881
  (N.update_clause_commalist, [N.update_clause_commalist, T.COMMA, N.update_clause]),  -- 121: .y line 885
  (N.update_clause, [T.IDENTIFIER, T.EQ, N.expr]),  -- 122: .y line 890
  (N.select_statement, [N.opt_with_clause, N.select_with_paren]),  -- 123: .y line 900
  (N.select_statement, [N.opt_with_clause, N.select_no_paren]),  -- 124: .y line 904
  (N.select_statement, [N.opt_with_clause, N.select_with_paren, N.set_operator, N.select_within_set_operation, N.opt_order, N.opt_limit]),  -- 125: .y line 908
  (N.select_within_set_operation, [N.select_with_paren]),  -- 126: .y line 920
  (N.select_within_set_operation, [N.select_within_set_operation_no_parentheses]),  -- 127: .y line 920
  (N.select_within_set_operation_no_parentheses, [N.select_clause]),  -- 128: .y line 922
  (N.select_within_set_operation_no_parentheses, [N.select_clause, N.set_operator, N.select_within_set_operation]),  -- 129: .y line 923
  (N.select_with_paren, [T.LPAREN, N.select_no_paren, T.RPAREN]),  -- 130: .y line 932
  (N.select_with_paren, [T.LPAREN, N.select_with_paren, T.RPAREN]),  -- 131: .y line 933
  (N.select_no_paren, [N.select_clause, N.opt_order, N.opt_limit, N.opt_locking_clause]),  -- 132: .y line 935
  (N.select_no_paren, [N.select_clause, N.set_operator, N.select_within_set_operation, N.opt_order, N.opt_limit, N.opt_locking_clause]),  -- 133: .y line 949
  (N.set_operator, [N.set_type, N.opt_all]),  -- 134: .y line 961
  (N.set_type, [T.UNION]),  -- 135: .y line 966
  (N.set_type, [T.INTERSECT]),  -- 136: .y line 970
  (N.set_type, [T.EXCEPT]),  -- 137: .y line 974
  (N.opt_all, [T.ALL]),  -- 138: .y line 979
  (N.opt_all, []),  -- 139: .y line 980
  (N.select_clause, [T.SELECT, N.opt_top, N.opt_distinct, N.select_list, N.opt_from_clause, N.opt_where, N.opt_group]),  -- 140: .y line 982
  (N.opt_distinct, [T.DISTINCT]),  -- 141: .y line 992
  (N.opt_distinct, []),  -- 142: .y line 993
  (N.select_list, [N.expr_list]),  -- 143: .y line 995
  (N.opt_from_clause, [N.from_clause]),  -- 144: .y line 997
  (N.opt_from_clause, []),  -- 145: .y line 998
  (N.from_clause, [T.FROM, N.table_ref]),  -- 146: .y line 1000
  (N.opt_where, [T.WHERE, N.expr]),  -- 147: .y line 1002
  (N.opt_where, []),  -- 148: .y line 1003
  (N.opt_group, [T.GROUP, T.BY, N.expr_list, N.opt_having]),  -- 149: .y line 1005
  (N.opt_group, []),  -- 150: .y line 1010
  (N.opt_having, [T.HAVING, N.expr]),  -- 151: .y line 1012
  (N.opt_having, []),  -- 152: .y line 1013
  (N.opt_order, [T.ORDER, T.BY, N.order_list]),  -- 153: .y line 1015
  (N.opt_order, []),  -- 154: .y line 1016
  (N.order_list, [N.order_desc]),  -- 155: .y line 1018
  (N.order_list, [N.order_list, T.COMMA, N.order_desc]),  -- 156: .y line 1022
  (N.order_desc, [N.expr, N.opt_order_type, N.opt_null_ordering]),  -- 157: .y line 1027
  (N.opt_order_type, [T.ASC]),  -- 158: .y line 1029
  (N.opt_order_type, [T.DESC]),  -- 159: .y line 1030
  (N.opt_order_type, []),  -- 160: .y line 1031
  (N.opt_null_ordering, []),  -- 161: .y line 1033
  (N.opt_null_ordering, [T.IDENTIFIER, T.IDENTIFIER]),  -- 162: .y line 1034
  (N.opt_top, [T.TOP, N.int_literal]),  -- 163: .y line 1056
  (N.opt_top, []),  -- 164: .y line 1057
  (N.opt_limit, [T.LIMIT, N.expr]),  -- 165: .y line 1059
  (N.opt_limit, [T.OFFSET, N.expr]),  -- 166: .y line 1060
  (N.opt_limit, [T.LIMIT, N.expr, T.OFFSET, N.expr]),  -- 167: .y line 1061
  (N.opt_limit, [T.LIMIT, T.ALL]),  -- 168: .y line 1062
  (N.opt_limit, [T.LIMIT, T.ALL, T.OFFSET, N.expr]),  -- 169: .y line 1063
  (N.opt_limit, []),  -- 170: .y line 1064
  (N.expr_list, [N.expr_alias]),  -- 171: .y line 1069
  (N.expr_list, [N.expr_list, T.COMMA, N.expr_alias]),  -- 172: .y line 1073
  (N.opt_extended_literal_list, [N.extended_literal_list]),  -- 173: .y line 1079
  (N.opt_extended_literal_list, []),  -- 174: .y line 1080
  (N.extended_literal_list, [N.casted_extended_literal]),  -- 175: .y line 1082
  (N.extended_literal_list, [N.extended_literal_list, T.COMMA, N.casted_extended_literal]),  -- 176: .y line 1086
  (N.casted_extended_literal, [N.extended_literal]),  -- 177: .y line 1091
  (N.casted_extended_literal, [T.CAST, T.LPAREN, N.extended_literal, T.AS, N.column_type, T.RPAREN]),  -- 178: .y line 1091
  (N.extended_literal, [N.literal]),  -- 179: .y line 1095
  (N.extended_literal, [T.HYPHEN, N.num_literal]),  -- 180: .y line 1103
  (N.extended_literal, [T.HYPHEN, N.interval_literal]),  -- 181: .y line 1104
  (N.expr_alias, [N.expr, N.opt_alias]),  -- 182: .y line 1106
  (N.expr, [N.operand]),  -- 183: .y line 1115
  (N.expr, [N.between_expr]),  -- 184: .y line 1115
  (N.expr, [N.logic_expr]),  -- 185: .y line 1115
  (N.expr, [N.exists_expr]),  -- 186: .y line 1115
  (N.expr, [N.in_expr]),  -- 187: .y line 1115
  (N.operand, [T.LPAREN, N.expr, T.RPAREN]),  -- 188: .y line 1117
  (N.operand, [N.array_index]),  -- 189: .y line 1118
  (N.operand, [N.scalar_expr]),  -- 190: .y line 1118
  (N.operand, [N.unary_expr]),  -- 191: .y line 1118
  (N.operand, [N.binary_expr]),  -- 192: .y line 1118
  (N.operand, [N.case_expr]),  -- 193: .y line 1118
  (N.operand, [N.function_expr]),  -- 194: .y line 1118
  (N.operand, [N.extract_expr]),  -- 195: .y line 1118
  (N.operand, [N.cast_expr]),  -- 196: .y line 1118
  (N.operand, [N.array_expr]),  -- 197: .y line 1118
  (N.operand, [T.LPAREN, N.select_no_paren, T.RPAREN]),  -- 198: .y line 1119
  (N.scalar_expr, [N.column_name]),  -- 199: .y line 1123
  (N.scalar_expr, [N.literal]),  -- 200: .y line 1123
  (N.unary_expr, [T.HYPHEN, N.operand]),  -- 201: .y line 1125
  (N.unary_expr, [T.NOT, N.operand]),  -- 202: .y line 1126
  (N.unary_expr, [N.operand, T.ISNULL]),  -- 203: .y line 1127
  (N.unary_expr, [N.operand, T.IS, T.NULL]),  -- 204: .y line 1128
  (N.unary_expr, [N.operand, T.IS, T.NOT, T.NULL]),  -- 205: .y line 1129
  (N.binary_expr, [N.comp_expr]),  -- 206: .y line 1131
  (N.binary_expr, [N.operand, T.HYPHEN, N.operand]),  -- 207: .y line 1131
  (N.binary_expr, [N.operand, T.PLUS, N.operand]),  -- 208: .y line 1132
  (N.binary_expr, [N.operand, T.SLASH, N.operand]),  -- 209: .y line 1133
  (N.binary_expr, [N.operand, T.STAR, N.operand]),  -- 210: .y line 1134
  (N.binary_expr, [N.operand, T.PERCENT, N.operand]),  -- 211: .y line 1135
  (N.binary_expr, [N.operand, T.CARET, N.operand]),  -- 212: .y line 1136
  (N.binary_expr, [N.operand, T.LIKE, N.operand]),  -- 213: .y line 1137
  (N.binary_expr, [N.operand, T.NOT, T.LIKE, N.operand]),  -- 214: .y line 1138
  (N.binary_expr, [N.operand, T.ILIKE, N.operand]),  -- 215: .y line 1139
  (N.binary_expr, [N.operand, T.CONCAT, N.operand]),  -- 216: .y line 1140
  (N.logic_expr, [N.expr, T.AND, N.expr]),  -- 217: .y line 1142
  (N.logic_expr, [N.expr, T.OR, N.expr]),  -- 218: .y line 1143
  (N.in_expr, [N.operand, T.IN, T.LPAREN, N.expr_list, T.RPAREN]),  -- 219: .y line 1145
  (N.in_expr, [N.operand, T.NOT, T.IN, T.LPAREN, N.expr_list, T.RPAREN]),  -- 220: .y line 1146
  (N.in_expr, [N.operand, T.IN, T.LPAREN, N.select_no_paren, T.RPAREN]),  -- 221: .y line 1147
  (N.in_expr, [N.operand, T.NOT, T.IN, T.LPAREN, N.select_no_paren, T.RPAREN]),  -- 222: .y line 1148
  (N.case_expr, [T.CASE, N.expr, N.case_list, T.END]),  -- 223: .y line 1152
  (N.case_expr, [T.CASE, N.expr, N.case_list, T.ELSE, N.expr, T.END]),  -- 224: .y line 1153
  (N.case_expr, [T.CASE, N.case_list, T.END]),  -- 225: .y line 1154
  (N.case_expr, [T.CASE, N.case_list, T.ELSE, N.expr, T.END]),  -- 226: .y line 1155
  (N.case_list, [T.WHEN, N.expr, T.THEN, N.expr]),  -- 227: .y line 1157
  (N.case_list, [N.case_list, T.WHEN, N.expr, T.THEN, N.expr]),  -- 228: .y line 1158
  (N.exists_expr, [T.EXISTS, T.LPAREN, N.select_no_paren, T.RPAREN]),  -- 229: .y line 1160
  (N.exists_expr, [T.NOT, T.EXISTS, T.LPAREN, N.select_no_paren, T.RPAREN]),  -- 230: .y line 1161
  (N.comp_expr, [N.operand, T.EQ, N.operand]),  -- 231: .y line 1163
  (N.comp_expr, [N.operand, T.EQUALS, N.operand]),  -- 232: .y line 1164
  (N.comp_expr, [N.operand, T.NOTEQUALS, N.operand]),  -- 233: .y line 1165
  (N.comp_expr, [N.operand, T.LT, N.operand]),  -- 234: .y line 1166
  (N.comp_expr, [N.operand, T.GT, N.operand]),  -- 235: .y line 1167
  (N.comp_expr, [N.operand, T.LESSEQ, N.operand]),  -- 236: .y line 1168
  (N.comp_expr, [N.operand, T.GREATEREQ, N.operand]),  -- 237: .y line 1169
  (N.function_expr, [T.IDENTIFIER, T.LPAREN, T.RPAREN, N.opt_window]),  -- 238: .y line 1173
  (N.function_expr, [T.IDENTIFIER, T.LPAREN, N.opt_distinct, N.expr_list, T.RPAREN, N.opt_window]),  -- 239: .y line 1174
  (N.function_expr, [T.IDENTIFIER, T.DOT, T.IDENTIFIER, T.LPAREN, T.RPAREN, N.opt_window]),  -- 240: .y line 1175
  (N.function_expr, [T.IDENTIFIER, T.DOT, T.IDENTIFIER, T.LPAREN, N.opt_distinct, N.expr_list, T.RPAREN, N.opt_window]),  -- 241: .y line 1176
  (N.opt_window, [T.OVER, T.LPAREN, N.opt_partition, N.opt_order, N.opt_frame_clause, T.RPAREN]),  -- 242: .y line 1180
  (N.opt_window, []),  -- 243: .y line 1181
  (N.opt_partition, [T.PARTITION, T.BY, N.expr_list]),  -- 244: .y line 1183
  (N.opt_partition, []),  -- 245: .y line 1184
  (N.opt_frame_clause, [N.frame_type, N.frame_bound]),  -- 246: .y line 1189
  (N.opt_frame_clause, [N.frame_type, T.BETWEEN, N.frame_bound, T.AND, N.frame_bound]),  -- 247: .y line 1190
  (N.opt_frame_clause, []),  -- 248: .y line 1191
  (N.frame_type, [T.RANGE]),  -- 249: .y line 1195
  (N.frame_type, [T.ROWS]),  -- 250: .y line 1196
  (N.frame_type, [T.GROUPS]),  -- 251: .y line 1197
  (N.frame_bound, [T.UNBOUNDED, T.PRECEDING]),  -- 252: .y line 1199
  (N.frame_bound, [T.INTVAL, T.PRECEDING]),  -- 253: .y line 1200
  (N.frame_bound, [T.UNBOUNDED, T.FOLLOWING]),  -- 254: .y line 1201
  (N.frame_bound, [T.INTVAL, T.FOLLOWING]),  -- 255: .y line 1202
  (N.frame_bound, [T.CURRENT_ROW]),  -- 256: .y line 1203
  (N.extract_expr, [T.EXTRACT, T.LPAREN, N.datetime_field, T.FROM, N.expr, T.RPAREN]),  -- 257: .y line 1205
  (N.cast_expr, [T.CAST, T.LPAREN, N.expr, T.AS, N.column_type, T.RPAREN]),  -- 258: .y line 1207
  (N.datetime_field, [T.SECOND]),  -- 259: .y line 1209
  (N.datetime_field, [T.MINUTE]),  -- 260: .y line 1210
  (N.datetime_field, [T.HOUR]),  -- 261: .y line 1211
  (N.datetime_field, [T.DAY]),  -- 262: .y line 1212
  (N.datetime_field, [T.MONTH]),  -- 263: .y line 1213
  (N.datetime_field, [T.YEAR]),  -- 264: .y line 1214
  (N.datetime_field_plural, [T.SECONDS]),  -- 265: .y line 1216
  (N.datetime_field_plural, [T.MINUTES]),  -- 266: .y line 1217
  (N.datetime_field_plural, [T.HOURS]),  -- 267: .y line 1218
  (N.datetime_field_plural, [T.DAYS]),  -- 268: .y line 1219
  (N.datetime_field_plural, [T.MONTHS]),  -- 269: .y line 1220
  (N.datetime_field_plural, [T.YEARS]),  -- 270: .y line 1221
  (N.duration_field, [N.datetime_field]),  -- 271: .y line 1223
  (N.duration_field, [N.datetime_field_plural]),  -- 272: .y line 1223
  (N.array_expr, [T.ARRAY, T.LBRACKET, N.expr_list, T.RBRACKET]),  -- 273: .y line 1225
  (N.array_index, [N.operand, T.LBRACKET, N.int_literal, T.RBRACKET]),  -- 274: .y line 1227
  (N.between_expr, [N.operand, T.BETWEEN, N.operand, T.AND, N.operand]),  -- 275: .y line 1229
  (N.column_name, [T.IDENTIFIER]),  -- 276: .y line 1231
  (N.column_name, [T.IDENTIFIER, T.DOT, T.IDENTIFIER]),  -- 277: .y line 1232
  (N.column_name, [T.STAR]),  -- 278: .y line 1233
  (N.column_name, [T.IDENTIFIER, T.DOT, T.STAR]),  -- 279: .y line 1234
  (N.literal, [N.string_literal]),  -- 280: .y line 1236
  (N.literal, [N.bool_literal]),  -- 281: .y line 1236
  (N.literal, [N.num_literal]),  -- 282: .y line 1236
  (N.literal, [N.null_literal]),  -- 283: .y line 1236
  (N.literal, [N.date_literal]),  -- 284: .y line 1236
  (N.literal, [N.interval_literal]),  -- 285: .y line 1236
  (N.literal, [N.param_expr]),  -- 286: .y line 1236
  (N.string_literal, [T.STRING]),  -- 287: .y line 1238
  (N.bool_literal, [T.TRUE]),  -- 288: .y line 1240
  (N.bool_literal, [T.FALSE]),  -- 289: .y line 1241
  (N.num_literal, [T.FLOATVAL]),  -- 290: .y line 1243
  (N.num_literal, [N.int_literal]),  -- 291: .y line 1244
  (N.int_literal, [T.INTVAL]),  -- 292: .y line 1246
  (N.null_literal, [T.NULL]),  -- 293: .y line 1248
  (N.date_literal, [T.DATE, T.STRING]),  -- 294: .y line 1250
  (N.interval_literal, [T.INTVAL, N.duration_field]),  -- 295: .y line 1261
  (N.interval_literal, [T.INTERVAL, T.STRING, N.datetime_field]),  -- 296: .y line 1262
  (N.interval_literal, [T.INTERVAL, T.STRING]),  -- 297: .y line 1273
  (N.param_expr, [T.QMARK]),  -- 298: .y line 1305
  (N.table_ref, [N.table_ref_atomic]),  -- 299: .y line 1314
  (N.table_ref, [N.table_ref_commalist, T.COMMA, N.table_ref_atomic]),  -- 300: .y line 1314
  (N.table_ref_atomic, [N.nonjoin_table_ref_atomic]),  -- 301: .y line 1321
  (N.table_ref_atomic, [N.join_clause]),  -- 302: .y line 1321
  (N.nonjoin_table_ref_atomic, [N.table_ref_name]),  -- 303: .y line 1323
  (N.nonjoin_table_ref_atomic, [T.LPAREN, N.select_statement, T.RPAREN, N.opt_table_alias]),  -- 304: .y line 1323
  (N.table_ref_commalist, [N.table_ref_atomic]),  -- 305: .y line 1330
  (N.table_ref_commalist, [N.table_ref_commalist, T.COMMA, N.table_ref_atomic]),  -- 306: .y line 1334
  (N.table_ref_name, [N.table_name, N.opt_table_alias]),  -- 307: .y line 1339
  (N.table_ref_name_no_alias, [N.table_name]),  -- 308: .y line 1347
  (N.table_name, [T.IDENTIFIER]),  -- 309: .y line 1353
  (N.table_name, [T.IDENTIFIER, T.DOT, T.IDENTIFIER]),  -- 310: .y line 1357
  (N.opt_index_name, [T.IDENTIFIER]),  -- 311: .y line 1362
  (N.opt_index_name, []),  -- 312: .y line 1363
  (N.table_alias, [N.alias]),  -- 313: .y line 1365
  (N.table_alias, [T.AS, T.IDENTIFIER, T.LPAREN, N.ident_commalist, T.RPAREN]),  -- 314: .y line 1365
  (N.opt_table_alias, [N.table_alias]),  -- 315: .y line 1367
  (N.opt_table_alias, []),  -- 316: .y line 1367
  (N.alias, [T.AS, T.IDENTIFIER]),  -- 317: .y line 1369
  (N.alias, [T.IDENTIFIER]),  -- 318: .y line 1370
  (N.opt_alias, [N.alias]),  -- 319: .y line 1372
  (N.opt_alias, []),  -- 320: .y line 1372
  (N.opt_locking_clause, [N.opt_locking_clause_list]),  -- 321: .y line 1378
  (N.opt_locking_clause, []),  -- 322: .y line 1379
  (N.opt_locking_clause_list, [N.locking_clause]),  -- 323: .y line 1381
  (N.opt_locking_clause_list, [N.opt_locking_clause_list, N.locking_clause]),  -- 324: .y line 1385
  (N.locking_clause, [T.FOR, N.row_lock_mode, N.opt_row_lock_policy]),  -- 325: .y line 1390
  (N.locking_clause, [T.FOR, N.row_lock_mode, T.OF, N.ident_commalist, N.opt_row_lock_policy]),  -- 326: .y line 1396
  (N.row_lock_mode, [T.UPDATE]),  -- 327: .y line 1403
  (N.row_lock_mode, [T.NO, T.KEY, T.UPDATE]),  -- 328: .y line 1404
  (N.row_lock_mode, [T.SHARE]),  -- 329: .y line 1405
  (N.row_lock_mode, [T.KEY, T.SHARE]),  -- 330: .y line 1406
  (N.opt_row_lock_policy, [T.SKIP, T.LOCKED]),  -- 331: .y line 1408
  (N.opt_row_lock_policy, [T.NOWAIT]),  -- 332: .y line 1409
  (N.opt_row_lock_policy, []),  -- 333: .y line 1410
  (N.opt_with_clause, [N.with_clause]),  -- 334: .y line 1416
  (N.opt_with_clause, []),  -- 335: .y line 1416
  (N.with_clause, [T.WITH, N.with_description_list]),  -- 336: .y line 1418
  (N.with_description_list, [N.with_description]),  -- 337: .y line 1420
  (N.with_description_list, [N.with_description_list, T.COMMA, N.with_description]),  -- 338: .y line 1424
  (N.with_description, [T.IDENTIFIER, T.AS, N.select_with_paren]),  -- 339: .y line 1429
  (N.join_clause, [N.table_ref_atomic, T.NATURAL, T.JOIN, N.nonjoin_table_ref_atomic]),  -- 340: .y line 1439
  (N.join_clause, [N.table_ref_atomic, N.opt_join_type, T.JOIN, N.table_ref_atomic, T.ON, N.join_condition]),  -- 341: .y line 1446
  (N.join_clause, [N.table_ref_atomic, N.opt_join_type, T.JOIN, N.table_ref_atomic, T.USING, T.LPAREN, N.ident_commalist, T.RPAREN]),  -- 342: .y line 1454
  (N.opt_join_type, [T.INNER]),  -- 343: .y line 1463
  (N.opt_join_type, [T.LEFT, T.OUTER]),  -- 344: .y line 1464
  (N.opt_join_type, [T.LEFT]),  -- 345: .y line 1465
  (N.opt_join_type, [T.RIGHT, T.OUTER]),  -- 346: .y line 1466
  (N.opt_join_type, [T.RIGHT]),  -- 347: .y line 1467
  (N.opt_join_type, [T.FULL, T.OUTER]),  -- 348: .y line 1468
  (N.opt_join_type, [T.OUTER]),  -- 349: .y line 1469
  (N.opt_join_type, [T.FULL]),  -- 350: .y line 1470
  (N.opt_join_type, [T.CROSS]),  -- 351: .y line 1471
  (N.opt_join_type, []),  -- 352: .y line 1472
  (N.join_condition, [N.expr]),  -- 353: .y line 1474
  (N.opt_semicolon, [T.SEMI]),  -- 354: .y line 1480
  (N.opt_semicolon, []),  -- 355: .y line 1480
  (N.ident_commalist, [T.IDENTIFIER]),  -- 356: .y line 1483
  (N.ident_commalist, [N.ident_commalist, T.COMMA, T.IDENTIFIER])  -- 357: .y line 1487
]

/-- Associativity keywords of bison. -/
inductive Assoc where | left | right | nonassoc
deriving DecidableEq, Repr

/-- bison_parser.y:317-336: the precedence declarations, lowest level first. -/
def precDecls : List (Assoc × List Nat) := [
  (.left, [T.OR]),
  (.left, [T.AND]),
  (.right, [T.NOT]),
  (.nonassoc, [T.EQ, T.EQUALS, T.NOTEQUALS, T.LIKE, T.ILIKE]),
  (.nonassoc, [T.LT, T.GT, T.LESS, T.GREATER, T.LESSEQ, T.GREATEREQ]),
  (.nonassoc, [T.NOTNULL]),
  (.nonassoc, [T.ISNULL]),
  (.nonassoc, [T.IS]),
  (.left, [T.PLUS, T.HYPHEN]),
  (.left, [T.STAR, T.SLASH, T.PERCENT]),
  (.left, [T.CARET]),
  (.left, [T.CONCAT]),
  (.right, [T.UMINUS]),
  (.left, [T.LBRACKET, T.RBRACKET]),
  (.left, [T.LPAREN, T.RPAREN]),
  (.left, [T.DOT]),
  (.left, [T.JOIN])]

end Verif.LR

{
 "claims": [
  {
   "property": "C01",
   "status": "proved",
   "theorems": [
    "Verif.Props.C01_scanner_longest_match",
    "Verif.Props.C01_longest_match_unique"
   ],
   "note": ""
  },
  {
   "property": "C02",
   "status": "proved",
   "theorems": [
    "Verif.Props.C02_scanning_total_lossless"
   ],
   "note": "fpr is the return value of fprintf for an out-of-range integer (64 or negative)"
  },
  {
   "property": "C03",
   "status": "proved",
   "theorems": [
    "Verif.Props.C03_case_insensitive_tokens",
    "Verif.Props.C03_case_insensitive_parse"
   ],
   "note": "tokens, validity and statements"
  },
  {
   "property": "C04",
   "status": "proved",
   "theorems": [
    "Verif.Props.C04_string_literals"
   ],
   "note": ""
  },
  {
   "property": "C05",
   "status": "proved",
   "theorems": [
    "Verif.Props.C05_decimal_value",
    "Verif.Props.C05_out_of_range",
    "Verif.Props.C05_int64_min",
    "Verif.Props.C05_leading_zero_violation"
   ],
   "note": "leading zeros: the property is false of the code, witness proved"
  },
  {
   "property": "C06",
   "status": "proved",
   "theorems": [
    "Verif.Props.C06_keyword",
    "Verif.Props.C06_identifier",
    "Verif.Props.C06_quoted_identifier"
   ],
   "note": ""
  },
  {
   "property": "C07",
   "status": "proved",
   "theorems": [
    "Verif.Props.C07_whitespace_insignificant",
    "Verif.Props.C07_leading_whitespace",
    "Verif.Props.C07_whitespace_parse"
   ],
   "note": ""
  },
  {
   "property": "C08",
   "status": "partial",
   "theorems": [
    "Verif.Props.C08_comment_is_skipped_partial",
    "Verif.Props.C08_comment_in_context_partial",
    "Verif.Props.C08_comment_violation"
   ],
   "note": "false in general (witness proved); proved under the conditions stated"
  },
  {
   "property": "C09",
   "status": "proved",
   "theorems": [
    "Verif.Props.C09_nul_terminates_text",
    "Verif.Props.C09_tokenize_ignores_after_nul",
    "Verif.Props.C09_parse_ignores_after_nul"
   ],
   "note": ""
  },
  {
   "property": "C10",
   "status": "partial",
   "theorems": [
    "Verif.Props.C10_whole_input_partial",
    "Verif.Props.C10_unknown_character_violation",
    "Verif.Props.C10_unterminated_string_violation"
   ],
   "note": "false of the code (witnesses proved); what is true is proved"
  },
  {
   "property": "C11",
   "status": "proved",
   "theorems": [
    "Verif.Props.C11_accepted_is_grammatical",
    "Verif.Props.C11_valid_is_grammatical",
    "Verif.Props.parse_valid_iff"
   ],
   "note": "for arbitrary semantic actions, and for parse()"
  },
  {
   "property": "C12",
   "status": "proved",
   "theorems": [
    "Verif.Props.C12_grammatical_is_accepted",
    "Verif.Props.C12_grammatical_is_valid",
    "Verif.Props.parse_valid_iff"
   ],
   "note": "for arbitrary semantic actions, and for parse()"
  },
  {
   "property": "C13",
   "status": "proved",
   "theorems": [
    "Verif.Props.C13_unambiguous"
   ],
   "note": ""
  },
  {
   "property": "C14",
   "status": "proved",
   "theorems": [
    "Verif.Props.C14_parsing_terminates",
    "Verif.Props.C33_defined_unless_overflow"
   ],
   "note": ""
  },
  {
   "property": "C15",
   "status": "proved",
   "theorems": [
    "Verif.Props.C15_stack_limit",
    "Verif.Props.C15_memory_exhausted"
   ],
   "note": ""
  },
  {
   "property": "C16",
   "status": "proved",
   "theorems": [
    "Verif.Props.C16_valid_iff_no_error"
   ],
   "note": ""
  },
  {
   "property": "C17",
   "status": "proved",
   "theorems": [
    "Verif.Props.C17_statements_in_order",
    "Verif.Props.parse_value"
   ],
   "note": ""
  },
  {
   "property": "C18",
   "status": "proved",
   "theorems": [
    "Verif.Props.C18_parameters_in_source_order"
   ],
   "note": ""
  },
  {
   "property": "C19",
   "status": "proved",
   "theorems": [
    "Verif.Props.C19_lengths",
    "Verif.Props.C19_partition",
    "Verif.Props.C19_semicolon_of_the_next_statement"
   ],
   "note": ""
  },
  {
   "property": "C20",
   "status": "partial",
   "theorems": [
    "Verif.Props.C20_leftover_statements_partial",
    "Verif.Props.C20_violation"
   ],
   "note": "false of the code (witness proved); when it can happen is proved"
  },
  {
   "property": "C21",
   "status": "proved",
   "theorems": [
    "Verif.Props.C21_tokens_independent_of_buffer",
    "Verif.Props.C21_parse_independent_of_history"
   ],
   "note": ""
  },
  {
   "property": "C22",
   "status": "proved",
   "theorems": [
    "Verif.Props.C22_minimal_parentheses",
    "Verif.Props.C22_grouping",
    "Verif.Props.C22_nonassociative_rejected"
   ],
   "note": ""
  },
  {
   "property": "C23",
   "status": "proved",
   "theorems": [
    "Verif.Props.C23_round_trip",
    "Verif.Props.C23_rendering"
   ],
   "note": "for every script of the specification in Verif/Sql (the whole statement language) and every way to write its words; scripts of more than 97 words may exhaust the stack"
  },
  {
   "property": "C24",
   "status": "proved",
   "theorems": [
    "Verif.Props.C24_join",
    "Verif.Props.C24_trailing_semicolon"
   ],
   "note": "hypotheses: the first text is scanned to its end, has no NUL and no trailing ;; the second leaves two stack entries"
  },
  {
   "property": "C25",
   "status": "proved",
   "theorems": [
    "Verif.Props.C25_statements_well_formed"
   ],
   "note": "the shapes are specified in Verif/Sem/Types.lean"
  },
  {
   "property": "C26",
   "status": "proved",
   "theorems": [
    "Verif.Props.C26_defaults",
    "Verif.Props.C26_same_standard_form"
   ],
   "note": "the standard form of a script is defined in Verif/Sql/Std.lean; texts of more than 97 words may exhaust the stack"
  },
  {
   "property": "C27",
   "status": "proved",
   "theorems": [
    "Verif.Props.C27_limit_overrides_top",
    "Verif.Props.C27_set_operations",
    "Verif.Props.C27_select_statements"
   ],
   "note": ""
  },
  {
   "property": "C28",
   "status": "proved",
   "theorems": [
    "Verif.Props.C28_copy_options",
    "Verif.Props.C28_violations_reported",
    "Verif.Props.C28_csv_options_only_for_csv",
    "Verif.Props.tree_opts"
   ],
   "note": ""
  },
  {
   "property": "C29",
   "status": "proved",
   "theorems": [
    "Verif.Props.C29_nullability_consistent"
   ],
   "note": ""
  },
  {
   "property": "C30",
   "status": "proved",
   "theorems": [
    "Verif.Props.C30_tokenize_is_lexer"
   ],
   "note": ""
  },
  {
   "property": "C31",
   "status": "proved",
   "theorems": [
    "Verif.Props.C31_client_programs_sane",
    "Verif.Props.C31_nothing_lost",
    "Verif.Props.C31_release",
    "Verif.Props.C31_move",
    "Verif.Props.C31_moveNew",
    "Verif.Props.C31_reset",
    "Verif.Props.C31_paramsLive_new",
    "Verif.Props.C31_paramsLive_parse",
    "Verif.Props.C31_reset_keeps_parameters_violation",
    "Verif.Props.C31_stale_parameters_violation",
    "Verif.Props.C31_move_drops_parameters_violation",
    "Verif.Props.C31_move_leaks_violation"
   ],
   "note": "parameters and error position are neither reset nor moved, and a move loses the statements of its target: violations proved; the history theorem assumes parse is not called on a result with stale parameters."
  },
  {
   "property": "C32",
   "status": "proved",
   "theorems": [
    "Verif.Props.C32_unique_ownership",
    "Verif.Props.C32_leak_create_index_violation",
    "Verif.Props.C32_leak_array_index_violation"
   ],
   "note": ""
  },
  {
   "property": "C33",
   "status": "proved",
   "theorems": [
    "Verif.Props.C33_no_double_free",
    "Verif.Props.C33_defined_unless_overflow",
    "Verif.Props.C33_overflow_violation",
    "Verif.Props.C33_leak_update_violation"
   ],
   "note": "undefined behaviour exists: sscanf overflow in INTERVAL literals (witness proved)"
  },
  {
   "property": "C34",
   "status": "proved",
   "theorems": [
    "Verif.Props.C34_first_offending_token"
   ],
   "note": ""
  },
  {
   "property": "C35",
   "status": "proved",
   "theorems": [
    "Verif.Props.C35_message",
    "Verif.Props.C35_expected_can_follow",
    "Verif.Props.C35_not_all"
   ],
   "note": ""
  },
  {
   "property": "C36",
   "status": "proved",
   "theorems": [
    "Verif.Props.C36_print",
    "Verif.Props.C36_helpers"
   ],
   "note": "printing helpers modelled as functions to lists of lines; also no message on cerr, and termination"
  },
  {
   "property": "C37",
   "status": "proved",
   "theorems": [
    "Verif.Props.C37_unknown_character",
    "Verif.Props.C37_unterminated_string",
    "Verif.Props.C37_integer_ends_text",
    "Verif.Props.C37_integer_rejected",
    "Verif.Props.C37_unknown_bytes"
   ],
   "note": "same result = same verdict, statements up to addresses and recorded lengths, and number of parameters"
  },
  {
   "property": "C38",
   "status": "proved",
   "theorems": [
    "Verif.Props.C38_comment_total",
    "Verif.Props.C38_comment_exact"
   ],
   "note": "the exact behaviour behind the violation of C08"
  },
  {
   "property": "C39",
   "status": "proved",
   "theorems": [
    "Verif.Props.C39_exhausted_is_long",
    "Verif.Props.C39_short_statements",
    "Verif.Props.C39_short_grammatical",
    "Verif.Props.C39_short_texts",
    "Verif.Props.C39_round_trip",
    "Verif.Props.C39_nearly_exact"
   ],
   "note": "the bound is nearly exact: 100 tokens suffice (witness)"
  },
  {
   "property": "C40",
   "status": "proved",
   "theorems": [
    "Verif.Props.C40_count",
    "Verif.Props.C40_split"
   ],
   "note": "statements compared up to addresses, as in C24; parameters of b are renumbered"
  },
  {
   "property": "C41",
   "status": "proved",
   "theorems": [
    "Verif.Props.C41_only_scripts",
    "Verif.Props.C41_accepted_iff",
    "Verif.Props.C41_unambiguous"
   ],
   "note": "at the level of tokens (their relation to bytes: C01-C07, C23); statements compared up to addresses"
  },
  {
   "property": "C42",
   "status": "proved",
   "theorems": [
    "Verif.Props.C42_accessors_defined",
    "Verif.Props.C42_type_tells_class",
    "Verif.Props.C42_kinds_differ",
    "Verif.Props.C42_kinds",
    "Verif.Props.C42_select",
    "Verif.Props.C42_expression",
    "Verif.Props.C42_table",
    "Verif.Props.C42_column_types",
    "Verif.Props.C42_constraint_text"
   ],
   "note": "C42_select: for statements that are a single SELECT clause; C42_expression and C42_table for every expression and named table"
  },
  {
   "property": "C43",
   "status": "proved",
   "theorems": [
    "Verif.Props.C43_accepted",
    "Verif.Props.C43_script_texts",
    "Verif.Props.C43_accepted_iff",
    "Verif.Props.C43_unambiguous"
   ],
   "note": "Sql/Source specifies texts of words independently of the scanner; a statement of at most 96 words never exhausts the stack"
  },
  {
   "property": "C44",
   "status": "proved",
   "theorems": [
    "Verif.Props.C44_messages_are_true"
   ],
   "note": "Sql/Blame: Cause, what each message means; Sql/Blamed: Blamed; Sql/Temporal: forms of date and interval strings, also used by the script specification of C22, C23, C41, C43"
  },
  {
   "property": "C45",
   "status": "proved",
   "theorems": [
    "Verif.Props.C45_dates",
    "Verif.Props.C45_intervals",
    "Verif.Props.C45_date_iff",
    "Verif.Props.C45_interval_iff",
    "Verif.Props.C45_unit_iff"
   ],
   "note": "specification: Sql/Temporal"
  },
  {
   "property": "C46",
   "status": "proved",
   "theorems": [
    "Verif.Props.C46_memory",
    "Verif.Props.C46_depth_unbounded"
   ],
   "note": "depth counts the blocks on a path; native stack frames are not modelled"
  },
  {
   "property": "C47",
   "status": "proved",
   "theorems": [
    "Verif.Props.C47_exhausted_is_nested",
    "Verif.Props.C47_shallow",
    "Verif.Props.C47_round_trip",
    "Verif.Props.C47_six_brackets"
   ],
   "note": "specification of the load: Sql/Load"
  },
  {
   "property": "C48",
   "status": "proved",
   "theorems": [
    "Verif.Props.C48_error_is_final",
    "Verif.Props.C48_rest_is_ignored",
    "Verif.Props.C48_end_of_input"
   ],
   "note": "equality of the whole outcome; an error at the end of input is not final, and is excluded in the second"
  },
  {
   "property": "C49",
   "status": "proved",
   "theorems": [
    "Verif.Props.C49_addresses_are_names",
    "Verif.Props.C49_same_report"
   ],
   "note": "allocators that never return an address twice; for those that reuse freed addresses see C52"
  },
  {
   "property": "C50",
   "status": "proved",
   "theorems": [
    "Verif.Props.C50_threads_do_not_interfere",
    "Verif.Props.C50_same_as_alone"
   ],
   "note": "sequentially consistent interleaving; the heap is represented by an arbitrary allocator per call; atomic unit: one match of the scanner or one iteration of the parser"
  },
  {
   "property": "C51",
   "status": "proved",
   "theorems": [
    "Verif.Props.C51_scanning_is_linear"
   ],
   "note": "the moves are counted by Lex/Count, along the loops of the model of the scanner; the default chain of a move has at most 8 links (yyNext)"
  },
  {
   "property": "C52",
   "status": "proved",
   "theorems": [
    "Verif.Props.C52_addresses_used_again"
   ],
   "note": ""
  },
  {
   "property": "C53",
   "status": "proved",
   "theorems": [
    "Verif.Props.C53_string_contents_are_opaque",
    "Verif.Props.C53_same_verdict"
   ],
   "note": "directly after DATE or INTERVAL it is false (the action checks the string), example beside the theorem"
  },
  {
   "property": "C54",
   "status": "proved",
   "theorems": [
    "Verif.Props.C54_parentheses_change_nothing"
   ],
   "note": ""
  },
  {
   "property": "C55",
   "status": "proved",
   "theorems": [
    "Verif.Props.C55_names_are_opaque",
    "Verif.Props.C55_same_verdict"
   ],
   "note": "the excepted places are necessary: examples beside the theorem"
  },
  {
   "property": "C56",
   "status": "proved",
   "theorems": [
    "Verif.Props.C56_leftover_iff",
    "Verif.Props.C56_leftover_statements"
   ],
   "note": "the exact extent of the defect found in C20"
  },
  {
   "property": "C57",
   "status": "proved",
   "theorems": [
    "Verif.Props.C57_cut_behind_token"
   ],
   "note": ""
  },
  {
   "property": "C58",
   "status": "proved",
   "theorems": [
    "Verif.Props.C58_parse_appends",
    "Verif.Props.C58_second_parse",
    "Verif.Props.C58_statements_kept",
    "Verif.Props.C58_stale_message_violation"
   ],
   "note": "after a rejected text it is false (witness: the stale message makes CREATE TABLE fail); C58_parse_appends compares with the same result without statements in that case"
  },
  {
   "property": "C59",
   "status": "proved",
   "theorems": [
    "Verif.Props.C59_printed",
    "Verif.Props.C59_query",
    "Verif.Props.C59_every_result",
    "Verif.Props.C59_same",
    "Verif.Props.C59_decimal"
   ],
   "note": "the printed form is specified in Verif/Sql/Show.lean; a double is shown by the literal it was read from, its conversion to text by the C++ library is not modelled"
  },
  {
   "property": "C60",
   "status": "proved",
   "theorems": [
    "Verif.Props.C60_safe",
    "Verif.Props.C60_never_twice",
    "Verif.Props.C60_all_freed",
    "Verif.Props.C60_cleanup",
    "Verif.Props.C60_dispose",
    "Verif.Props.C60_made"
   ],
   "note": "the rules are Api/BuildRules; examples beside the theorems show that they are needed (a member assigned twice, a vector deleted without its elements)"
  },
  {
   "property": "C61",
   "status": "proved",
   "theorems": [
    "Verif.Props.C61_histories_sane",
    "Verif.Props.C61_result_after_exception",
    "Verif.Props.C61_new_result_not_valid",
    "Verif.Props.C61_valid_though_incomplete_violation"
   ],
   "note": "the places where an exception can be thrown are in Api/Throw (calls of new, push_back, insert, std::string; not malloc, strdup); the last theorem says for every accepted text that a reused valid result stays valid with any smaller number of its statements"
  },
  {
   "property": "C62",
   "status": "proved",
   "theorems": [
    "Verif.Props.C62_scanner_memory",
    "Verif.Props.C62_parse",
    "Verif.Props.C62_tokenize",
    "Verif.Props.C62_long_text",
    "Verif.Props.C62_too_long",
    "Verif.Props.C62_long_text_violation",
    "Verif.Props.C62_deprecated"
   ],
   "note": "the scanner on its buffer (Lex/Buffer) refines the scanner on lists; the bound on the length is that of the code, and the behaviour beyond it is proved too"
  },
  {
   "property": "C63",
   "status": "proved",
   "theorems": [
    "Verif.Props.C63_parse_arrays",
    "Verif.Props.C63_uninitialised",
    "Verif.Props.C63_message_fits",
    "Verif.Props.C63_message_length"
   ],
   "note": "yyparse on its arrays (Sem/Stack), together with the scanner on its buffer, refines parse; the bound on the length of the text is that of C62"
  },
  {
   "property": "C64",
   "status": "proved",
   "theorems": [
    "Verif.Props.C64_tokenize_memory",
    "Verif.Props.C64_nothing_lost",
    "Verif.Props.C64_first_text_lost_violation"
   ],
   "note": "the loss of the first text and of the scanner at an exception are part of the statement"
  },
  {
   "property": "C65",
   "status": "proved",
   "theorems": [
    "Verif.Props.C65_bind",
    "Verif.Props.C65_bind_text"
   ],
   "note": "the exception for more than 97 tokens is part of the statement"
  },
  {
   "property": "C66",
   "status": "proved",
   "theorems": [
    "Verif.Props.C66_incomplete_iff",
    "Verif.Props.C66_not_yet",
    "Verif.Props.C66_can_be_completed"
   ],
   "note": "the completed text is a sentence of the grammar; it can still be rejected by a check in an action (an invalid date) or for the depth of its nesting"
  },
  {
   "property": "C67",
   "status": "proved",
   "theorems": [
    "Verif.Props.C67_no_leak",
    "Verif.Props.C67_accepted"
   ],
   "note": "for rejected texts with one of the six tokens the number of leaked blocks is not computed; examples show that each of the six can leak"
  },
  {
   "property": "C68",
   "status": "proved",
   "theorems": [
    "Verif.Props.C68_same_tokens",
    "Verif.Props.C68_same_result",
    "Verif.Props.C68_accepted"
   ],
   "note": "C68_same_result and C68_accepted are about fprintf not failing (fpr = 64)"
  },
  {
   "property": "C69",
   "status": "proved",
   "theorems": [
    "Verif.Props.C69_same_verdict",
    "Verif.Props.C69_same_statements"
   ],
   "note": "for rejected texts, that the messages agree is not claimed"
  },
  {
   "property": "C70",
   "status": "proved",
   "theorems": [
    "Verif.Props.C70_nothing_lost",
    "Verif.Props.C70_top_lost",
    "Verif.Props.C70_index_schema_lost",
    "Verif.Props.C70_interval_text_lost",
    "Verif.Props.C70_option_words_lost"
   ],
   "note": "that the value is in the statements, not where or how often (C23, C41 say that). Enumerators are integers of the AST as well, so that for an integer that happens to be the number of an enumerator less is said"
  },
  {
   "property": "C71",
   "status": "proved",
   "theorems": [
    "Verif.Props.C71_no_text_made_up",
    "Verif.Props.C71_no_decimal_made_up",
    "Verif.Props.C71_no_integer_made_up"
   ],
   "note": "integers below 40 are left out: enumerators and flags are integers of the AST as well"
  },
  {
   "property": "C72",
   "status": "proved",
   "theorems": [
    "Verif.Props.C72_as_often_as_written",
    "Verif.Props.C72_decimals_as_often_as_written"
   ],
   "note": "the exception for an index with a dot is needed: CREATE INDEX i ON s.t drops s (C32)"
  }
 ]
}
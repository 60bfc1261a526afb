"""Writes /verif/MANIFEST.json."""
import json
M=[]
def c(p,status,theorems,note=''): M.append(dict(property=p,status=status,theorems=['Verif.Props.'+t for t in theorems],note=note))
c('C01','proved',['C01_scanner_longest_match','C01_longest_match_unique'])
c('C02','proved',['C02_scanning_total_lossless'],'fpr is the return value of fprintf for an out-of-range integer (64 or negative)')
c('C03','proved',['C03_case_insensitive_tokens','C03_case_insensitive_parse'],'tokens, validity and statements')
c('C04','proved',['C04_string_literals'])
c('C05','proved',['C05_decimal_value','C05_out_of_range','C05_int64_min','C05_leading_zero_violation'],'leading zeros: the property is false of the code, witness proved')
c('C06','proved',['C06_keyword','C06_identifier','C06_quoted_identifier'])
c('C07','proved',['C07_whitespace_insignificant','C07_leading_whitespace','C07_whitespace_parse'])
c('C08','partial',['C08_comment_is_skipped_partial','C08_comment_in_context_partial','C08_comment_violation'],'false in general (witness proved); proved under the conditions stated')
c('C09','proved',['C09_nul_terminates_text','C09_tokenize_ignores_after_nul','C09_parse_ignores_after_nul'])
c('C10','partial',['C10_whole_input_partial','C10_unknown_character_violation','C10_unterminated_string_violation'],'false of the code (witnesses proved); what is true is proved')
c('C11','proved',['C11_accepted_is_grammatical','C11_valid_is_grammatical','parse_valid_iff'],'for arbitrary semantic actions, and for parse()')
c('C12','proved',['C12_grammatical_is_accepted','C12_grammatical_is_valid','parse_valid_iff'],'for arbitrary semantic actions, and for parse()')
c('C13','proved',['C13_unambiguous'])
c('C14','proved',['C14_parsing_terminates','C33_defined_unless_overflow'])
c('C15','proved',['C15_stack_limit','C15_memory_exhausted'])
c('C16','proved',['C16_valid_iff_no_error'])
c('C17','proved',['C17_statements_in_order','parse_value'])
c('C18','proved',['C18_parameters_in_source_order'])
c('C19','proved',['C19_lengths','C19_partition','C19_semicolon_of_the_next_statement'])
c('C20','partial',['C20_leftover_statements_partial','C20_violation'],'false of the code (witness proved); when it can happen is proved')
c('C21','proved',['C21_tokens_independent_of_buffer','C21_parse_independent_of_history'])
c('C22','proved',['C22_minimal_parentheses','C22_grouping','C22_nonassociative_rejected'])
c('C23','proved',['C23_round_trip','C23_rendering'],'for every script of the specification in Verif/Sql (the whole statement language) and every way to write its words; scripts of more than 97 words may exhaust the stack')
c('C24','proved',['C24_join','C24_trailing_semicolon'],'hypotheses: the first text is scanned to its end, has no NUL and no trailing ;; the second leaves two stack entries')
c('C25','proved',['C25_statements_well_formed'],'the shapes are specified in Verif/Sem/Types.lean')
c('C26','proved',['C26_defaults','C26_same_standard_form'],'the standard form of a script is defined in Verif/Sql/Std.lean; texts of more than 97 words may exhaust the stack')
c('C27','proved',['C27_limit_overrides_top','C27_set_operations','C27_select_statements'])
c('C28','proved',['C28_copy_options','C28_violations_reported','C28_csv_options_only_for_csv','tree_opts'])
c('C29','proved',['C29_nullability_consistent'])
c('C30','proved',['C30_tokenize_is_lexer'])
c('C31','proved',['C31_client_programs_sane','C31_nothing_lost','C31_release','C31_move','C31_moveNew','C31_reset','C31_paramsLive_new','C31_paramsLive_parse','C31_reset_keeps_parameters_violation','C31_stale_parameters_violation','C31_move_drops_parameters_violation','C31_move_leaks_violation'],'parameters and error position are neither reset nor moved, and a move loses the statements of its target: violations proved; the history theorem assumes parse is not called on a result with stale parameters.')
c('C32','proved',['C32_unique_ownership','C32_leak_create_index_violation','C32_leak_array_index_violation'])
c('C33','proved',['C33_no_double_free','C33_defined_unless_overflow','C33_overflow_violation','C33_leak_update_violation'],'undefined behaviour exists: sscanf overflow in INTERVAL literals (witness proved)')
c('C34','proved',['C34_first_offending_token'])
c('C35','proved',['C35_message','C35_expected_can_follow','C35_not_all'])
c('C36','proved',['C36_print','C36_helpers'],'printing helpers modelled as functions to lists of lines; also no message on cerr, and termination')
c('C37','proved',['C37_unknown_character','C37_unterminated_string','C37_integer_ends_text','C37_integer_rejected','C37_unknown_bytes'],'same result = same verdict, statements up to addresses and recorded lengths, and number of parameters')
c('C38','proved',['C38_comment_total','C38_comment_exact'],'the exact behaviour behind the violation of C08')
c('C39','proved',['C39_exhausted_is_long','C39_short_statements','C39_short_grammatical','C39_short_texts','C39_round_trip','C39_nearly_exact'],'the bound is nearly exact: 100 tokens suffice (witness)')
c('C40','proved',['C40_count','C40_split'],'statements compared up to addresses, as in C24; parameters of b are renumbered')
c('C41','proved',['C41_only_scripts','C41_accepted_iff','C41_unambiguous'],'at the level of tokens (their relation to bytes: C01-C07, C23); statements compared up to addresses')
c('C42','proved',['C42_accessors_defined','C42_type_tells_class','C42_kinds_differ','C42_kinds','C42_select','C42_expression','C42_table','C42_column_types','C42_constraint_text'],'C42_select: for statements that are a single SELECT clause; C42_expression and C42_table for every expression and named table')
c('C43','proved',['C43_accepted','C43_script_texts','C43_accepted_iff','C43_unambiguous'],'Sql/Source specifies texts of words independently of the scanner; a statement of at most 96 words never exhausts the stack')
c('C44','proved',['C44_messages_are_true'],'Sql/Blame: Cause, what each message means; Sql/Blamed: Blamed; Sql/Temporal: forms of date and interval strings, also used by the script specification of C22, C23, C41, C43')
c('C45','proved',['C45_dates','C45_intervals','C45_date_iff','C45_interval_iff','C45_unit_iff'],'specification: Sql/Temporal')
c('C46','proved',['C46_memory','C46_depth_unbounded'],'depth counts the blocks on a path; native stack frames are not modelled')
c('C47','proved',['C47_exhausted_is_nested','C47_shallow','C47_round_trip','C47_six_brackets'],'specification of the load: Sql/Load')
c('C48','proved',['C48_error_is_final','C48_rest_is_ignored','C48_end_of_input'],'equality of the whole outcome; an error at the end of input is not final, and is excluded in the second')
c('C49','proved',['C49_addresses_are_names','C49_same_report'],'allocators that never return an address twice; for those that reuse freed addresses see C52')
c('C50','proved',['C50_threads_do_not_interfere','C50_same_as_alone'],'sequentially consistent interleaving; the heap is represented by an arbitrary allocator per call; atomic unit: one match of the scanner or one iteration of the parser')
c('C51','proved',['C51_scanning_is_linear'],'the moves are counted by Lex/Count, along the loops of the model of the scanner; the default chain of a move has at most 8 links (yyNext)')
c('C52','proved',['C52_addresses_used_again'],'')
c('C53','proved',['C53_string_contents_are_opaque','C53_same_verdict'],'directly after DATE or INTERVAL it is false (the action checks the string), example beside the theorem')
c('C54','proved',['C54_parentheses_change_nothing'],'')
c('C55','proved',['C55_names_are_opaque','C55_same_verdict'],'the excepted places are necessary: examples beside the theorem')
c('C56','proved',['C56_leftover_iff','C56_leftover_statements'],'the exact extent of the defect found in C20')
c('C57','proved',['C57_cut_behind_token'],'')
c('C58','proved',['C58_parse_appends','C58_second_parse','C58_statements_kept','C58_stale_message_violation'],'after a rejected text it is false (witness: the stale message makes CREATE TABLE fail); C58_parse_appends compares with the same result without statements in that case')
c('C59','proved',['C59_printed','C59_query','C59_every_result','C59_same','C59_decimal'],'the printed form is specified in Verif/Sql/Show.lean; a double is shown by the literal it was read from, its conversion to text by the C++ library is not modelled')
c('C60','proved',['C60_safe','C60_never_twice','C60_all_freed','C60_cleanup','C60_dispose','C60_made'],'the rules are Api/BuildRules; examples beside the theorems show that they are needed (a member assigned twice, a vector deleted without its elements)')
c('C61','proved',['C61_histories_sane','C61_result_after_exception','C61_new_result_not_valid','C61_valid_though_incomplete_violation'],'the places where an exception can be thrown are in Api/Throw (calls of new, push_back, insert, std::string; not malloc, strdup); the last theorem says for every accepted text that a reused valid result stays valid with any smaller number of its statements')
c('C62','proved',['C62_scanner_memory','C62_parse','C62_tokenize','C62_long_text','C62_too_long','C62_long_text_violation','C62_deprecated'],'the scanner on its buffer (Lex/Buffer) refines the scanner on lists; the bound on the length is that of the code, and the behaviour beyond it is proved too')
c('C63','proved',['C63_parse_arrays','C63_uninitialised','C63_message_fits','C63_message_length'],'yyparse on its arrays (Sem/Stack), together with the scanner on its buffer, refines parse; the bound on the length of the text is that of C62')
c('C64','proved',['C64_tokenize_memory','C64_nothing_lost','C64_first_text_lost_violation'],'the loss of the first text and of the scanner at an exception are part of the statement')
c('C65','proved',['C65_bind','C65_bind_text'],'the exception for more than 97 tokens is part of the statement')
c('C66','proved',['C66_incomplete_iff','C66_not_yet','C66_can_be_completed'],'the completed text is a sentence of the grammar; it can still be rejected by a check in an action (an invalid date) or for the depth of its nesting')
c('C67','proved',['C67_no_leak','C67_accepted'],'for rejected texts with one of the six tokens the number of leaked blocks is not computed; examples show that each of the six can leak')
c('C68','proved',['C68_same_tokens','C68_same_result','C68_accepted'],'C68_same_result and C68_accepted are about fprintf not failing (fpr = 64)')
c('C69','proved',['C69_same_verdict','C69_same_statements'],'for rejected texts, that the messages agree is not claimed')
c('C70','proved',['C70_nothing_lost','C70_top_lost','C70_index_schema_lost','C70_interval_text_lost','C70_option_words_lost'],'that the value is in the statements, not where or how often (C23, C41 say that). Enumerators are integers of the AST as well, so that for an integer that happens to be the number of an enumerator less is said')
c('C71','proved',['C71_no_text_made_up','C71_no_decimal_made_up','C71_no_integer_made_up'],'integers below 40 are left out: enumerators and flags are integers of the AST as well')
c('C72','proved',['C72_as_often_as_written','C72_decimals_as_often_as_written'],'the exception for an index with a dot is needed: CREATE INDEX i ON s.t drops s (C32)')
json.dump(dict(claims=M),open('/verif/MANIFEST.json','w'),indent=1)

{"id": "C01", "title": "Tokens are the longest match of the first lexical rule", "statement": "For every input and every start condition, each scanner step matches exactly the longest prefix that any active rule of the lexical specification matches, and runs the earliest listed rule among those matching that longest prefix; the compiled flex tables implement exactly the rules of the .l file.", "quantifier": "all byte strings, all scanner start conditions, every position", "why_tests_cant": "the scanner is 1368 compressed table states; tests touch a few hundred inputs, not every state/byte pair or unbounded lengths", "anchors": ["src/parser/flex_lexer.l: rules", "src/parser/flex_lexer.cpp: yy_accept, yy_ec, yy_meta, yy_base, yy_def, yy_nxt, yy_chk, yylex"]}
{"id": "C02", "title": "Scanning is total and lossless", "statement": "For every input the scanner terminates; the pieces it consumes, concatenated, are a prefix of the input, and are the whole input whenever it does not stop on an unknown character, an unterminated string literal or an out-of-range integer.", "quantifier": "all byte strings", "why_tests_cant": "termination and losslessness quantify over all inputs of every length", "anchors": ["src/parser/flex_lexer.cpp: yylex", "src/parser/flex_lexer.l", "src/SQLParser.cpp: SQLParser::tokenize"]}
{"id": "C03", "title": "Keywords are case-insensitive", "statement": "Changing the case of letters of an input outside string literals, quoted identifiers and comments does not change the sequence of token codes, and hence not isValid().", "quantifier": "all byte strings and all case changes", "why_tests_cant": "infinitely many inputs; 164 keywords with 2^n spellings", "anchors": ["src/parser/flex_lexer.l: %option case-insensitive", "src/parser/flex_lexer.cpp: yy_ec"]}
{"id": "C04", "title": "String literals denote exactly the quoted bytes", "statement": "For every NUL-free byte string s, the text consisting of a quote, s with every quote doubled, and a quote, followed by anything not starting with a quote, is one STRING token whose value is exactly s.", "quantifier": "all NUL-free byte strings s and all continuations", "why_tests_cant": "all lengths and contents, including backslashes, newlines and long runs of quotes", "anchors": ["src/parser/flex_lexer.l: <singlequotedstring>"]}
{"id": "C05", "title": "Integer literals denote their decimal value", "statement": "A decimal digit string without leading zero that fits int64 is an INTVAL token of exactly that value; a larger one is never accepted with another value; -9223372036854775808 yields INT64_MIN. (With leading zeros the value is octal: violated, witness proved.)", "quantifier": "all digit strings", "why_tests_cant": "all magnitudes and boundary values", "anchors": ["src/parser/flex_lexer.l: INTVAL rules"]}
{"id": "C06", "title": "A word is a keyword token iff it is in the keyword list", "statement": "A maximal identifier-shaped word is the keyword token of the list entry it equals up to case, and otherwise an IDENTIFIER token carrying exactly its bytes; a double-quoted identifier carries exactly the bytes between the quotes.", "quantifier": "all words and continuations", "why_tests_cant": "unbounded identifiers; prefix/extension interactions between 164 keywords", "anchors": ["src/parser/flex_lexer.l: keyword rules, IDENTIFIER rules"]}
{"id": "C07", "title": "Whitespace is insignificant between tokens", "statement": "Replacing any whitespace run between tokens by any other non-empty whitespace run does not change the tokens.", "quantifier": "all inputs and all whitespace runs", "why_tests_cant": "unbounded", "anchors": ["src/parser/flex_lexer.l: [ \\t\\n]+"]}
{"id": "C08", "title": "Line comments behave like whitespace", "statement": "A comment -- up to end of line followed by a non-blank character behaves like nothing. (In general a comment swallows the following line if the newline is followed by a blank: violated, witness proved.)", "quantifier": "all inputs", "why_tests_cant": "unbounded comment texts and continuations", "anchors": ["src/parser/flex_lexer.l: <COMMENT> rules"]}
{"id": "C09", "title": "Bytes after the first NUL are ignored", "statement": "parse(s) and tokenize(s) depend only on the bytes of s before the first NUL.", "quantifier": "all byte strings", "why_tests_cant": "unbounded", "anchors": ["src/SQLParser.cpp: SQLParser::parse, tokenize"]}
{"id": "C10", "title": "The whole input is checked before it is declared valid", "statement": "isValid() implies every byte of the input belongs to a token, whitespace or a comment. (Violated: an unknown character or unterminated string acts as end of input, so junk after it is accepted; witness proved; the true conditional statement is proved.)", "quantifier": "all byte strings", "why_tests_cant": "needs all inputs", "anchors": ["src/parser/flex_lexer.l: rule \".\" returning 0, <<EOF>> in string"]}
{"id": "C11", "title": "Only grammatical input is accepted (soundness)", "statement": "If parse() reports isValid(), the token sequence has a derivation from the start symbol of the published grammar.", "quantifier": "all inputs", "why_tests_cant": "656 LALR states; unbounded nesting", "anchors": ["src/parser/bison_parser.y: grammar", "src/parser/bison_parser.cpp: yyparse, yypact, yytable, yycheck, yydefact, yypgoto, yydefgoto"]}
{"id": "C12", "title": "Every grammatical input is accepted (completeness)", "statement": "If a token sequence has a derivation from the start symbol that respects the declared operator precedences and needs at most the fixed stack depth, then the LALR automaton accepts it, performing exactly the reductions of that derivation.", "quantifier": "all token sequences", "why_tests_cant": "unbounded inputs; a table error for one state/token pair is invisible to tests", "anchors": ["src/parser/bison_parser.y", "src/parser/bison_parser.cpp"]}
{"id": "C13", "title": "Parsing is unambiguous", "statement": "Every accepted token sequence has exactly one derivation respecting the declared precedences; the statements returned are determined by it.", "quantifier": "all token sequences", "why_tests_cant": "uniqueness is a universal statement", "anchors": ["src/parser/bison_parser.y: %left/%right/%nonassoc, %expect 0", "src/parser/bison_parser.cpp"]}
{"id": "C14", "title": "Parsing terminates in linearly many steps", "statement": "For every input the parser finishes, after a number of parser steps bounded by a fixed linear function of the number of tokens.", "quantifier": "all inputs", "why_tests_cant": "termination over all inputs", "anchors": ["src/parser/bison_parser.cpp: yyparse"]}
{"id": "C15", "title": "Nesting is limited by a fixed stack", "statement": "The parser stack never holds more than 200 entries; an input whose canonical derivation needs more is rejected with \"memory exhausted\" (not crashing), and one that needs fewer is never rejected for that reason.", "quantifier": "all inputs", "why_tests_cant": "unbounded nesting", "anchors": ["src/parser/bison_parser.cpp: YYINITDEPTH, yyexhaustedlab"]}
{"id": "C16", "title": "isValid, errorMsg and the return value agree", "statement": "On a fresh result, isValid() is false iff errorMsg() is non-null iff an error was reported, and then errorLine/errorColumn are a position inside the text that was scanned; parse() itself returns true always.", "quantifier": "all inputs", "why_tests_cant": "all error paths", "anchors": ["src/SQLParser.cpp: SQLParser::parse", "src/SQLParserResult.cpp", "src/parser/bison_parser.y: yyerror"]}
{"id": "C17", "title": "A valid result contains exactly the statements of the input, in order", "statement": "For a valid parse on a fresh result, size() is the number of statements in the statement list of the (unique) derivation, at least one, in source order, and each is the value of its sub-derivation.", "quantifier": "all inputs", "why_tests_cant": "unbounded statement lists", "anchors": ["src/parser/bison_parser.y: input, statement_list", "src/SQLParserResult.cpp: addStatement"]}
{"id": "C18", "title": "Parameters are numbered 0..n-1 in source order", "statement": "After a valid parse into a fresh result, parameters() lists exactly the ? expressions of the input in source order, their ids being 0,1,...,n-1.", "quantifier": "all inputs", "why_tests_cant": "unbounded number of parameters and nestings", "anchors": ["src/parser/bison_parser.y: param_expr, input", "src/SQLParserResult.cpp: addParameter"]}
{"id": "C19", "title": "Statement string lengths partition the text", "statement": "The stringLength fields of the statements of a valid parse cut the text into consecutive pieces, the i-th containing all tokens of the i-th statement and ending at its last token or at the semicolon after it; the semicolon can only be missing (and be counted for the next statement) for SHOW, DESCRIBE, IMPORT and COPY statements and those with hints; the lengths sum up to at most the length of the text.", "quantifier": "all inputs", "why_tests_cant": "unbounded", "anchors": ["src/parser/bison_parser.y: YY_USER_ACTION, statement_list"]}
{"id": "C20", "title": "A failed parse returns no statements", "statement": "If !isValid() then size()==0. (Violated: a syntax error after a complete statement leaves the statements in the result; witness proved.)", "quantifier": "all inputs", "why_tests_cant": "needs all error paths", "anchors": ["src/SQLParserResult.cpp"]}
{"id": "C21", "title": "Parsing is independent of history", "statement": "The outcome of a parse into a fresh result does not depend on earlier calls on the same thread (in particular on the content left in the thread-local string buffer) nor on the scanner state they ended in.", "quantifier": "all histories of earlier parse/tokenize calls", "why_tests_cant": "histories are unbounded", "anchors": ["src/parser/flex_lexer.l: thread_local strbuf", "src/SQLParser.cpp"]}
{"id": "C22", "title": "Operator precedence and associativity", "statement": "Printing any expression with the minimal parentheses demanded by the documented precedence table and parsing it gives back the expression; equal-precedence left-associative operators group to the left; non-associative ones are rejected when chained.", "quantifier": "all expressions", "why_tests_cant": "unbounded nesting of operators", "anchors": ["src/parser/bison_parser.y: %left ... , binary_expr, unary_expr, logic_expr, comp_expr"]}
{"id": "C23", "title": "Round trip: parsing rendered SQL gives the AST back", "statement": "For every abstract statement of the supported language, parsing its canonical SQL rendering yields (unless the nesting limit is hit) a valid result with exactly that statement.", "quantifier": "all abstract statements", "why_tests_cant": "infinite language", "anchors": ["src/parser/bison_parser.y", "src/sql/*.h"]}
{"id": "C24", "title": "Statement lists compose", "statement": "Parsing a;b yields the statements of a followed by those of b, for all a and b that parse on their own (within the nesting limit), and a trailing ; changes nothing.", "quantifier": "all pairs of inputs", "why_tests_cant": "unbounded", "anchors": ["src/parser/bison_parser.y: statement_list, opt_semicolon"]}
{"id": "C25", "title": "Accepted statements are well-formed", "statement": "Every statement of a parse has the pointers that its type promises to be non-null non-null (select list of a SELECT, table name of an INSERT, operands of a binary operator, ...), so that a consumer may dereference them.", "quantifier": "all inputs", "why_tests_cant": "all combinations of optional clauses and nestings", "anchors": ["src/sql/*.h", "src/parser/bison_parser.y"]}
{"id": "C26", "title": "Omitted clauses get the documented defaults; synonyms mean the same", "statement": "Omitting ASC, the join type, OUTER, the frame clause, the frame end, precision and scale, LIMIT ALL before OFFSET, AS before an alias or TRANSACTION gives the same AST as writing the default explicitly; so do the synonyms (== and =, ISNULL and IS NULL, INTEGER and INT, TRUNCATE and DELETE FROM, DESCRIBE and SHOW COLUMNS, DAYS and DAY, redundant parentheses, ...), wherever they occur in a script and in any combination.", "quantifier": "all surrounding statements", "why_tests_cant": "all contexts", "anchors": ["src/parser/bison_parser.y: opt_order_type, opt_join_type, opt_frame_clause, opt_time_precision, opt_decimal_specification"]}
{"id": "C27", "title": "LIMIT overrides TOP", "statement": "A select with both TOP and LIMIT/OFFSET carries exactly the limit of the LIMIT/OFFSET clause, and with TOP only exactly the TOP value.", "quantifier": "all selects", "why_tests_cant": "all contexts", "anchors": ["src/parser/bison_parser.y: select_no_paren"]}
{"id": "C28", "title": "Import/export options are consistent", "statement": "In every accepted COPY, each option was given at most once, and CSV options occur only with CSV or unspecified format; violations are reported as errors.", "quantifier": "all option lists", "why_tests_cant": "unbounded option lists and orders", "anchors": ["src/parser/bison_parser.y: import_export_options", "src/sql/ImportExportOptions.h, CreateStatement.cpp: accept_csv_option"]}
{"id": "C29", "title": "Column nullability", "statement": "In every accepted CREATE TABLE no column carries both NULL and NOT NULL, nor PRIMARY KEY with NULL; a column is nullable iff it is neither NOT NULL nor PRIMARY KEY.", "quantifier": "all column definitions", "why_tests_cant": "all constraint lists and orders", "anchors": ["src/sql/CreateStatement.cpp: trySetNullableExplicit", "src/parser/bison_parser.y: column_def, create_statement"]}
{"id": "C30", "title": "tokenize agrees with parse", "statement": "tokenize returns exactly the token codes that parse feeds to the parser for the same text (up to the point where tokenize/parse stop).", "quantifier": "all inputs", "why_tests_cant": "unbounded", "anchors": ["src/SQLParser.cpp: tokenize"]}
{"id": "C31", "title": "Result objects: move, release and reset", "statement": "releaseStatements hands out every statement exactly once and leaves the result empty; a move transfers the statements, validity and message; reset yields an empty invalid-free result. (parameters()/error position are not moved and not reset: violated, witness proved.)", "quantifier": "all operation sequences on result objects", "why_tests_cant": "histories of operations are unbounded", "anchors": ["src/SQLParserResult.cpp"]}
{"id": "C32", "title": "Heap ownership of an accepted parse", "statement": "After every accepted parse each AST node is owned exactly once (no sharing, no node already freed), so destroying the result frees each once.", "quantifier": "all inputs", "why_tests_cant": "memory safety over all inputs", "anchors": ["src/parser/bison_parser.y: actions, %destructor", "src/sql/statements.cpp: destructors"]}
{"id": "C33", "title": "No double free and no use after free on any path", "statement": "On every input, valid or not, no block is freed twice or used after being freed by the parser actions, the %destructor clean-up and the destruction of the result. (Leaks on some error paths exist: witnesses proved.)", "quantifier": "all inputs incl. all error points", "why_tests_cant": "every error point in every state", "anchors": ["src/parser/bison_parser.y", "src/parser/bison_parser.cpp: yydestruct"]}
{"id": "C34", "title": "Syntax errors are reported at the first offending token", "statement": "If parse() reports a syntax error, the reported position is that of the first token such that no sentence of the grammar (with the precedences) begins with the tokens up to and including it; with the tokens before it one does.", "quantifier": "all inputs", "why_tests_cant": "unbounded", "anchors": ["src/parser/bison_parser.cpp: yyerrlab, yysyntax_error", "src/parser/bison_parser.y: yyerror"]}
{"id": "C35", "title": "Syntax error messages name the offending token and only acceptable ones", "statement": "The message is \"syntax error, unexpected T[, expecting E1 [or Ei]*]\", T being the name of the first offending token, which can follow the tokens before it in no sentence of the grammar, and each Ei a different token that can follow them in some sentence; at most 4 are listed: all those, or none, the automaton has an explicit action for in the state the error is found in. (Because of default reductions this need not be all tokens that could follow.)", "quantifier": "all inputs", "why_tests_cant": "all states and tokens", "anchors": ["src/parser/bison_parser.cpp: yysyntax_error"]}
{"id": "C36", "title": "Printing helpers never dereference null", "statement": "printStatementInfo and its helpers, applied to any statement of a valid parse, dereference no null pointer.", "quantifier": "all inputs", "why_tests_cant": "all ASTs", "anchors": ["src/util/sqlhelper.cpp"]}
{"id": "C37", "title": "What the scanner does not understand ends the text silently", "statement": "A byte no scanner rule but the catch-all matches, and a string literal without closing quote, act as the end of the text: the result is that of the text before it (trailing garbage is ignored without an error). An integer literal out of range has the same effect if the message to stderr cannot be written; if it can, the text is rejected.", "quantifier": "all texts, all prefixes, all garbage after it", "why_tests_cant": "unbounded texts before and after the offending place", "anchors": ["src/parser/flex_lexer.l: . rule, <<EOF>> in singlequotedstring, int rule", "src/parser/bison_parser.cpp: yychar <= YYEOF"]}
{"id": "C38", "title": "Exactly how far a comment goes", "statement": "After \"--\" the rest of the line is skipped; a newline ends the comment iff it stands alone, i.e. is neither preceded by only blanks on its line nor followed by a blank; CURRENT ROW and CHARACTER VARYING spread over two lines at the beginning of a comment line are tokens even in a comment. This describes the tokens after \"--\" for every text.", "quantifier": "all texts after \"--\"", "why_tests_cant": "unbounded; a differential test would have to know the deviation from the SQL standard", "anchors": ["src/parser/flex_lexer.l: COMMENT"]}
{"id": "C39", "title": "Only long statements exhaust the parser stack", "statement": "The parser reports \"memory exhausted\" only if the text contains 97 tokens in a row without a semicolon. Scripts of any number of statements of at most 96 tokens each never exhaust the stack; in particular no text of at most 96 bytes does.", "quantifier": "all texts, grammatical or not", "why_tests_cant": "no test covers all texts of a given length; the number of statements is unbounded", "anchors": ["src/parser/bison_parser.cpp: YYMAXDEPTH, YYINITDEPTH, yyexhaustedlab"]}
{"id": "C40", "title": "The statements are what is between the semicolons", "statement": "A valid result has as many statements as the text has semicolon tokens, and one more if the last token is not a semicolon. If \"a;b\" is valid, where the scanner reads all of a and b has a token, then a and b are valid, and the statements and parameters of \"a;b\" are those of a followed by those of b (the converse of composing valid scripts).", "quantifier": "all texts a, b", "why_tests_cant": "unbounded scripts, every place to cut", "anchors": ["src/parser/bison_parser.y: input, statement_list, opt_semicolon", "src/SQLParser.cpp: parse"]}
{"id": "C41", "title": "Nothing but SQL scripts is accepted, and their meaning is unambiguous", "statement": "If parse accepts a text, its tokens are the words of a script of the documented SQL dialect (statements as data: queries, joins, expressions, DDL, DML, transactions, prepared statements, import/export, hints, with or without a final semicolon), and the result holds exactly the statements of that script. Texts without 97 tokens in a row without semicolon are accepted exactly if they are such scripts. Two scripts with the same tokens stand for the same statements.", "quantifier": "all texts; all scripts", "why_tests_cant": "the language is infinite; tests can only show accepted and rejected samples", "anchors": ["src/parser/bison_parser.y: all rules", "src/SQLParser.cpp: parse"]}
{"id": "C42", "title": "Accessors of the AST are defined and tell what was written", "statement": "After any parse, on every Expr and TableRef reachable from a statement of the result isType, isLiteral, hasAlias, hasTable, getName and hasSchema are defined (no indeterminate value is read). type() of every statement, also of nested ones, is the one of its class, and isType(t)/is(t) hold exactly for it, so the documented casts are safe. For an accepted script type() of each statement is the kind that was written; for SELECT items getName() is the alias, else the name, hasAlias/hasTable/isLiteral say whether an alias, a qualifier, a literal or parameter was written; TableRef::getName() is the alias, else the name. ColumnType == and != compare type, length, precision and scale.", "quantifier": "all texts, all nodes of all results; all scripts; all column types", "why_tests_cant": "needs all ASTs the parser can build", "anchors": ["src/sql/Expr.cpp: isType, isLiteral, hasAlias, hasTable, getName", "src/sql/statements.cpp: TableRef::getName, TableRef::hasSchema, ColumnType operator==", "src/sql/SQLStatement.cpp: type, isType, is"]}
{"id": "C43", "title": "The accepted texts, byte by byte", "statement": "A text is accepted, as long as the stack of the parser suffices, exactly if it is a text of a script: the words of the script (keywords in any case, punctuation, identifiers plain or in double quotes, string literals with doubled quotes, integers in decimal or octal, floating point literals) written one after the other with the boundaries they need, with blanks and comments between them, up to the end of the text or to where the scanner stops (an unknown character, an unterminated string, an unprintable integer). The statements of the result are then, field by field, those of the script, and no text is a text of scripts of different meaning.", "quantifier": "all byte strings; all scripts", "why_tests_cant": "the set of texts is infinite; tests show samples only", "anchors": ["src/parser/flex_lexer.l: all rules", "src/parser/bison_parser.y: all rules", "src/SQLParser.cpp: parse"]}
{"id": "C44", "title": "Every rejection has a true reason, reported where it is", "statement": "If parse rejects a text, then the message is a syntax error (see above), \"memory exhausted\", or one of the semantic messages; and in the last case the text contains words that deserve it: a DATE or INTERVAL string that is not of the required form, an unknown unit, two words behind ORDER BY e that are not NULLS FIRST/LAST, a parameter where a literal is required, an unknown COPY option or file type, a repeated option, a CSV option for another file type, a column that is both NULL and NOT NULL or PRIMARY KEY (the message names that column). errorLine/errorColumn are the position of the first of these words.", "quantifier": "all texts rejected", "why_tests_cant": "the check must be right for every text, and positions for every layout", "anchors": ["src/parser/bison_parser.y: all actions with yyerror/YYERROR", "src/parser/bison_parser.cpp: YYLLOC_DEFAULT, yyerrorlab", "src/SQLParserResult.cpp: setErrorDetails"]}
{"id": "C45", "title": "Dates and intervals of accepted texts are of the required form", "statement": "If parse accepts a text, every string behind the word DATE in it is a date (three numbers of at most four, two and two characters with hyphens between them), and every string behind INTERVAL is a number that fits into 32 bits, if one of the words SECOND ... YEAR follows, and otherwise such a number and one of these units in singular or plural, in any case. Conversely SELECT DATE '...', SELECT INTERVAL '...' DAY and SELECT INTERVAL '...' are accepted exactly if the string is of this form.", "quantifier": "all texts; all strings; all positions in the text", "why_tests_cant": "a check that is skipped in one context, or a wrong sscanf format, is only visible on particular strings", "anchors": ["src/parser/bison_parser.y: date_literal, interval_literal, duration_field"]}
{"id": "C46", "title": "Memory is linear in the text, recursion depth is not limited by the parser", "statement": "A parse of n bytes allocates at most 31 n + 6031 blocks (objects, vectors, strings; freed, leaked or in the result), and the statements of the result are nested at most that deep. But this depth is not bounded by the stack limit of the parser: for every n the text SELECT 1 + 1 + ... + 1 with n plus signs is accepted, and its AST has depth at least n; so the recursive destructors and printing functions need a native stack linear in the text.", "quantifier": "all texts; all n", "why_tests_cant": "unbounded lengths; a stack overflow in a destructor shows only for huge inputs", "anchors": ["src/parser/bison_parser.y: actions with new", "src/sql/Expr.cpp: ~Expr", "src/SQLParserResult.cpp: reset"]}
{"id": "C47", "title": "Only nesting exhausts the parser stack, not length", "statement": "If the parser reports \"memory exhausted\", then in some statement, as far as it has been read, what is left open weighs more than 144, where an open bracket - ( or [ or CASE - weighs 34, a set operation 2, a JOIN whose ON or USING has not come 3, and the prefix operators NOT and - of the current term 13 and 7. Lists, sums, AND/OR chains, VALUES, IN lists, and closed brackets weigh nothing, so a script of any length that has at most four brackets open at a time, and little else, is never rejected for exhaustion; if it is grammatical it is parsed to the statements it stands for. (Six brackets can exhaust the stack.)", "quantifier": "all texts, grammatical or not; all scripts", "why_tests_cant": "statements of unbounded length; the bound holds for all combinations of constructs", "anchors": ["src/parser/bison_parser.cpp: YYMAXDEPTH, yyexhaustedlab, all tables", "src/parser/bison_parser.y: precedences, all rules"]}
{"id": "C48", "title": "A syntax error is final: what follows it has no influence", "statement": "If a text is rejected with a syntax error, then every text whose tokens begin with the same ones, up to and including the offending token, gives exactly the same outcome: same message, position, validity, left-over statements, and memory freed and lost. In particular, if a text that scans to its end is rejected with a syntax error not at the end of input, appending a semicolon and anything at all (other statements, unterminated literals) changes nothing.", "quantifier": "all rejected texts; all continuations", "why_tests_cant": "all continuations of a text", "anchors": ["src/parser/bison_parser.cpp: yyparse, yyerrlab, yybackup", "src/SQLParser.cpp: parse"]}
{"id": "C49", "title": "Addresses are only names", "statement": "Neither validity, message, position, statements, parameters, nor what is freed and lost depends on where malloc places the blocks: with any two allocators that never return an address twice the outcomes of a parse are the same up to a one-to-one renaming of addresses.", "quantifier": "all texts; all pairs of allocators", "why_tests_cant": "the addresses differ from run to run; a test sees one of them", "anchors": ["src/SQLParser.cpp: parse", "src/parser/bison_parser.y: all actions", "src/SQLParserResult.cpp"]}
{"id": "C50", "title": "Calls from different threads do not influence each other", "statement": "Any number of threads make any sequences of calls of parse (into new results) and tokenize, interleaved in any way (each match of the scanner and each step of the parser being a step of the program). Then every answer is the one the same call gives when made alone, whatever the other threads do and whatever earlier calls left in the string buffer of the thread; and a thread that is scheduled often enough (linear in the length of its texts) gets all its answers.", "quantifier": "all schedules, all numbers of threads, all sequences of calls, all texts", "why_tests_cant": "races show only in particular schedules", "anchors": ["src/parser/flex_lexer.l: strbuf (thread_local)", "src/SQLParser.cpp: parse, tokenize", "src/parser/bison_parser.cpp: yyparse"]}
{"id": "C51", "title": "Scanning takes linear time", "statement": "The scanner makes at most 44 n + 2 moves of its automaton on a text of n bytes, including all the bytes that are read more than once because a longer match did not come about or because the end of the buffer was reached; no text makes it quadratic.", "quantifier": "all texts", "why_tests_cant": "worst cases are particular texts of unbounded length", "anchors": ["src/parser/flex_lexer.cpp: hsql_lex, yy_get_previous_state, all tables", "src/parser/flex_lexer.l: all rules"]}
{"id": "C52", "title": "Addresses of freed blocks may be used again", "statement": "A parse during which the memory allocator hands out the addresses of blocks freed earlier in that same parse has the same outcome as one in which every block has an address of its own: the same trees, parameters, messages, positions and frees, up to the addresses. It is enough that different blocks in use at the same time have different addresses.", "quantifier": "all inputs; all placements of the allocated blocks at addresses such that blocks in use at the same moment are apart", "why_tests_cant": "Whether an allocator reuses an address depends on its state; a comparison of a live pointer with a stale one would go wrong only on some runs.", "anchors": ["src/parser/bison_parser.y", "src/SQLParserResult.cpp:addParameter", "src/parser/bison_parser.cpp:hsql_parse"]}
{"id": "C53", "title": "The contents of a string constant cannot change anything around it", "statement": "In a text a followed by a string constant (the bytes of s in single quotes, with every single quote doubled) followed by v - where a ends between tokens, not in DATE or INTERVAL, and v does not begin with a single quote - replacing s by any other NUL-free bytes changes nothing in what parse does except the bytes of that one string and positions in the text: validity, message, kinds, shapes and all other strings and numbers of all statements, parameters, and blocks freed and leaked are the same. In particular no contents of the constant can end the statement or add another one.", "quantifier": "all texts a and v; all pairs of byte strings s", "why_tests_cant": "an injection is a particular string among all strings, in a particular context among all contexts", "anchors": ["src/parser/flex_lexer.l: singlequotedstring", "src/parser/bison_parser.y: all actions", "src/SQLParser.cpp: parse"]}
{"id": "C54", "title": "Redundant parentheses change nothing", "statement": "In a valid text, putting parentheses around any expression - any part that is an operand or a complete expression in the grouping the operator precedences give - yields a valid text with the same statements and the same number of parameters, as long as two more entries fit on the parser stack. Blanks may change as well.", "quantifier": "all valid texts; all expressions in them; all texts with the parentheses added", "why_tests_cant": "the place, the operators around it and their precedences, and the nesting depth are arbitrary", "anchors": ["src/parser/bison_parser.y: operand, expr, %left/%right/%nonassoc", "src/SQLParser.cpp: parse"]}
{"id": "C55", "title": "Names mean nothing to the parser", "statement": "Replacing identifiers and string constants in a text by others changes nothing in what parse does except those strings in the AST and positions in the text: validity, message, statements, numbers, parameters and blocks freed and leaked are the same. Excepted are only: string constants after DATE or INTERVAL, identifiers next to another identifier (NULLS FIRST/LAST), the name in front of a column type in CREATE TABLE, file types (after FORMAT or IMPORT FROM, before FILE) and CSV options (before a string).", "quantifier": "all pairs of texts with the same kinds of tokens; all sets of replaced names at once; all results parsed into", "why_tests_cant": "the names are arbitrary byte strings, the contexts arbitrary, also in rejected texts", "anchors": ["src/parser/bison_parser.y: all actions", "src/parser/flex_lexer.l: identifiers and strings", "src/SQLParser.cpp: parse"]}
{"id": "C56", "title": "What a rejected text leaves in the result", "statement": "When parse rejects a text into a fresh result, the result holds statements if and only if the message is a syntax error that ends in \", expecting $end\". Then they are exactly the statements of the text cut off before the offending token: parsed alone that text is valid, with the same AST, as many statements and as many parameters.", "quantifier": "all texts that are rejected; all allocators and scanner buffers", "why_tests_cant": "the texts are unbounded, before and behind the error", "anchors": ["src/parser/bison_parser.y: input", "src/parser/bison_parser.cpp: yyparse, yysyntax_error", "src/SQLParser.cpp: parse", "src/SQLParserResult.cpp: size, errorMsg"]}
{"id": "C57", "title": "A text cut off behind a token keeps its tokens", "statement": "If a text is cut off right behind one of its tokens, tokenizing it gives exactly the tokens up to there, with the same values, and then the end of input: no token depends on what comes after it.", "quantifier": "all texts; all tokens in them", "why_tests_cant": "the tokens before and the text behind are unbounded; the scanner backs up after reading ahead", "anchors": ["src/parser/flex_lexer.l", "src/parser/flex_lexer.cpp: yy_get_next_buffer, backing up", "src/SQLParser.cpp: tokenize"]}
{"id": "C58", "title": "Parsing into a used result appends to it", "statement": "When parse is called with a result object that an accepted text was parsed into before, it does what it does on a new result object (same validity, message, position, same memory freed and lost), except that its statements are appended to those already there, and its parameters are merged into the parameter list. The statements already there are unchanged, their memory is neither freed nor lost, and their parameters keep their numbers.", "quantifier": "all pairs of texts, the first accepted; all allocators and scanner buffers; any number of statements and parameters in the result", "why_tests_cant": "both texts and what the result holds are unbounded", "anchors": ["src/SQLParser.cpp: parse", "src/SQLParserResult.cpp: addStatement, addParameter, setIsValid, setErrorDetails", "src/parser/bison_parser.y: input"]}
{"id": "C59", "title": "What is printed of a statement is what was written", "statement": "Applied to a statement of a valid result, printStatementInfo prints exactly the lines that a printed form defined on the SQL as written (not on the AST) prescribes: each operator above its operands, each clause below its heading, in a fixed order and with the indentation of its depth; what is documented as not shown (WITH, DISTINCT, the query after IN or EXISTS, the branches of a CASE with ELSE, the kind of a join, ...) is not shown. What is printed depends on nothing else: two results with equal statements print the same, whatever addresses they have. Numbers are shown in decimal.", "quantifier": "all accepted texts, all statements of the result, all indentations", "why_tests_cant": "statements nest without bound; each printed line depends on a chain of scanner, parser, actions and printing functions", "anchors": ["src/util/sqlhelper.cpp: printStatementInfo, printSelectStatementInfo, printTableRefInfo, printExpression, printOperatorExpression, printWindowDescription, printOrderBy, printImportStatementInfo, printExportStatementInfo, printCreateStatementInfo, printInsertStatementInfo, printTransactionStatementInfo", "src/sql/statements.cpp: operator<<"]}
{"id": "C60", "title": "Trees built by the client own what they are given", "statement": "A client that builds expressions and statements itself - with the static functions of Expr, the constructors of the other classes, assignments to members and push_back - and gives every pointer away at most once, to something that disposes of it, and assigns only where nothing is owned, never runs into undefined behaviour. At every moment every block allocated so far is freed or owned by exactly one of its variables; deleting what the variables own, each once, frees every block exactly once (among them the temporary case list of makeCase). Each function returns an object with its arguments in the members they belong to and defaults everywhere else.", "quantifier": "all sequences of calls, assignments and deletions that follow the rules; all arguments, all trees, any number of variables", "why_tests_cant": "the histories are unbounded, and so are the trees that destructors recurse into", "anchors": ["src/sql/Expr.cpp: Expr::make*, caseListAppend, ~Expr", "src/sql/Expr.h: Expr", "src/sql/statements.cpp: constructors and destructors", "src/sql/CreateStatement.cpp: constructors and destructors", "src/sql/PrepareStatement.cpp"]}
{"id": "C61", "title": "Exceptions leave results and heap in order", "statement": "When memory runs out inside parse and an exception leaves it, at whatever allocation by new or by a container: no heap block has been freed twice, or freed while the result still owns it (what the parser was working on is lost, not freed); the result still has all statements and parameters it had, followed by well-formed statements from the text; its parameters point into its statements; it is not valid unless it was valid before. So after any history of operations on results, each possibly left by an exception, every further legal operation - another parse, reset, the destructor - is defined. (What does not hold: a result that was valid before stays valid although only some of the statements were added.)", "quantifier": "all texts, all places where an exception may be thrown during the parse, all results, all histories of operations with exceptions", "why_tests_cant": "the places where an exception can be thrown are unbounded in number, and so are the histories before and after", "anchors": ["src/SQLParser.cpp: SQLParser::parse", "src/parser/bison_parser.y: actions, input", "src/SQLParserResult.cpp: addStatement, addParameter, releaseStatements", "src/parser/flex_lexer.l: string literals"]}
{"id": "C62", "title": "The scanner stays within its buffer", "statement": "For a text of less than 2^31 - 2 bytes, parse and tokenize read and write the buffer of the scanner only inside of its bounds (text length plus two), never use the unset pointer to the last match, end with no fatal error of the scanner, find the bytes overwritten by the terminators of tokens restored, and free each block of the scanner exactly once; the tokens are those of the text. (What does not hold: the length of the text is cut to 32 bits, so of a text of 2^32 + k bytes only the first k are looked at - a text that is not SQL is accepted - and texts from 2^31 - 2 bytes on are not parsed at all. The deprecated entry points are parse.)", "quantifier": "all texts, all numbers of calls of the scanner", "why_tests_cant": "a test sees one text, and no test has texts of 4 GB; overruns by one byte are silent", "anchors": ["src/parser/flex_lexer.cpp: hsql_lex, yy_get_next_buffer, yy_get_previous_state, hsql__scan_bytes, hsql__scan_string, hsql_lex_destroy", "src/SQLParser.cpp: parse, tokenize, parseSQLString"]}
{"id": "C63", "title": "The parser stays within its arrays and does not look at uninitialised memory", "statement": "For every text of less than 2^31 - 2 bytes, parse reads and writes its three stacks of 200 elements, the parser tables and the message buffer of 128 bytes only inside of their bounds, its outcome (result, objects created and freed) does not depend on what these arrays contained before, its error recovery ends, and no block allocated for a message is left or freed twice. The message of every syntax error has less than 109 bytes, so it always fits the 128 bytes and the allocation of a larger block is never needed. (Texts whose parse is undefined because of an action, see C33, are excluded.)", "quantifier": "all texts, all contents of uninitialised memory", "why_tests_cant": "the stacks are on the C stack: an access one element too far or a read of an unset element goes unnoticed in a test", "anchors": ["src/parser/bison_parser.cpp: yyparse, yysyntax_error, yytnamerr, yystpcpy, yydestruct", "src/SQLParser.cpp: parse"]}
{"id": "C64", "title": "tokenize frees every text it reads once, except the first", "statement": "For every text, every previous content of the vector and every point at which the vector fails to grow: tokenize frees no block twice and nothing that is not a block. It appends the codes of the tokens as far as the vector grows; it returns exactly if that is all of them, with the scanner freed; otherwise the exception leaves it and the four blocks of the scanner are lost. Every text allocated for an identifier or a string is freed, except the text of the first token of the input: a text that begins with an identifier or a string loses exactly one block per call (violation).", "quantifier": "all texts, contents of the vector, points of failure of push_back", "why_tests_cant": "a freed text or a lost block is invisible in the vector, and the failure of push_back cannot be provoked at every point", "anchors": ["src/SQLParser.cpp: tokenize", "src/parser/flex_lexer.l"]}
{"id": "C65", "title": "parameters stand for literals", "statement": "Let a text be accepted, and let a second text have the same tokens, except that the tokens of a literal (a string, number, boolean, NULL, date or interval) stand in the place of every ?. Then the second text is accepted too, has no parameters, and its statements are those of the first, field by field, with the literal in the place of the parameter expression with the number of the ?; aliases stay. Only a text of more than 97 tokens may fail, and then because the stack of the parser is exhausted.", "quantifier": "all accepted texts, all literals for their parameters, all layouts of the second text", "why_tests_cant": "there are infinitely many statements with parameters and literals to put in their places", "anchors": ["src/parser/bison_parser.y: param_expr, literal", "src/sql/Expr.cpp: makeParameter", "src/SQLParserResult.cpp: addParameter"]}
{"id": "C66", "title": "unexpected $end means incomplete", "statement": "When a text is rejected with a syntax error, the message says \"unexpected $end\" just if the text is incomplete: there are tokens that complete its tokens to a sentence of the grammar, precedences respected. In this case a further line of text completes it (if the text was scanned to its end, contains no NUL and does not end in a dash). With any other syntax error nothing that follows can help. So a program that reads statements line by line can decide by the message whether to ask for more.", "quantifier": "all texts, all continuations", "why_tests_cant": "there are infinitely many prefixes of statements, and whether one can be continued is a property of the grammar and of the generated tables", "anchors": ["src/parser/bison_parser.cpp: yyparse, yysyntax_error", "src/parser/bison_parser.y", "src/parser/flex_lexer.l"]}
{"id": "C67", "title": "What a parse leaks", "statement": "A parse into a new result, accepted or rejected and wherever it stops, leaks no memory unless one of the tokens [, INDEX, TABLE, SET, FOR or WITH is in the text. An accepted text leaks exactly one block for every array index a[i] and one for every CREATE INDEX whose table name has a schema, and nothing else.", "quantifier": "all texts, accepted or rejected, all addresses the allocator may return", "why_tests_cant": "every action of the grammar and every place where an error can occur is involved; a leak check of a test suite sees only the texts in it", "anchors": ["src/parser/bison_parser.cpp: yyparse, yydestruct", "src/parser/bison_parser.y: %destructor, the actions", "src/sql/Expr.cpp: Expr::makeArrayIndex"]}
{"id": "C68", "title": "The tokens of a text can be printed again", "statement": "A formatter that prints the tokens of a text one by one, with a blank after each (keywords in capital letters, names in double quotes, strings in single quotes with the quotes in them doubled, integers in decimal, floating point numbers as they are written), changes nothing: the new text has the same tokens with the same values, and parse gives the same verdict, message, statements and parameters; only positions differ. The texts this is about are those all of whose tokens are terminals of the grammar, among them all valid texts.", "quantifier": "all texts, all addresses the allocator may return", "why_tests_cant": "there are infinitely many texts; that no two printed tokens run together, and that no value is lost on the way, is a statement about all pairs of tokens and all values", "anchors": ["src/parser/flex_lexer.l", "src/SQLParser.cpp: SQLParser::parse, SQLParser::tokenize"]}
{"id": "C69", "title": "The values of numbers mean nothing to the parser", "statement": "Take two texts with the same tokens except that integers are replaced by other integers and floating point numbers by other floating point numbers (all integers fitting 64 bits). Then parse accepts both or neither, and if it accepts them, the statements are the same, except that a number of the first text may be replaced by the number at the same place of the second one. So a client can decide once for a query template whether it is valid, and what its statements look like, whatever numbers are filled in. (LIMIT, OFFSET, TOP, the lengths of types and of frames, and array indices included: no number is too big, too small or special.)", "quantifier": "all pairs of texts that differ in numbers only, all addresses the allocator may return", "why_tests_cant": "there are infinitely many texts and 2^64 numbers; an action that treats one number in a special way would be missed by any finite set of tests", "anchors": ["src/parser/bison_parser.y", "src/sql/Expr.cpp", "src/SQLParser.cpp: SQLParser::parse"]}
{"id": "C70", "title": "Nothing that is written is lost", "statement": "Let parse accept a text. Then everything the user has written down in it - each name, each string constant, each integer and each number with a decimal point - is found in the statements of the result, exactly as it was written (names and constants without their quotes). The exceptions are listed completely: the words that choose an option (NULLS FIRST/LAST, file types, DELIMITER, QUOTE), the text of an interval (of which the number and the unit are stored), and texts in which TOP comes together with LIMIT or OFFSET (C27), or with an INDEX (C32), where something is really lost (witnesses proved). How often and where it is found is the subject of C23 and C41.", "quantifier": "all accepted texts, all addresses the allocator may return", "why_tests_cant": "there are infinitely many texts; an action that forgets to store a value in one of hundreds of contexts (a schema, an alias, a list of columns, an option) is missed by any finite set of tests", "anchors": ["src/parser/bison_parser.y", "src/SQLParser.cpp: SQLParser::parse"]}
{"id": "C71", "title": "Nothing is made up or doubled", "statement": "Let parse accept a text. Then no name and no string constant is found in the statements of the result more often than it is written in the text (so none is invented, and none is stored twice), and every number with a decimal point found there is written in the text. Every integer of at least 40 found there (smaller ones may be enumerators and flags) is written in the text as a number, or in a string constant behind INTERVAL, or is the number of a parameter. Together with C70: what is in the AST is what was written.", "quantifier": "all accepted texts, all byte strings, all addresses the allocator may return", "why_tests_cant": "there are infinitely many texts; an action that stores the same string in two places (and frees it twice later), or a default name, is found by a test only if the test has that statement and looks at that field", "anchors": ["src/parser/bison_parser.y", "src/SQLParser.cpp: SQLParser::parse"]}
{"id": "C72", "title": "Every name and constant is there as often as it is written", "statement": "Let parse accept a text that has no INDEX together with a dot. Then each name and each string constant, other than the words that choose an option (NULLS FIRST, the types of files, the CSV options) and the text of an interval, is found in the statements of the result exactly as often as it is written in the text, and so is each number with a decimal point: none is dropped because it is there already, none is duplicated.", "quantifier": "all accepted texts without INDEX and a dot, all byte strings that are not such a word, all addresses the allocator may return", "why_tests_cant": "there are infinitely many texts; an action that drops one of two names is seen by a test only if both are there and differ, one that stores a name in two fields only if the test looks at both", "anchors": ["src/parser/bison_parser.y", "src/SQLParser.cpp: SQLParser::parse"]}

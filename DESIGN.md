# Formal model of hyrise/sql-parser in Lean 4

## Trusted base

* Lean 4.33.0's kernel. No axioms of our own; theorems depend at most on `propext`, `Classical.choice`,
  `Quot.sound` (checked by `vcheck`).  No `native_decide`, no `bv_decide`.  Whole-table facts
  are proved with `decide +kernel` (kernel evaluation over the complete finite table) and lifted to all inputs by
  ordinary lemmas.
* The reading of the C++ code recorded in the doc comments of the model definitions. The generators in `tools/` are *not*
  trusted for proofs (they emit data that the kernel checks) except for copying the tables: `Lex/Tables.lean` and
  `LR/Tables.lean` are the number tables of `flex_lexer.cpp` / `bison_parser.cpp` entry for entry, and
  `LR/Grammar.lean` is the grammar of `bison_parser.y`.
* C/C++ semantics as used in the comments (LP64, two's complement `int64_t`, `strtoll`, `sscanf`, `strcasecmp`
  in the C locale).

## What is modelled

| part of the code | Lean module | how |
|---|---|---|
| flex tables and matcher (`flex_lexer.cpp` 351-1870, 3193-3247, 4228-4330, 4360-4530) | `Lex/Tables`, `Lex/Scan` | verbatim tables, loops as structural recursion; out-of-bounds/looping = `none` |
| scanner buffer (`flex_lexer.cpp`: `hsql_lex`, `yy_get_next_buffer`, `hsql__scan_bytes`, ...) and `parse`/`tokenize`/`parseSQLString` over it | `Lex/Buffer`, `Api/Scanner` | indices into an array of bytes, checked accesses |
| lexical rules and actions (`flex_lexer.l`) | `Lex/Spec` (rules), `Lex/Lexer` (actions) | patterns as data; actions as a state machine over start conditions and the string buffer |
| bison tables and driver (`bison_parser.cpp` yyparse) | `LR/Tables`, `LR/Driver` | verbatim tables, step function with a stack of (state, value with location), lookahead, remaining tokens |
| the arrays, error recovery, message buffer and clean-up of `yyparse` (`bison_parser.cpp` 1730-1925, 2885-3150, 5660-5863) | `Sem/Stack` | indices into arrays, checked accesses, uninitialised contents as a parameter |
| grammar and precedences (`bison_parser.y`) | `LR/Grammar`, `LR/Tree` | data; derivation trees and the meaning of the precedence declarations |
| class layouts, destructors (`sql/*.h`, `sql/*.cpp`), `%destructor` (`bison_parser.y` 181-207) | `Sem/Value`, `Sem/Layout` | objects are trees of fields tagged with their heap address |
| semantic actions (`bison_parser.y` 339-1394), constructors (`sql/*.cpp`, `Expr::make*`) | `Sem/Makers`, `Sem/Actions` (356 programs, one per rule), `Sem/Prog` (their language and interpreter) | a small imperative language: assignment, move, allocation, delete, free, branches, `yyerror`, `YYERROR`; reading a moved, freed, null or uninitialised value is undefined behaviour |
| error messages, error positions, clean-up (`yysyntax_error`, `yyerror`, `yydestruct`) | `Sem/Names`, `Sem/Parse` | as functions of the final configuration |
| `SQLParser::parse`, `tokenize`, `SQLParserResult` (all members) | `Sem/Parse`, `Api/Tokenize`, `Api/TokMem`, `Api/Result` | functions on a record; client programs as sequences of operations |
| printing helpers (`util/sqlhelper.cpp`), `operator<<` for `ColumnType` (`sql/statements.cpp` 22-75) | `Api/Print` | functions to lists of output lines; null/indeterminate pointers = `ub` |

Besides the model there are three specifications, none of which models code:

* `Sem/Types`: the shapes (which pointers are null) of all AST nodes (C25).
* `Sem/Denote`: the AST that a derivation tree stands for, by recursion over the tree (C17, C18, C22); `Sem/Len` (`Lengths`): the lengths of statements (C19).
* `Sql/Word`, `Sql/Syntax`, `Sql/Ast`, `Sql/Stmt`: an abstract syntax of SQL scripts with its words (unparser) and its AST; `Sql/Text`: which
  byte texts write a list of words; `Sql/Render`: one of them; `Sql/Std`: the standard form of a script (defaults and synonyms, C26).

Proof modules: `LR/*` (item-set certificates, soundness, completeness, transport), `Sem/{Check,Sat,Del,Sound,Chk,Rules,Toks,Addrs,Typed,Own,Finish,Clean,Main,Ends,Err,Pos,Outcome,Msgs,ParSet,Left}`
(types, ownership, positions and messages as invariants of the driver), `Sem/{Hom,DenoteFacts,Fill,DenParse,RunPlist,DenAt,DenMap,DenTrans,Graft,Null,Pev,Opaque,DenType,Copy}`
(the actions compute `Denote`), `Sql/{Der,Tools,Small,Steps,Steps2,All,StmtDer,ScriptDer,TextLex,Known,RenderOk,Chain,StdOk,StdPars}` (scripts derive, texts scan to their words),
`Api/{Eval,PrintOk}`. `Props/*` contain the theorems named in `MANIFEST.json` with their examples.

## What is not modelled

* Failure of `malloc`, `realloc` and `strdup` (exceptions thrown by `new` and the containers: C61), I/O on stderr (its return value is a parameter where the code uses it), `atof` (the value of a float
  token is its text), compiled code generation, data races (the scanner and parser are reentrant; the only shared
  datum is the `thread_local` string buffer, which is modelled).
* Performance other than step counts.

## Plan per property

(see `properties.jsonl` for the statements)

* C01-C02: refinement of the table-driven matcher to "longest match, first rule". A bit-parallel NFA over rule positions is the
  simulation relation; its certificate (`Lex/Masks`) is checked by the kernel for all 1363 states x 76 byte classes.
* C03-C10, C30: induction over the token stream on top of C01.
* C11-C15, C34, C35: validated LR automaton in the style of Jourdan, Pottier and Leroy: item-set certificates checked by the kernel
  over all 656 states, soundness/completeness by induction over parse trees, precedence as a predicate on trees.
* C16-C20, C24: invariants of the driver step function, then facts about the unique derivation.
* C21: the lexer model takes the initial buffer/scanner state as argument; the result is shown independent of it.
* C22, C23, C26, C27: parse of rendered abstract syntax through the completeness theorem.
* C19: an invariant of the driver relating the recorded lengths to the tokens of each statement and to whether it was reduced before the next token was read.
* C37: the tokens before the offending place are those of the cut text (`Lex/Cut`); the parser's result depends on the tokens up to the first code <= 0 only.
* C38: an inductive relation on texts, shown total and equal to what the scanner does.
* C39: a potential on the 656 states (`LR/Height`), checked by the kernel for every edge of the automaton, bounds the height of every reachable stack by the tokens since the last semicolon.
* C40: a derivation tree of `a;b` is cut into trees of `a` and of `b` (`Sem/Split`); denotation is monotone in the parts, so both have a value (converse of the graft of C24).
* C41: converse of C23. Induction on derivation trees: a predicate per nonterminal (`Sql/ReadIs`, generated with the proofs of the 356 rules by `tools/genread*.py`) says that the words of a tree are those of a phrase of `Sql/Syntax`, `Sql/Stmt`; precedence (`PrecOK`) shows that operands need no further parentheses; unambiguity from the uniqueness of derivations.
* C42: `Api/Access` models the accessors. Defined: induction on `Sat` (C25), all shapes of objects that occur in the AST are checked. Meaning: computed on the specified objects (C23); accessors ignore addresses.
* C43: `Sql/Source` specifies the texts of a list of words (blanks, comments with the inclusive start condition, octal literals, ends of the text). Both directions by induction over the text: every text begins with one of the forms of the specification or with a token the grammar does not use (`cov`, `covC` in `Sql/SourceLex`), and each form is what the scanner reads (runs of `lexH`). Combined with C23, C39, C41.
* C44: `Sql/Blame` says which words deserve which message, `Sql/Temporal` which strings are dates and intervals (proved equal to the `sscanf` checks of the model). Proof: locations on the stack are functions of the tokens (`Sem/Where`); the conditions on the way to each `YYERROR` (`errPaths`, `Sem/Paths`) together with what the children of the reduction are (C41's induction, on the stack of a reachable configuration) give the cause, rule by rule (`Sql/BlameRules`); a message left by a column definition is kept by an invariant (`Sql/Blamed`).
* C45: in a derivation tree, two neighbouring tokens meet in a node; `LR/Adj` computes (sets closed under the rules, checked by the kernel) that DATE and INTERVAL can meet a string only in the rules with the checks. The node has a value (C25, `Sem/DenType`), so its check succeeded; the checks are those of `Sql/Temporal`. Conversely: C23.
* C46: every action allocates at most three blocks, the number of reductions is linear in the number of tokens (C14); depth of the AST at most the number of blocks. The unbounded example by C47.
* C47: `Sql/Load` specifies the load of a statement that has been read in part. A potential of the states plus the weights of the symbols on the stack bounds the height (`LR/Load`: tables computed by a script, every edge of the automaton checked by the kernel); the weights on the stack are at most the load of the tokens they derive (`LR/LoadBound`, induction over trees and stacks). With C23: scripts.
* C48: a run of the driver that ends with the tokens R unread is the same with any tokens in place of R (`LR/Local`); in the case of a syntax error the last token read is the offending one (`Sem/Reads`). For texts: the tokens of `a;b` begin with those of `a` (C24).
* C49: every operation of the semantic actions, the driver and the destructors commutes with an injective renaming of addresses (`Sem/Rename`, `LR/Map`, by induction on programs and values); the allocator `heap` has all numbers as addresses, so every allocator is a renaming of it.
* C50: `Api/Threads` is a small-step version of `parse` and `tokenize` (one scanner match or one parser step at a time, the scanner being called when the parser needs a token), several threads, a string buffer per thread. Invariant: the tokens still to come, from the scanner state, are those `lexAll` gives, and the parser continues as with all tokens at hand (`LR/Local`); a measure bounds the number of steps.
* C51: a certificate on the states of the automaton (`Lex/Gap`, generated by `tools/gengap.py`, checked by the kernel) bounds how far the scanner reads beyond its last accepting state: blanks and at most 19 bytes, or without limit inside `"`, in which case the token found is the unknown character, the last one. The blanks belong to the next match; sum over the matches.
* C52: the renaming theorem of C49 with injectivity required only on the addresses in use in the current configuration (`inUse`: stack, lookahead, result, parameter list), along the configurations of the run (`LR.after`); the example places a block of the second CREATE TABLE where a freed block of the first was.
* C53: `Sem/Erase`: a map `er g` that replaces the bytes of strings (`g`, by address) and forgets positions; a static check `Prog.sees` of which strings an action looks at, decided for all 356 actions: identifiers, and strings directly behind `DATE`/`INTERVAL`; `Sem/Bisim`: two runs on tokens that differ in other strings stay related, step by step, up to the outcome. `Lex/Quote`: a scan of `a` is a scan of `a` followed by a quote. The statement uses `setString`/`keep` and `quoteSql` only.
* C54: `Sem/Parens`: `Within t x u z` locates a part of the derivation; replacing it by `( u )` (rules 183 and 188) keeps the derivation well-formed and, since `(` and `)` take part in no precedence conflict (decided for all rules), within the precedences; the value is the same since both actions hand on their operand. Transfer to `parse` by C11, C13, C17.
* C55: as C53, at the level of tokens and for any number of them. `Opaque` (`Sem/Looked`) describes by the neighbouring tokens where no action looks at a string; that this is so is shown from the static check of the actions, the stack of the automaton (what is below a `file_type`) and the first tokens of `column_type`.
* C56: the run that ends in a syntax error has `input` on its stack or not; if so, the statements are the value of its tree (`Sem/LeftDen`, as for accepted texts); a kernel check over the states shows that only the state behind `input` has the end of input among its expected tokens.
* C57: the scanner's longest match in a text is the longest match in every prefix that contains it (`Lex/Cut`), by induction along the calls (`Lex/CutTok`).
* C58: a simulation between the run into the used result and the run into the emptied one (`Sem/Reuse`): no action but that of `input` reads or writes the statements, and its numbering misses the old ones because the addresses are disjoint; `isValid` is overwritten before it is read (`Sem/Dull`).
* C59: the printed form (`Sql/Show`) is a function of abstract SQL. Printing is monotone under forgetting addresses and positions (`Api/PrintMono`), so it suffices to print the AST of the script; mutual induction over abstract SQL (`Sql/ShowAll`), then C23 and C41.
* C60: `Api/Build` models clients as sequences of operations on variables; the library functions are the programs of `Sem/Makers` and `Sem/Layout` (the ones the semantic actions use), run by the same interpreter. The rules (`Api/BuildRules`) are a check on what each variable owns. Invariant: what a variable owns, its destructor frees without rest; conservation of blocks by every program (`Sem/Addrs`).
* C61: `Api/Throw` cuts every action at every call that may throw (`cuts`), the body of `input` at every `push_back`, and the scanner; the driver is abandoned with its stacks. Every cut program is a program of `Sem/Prog`, so the accounting of blocks (`Sem/Addrs`, `Sem/Own`) applies to it; the invariant of `RC` gives the state before. Failure of `malloc`, `strdup` is not modelled, nor the release by the compiler of an object whose constructor throws (its block counts as lost).
* C62: `Lex/Buffer` has the scanner as it is: one array of bytes with two NUL bytes at its end, the pointers, the byte held back, the last accepting state and position that survive from match to match, the end-of-buffer action with its three continuations; every access is checked. `Lex/BufferOk` proves by a representation invariant (`Rep`) that each call returns what `yylex` on lists returns. So all other theorems about `parse` and `tokenize`, which are stated with the scanner on lists, hold for texts of less than 2^31 - 2 bytes; beyond that `C62_long_text` and `C62_too_long` say what happens instead.
* C63: `Sem/Stack` has `yyparse` as it is: three arrays of 200 elements and indices into them, `yychar`, `yylval`, `yyerrstatus`, the error recovery with its loop and its test for the `error` token, `yysyntax_error` with its two passes over a buffer of 128 bytes and the larger block behind it, and the clean-up at `yyreturn`; every access is checked and the initial contents of all arrays are a parameter. `Sem/StackArr`, `Sem/StackMsg`, `Sem/StackOk` prove by a simulation (`RelY`) that it returns what `hsqlParse` returns, `Sem/StackSize` that the messages fit. The stacks are not enlarged by the code: `yyoverflow` and `YYSTACK_RELOCATE` are not defined when the parser is compiled as C++ (bison_parser.cpp:3013-3060). Simplified: a token without a value makes `yylval` indeterminate instead of leaving the old one in it, which no action reads; `malloc` for the message does not fail (it is never called, `C63_message_fits`); locations on the stack are without the three fields nobody reads there.
* C64: `Api/TokMem` is `tokenize` with the union `yylval`, the blocks of the texts, the blocks of the scanner and a vector whose growth throws after a given number of elements; induction over the tokens (`tokLoopM_ok`). Simplified: the scanner is the one on lists (C62 relates it to the buffer); `hsql_lex_init` succeeds.
* C65: `Sql/Bind` is the specification: literals in the place of parameters in words (`bindW`), scripts (`Script.bind`) and objects (`bindP`). An accepted text is a script (C41); binding commutes with writing the script down (`Sql/BindWords`) and with taking its objects (`Sql/BindVals`, `Sql/BindStmt`), by induction over scripts; the bound script is parsed (C23).
* C66: at a syntax error the symbols on the stack begin a sentence with the precedences (`LR/Plan.viable_prec`, also used in C34 and C48): for every state a plan (`LR/PlanData`, generated by tools/genplan.py and checked by the kernel) says how to finish, with trees in which no rule with a contested operator occurs. Every terminal of the grammar has a spelling (`Sql/Spellable`), so the missing tokens have a text; `Lex/Dash`: a text followed by a comment gives the same tokens.
* C35: that the listed tokens can follow (`LR/Expect`): in the state of the error (reached, perhaps, by default reductions in front of a token that cannot follow) all entries are shifts; if a default reduction was not allowed in front of the listed token by the precedences, then the automaton could have shifted that token before (checked by the kernel for all states); after the shift `viable_prec`.
* C67: every path of every action is followed symbolically (`Sem/Check.chk`, now also the failing paths), which shows that an action other than those of the rules 55, 58 and 274 leaks nothing; the destructors free everything except the values of ten symbols, and on a stack these symbols (or what precedes them) come with one of the six words (`LR/Behind`, a closure property of the grammar checked by the kernel). `Sem/LeakCount` counts the blocks of an accepted text over its derivation tree.
* C68: `layout` prints a list of tokens. By C43 (`source_iff`: the texts whose tokens are given words are exactly the sources of these words) it is enough that the printed text is a source of the words of the tokens; the values that the lexer can give are read off the same theorem. Equal tokens give equal results by the simulation of C55 (`Sem/Bisim`) with nothing renamed.
* C69: a logical relation (`VR`, `Sem/NumRel`) on values that differ in numbers only; the interpreter of the actions respects it if the actions look only at values that are the same on both sides (`Num.sees`, checked by the kernel for all 356 actions). That enumerators are the same on both sides follows from the shapes of C36: a third derivation, with the number 1000000, which is no enumerator, in place of all integers, is evaluated along (`Sem/NumDen`).
* C70: what is written in the words of a script (`leavesW`, `Sql/KeptDefs`) is among the leaves of the AST it stands for, by induction on the syntax of expressions, queries and statements (`Sql/Kept`, `Sql/KeptStmt`); with C41 this holds for every accepted text.
* C71: the interpreter of the actions moves strings and never copies them: the number of occurrences of a string in what a program works on never grows (`Sem/Texts`, by induction on programs, then on derivations); numbers with a decimal point may be copied, but not made (`Sem/Raws`; the word read from the text of an interval, which is a local variable of the action, is not stored, by the explicit value of that action). Integers (`Sem/Ints`): the constants of all actions are less than 40 (kernel check), the numbers of parameters are bounded by the count of `?`, and only the two actions for intervals read a number from a string.
* C72: by induction on scripts (the inductive types of `Sql/Syntax`), the number of occurrences of a string in the words of each construct is that in the value it stands for (`Sql/Exact`, `Sql/ExactStmt`); with C41 (every accepted text is a script and the result is its value).
* C36: the shapes proved for C25, and induction on the size of the AST.
* C25, C28, C29: invariants of semantic values by nonterminal (attribute-grammar induction).
* C31: operations on the result record.
* C32, C33: ownership accounting with addresses: multiset of live addresses = union over stack, result and freed set.

## Tests of the model

The proofs are about the model; that the model is the program rests on reading and on these tests (none of them is a proof):

* `tools/validate.py` evaluates `parse` of the model on every query of /repo/test/queries (good, bad, TPC-H, TPC-H concatenated): 230 texts, all verdicts are the ones the test suite of the project expects.
* `tools/conform.py` reads the unit tests of /repo/test (select, sql, prepare, TPC-H detail, tokenizer) as text, translates their bodies to Python and checks their assertions on the ASTs, parameters, lengths and tokens the model computes: 83 tests, 1479 assertions, none fails. The test left out (TPCHQueryGrammarTests) is covered by `validate.py`. Two assertions of IntervalLiteral assign (`opType = kOpPlus`) where they mean to compare; as written they always hold, and the operator is in fact a minus there.
* `seeded/LOG.jsonl`: wrong programs, see item 5 of the task.

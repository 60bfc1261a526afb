import Verif.Sem.Actions
import Verif.Sem.Names
import Verif.LR.Driver
/-!
# `hsql_parse` and `SQLParser::parse`

The driver of `Verif.LR.Driver` run with the semantic actions of `Verif.Sem.Actions`, the scanner of
`Verif.Lex.Lexer`, bison's error reporting and clean-up, and the entry point.
-/
namespace Verif.Sem
open Verif.Lex Verif.LR

/-- An entry of the value and location stacks. -/
abbrev SV := V × Loc

/-- `YY_USER_ACTION` for one match (src/parser/bison_parser.y:47-60). -/
def advance (y : YYLoc) (text : Bytes) : YYLoc :=
  text.foldl (fun y b =>
    { loc := if b = 10 then { y.loc with ll := y.loc.ll + 1, lc := 0 } else { y.loc with lc := y.loc.lc + 1 }
      total := y.total + 1
      len := y.len + 1 })
    { y with loc := { y.loc with fl := y.loc.ll, fc := y.loc.lc } }

/-- `yylval` after reading the `k`-th token. Tokens without value leave it as it was: indeterminate. -/
def tokValue (A : Alloc) (k : Nat) : TokVal → V
  | .none => .undef
  | .ival n => .int n
  | .fval b => .raw b
  | .sval b => .str (A.tok k) b

/-- `yychar = yylex(&yylval, &yylloc, scanner)` (bison_parser.cpp:3093): value, location, and `yylloc`. -/
def readTok (A : Alloc) (t : Tok) (st : St) : SV × St :=
  let y := t.pieces.foldl advance st.yylloc
  ((tokValue A st.ntok t.val, y.loc), { st with ntok := st.ntok + 1, yylloc := y })

/-- `YYLLOC_DEFAULT` (bison_parser.cpp:1489-1507); the location at the bottom of the stack is all zero
(src/parser/bison_parser.y:81-89, bison_parser.cpp:2987). -/
def ruleLoc (vs : List SV) (below : Option SV) : Loc :=
  match vs.head?, vs.getLast? with
  | some f, some l => ⟨f.2.fl, f.2.fc, l.2.ll, l.2.lc⟩
  | _, _ => match below with
    | some b => ⟨b.2.ll, b.2.lc, b.2.ll, b.2.lc⟩
    | none => ⟨0, 0, 0, 0⟩

/-- The action of rule `r` (bison_parser.cpp:3170-5636). -/
def reduceRule (A : Alloc) (r : Nat) (vs : List SV) (below : Option SV) (st : St) : Red St SV :=
  match actions[r - 2]? with
  | none => .ub
  | some p =>
    match run A (ruleLoc vs below) p (mkEnv (vs.map Prod.fst)) st with
    | .ok v st' => .ok (v, ruleLoc vs below) st'
    | .error st' => .error st'
    | .ub => .ub

/-- The semantic side of the parser. -/
def sem (A : Alloc) : LR.Sem St SV := ⟨readTok A, reduceRule A⟩

/-! ## Error messages -/

/-- The tokens `yysyntax_error` finds for state `s`: the first loop of bison_parser.cpp:1849-1868, before the
limit of four. -/
def candidates (s : Nat) : List Nat :=
  match at? yypact s with
  | none => []
  | some n =>
    if n = YYPACT_NINF then []
    else (List.range YYNTOKENS.toNat).filter fun (x : Nat) =>
      decide (0 ≤ n + x) && decide (n + x ≤ YYLAST) && decide (at? yycheck (n + x) = some (x : Int)) && decide (x ≠ 1)
        && !decide (at? yytable (n + x) = some YYTABLE_NINF)

/-- The expected tokens that are reported: none if there are more than four (bison_parser.cpp:1853-1858). -/
def expected (s : Nat) : List Nat :=
  if (candidates s).length ≤ 4 then candidates s else []

/-- `yytname`; `yytnamerr` copies it verbatim since no name starts with a double quote (bison_parser.cpp:1750-1783). -/
def symName (x : Nat) : Bytes := yytname.getD x []

/-- `yysyntax_error` (bison_parser.cpp:1797-1925) in state `s` with lookahead symbol `x`. The size checks against
`YYSTACK_ALLOC_MAXIMUM` cannot fail and the message buffer is grown as needed. -/
def syntaxMsg (s x : Nat) : Bytes :=
  b!"syntax error, unexpected " ++ symName x ++
  match expected s with
  | [] => []
  | e :: es => b!", expecting " ++ symName e ++ es.flatMap fun e => b!" or " ++ symName e

/-! ## Clean-up -/

/-- `yydestruct` (bison_parser.cpp:1930-2880). -/
def destruct (sym : Nat) (v : V) (st : St) : Option St :=
  match treat (destructors.getD sym .keep) v with
  | some (f, l) => some (st.log f l)
  | none => none

/-- Pop and destroy the whole stack (bison_parser.cpp:5762-5784 and 5848-5853). -/
def popAll : List (Nat × SV) → St → Option St
  | [], st => some st
  | (s, v) :: stk, st =>
    match destruct ((yystos.getD s 0).toNat) v.1 st with
    | some st' => popAll stk st'
    | none => none

/-- Discard the lookahead, if there is one (bison_parser.cpp:5835-5843). -/
def dropLookahead (la : Option (Tok × SV)) (st : St) : Option St :=
  match la with
  | none => some st
  | some (t, v) => destruct (tsym t) v.1 st

/-- The end of `yyparse` (bison_parser.cpp:5668-5863): error report, clean-up, return value. -/
def finishRun (A : Alloc) (o : Outcome) (c : Cfg St SV) : Option (Int × St) :=
  match o with
  | .accept => do
    let st ← dropLookahead c.la c.st
    let st ← popAll c.stk st
    some (0, st)
  | .syntaxError => do
    let (t, _) ← c.la
    let st := c.st.yyerror A (syntaxMsg (topState c.stk) (tsym t)) c.st.yylloc.loc.fl c.st.yylloc.loc.fc
    let st ← popAll c.stk st
    let st ← dropLookahead c.la st
    some (1, st)
  | .semError => do
    let st ← popAll c.stk c.st
    let st ← dropLookahead c.la st
    some (1, st)
  | .exhausted => do
    let st := c.st.yyerror A b!"memory exhausted" c.st.yylloc.loc.fl c.st.yylloc.loc.fc
    let st ← dropLookahead c.la st
    let st ← popAll c.stk st
    some (2, st)

/-- The state in which `yyparse` starts, `*result` being `r` (bison_parser.cpp:2885-2989). -/
def startSt (r : Res) : St :=
  { ntok := 0, nalloc := 0, freed := [], leaked := [], plist := [], yylloc := ⟨⟨0, 0, 0, 0⟩, 0, 0⟩, res := r }

/-- `hsql_parse(result, scanner)` where the scanner returns the tokens `toks`. -/
def hsqlParse (A : Alloc) (toks : List Tok) (r : Res) : Option (Int × St) :=
  match runLR (sem A) toks (startSt r) with
  | some (some (o, c)) => finishRun A o c
  | _ => none

/-- What a call of `SQLParser::parse` does: the final `*result`, and the heap log. -/
structure ParseOut where
  res : Res
  freed : List Nat
  leaked : List Nat

/-- `SQLParser::parse(sql, result)` (src/SQLParser.cpp:13-35), which returns `true`; the failure of
`hsql_lex_init` (out of memory) is not modelled.  `fpr` and `buf` as for the lexer.  `none`: undefined behaviour
(or non-termination). -/
def parse (A : Alloc) (fpr : Int) (buf : Bytes) (sql : List UInt8) (r : Res) : Option ParseOut :=
  match lexAll fpr (lexInit buf (cText sql)) with
  | none => none
  | some (toks, _) =>
    match hsqlParse A toks r with
    | none => none
    | some (ret, st) => some ⟨{ st.res with isValid := decide (ret = 0) }, st.freed, st.leaked⟩

end Verif.Sem

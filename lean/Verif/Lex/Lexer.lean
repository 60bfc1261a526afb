import Verif.Lex.Scan
/-!
# The lexer

Model of `hsql_lex` (src/parser/flex_lexer.cpp:3150-4350), i.e. of the actions of
src/parser/flex_lexer.l:59-286 run in the scanner loop, and of the sequence of calls that the parser and
`SQLParser::tokenize` make.

Not modelled: the text written to `stderr`; the `malloc`/`strdup` failures; `errno` other than through
`strtoll`.  A floating-point literal carries its text instead of the `double` that `atof` computes from
it, so nothing is claimed about the rounding of `atof`.
-/
namespace Verif.Lex

/-- The member of the `YYSTYPE` union a token action writes (bison_parser.h, union `HSQL_STYPE`).
`fval` keeps the text given to `atof`. -/
inductive TokVal where
  | none
  | ival (v : Int)
  | fval (text : Bytes)
  | sval (s : Bytes)
deriving DecidableEq, Repr

/-- What one call of `hsql_lex` returns: the returned `int`, the semantic value, and the successive
`yytext`s of all rules executed during the call (they drive the location, `YY_USER_ACTION`). -/
structure Tok where
  code : Int
  val : TokVal
  pieces : List Bytes
deriving DecidableEq, Repr

/-- Scanner state between two actions: `yy_start`, the thread-local `strbuf`
(src/parser/flex_lexer.l:21) and the unread text. -/
structure LexSt where
  sc : SC
  buf : Bytes
  rest : Bytes
deriving DecidableEq, Repr

/-- Value of a decimal digit string. -/
def decVal (d : Bytes) : Nat := d.foldl (fun a c => 10 * a + (c - 48)) 0
/-- Value of an octal digit string. -/
def octVal (d : Bytes) : Nat := d.foldl (fun a c => 8 * a + (c - 48)) 0

/-- `strtoll(text, nullptr, 0)` on a non-empty string of decimal digits (C11 7.22.1.4: base 0, a
leading `0` selects base 8, the longest prefix of base-8 digits is converted); `none` is ERANGE. -/
def strtoll0 (d : Bytes) : Option Int :=
  let v := if d.head? = some 48 then octVal (d.takeWhile (fun c => 48 ≤ c && c ≤ 55)) else decVal d
  if v ≤ 2 ^ 63 - 1 then some (Int.ofNat v) else none

/-- Outcome of a rule action: fall through to the next match, or `return`. -/
inductive ActRes where
  | skip (sc : SC) (buf : Bytes)
  | ret (sc : SC) (buf : Bytes) (code : Int) (val : TokVal)
deriving DecidableEq, Repr

/-- The action of rule `r` with `yytext = text` (src/parser/flex_lexer.l:59-286;
src/parser/flex_lexer.cpp:3245-4222).  `fpr` is the value returned by the `fprintf` of
flex_lexer.l:263: 64, the length of the message, or negative if writing to stderr fails. -/
def lexAction (fpr : Int) (sc : SC) (buf : Bytes) (r : Nat) (text : Bytes) : Option ActRes :=
  if r = 1 then some (.skip .comment buf)                       -- BEGIN(COMMENT)
  else if r = 2 then some (.skip sc buf)
  else if r = 3 then some (.skip .initial buf)                  -- BEGIN(INITIAL)
  else if r = 4 then some (.skip sc buf)
  else if r ≤ 168 then (keywords[r - 5]?).map fun k => .ret sc buf k.2 .none   -- TOKEN(...)
  else if r = 169 then some (.ret sc buf 423 .none)             -- SQL_CURRENT_ROW
  else if r = 170 then some (.ret sc buf 284 .none)             -- SQL_CHARACTER_VARYING
  else if r = 171 then some (.ret sc buf 429 .none)             -- SQL_EQUALS
  else if r = 172 then some (.ret sc buf 430 .none)             -- SQL_NOTEQUALS
  else if r = 173 then some (.ret sc buf 430 .none)
  else if r = 174 then some (.ret sc buf 433 .none)             -- SQL_LESSEQ
  else if r = 175 then some (.ret sc buf 434 .none)             -- SQL_GREATEREQ
  else if r = 176 then some (.ret sc buf 391 .none)             -- SQL_CONCAT
  else if r = 177 then text.head?.map fun c => .ret sc buf (Int.ofNat c) .none      -- return yytext[0]
  else if r = 178 then some (.ret sc buf 260 (.fval text))      -- SQL_FLOATVAL
  else if r = 179 then some (.ret sc buf 260 (.fval text))
  else if r = 180 then some (.ret sc buf 261 (.ival (-9223372036854775808)))   -- SQL_INTVAL, LLONG_MIN
  else if r = 181 then some (match strtoll0 text with
    | some v => .ret sc buf 261 (.ival v)
    | none => .ret sc buf fpr (.ival 9223372036854775807))      -- return fprintf(...); ival is LLONG_MAX
  else if r = 182 then some (.ret sc buf 258 (.sval ((text.drop 1).take (text.length - 1 - 1))))  -- substr
  else if r = 183 then some (.ret sc buf 258 (.sval text))      -- SQL_IDENTIFIER
  else if r = 184 then some (.skip .squote [])                  -- BEGIN singlequotedstring; strbuf.str("")
  else if r = 185 then some (.skip sc (buf ++ [39]))
  else if r = 186 then some (.skip sc (buf ++ text))
  else if r = 187 then some (.ret .initial buf 259 (.sval buf)) -- BEGIN 0; SQL_STRING
  else if r = 188 then some (.ret sc buf 0 .none)               -- unknown character: return 0
  else none                                                     -- 189: ECHO

/-- `hsql_lex`: the `while (1)` loop of flex_lexer.cpp:3195-4350.  `acc` collects the `yytext`s (latest
first).  At end of file every start condition returns 0 (flex_lexer.cpp:4215-4226). The fuel stands for
the loop, running out of it for non-termination. -/
def yylexFuel (fpr : Int) : Nat → LexSt → List Bytes → Option (Tok × LexSt)
  | 0, _, _ => none
  | f + 1, st, acc =>
    match scan st.sc st.rest with
    | none => none
    | some .eof => some (⟨0, .none, acc.reverse⟩, st)
    | some (.rule r n) =>
      match lexAction fpr st.sc st.buf r (st.rest.take n) with
      | none => none
      | some (.skip sc buf) => yylexFuel fpr f ⟨sc, buf, st.rest.drop n⟩ (st.rest.take n :: acc)
      | some (.ret sc buf c v) =>
        some (⟨c, v, (st.rest.take n :: acc).reverse⟩, ⟨sc, buf, st.rest.drop n⟩)

/-- One call of `hsql_lex`. -/
def yylex (fpr : Int) (st : LexSt) : Option (Tok × LexSt) := yylexFuel fpr (st.rest.length + 1) st []

/-- The results of successive calls of `hsql_lex` up to and including the first that returns 0, as in the
loop of `SQLParser::tokenize` (src/SQLParser.cpp:59-67).  `hsql_parse` makes a prefix of these calls. -/
def lexFuel (fpr : Int) : Nat → LexSt → Option (List Tok × LexSt)
  | 0, _ => none
  | f + 1, st =>
    match yylex fpr st with
    | none => none
    | some (t, st') =>
      if t.code = 0 then some ([t], st')
      else match lexFuel fpr f st' with
        | none => none
        | some (ts, st'') => some (t :: ts, st'')

def lexAll (fpr : Int) (st : LexSt) : Option (List Tok × LexSt) := lexFuel fpr (st.rest.length + 1) st

/-- The text the scanner works on: `sql.c_str()` is read up to its first NUL
(`hsql__scan_string`: `strlen`, flex_lexer.cpp:4953-4957; src/SQLParser.cpp:22-23). -/
def cText (sql : List UInt8) : Bytes := (sql.takeWhile (· ≠ 0)).map UInt8.toNat

/-- Start state of a scanner created by `hsql_lex_init`: `yy_start = 1`, i.e. `INITIAL`
(flex_lexer.cpp:3170-3171); `strbuf` holds whatever earlier calls on this thread left. -/
def lexInit (buf : Bytes) (text : Bytes) : LexSt := ⟨.initial, buf, text⟩

end Verif.Lex

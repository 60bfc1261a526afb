import Verif.Lex.Lexer
/-!
# `SQLParser::tokenize` (src/SQLParser.cpp:43-72)

The failure of `hsql_lex_init` (out of memory) is not modelled; `tokenize` then returns `false`.
Freeing of `yylval.sval` is not modelled here but in `Api/TokMem`.
-/
namespace Verif.Api
open Verif.Lex

/-- Conversion `int` to `int16_t` (modulo 2^16, as gcc and clang define it). -/
def toInt16 (c : Int) : Int := (c + 32768) % 65536 - 32768

/-- The loop of src/SQLParser.cpp:59-67: read a token into an `int16_t`, stop at 0, else push it. -/
def tokenizeFuel (fpr : Int) : Nat → LexSt → Option (List Int)
  | 0, _ => none
  | f + 1, st =>
    match yylex fpr st with
    | none => none
    | some (t, st') =>
      let token := toInt16 t.code
      if token = 0 then some []
      else (tokenizeFuel fpr f st').map (token :: ·)

/-- `SQLParser::tokenize(sql, tokens)`: what is appended to `*tokens`.  `buf` is the old content of the
thread-local string buffer, `fpr` the return value of `fprintf` for an out-of-range integer.  `none` would be
non-termination or undefined behaviour. -/
def tokenize (fpr : Int) (buf : Bytes) (sql : List UInt8) : Option (List Int) :=
  let st := lexInit buf (cText sql)
  tokenizeFuel fpr (st.rest.length + 1) st

end Verif.Api

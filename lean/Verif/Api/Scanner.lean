import Verif.Lex.Buffer
import Verif.Sem.Parse
import Verif.Api.Tokenize
/-!
# The life of a scanner

`SQLParser::parse` and `SQLParser::tokenize` with the scanner on its buffer (`Lex/Buffer`) instead of the scanner on lists, and with the
blocks of the scanner. `none` is undefined behaviour, the end of the process by a fatal error of the scanner, or non-termination.
-/
namespace Verif.Api
open Verif.Lex Verif.Sem

/-- The blocks a scanner allocates: `struct yyguts_t`, the stack of buffers, `struct yy_buffer_state`, the characters. -/
inductive Blk where
  | guts | stack | state | chars
deriving DecidableEq, Repr

/-- `hsql_free`: freeing what is not live is undefined. -/
def freeBlk (b : Blk) (live : List Blk) : Option (List Blk) := if b ∈ live then some (live.erase b) else none

/-- The blocks after `hsql_lex_init` (flex_lexer.cpp:5202-5221, 5259-5290) and `hsql__scan_string` (4966-4994: the characters; 4916-4943: the state;
4661-4691 and 4866-4890: the stack of buffers). -/
def scannerBlocks : List Blk := [.guts, .chars, .state, .stack]

/-- `hsql__delete_buffer` of the current buffer (flex_lexer.cpp:4736-4750; `yy_is_our_buffer` is 1, 4991), then
`hsql_lex_destroy` (5293-5320): there is no current buffer any more, the stack of start conditions is a null pointer. -/
def destroyScanner (live : List Blk) : Option (List Blk) := do
  let live ← freeBlk .chars live
  let live ← freeBlk .state live
  let live ← freeBlk .stack live
  freeBlk .guts live

/-- The calls of `hsql_lex` up to the first that returns 0, as `lexFuel`. The fuel stands for the loop. -/
def bLexAll (fpr : Int) : Nat → Guts → Bytes → Option (List Tok)
  | 0, _, _ => none
  | f + 1, g, buf => do
    let (t, g, buf) ← bLex fpr g buf
    if t.code = 0 then some [t]
    else do
      let ts ← bLexAll fpr f g buf
      some (t :: ts)

/-- `SQLParser::parse` (src/SQLParser.cpp:13-35): the effect on `*result` and the heap, and the blocks of the scanner that are left. -/
def parseB (A : Alloc) (fpr : Int) (buf : Bytes) (sql : List UInt8) (r : Res) : Option (ParseOut × List Blk) := do
  let g ← scanString sql
  let toks ← bLexAll fpr (g.mem.length - 1) g buf
  let (ret, st) ← hsqlParse A toks r
  let live ← destroyScanner scannerBlocks
  some (⟨{ st.res with isValid := decide (ret = 0) }, st.freed, st.leaked⟩, live)

/-- The loop of src/SQLParser.cpp:59-67. -/
def tokenizeLoopB (fpr : Int) : Nat → Guts → Bytes → Option (List Int)
  | 0, _, _ => none
  | f + 1, g, buf => do
    let (t, g, buf) ← bLex fpr g buf
    let token := toInt16 t.code
    if token = 0 then some []
    else (tokenizeLoopB fpr f g buf).map (token :: ·)

/-- `SQLParser::tokenize` (src/SQLParser.cpp:43-72): what is appended to `*tokens`, and the blocks of the scanner that are left. -/
def tokenizeB (fpr : Int) (buf : Bytes) (sql : List UInt8) : Option (List Int × List Blk) := do
  let g ← scanString sql
  let ts ← tokenizeLoopB fpr (g.mem.length - 1) g buf
  let live ← destroyScanner scannerBlocks
  some (ts, live)

/-- `SQLParser::parseSQLString(const std::string&, SQLParserResult*)`, deprecated (src/SQLParser.cpp:40). -/
def parseSQLString (A : Alloc) (fpr : Int) (buf : Bytes) (sql : List UInt8) (r : Res) : Option (ParseOut × List Blk) := parseB A fpr buf sql r

/-- `SQLParser::parseSQLString(const char*, SQLParserResult*)`, deprecated (src/SQLParser.cpp:38): the bytes from the pointer on are copied up to the
first NUL; without one the copy runs out of the memory of the client. -/
def parseSQLChars (A : Alloc) (fpr : Int) (buf : Bytes) (mem : List UInt8) (r : Res) : Option (ParseOut × List Blk) :=
  if 0 ∈ mem then parseB A fpr buf (mem.takeWhile (· ≠ 0)) r else none

end Verif.Api

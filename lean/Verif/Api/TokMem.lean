import Verif.Api.Scanner
/-!
# `SQLParser::tokenize` with its memory

src/SQLParser.cpp:43-72 with the blocks that hold the texts of identifiers and strings, the blocks of the scanner, and the exception the vector may throw.
`none` is undefined behaviour (freeing what is not a live block) or non-termination.
-/
namespace Verif.Api
open Verif.Lex

/-- The union `yylval` (bison_parser.h, union `HSQL_STYPE`) as `tokenize` uses it: never written, last written through another member than `sval`,
or holding the address of a block. -/
inductive Slot where
  | junk
  | other
  | sval (a : Nat)
deriving DecidableEq, Repr

/-- The heap as the calls of `hsql_lex` and `free` in `tokenize` change it: the number of blocks the scanner has allocated for texts
(`hsql::substr` and `strdup`, flex_lexer.l:266-285), the addresses passed to `free`, and `yylval`. -/
structure TokMem where
  next : Nat
  freed : List Nat
  slot : Slot
deriving DecidableEq, Repr

/-- What one call of `hsql_lex` does to the memory; `A k` is the address of the `k`-th block. -/
def TokMem.lex (A : Nat → Nat) (m : TokMem) (t : Tok) : TokMem :=
  match t.val with
  | .none => m
  | .ival _ => { m with slot := .other }
  | .fval _ => { m with slot := .other }
  | .sval _ => ⟨m.next + 1, m.freed, .sval (A m.next)⟩

/-- `free(yylval.sval)`: undefined unless `yylval` holds the address of a block that is not freed yet. -/
def TokMem.free (m : TokMem) : Option TokMem :=
  match m.slot with
  | .sval a => if a ∈ m.freed then none else some { m with freed := m.freed ++ [a] }
  | _ => none

/-- src/SQLParser.cpp:64-66. -/
def TokMem.freeIf (token : Int) (m : TokMem) : Option TokMem := if token = 258 ∨ token = 259 then m.free else some m

/-- The loop of src/SQLParser.cpp:60-67. `room` is the number of `push_back`s that succeed, the next one throws and leaves the vector as it is
([vector.modifiers]). The result says whether the loop ends normally. The fuel stands for the loop. -/
def tokLoopM (fpr : Int) (A : Nat → Nat) : Nat → Nat → LexSt → Int → TokMem → List Int → Option (Bool × List Int × TokMem)
  | 0, _, _, _, _, _ => none
  | f + 1, room, st, token, m, tokens =>
    if token = 0 then some (true, tokens, m)
    else
      match room with
      | 0 => some (false, tokens, m)
      | room + 1 =>
        match yylex fpr st with
        | none => none
        | some (t, st') =>
          match (m.lex A t).freeIf (toInt16 t.code) with
          | none => none
          | some m' => tokLoopM fpr A f room st' (toInt16 t.code) m' (tokens ++ [token])

/-- What a call of `tokenize` leaves behind. -/
structure TokOut where
  /-- whether the call returns (`true`), or the exception leaves it -/
  returned : Bool
  tokens : List Int
  /-- the blocks allocated for texts, and those of them freed -/
  allocated : List Nat
  freed : List Nat
  /-- the blocks of the scanner that are still there -/
  scanner : List Blk
deriving DecidableEq, Repr

/-- src/SQLParser.cpp:69-71; an exception leaves the scanner as it is, since nothing catches it and the scanner is a plain pointer. -/
def tokEnd (A : Nat → Nat) (x : Bool × List Int × TokMem) : Option TokOut :=
  let (ok, tokens, m) := x
  if ok then (destroyScanner scannerBlocks).map fun live => ⟨true, tokens, (List.range m.next).map A, m.freed, live⟩
  else some ⟨false, tokens, (List.range m.next).map A, m.freed, scannerBlocks⟩

/-- `SQLParser::tokenize` (src/SQLParser.cpp:43-72) into a vector that holds `tokens`. -/
def tokenizeM (fpr : Int) (A : Nat → Nat) (room : Nat) (buf : Bytes) (sql : List UInt8) (tokens : List Int) : Option TokOut :=
  match yylex fpr (lexInit buf (cText sql)) with
  | none => none
  | some (t, st) =>
    match tokLoopM fpr A ((cText sql).length + 1) room st (toInt16 t.code) ((⟨0, [], .junk⟩ : TokMem).lex A t) tokens with
    | none => none
    | some x => tokEnd A x

end Verif.Api

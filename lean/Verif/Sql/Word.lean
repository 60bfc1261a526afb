import Verif.Sem.Denote
/-!
# Words (specification)

The vocabulary in which the rendering of abstract statements is written down: a text is a sequence of words, each of which is one token.
-/
namespace Verif.Sql
open Verif.Lex Verif.LR Verif.Sem

/-- A word of SQL. -/
inductive Word where
  /-- a keyword, operator or punctuation mark, given by its terminal (`T.SELECT`, `T.COMMA`, ...) -/
  | kw (a : Nat)
  /-- an identifier -/
  | id (b : Bytes)
  /-- a string literal -/
  | str (b : Bytes)
  /-- an integer literal -/
  | int (n : Int)
  /-- a floating point literal, given by its text -/
  | flt (b : Bytes)
  /-- the parameter `?` with number `k` -/
  | par (k : Nat)

/-- The terminal of a word. -/
def Word.sym : Word → Nat
  | .kw a => a
  | .id _ => T.IDENTIFIER
  | .str _ => T.STRING
  | .int _ => T.INTVAL
  | .flt _ => T.FLOATVAL
  | .par _ => T.QMARK

/-- The value the scanner gives to the word. -/
def Word.val : Word → TokVal
  | .kw _ => .none
  | .id b => .sval b
  | .str b => .sval b
  | .int n => .ival n
  | .flt b => .fval b
  | .par _ => .none

/-- The tokens are those of the words: the same terminals with the same values. -/
def Spelled : List Word → List Tok → Prop
  | [], [] => True
  | w :: ws, t :: ts => tsym t = w.sym ∧ t.val = w.val ∧ Spelled ws ts
  | _, _ => False

/-- How many parameters there are. -/
def qm : List Word → Nat
  | [] => 0
  | .par _ :: ws => qm ws + 1
  | _ :: ws => qm ws

/-- The parameters are numbered k, k+1, ... from left to right. -/
def Numbered : Nat → List Word → Prop
  | _, [] => True
  | k, .par i :: ws => i = k ∧ Numbered (k + 1) ws
  | k, _ :: ws => Numbered k ws

/-- Concatenation. -/
def cat : List (List Word) → List Word
  | [] => []
  | [x] => x
  | x :: y :: r => x ++ cat (y :: r)

end Verif.Sql

import Verif.LR.Grammar
/-!
# How deeply a text is nested (specification)

A text is read token by token (`a` is the number of a terminal, `T.…`), with one `Level` for every bracket that is open: `(`, `[` and `CASE` open one, `)`, `]` and `END` close one.
A level counts what is left open in it, besides brackets: joins that wait for their condition and set operations (`chain`), and the prefix operators `NOT` and `-` of the current term (`pending`).
The term ends with a comma, `AND`, `OR` and the keywords that begin a clause. Closing a bracket forgets the level.
The weights are stack entries: 34 for a bracket, 13 for `NOT`, 7 for `-` (it counts wherever it stands), 3 for `JOIN`, given back by `ON`, `USING` and `NATURAL`, and 2 for a set operation.
Everything else, and so the length of lists, of sums, of `AND`/`OR` chains, weighs nothing.
-/
namespace Verif.Sql
open Verif.LR

structure Level where
  chain : Int
  pending : Int
deriving DecidableEq

def openers : List Nat := [T.LPAREN, T.LBRACKET, T.CASE]
def closers : List Nat := [T.RPAREN, T.RBRACKET, T.END]
/-- The tokens that end a term. -/
def enders : List Nat := [T.COMMA, T.AND, T.OR, T.WHEN, T.THEN, T.ELSE, T.SELECT, T.FROM, T.WHERE, T.HAVING, T.BY, T.SET]
def chainW (a : Nat) : Int :=
  if a = T.JOIN then 3 else if a = T.ON ∨ a = T.USING ∨ a = T.NATURAL then -3
  else if a = T.UNION ∨ a = T.INTERSECT ∨ a = T.EXCEPT then 2 else 0
def prefixW (a : Nat) : Int := if a = T.NOT then 13 else if a = T.HYPHEN then 7 else 0

/-- Reading a token; the innermost level comes first. -/
def enter : List Level → Nat → List Level
  | [], _ => []
  | l :: ls, a =>
    if openers.contains a then ⟨0, 0⟩ :: l :: ls
    else if closers.contains a then (match ls with | [] => [l] | m :: ms => m :: ms)
    else if enders.contains a then { l with pending := 0 } :: ls
    else ⟨l.chain + chainW a, l.pending + prefixW a⟩ :: ls

def total : List Level → Int
  | [] => 0
  | [l] => l.chain + l.pending
  | l :: m :: ms => l.chain + l.pending + 34 + total (m :: ms)

/-- What is open after the tokens `as`. -/
def load (as : List Nat) : Int := total (as.foldl enter [⟨0, 0⟩])

end Verif.Sql

import Verif.Sql.Stmt
/-!
# What is written into a text (specification)

The words of a script that are not keywords, operators, punctuation or parameters carry something the user has written: a name, a string constant or a number.
`leaves` lists what an AST contains of this kind.
-/
namespace Verif.Sql
open Verif.Lex Verif.LR Verif.Sem

/-- A name or the contents of a string constant; an integer; a number with a decimal point, as written. -/
inductive Leaf where
  | text (b : Bytes)
  | int (n : Int)
  | float (b : Bytes)
deriving DecidableEq

def _root_.Verif.Sql.Word.leaves : Word → List Leaf
  | .id b => [.text b]
  | .str b => [.text b]
  | .int n => [.int n]
  | .flt b => [.float b]
  | _ => []
/-- What is written in a list of words. -/
def leavesW : List Word → List Leaf
  | [] => []
  | w :: ws => w.leaves ++ leavesW ws

mutual
/-- What is in an AST. -/
def leaves : V → List Leaf
  | .str _ b => [.text b]
  | .int n => [.int n]
  | .raw b => [.float b]
  | .obj _ _ fs => leavesL fs
  | .vec _ vs => leavesL vs
  | .tup fs => leavesL fs
  | _ => []
def leavesL : List V → List Leaf
  | [] => []
  | v :: vs => leaves v ++ leavesL vs
end

/-- The words that are identifiers to the scanner, but stand for an option and not for a name: `NULLS FIRST`, `NULLS LAST`, the types of files, and the names of CSV options; in any case. -/
def optionWords : List Bytes := [b!"nulls", b!"first", b!"last", b!"csv", b!"tbl", b!"binary", b!"bin", b!"delimiter", b!"quote"]
def OptionWord (b : Bytes) : Prop := ∃ o ∈ optionWords, eqNoCase b o = true
/-- The text of an interval: a number, or a number and a unit. What is stored of it is the number and the unit. -/
def IntervalText (b : Bytes) : Prop := ∃ n, NumberText none n b ∨ ∃ u, UnitText b n u
def Leaf.Exempt : Leaf → Prop
  | .text b => OptionWord b ∨ IntervalText b
  | _ => False
/-- There is a `TOP` that a `LIMIT` or `OFFSET` may override (C27), or an index, whose table may have a schema that is dropped (C32). -/
def MayLose (ws : List Word) : Prop := (.kw T.TOP ∈ ws ∧ (.kw T.LIMIT ∈ ws ∨ .kw T.OFFSET ∈ ws)) ∨ .kw T.INDEX ∈ ws

end Verif.Sql

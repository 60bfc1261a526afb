import Verif.Sql.Text
/-!
# A standard way to write words (specification)

Keywords in upper case, names in quotes, a space after each word.
-/
namespace Verif.Sql
open Verif.Lex Verif.LR

/-- The texts of keywords, operators and punctuation marks. -/
def spellings : List (Nat × Bytes) := kwTexts ++ punctTexts ++ [(T.CURRENT_ROW, b!"CURRENT ROW"), (T.CHARACTER_VARYING, b!"CHARACTER VARYING"), (T.EQ, b!"="), (T.LT, b!"<"), (T.GT, b!">"),
  (T.HYPHEN, b!"-"), (T.DOT, b!".")]
/-- The terminal has a text. -/
def Known (a : Nat) : Prop := (spellings.any fun e => e.1 == a) = true
def spelling (a : Nat) : Bytes := match spellings.find? fun e => e.1 == a with
  | some e => e.2
  | none => []

/-- The decimal digits of a number. -/
def digits (n : Nat) : Bytes := if n < 10 then [48 + n] else digits (n / 10) ++ [48 + n % 10]

def Word.text : Word → Bytes
  | .kw a => spelling a
  | .id b => 34 :: (b ++ [34])
  | .str b => 39 :: (double b ++ [39])
  | .int n => digits n.toNat
  | .flt b => b
  | .par _ => b!"?"

/-- The word can be written: names and strings are made of bytes other than 0, names also without quotes and newlines; integers fit into 63 bits;
floating point literals are digits with a point. -/
def Word.Ok : Word → Prop
  | .kw _ => True
  | .id b => b ≠ [] ∧ ∀ z ∈ b, z ≠ 34 ∧ z ≠ 10 ∧ z ≠ 0 ∧ z < 256
  | .str b => ∀ z ∈ b, z ≠ 0 ∧ z < 256
  | .int n => 0 ≤ n ∧ n < 2 ^ 63
  | .flt b => ∃ d f, b = d ++ 46 :: f ∧ d ≠ [] ∧ (∀ z ∈ d ++ f, isDigit z = true)
  | .par _ => True

def render : List Word → Bytes
  | [] => []
  | w :: ws => w.text ++ 32 :: render ws

end Verif.Sql

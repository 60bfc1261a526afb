import Verif.Sql.Text
/-!
# All texts (specification)

`Verif.Sql.Text` says how words are written with blanks between them. `Source` says of any text which words it consists of: with comments, with less
usual forms of words, and with everything else the scanner tolerates (and where it stops). Independent of the scanner.
-/
namespace Verif.Sql
open Verif.Lex Verif.LR

/-- The bytes begin with blanks (at least one) and then the word `k`, in any case. -/
def ThenWord (k y : Bytes) : Prop := ∃ b r z, y = b ++ (r ++ z) ∧ b ≠ [] ∧ (∀ c ∈ b, isBlank c = true) ∧ upper r = k

/-- The digits that count in a literal with leading zero. -/
def isOct (c : Nat) : Bool := 48 ≤ c && c ≤ 55

/-- `Lexeme w x y`: the bytes `x`, with `y` after them, are read as the word `w`. -/
inductive Lexeme : Word → Bytes → Bytes → Prop where
  | std {w : Word} {x y : Bytes} : Writes w x y → Lexeme w x y
  /-- `CURRENT ROW` and `CHARACTER VARYING` need no word boundary after them -/
  | currentRow {c b r y : Bytes} : upper c = b!"CURRENT" → b ≠ [] → (∀ z ∈ b, isBlank z = true) → upper r = b!"ROW" → Lexeme (.kw T.CURRENT_ROW) (c ++ b ++ r) y
  | characterVarying {c b r y : Bytes} : upper c = b!"CHARACTER" → b ≠ [] → (∀ z ∈ b, isBlank z = true) → upper r = b!"VARYING" →
      Lexeme (.kw T.CHARACTER_VARYING) (c ++ b ++ r) y
  /-- `CURRENT` and `CHARACTER` alone are identifiers -/
  | current {x y : Bytes} : upper x = b!"CURRENT" → Stops isWordc y → ¬ ThenWord b!"ROW" y → Lexeme (.id x) x y
  | character {x y : Bytes} : upper x = b!"CHARACTER" → Stops isWordc y → ¬ ThenWord b!"VARYING" y → Lexeme (.id x) x y
  /-- an integer with leading zeros is octal, and ends at the first 8 or 9 (though these are consumed) -/
  | octal {d y : Bytes} : (∀ z ∈ d, isDigit z = true) → d.head? = some 48 → octVal (d.takeWhile isOct) < 2 ^ 63 → Stops (fun c => isDigit c || c == 46) y →
      Lexeme (.int (octVal (d.takeWhile isOct))) d y

/-- Bytes that begin no word: the text is ignored from here on. A double quote belongs to them if it does not begin an identifier in quotes, an exclamation mark if `=` does not follow. -/
def Unknown : Bytes → Prop
  | [] => False
  | c :: y =>
    if c = 34 then ¬ ∃ x z, y = x ++ 34 :: z ∧ x ≠ [] ∧ ∀ b ∈ x, b ≠ 34 ∧ b ≠ 10
    else if c = 33 then ¬ ∃ z, y = 61 :: z
    else isBlank c = false ∧ isWordc c = false ∧ c ≠ 39 ∧ isSelf c = false ∨ c = 95

/-- An integer literal out of range. -/
def TooBig (d : Bytes) : Prop := d ≠ [] ∧ (∀ z ∈ d, isDigit z = true) ∧ 2 ^ 63 ≤ (if d.head? = some 48 then octVal (d.takeWhile isOct) else decVal d)

/-- `Source fpr false ws x`: the text `x` consists of the words `ws`. `Source fpr true ws x`: the same for the rest `x` of a text, within a comment.
`fpr` is the result of printing a message about an integer out of range (negative if that fails: then the text ends there; otherwise the text is rejected). -/
inductive Source (fpr : Int) : Bool → List Word → Bytes → Prop where
  | done {c : Bool} : Source fpr c [] []
  /-- an unknown character ends the text -/
  | unknown {x : Bytes} : Unknown x → Source fpr false [] x
  /-- so does a string literal without end -/
  | openString {s : Bytes} : Source fpr false [] (39 :: double s)
  | tooBig {d y : Bytes} : fpr < 0 → TooBig d → Stops (fun c => isDigit c || c == 46) y → Source fpr false [] (d ++ y)
  | blanks {b y : Bytes} {ws : List Word} : (∀ z ∈ b, isBlank z = true) → Source fpr false ws y → Source fpr false ws (b ++ y)
  | word {w : Word} {x y : Bytes} {ws : List Word} : Lexeme w x y → Source fpr false ws y → Source fpr false (w :: ws) (x ++ y)
  | comment {y : Bytes} {ws : List Word} : Source fpr true ws y → Source fpr false ws (45 :: 45 :: y)
  /-- a line of a comment, unless it consists of blanks, or of `CURRENT` or `CHARACTER` that is continued on the next line -/
  | line {c y : Bytes} {ws : List Word} : c ≠ [] → 10 ∉ c → Stops (· != 10) y → (y ≠ [] → ∃ z ∈ c, isBlank z = false) →
      (∀ k k', k = b!"CURRENT" ∧ k' = b!"ROW" ∨ k = b!"CHARACTER" ∧ k' = b!"VARYING" → ∀ p b, c = p ++ b → upper p = k → (∀ z ∈ b, isBlank z = true) → ¬ ThenWord k' (b ++ y)) →
      Source fpr true ws y → Source fpr true ws (c ++ y)
  /-- a newline ends a comment, if the next line begins neither with a blank nor is empty -/
  | newline {y : Bytes} {ws : List Word} : Stops isBlank y → Source fpr false ws y → Source fpr true ws (10 :: y)
  /-- otherwise the comment goes on -/
  | onwards {b y : Bytes} {ws : List Word} : (∀ z ∈ b, isBlank z = true) → 10 ∈ b → b ≠ [10] → Stops isBlank y → Source fpr true ws y → Source fpr true ws (b ++ y)
  /-- these two keywords are recognised even in comments, if they extend over the end of a line -/
  | currentRow {c b r y : Bytes} {ws : List Word} : upper c = b!"CURRENT" → (∀ z ∈ b, isBlank z = true) → 10 ∈ b → upper r = b!"ROW" → Source fpr true ws y →
      Source fpr true (.kw T.CURRENT_ROW :: ws) (c ++ b ++ r ++ y)
  | characterVarying {c b r y : Bytes} {ws : List Word} : upper c = b!"CHARACTER" → (∀ z ∈ b, isBlank z = true) → 10 ∈ b → upper r = b!"VARYING" → Source fpr true ws y →
      Source fpr true (.kw T.CHARACTER_VARYING :: ws) (c ++ b ++ r ++ y)

end Verif.Sql

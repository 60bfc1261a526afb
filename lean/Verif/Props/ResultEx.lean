import Verif.Props.Result
/-!
# Concrete cases and violations for the properties of `SQLParser::parse`

Each is evaluated by the kernel on the model.
-/
namespace Verif.Props
open Verif.Lex Verif.LR Verif.Sem Verif.Api

/-- Parse into a fresh result. -/
def run0 (s : Bytes) : Option ParseOut := parse heap 64 [] (txt s) (newResult 0 0)

/-- What is visible of an outcome: validity, number of statements, message, position. -/
structure View where
  isValid : Bool
  size : Nat
  msg : Option Bytes
  line : Int
  col : Int
deriving DecidableEq

def view (o : ParseOut) : View := ⟨o.res.isValid, size o.res, message o.res, o.res.errLine, o.res.errCol⟩

/-- C10 is violated: an unknown character ends the text. -/
theorem C10_unknown_character_violation : (run0 b!"SELECT 1 # junk").map (fun o => (o.res.isValid, size o.res)) = some (true, 1) :=
  parse_of_eval (f := 20) (q := Option.map fun (o : ParseOut) => (o.res.isValid, size o.res)) (by decide +kernel)

/-- C10 is violated: an unterminated string literal ends the text. -/
theorem C10_unterminated_string_violation : (run0 b!"SELECT 1 'junk").map (fun o => (o.res.isValid, size o.res)) = some (true, 1) :=
  parse_of_eval (f := 20) (q := Option.map fun (o : ParseOut) => (o.res.isValid, size o.res)) (by decide +kernel)

/-- C20 is violated: a rejected text leaves a statement in the result. Also a concrete case for C34 and C35. -/
theorem C20_violation : (run0 b!"SELECT 1 garbage garbage").map view = some ⟨false, 1, some b!"syntax error, unexpected IDENTIFIER, expecting $end", 0, 17⟩ :=
  parse_of_eval (f := 20) (q := Option.map view) (by decide +kernel)

/-- A concrete case for C34 and C35: the second line, column 5. -/
example : (run0 b!"SELECT a\nFROM ;").map view = some ⟨false, 0, some b!"syntax error, unexpected ';', expecting IDENTIFIER or '('", 1, 5⟩ :=
  parse_of_eval (f := 20) (q := Option.map view) (by decide +kernel)

/-- A concrete case for C11, C16, C17, C25, C32: two statements. -/
example : (run0 b!"SELECT a FROM t WHERE b = 'x'; INSERT INTO t VALUES (1, 2.5)").map view = some ⟨true, 2, none, 0, 0⟩ :=
  parse_of_eval (f := 80) (q := Option.map view) (by decide +kernel)

/-- A concrete case for C18: three parameters. -/
example : (run0 b!"SELECT ? + ? FROM t WHERE a = ?").map (fun o => (o.res.isValid, o.res.params.length)) = some (true, 3) :=
  parse_of_eval (f := 30) (q := Option.map fun (o : ParseOut) => (o.res.isValid, o.res.params.length)) (by decide +kernel)

/-- C12: a check fails. -/
example : (run0 b!"SELECT DATE 'tomorrow'").map view = some ⟨false, 0, some b!"Found incorrect date format. Expected format: YYYY-MM-DD", 0, 7⟩ :=
  parse_of_eval (f := 30) (q := Option.map view) (by decide +kernel)

/-- C33: undefined behaviour in `sscanf`. -/
theorem C33_overflow_violation : run0 b!"SELECT INTERVAL '99999999999' DAY" = none := by
  have : (run0 b!"SELECT INTERVAL '99999999999' DAY").isNone = true := parse_of_eval (f := 30) (q := Option.isNone) (by decide +kernel)
  simpa using this

/-- Memory is lost even for accepted texts: the schema name of `CREATE INDEX ... ON s.t`. -/
theorem C32_leak_create_index_violation : (run0 b!"CREATE INDEX i ON s.t (a)").map (fun o => (o.res.isValid, o.leaked.length)) = some (true, 1) :=
  parse_of_eval (f := 30) (q := Option.map fun (o : ParseOut) => (o.res.isValid, o.leaked.length)) (by decide +kernel)

/-- Memory is lost even for accepted texts: the index expression of an array access. -/
theorem C32_leak_array_index_violation : (run0 b!"SELECT a[1]").map (fun o => (o.res.isValid, o.leaked.length)) = some (true, 1) :=
  parse_of_eval (f := 30) (q := Option.map fun (o : ParseOut) => (o.res.isValid, o.leaked.length)) (by decide +kernel)

/-- Memory is lost on error paths: of the update clause `a = 1` only the object itself is deleted. -/
theorem C33_leak_update_violation : (run0 b!"UPDATE t SET a = 1, ,").map (fun o => (o.res.isValid, o.leaked.length)) = some (false, 2) :=
  parse_of_eval (f := 30) (q := Option.map fun (o : ParseOut) => (o.res.isValid, o.leaked.length)) (by decide +kernel)

end Verif.Props

import Verif.Props.ResultEx
/-! Concrete cases for C44: every message occurs (1 of 3). -/
set_option maxRecDepth 20000
namespace Verif.Props
open Verif.Lex Verif.LR Verif.Sem Verif.Api

example : (run0 b!"SELECT a FROM t WHERE\n b > DATE '2020/01/01'").map view = some ⟨false, 0, some b!"Found incorrect date format. Expected format: YYYY-MM-DD", 1, 5⟩ :=
  parse_of_eval (f := 60) (q := Option.map view) (by decide +kernel)
example : (run0 b!"SELECT INTERVAL 'x' DAY").map view = some ⟨false, 0, some b!"Found incorrect interval format. Expected format: INTEGER", 0, 7⟩ :=
  parse_of_eval (f := 60) (q := Option.map view) (by decide +kernel)
example : (run0 b!"SELECT INTERVAL '3'").map view = some ⟨false, 0, some b!"Found incorrect interval format. Expected format: INTEGER INTERVAL_QUALIIFIER", 0, 7⟩ :=
  parse_of_eval (f := 60) (q := Option.map view) (by decide +kernel)
example : (run0 b!"SELECT INTERVAL '3 weeks'").map view = some ⟨false, 0, some b!"Interval qualifier is unknown.", 0, 7⟩ :=
  parse_of_eval (f := 60) (q := Option.map view) (by decide +kernel)
example : (run0 b!"SELECT a FROM t ORDER BY a NULLS middle").map view = some ⟨false, 0, some b!"Expected NULLS FIRST or NULLS LAST ordering.", 0, 27⟩ :=
  parse_of_eval (f := 60) (q := Option.map view) (by decide +kernel)

end Verif.Props

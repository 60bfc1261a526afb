import Verif.Props.ResultEx
/-! Concrete cases for C44: every message occurs (3 of 3). -/
set_option maxRecDepth 20000
namespace Verif.Props
open Verif.Lex Verif.LR Verif.Sem Verif.Api

example : (run0 b!"COPY t FROM 'f' (FORMAT csv, FORMAT tbl)").map view = some ⟨false, 0, some b!"File type must only be provided once.", 0, 17⟩ :=
  parse_of_eval (f := 60) (q := Option.map view) (by decide +kernel)
example : (run0 b!"COPY t FROM 'f' (ENCODING 'a', ENCODING 'b')").map view = some ⟨false, 0, some b!"Encoding type must only be provided once.", 0, 17⟩ :=
  parse_of_eval (f := 60) (q := Option.map view) (by decide +kernel)
example : (run0 b!"COPY t FROM 'f' (NULL 'a', NULL 'b')").map view = some ⟨false, 0, some b!"CSV options (DELIMITER, NULL, QUOTE) cannot be provided more than once.", 0, 17⟩ :=
  parse_of_eval (f := 60) (q := Option.map view) (by decide +kernel)
example : (run0 b!"COPY t FROM 'f' (FORMAT tbl, NULL 'a')").map view = some ⟨false, 0, some b!"CSV options (DELIMITER, NULL, QUOTE) are only allowed for CSV files.", 0, 17⟩ :=
  parse_of_eval (f := 60) (q := Option.map view) (by decide +kernel)
example : (run0 b!"CREATE TABLE t (a INT,\n b INT NULL PRIMARY KEY)").map view = some ⟨false, 0, some b!"Conflicting nullability constraints for b", 1, 1⟩ :=
  parse_of_eval (f := 80) (q := Option.map view) (by decide +kernel)

end Verif.Props

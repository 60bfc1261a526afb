import Verif.Props.ResultEx
/-! Concrete cases for C44: every message occurs (2 of 3). -/
set_option maxRecDepth 20000
namespace Verif.Props
open Verif.Lex Verif.LR Verif.Sem Verif.Api

example : (run0 b!"EXECUTE p(1, ?)").map view = some ⟨false, 0, some b!"Parameter ? is not a valid literal.", 0, 13⟩ :=
  parse_of_eval (f := 60) (q := Option.map view) (by decide +kernel)
example : (run0 b!"COPY t FROM 'f' (COMMENTS '/')").map view = some ⟨false, 0, some b!"Unknown CSV option.", 0, 17⟩ :=
  parse_of_eval (f := 60) (q := Option.map view) (by decide +kernel)
example : (run0 b!"COPY t FROM 'f' (FORMAT parquet)").map view = some ⟨false, 0, some b!"File type is unknown.", 0, 24⟩ :=
  parse_of_eval (f := 60) (q := Option.map view) (by decide +kernel)
example : (run0 b!"IMPORT FROM parquet FILE 'f' INTO t").map view = some ⟨false, 0, some b!"File type is unknown.", 0, 12⟩ :=
  parse_of_eval (f := 60) (q := Option.map view) (by decide +kernel)
example : (run0 b!"CREATE TABLE t FROM CSV FILE 'f'").map view = some ⟨false, 0, some b!"File type is unknown.", 0, 0⟩ :=
  parse_of_eval (f := 60) (q := Option.map view) (by decide +kernel)

end Verif.Props

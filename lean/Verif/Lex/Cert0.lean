import Verif.Lex.CertDefs
/-! GENERATED by tools/genlexcert.py. Kernel evaluation of the scanner certificate, part 0. -/
set_option maxRecDepth 200000
namespace Verif.Lex
theorem rows_0 : allFrom 0 57 rowOk = true := by decide +kernel
theorem rows_57 : allFrom 57 57 rowOk = true := by decide +kernel
theorem rows_114 : allFrom 114 57 rowOk = true := by decide +kernel
theorem rows_171 : allFrom 171 57 rowOk = true := by decide +kernel
theorem rows_228 : allFrom 228 57 rowOk = true := by decide +kernel
theorem rows_285 : allFrom 285 57 rowOk = true := by decide +kernel
theorem rowsPart0 : ∀ s, 0 ≤ s → s < 342 → rowOk s = true := by
  intro s h1 h2
  by_cases g0 : s < 57
  · exact allFrom_spec rows_0 s (by omega) g0
  by_cases g57 : s < 114
  · exact allFrom_spec rows_57 s (by omega) g57
  by_cases g114 : s < 171
  · exact allFrom_spec rows_114 s (by omega) g114
  by_cases g171 : s < 228
  · exact allFrom_spec rows_171 s (by omega) g171
  by_cases g228 : s < 285
  · exact allFrom_spec rows_228 s (by omega) g228
  by_cases g285 : s < 342
  · exact allFrom_spec rows_285 s (by omega) g285
  omega
end Verif.Lex

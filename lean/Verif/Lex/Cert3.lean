import Verif.Lex.CertDefs
/-! GENERATED by tools/genlexcert.py. Kernel evaluation of the scanner certificate, part 3. -/
set_option maxRecDepth 200000
namespace Verif.Lex
theorem rows_1026 : allFrom 1026 57 rowOk = true := by decide +kernel
theorem rows_1083 : allFrom 1083 57 rowOk = true := by decide +kernel
theorem rows_1140 : allFrom 1140 57 rowOk = true := by decide +kernel
theorem rows_1197 : allFrom 1197 57 rowOk = true := by decide +kernel
theorem rows_1254 : allFrom 1254 57 rowOk = true := by decide +kernel
theorem rows_1311 : allFrom 1311 56 rowOk = true := by decide +kernel
theorem rowsPart3 : ∀ s, 1026 ≤ s → s < 1367 → rowOk s = true := by
  intro s h1 h2
  by_cases g1026 : s < 1083
  · exact allFrom_spec rows_1026 s (by omega) g1026
  by_cases g1083 : s < 1140
  · exact allFrom_spec rows_1083 s (by omega) g1083
  by_cases g1140 : s < 1197
  · exact allFrom_spec rows_1140 s (by omega) g1140
  by_cases g1197 : s < 1254
  · exact allFrom_spec rows_1197 s (by omega) g1197
  by_cases g1254 : s < 1311
  · exact allFrom_spec rows_1254 s (by omega) g1254
  by_cases g1311 : s < 1367
  · exact allFrom_spec rows_1311 s (by omega) g1311
  omega
end Verif.Lex

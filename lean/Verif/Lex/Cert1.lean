import Verif.Lex.CertDefs
/-! GENERATED by tools/genlexcert.py. Kernel evaluation of the scanner certificate, part 1. -/
set_option maxRecDepth 200000
namespace Verif.Lex
theorem rows_342 : allFrom 342 57 rowOk = true := by decide +kernel
theorem rows_399 : allFrom 399 57 rowOk = true := by decide +kernel
theorem rows_456 : allFrom 456 57 rowOk = true := by decide +kernel
theorem rows_513 : allFrom 513 57 rowOk = true := by decide +kernel
theorem rows_570 : allFrom 570 57 rowOk = true := by decide +kernel
theorem rows_627 : allFrom 627 57 rowOk = true := by decide +kernel
theorem rowsPart1 : ∀ s, 342 ≤ s → s < 684 → rowOk s = true := by
  intro s h1 h2
  by_cases g342 : s < 399
  · exact allFrom_spec rows_342 s (by omega) g342
  by_cases g399 : s < 456
  · exact allFrom_spec rows_399 s (by omega) g399
  by_cases g456 : s < 513
  · exact allFrom_spec rows_456 s (by omega) g456
  by_cases g513 : s < 570
  · exact allFrom_spec rows_513 s (by omega) g513
  by_cases g570 : s < 627
  · exact allFrom_spec rows_570 s (by omega) g570
  by_cases g627 : s < 684
  · exact allFrom_spec rows_627 s (by omega) g627
  omega
end Verif.Lex

import Verif.Lex.CertDefs
/-! GENERATED by tools/genlexcert.py. Kernel evaluation of the scanner certificate, part 2. -/
set_option maxRecDepth 200000
namespace Verif.Lex
theorem rows_684 : allFrom 684 57 rowOk = true := by decide +kernel
theorem rows_741 : allFrom 741 57 rowOk = true := by decide +kernel
theorem rows_798 : allFrom 798 57 rowOk = true := by decide +kernel
theorem rows_855 : allFrom 855 57 rowOk = true := by decide +kernel
theorem rows_912 : allFrom 912 57 rowOk = true := by decide +kernel
theorem rows_969 : allFrom 969 57 rowOk = true := by decide +kernel
theorem rowsPart2 : ∀ s, 684 ≤ s → s < 1026 → rowOk s = true := by
  intro s h1 h2
  by_cases g684 : s < 741
  · exact allFrom_spec rows_684 s (by omega) g684
  by_cases g741 : s < 798
  · exact allFrom_spec rows_741 s (by omega) g741
  by_cases g798 : s < 855
  · exact allFrom_spec rows_798 s (by omega) g798
  by_cases g855 : s < 912
  · exact allFrom_spec rows_855 s (by omega) g855
  by_cases g912 : s < 969
  · exact allFrom_spec rows_912 s (by omega) g912
  by_cases g969 : s < 1026
  · exact allFrom_spec rows_969 s (by omega) g969
  omega
end Verif.Lex

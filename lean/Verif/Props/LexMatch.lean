import Verif.Lex.Fast
/-! Property C01 (and the matching part of C02). -/
namespace Verif.Props
open Verif.Lex

/-- C01. For every start condition and every non-empty text of non-NUL bytes the scanner performs, without
undefined behaviour, the action of the first rule among those matching the longest matchable prefix. -/
theorem C01_scanner_longest_match (sc : SC) (text : Bytes)
    (hbytes : ∀ b ∈ text, 1 ≤ b ∧ b ≤ 255) (hne : text ≠ []) :
    ∃ r n, scan sc text = some (.rule r n) ∧ 0 < n ∧ LongestMatch sc text r n := by
  obtain ⟨r, n, h1, h2, _, h4⟩ := scan_spec sc text hbytes hne
  exact ⟨r, n, h1, h2, h4⟩

/-- C01, uniqueness: the pair (rule, length) is determined by the specification alone. -/
theorem C01_longest_match_unique {sc : SC} {text : Bytes} {r n r' n' : Nat}
    (h : LongestMatch sc text r n) (h' : LongestMatch sc text r' n') : r = r' ∧ n = n' := by
  have e : n = n' := Nat.le_antisymm (h'.longest r n h.le h.isMatch) (h.longest r' n' h'.le h'.isMatch)
  subst e
  exact ⟨Nat.le_antisymm (h.first r' h'.isMatch) (h'.first r h.isMatch), rfl⟩

example : scan .initial b!"selecting 1" = some (.rule 183 9) := by
  rw [scan_eq_fast _ _ (by decide +kernel)]; decide +kernel
example : scan .initial b!"SELECT 1" = some (.rule 134 6) := by
  rw [scan_eq_fast _ _ (by decide +kernel)]; decide +kernel

end Verif.Props

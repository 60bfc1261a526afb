import Verif.Lex.Work
import Verif.Lex.LexFacts
import Verif.Props.ResultEx
/-!
# C51: the scanner works in linear time
-/
namespace Verif.Props
open Verif.Lex Verif.Api

theorem blank_mem {b : Nat} (h : isBlankB b) : blank.mem b = true ∧ (CC.compl (CC.byte 39)).mem b = true := by
  rcases h with rfl | rfl | rfl <;> exact ⟨by decide +kernel, by decide +kernel⟩

theorem many_matches {c : CC} : ∀ w : Bytes, (∀ b ∈ w, c.mem b = true) → Matches [many c] w
  | [], _ => .skip rfl .nil
  | b :: w, h => .more rfl (h b (by simp)) (many_matches w fun x hx => h x (by simp [hx]))

/-- Blanks at the beginning belong to the first match, in every start condition. -/
theorem blanks_first {sc : SC} {text : Bytes} {r n q : Nat} (h : LongestMatch sc text r n) (hq : q ≤ text.length) (hb : Blanks text 0 q) : q ≤ n := by
  cases q with
  | zero => exact Nat.zero_le _
  | succ q =>
    cases text with
    | nil => simp at hq
    | cons b rest =>
      have hall : ∀ x ∈ (b :: rest).take (q + 1), isBlankB x := by
        intro x hx
        obtain ⟨i, hi, e⟩ := List.getElem_of_mem hx
        obtain ⟨y, hy, hy'⟩ := hb i (Nat.zero_le _) (by simp at hi; omega)
        rw [List.getElem_take] at e
        rw [List.getElem?_eq_getElem (by simp at hi ⊢; omega)] at hy
        simp only [Option.some.injEq] at hy
        rw [← e, hy]; exact hy'
      have g4 : lexRules[4 - 1]? = some ⟨none, [one blank, many blank]⟩ := rfl
      have g186 : lexRules[186 - 1]? = some ⟨some .squote, [many (CC.compl (CC.byte 39))]⟩ := rfl
      rw [List.take_succ_cons] at hall
      have m4 : Matches [one blank, many blank] ((b :: rest).take (q + 1)) := by
        rw [List.take_succ_cons]
        exact .one rfl (blank_mem (hall b (by simp))).1 (many_matches _ fun x hx => (blank_mem (hall x (by simp [hx]))).1)
      have m186 : Matches [many (CC.compl (CC.byte 39))] ((b :: rest).take (q + 1)) := by
        rw [List.take_succ_cons]
        exact many_matches _ fun x hx => (blank_mem (hall x hx)).2
      cases sc with
      | squote => exact h.longest 186 (q + 1) hq ⟨_, g186, by omega, rfl, m186⟩
      | initial => exact h.longest 4 (q + 1) hq ⟨_, g4, by omega, rfl, m4⟩
      | comment => exact h.longest 4 (q + 1) hq ⟨_, g4, by omega, rfl, m4⟩

theorem scanMoves_nil (sc : SC) : scanMoves sc [] = 2 := by cases sc <;> decide +kernel

theorem lexMoves_le (fpr : Int) : ∀ (f : Nat) (st : LexSt), Clean st.rest → ∀ q, q ≤ st.rest.length → Blanks st.rest 0 q →
    lexMoves fpr f st + 2 * q ≤ 44 * st.rest.length + 2 := by
  intro f
  induction f with
  | zero => intro st _ q hq _; simp only [lexMoves]; omega
  | succ f ih =>
    intro st hc q hq hb
    obtain ⟨sc, buf, rest⟩ := st
    simp only at hc hq hb
    by_cases hne : rest = []
    · subst hne
      simp only [lexMoves, scan_nil, scanMoves_nil]
      simp at hq ⊢; omega
    obtain ⟨r, n, hs, hn, hlm, hM, hr⟩ := scanMoves_le sc rest hc hne
    have hqn := blanks_first hlm hq hb
    have hnl := hlm.le
    have h188 : ∀ buf w, lexAction fpr sc buf 188 w = some (.ret sc buf 0 .none) := fun _ _ => rfl
    rcases hr with hr | ⟨j, hj1, hj2, hj3, hj4⟩
    · subst hr
      simp only [lexMoves, hs, h188, if_true]
      omega
    · have key : ∀ sc' buf', lexMoves fpr f ⟨sc', buf', rest.drop n⟩ + 2 * (j - n) ≤ 44 * (rest.length - n) + 2 := by
        intro sc' buf'
        have := ih ⟨sc', buf', rest.drop n⟩ (fun x hx => hc x (List.mem_of_mem_drop hx)) (j - n) (by simp; omega) (by
          intro k _ hk
          obtain ⟨b, h1, h2⟩ := hj3 (n + k) (by omega) (by omega)
          exact ⟨b, by simpa using h1, h2⟩)
        simpa using this
      simp only [lexMoves, hs]
      cases lexAction fpr sc buf r (rest.take n) with
      | none => simp only; omega
      | some a =>
        cases a with
        | skip sc' buf' => have := key sc' buf'; simp only; omega
        | ret sc' buf' c v =>
          have := key sc' buf'
          simp only
          split <;> omega

/-- C51. On a text of `n` bytes the scanner makes at most `44 n + 2` moves of its automaton, however many matches (`f`) are made, and whatever the matches are. -/
theorem C51_scanning_is_linear (fpr : Int) (buf : Bytes) (sql : List UInt8) (f : Nat) : lexMoves fpr f (lexInit buf (cText sql)) ≤ 44 * sql.length + 2 := by
  have h := lexMoves_le fpr f (lexInit buf (cText sql)) (cText_clean sql) 0 (Nat.zero_le _) (fun k _ h => by omega)
  have hl : (cText sql).length ≤ sql.length := by
    unfold cText
    rw [List.length_map]
    exact (List.takeWhile_prefix _).length_le
  have : (lexInit buf (cText sql)).rest.length = (cText sql).length := rfl
  omega

/-- The moves counted: `CURRENT` and three blanks and `R` are read, `CURRENT ROW` being a token, and the blanks and `R` again; the last word is read twice, being at the end of the buffer. -/
example : lexMoves 64 10 (lexInit [] (cText (txt b!"CURRENT   RANGE"))) = 30 := by decide +kernel

end Verif.Props

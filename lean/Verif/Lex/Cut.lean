import Verif.Lex.Semi
/-! A run of the scanner that stops in front of `v` is a run to the end of the text if `v` is cut off. Proof-internal. -/
namespace Verif.Lex

theorem longest_cut {sc : SC} {p v : Bytes} {r n : Nat} (h : LongestMatch sc (p ++ v) r n) (hn : n ≤ p.length) : LongestMatch sc p r n where
  le := hn
  isMatch := by have := h.isMatch; rwa [List.take_append_of_le_length hn] at this
  longest := by
    intro r' n' h1 h2
    refine h.longest r' n' (by simp; omega) ?_
    rwa [List.take_append_of_le_length h1]
  first := by
    intro r' h1
    refine h.first r' ?_
    rwa [List.take_append_of_le_length hn]

theorem hand_cut {sc : SC} {p v : Bytes} {r n : Nat} (hc : Clean (p ++ v)) (hp : p ≠ []) (h : handStep sc (p ++ v) = (r, n)) (hn : n ≤ p.length) :
    handStep sc p = (r, n) := by
  have h1 := longest_hand sc hc (by simp [hp])
  rw [h] at h1
  have h2 := longest_hand sc (t := p) (fun b hb => hc b (by simp [hb])) hp
  obtain ⟨e1, e2⟩ := longestMatch_unique h2 (longest_cut h1 hn)
  exact Prod.ext e1 e2

theorem LRun.cut {fpr : Int} {v buf' : Bytes} {sc0 : SC} {st st' : LexSt} {acc acc' : List Bytes} {T : List Tok}
    (h : LRun fpr st acc T st' acc') : ∀ p, Clean st.rest → st.rest = p ++ v → st' = ⟨sc0, buf', v⟩ →
    LRun fpr ⟨st.sc, st.buf, p⟩ acc T ⟨sc0, buf', []⟩ acc' := by
  have side : ∀ {sc sc' : SC} {buf1 rest : Bytes} {acc1 acc' : List Bytes} {r n : Nat} {T' : List Tok} (p : Bytes),
      Clean rest → rest ≠ [] → rest = p ++ v → handStep sc rest = (r, n) →
      LRun fpr ⟨sc', buf1, rest.drop n⟩ acc1 T' ⟨sc0, buf', v⟩ acc' →
      rest.drop n = p.drop n ++ v ∧ rest.take n = p.take n ∧ handStep sc p = (r, n) ∧ p ≠ [] := by
    intro sc sc' buf1 rest acc1 acc' r n T' p hc hne e hs hrun
    have hl := hrun.length_le
    have hp := hand_pos sc hc hne
    rw [hs] at hp
    simp only [List.length_drop] at hl
    have hlen : rest.length = p.length + v.length := by rw [e]; simp
    have hn : n ≤ p.length := by simp only [] at hp; omega
    have hpne : p ≠ [] := by
      rintro rfl
      simp at hn; omega
    subst e
    refine ⟨?_, ?_, hand_cut hc hpne hs hn, hpne⟩
    · rw [List.drop_append_of_le_length hn]
    · rw [List.take_append_of_le_length hn]
  induction h with
  | refl =>
    intro p hc e e'
    subst e'
    have : p = [] := by
      have := congrArg List.length e
      simp at this
      exact this
    subst this
    exact LRun.refl
  | @skip sc buf rest acc r n sc' buf1 T st' acc' h1 h2 h3 h4 ih =>
    intro p hc e e'
    subst e'
    obtain ⟨k1, k2, k3, k4⟩ := side p hc h1 e h2 h4
    have := ih (p.drop n) (clean_drop hc n) k1 rfl
    rw [k2] at h3
    refine .skip k4 k3 h3 ?_
    rw [← k2]
    exact this
  | @ret sc buf rest acc r n sc' buf1 c val T st' acc' h1 h2 h3 h5 h4 ih =>
    intro p hc e e'
    subst e'
    obtain ⟨k1, k2, k3, k4⟩ := side p hc h1 e h2 h4
    have := ih (p.drop n) (clean_drop hc n) k1 rfl
    rw [k2] at h3 ⊢
    exact .ret k4 k3 h3 h5 this

/-- Inside a string literal without end. -/
theorem squote_open (fpr : Int) : ∀ (k : Nat) (s buf : Bytes) (acc : List Bytes), s.length ≤ k →
    ∃ acc', LRun fpr ⟨.squote, buf, escQuote s⟩ acc [] ⟨.squote, buf ++ s, []⟩ acc' := by
  intro k
  induction k with
  | zero =>
    intro s buf acc hk
    have : s = [] := List.eq_nil_of_length_eq_zero (by omega)
    subst this
    exact ⟨acc, by simpa [escQuote] using LRun.refl⟩
  | succ k ih =>
    intro s buf acc hk
    cases s with
    | nil => exact ⟨acc, by simpa [escQuote] using LRun.refl⟩
    | cons b s =>
      by_cases hb : b = 39
      · subst hb
        obtain ⟨pcs, h⟩ := ih s (buf ++ [39]) ([39, 39] :: acc) (by simp at hk; omega)
        refine ⟨pcs, ?_⟩
        have h1 := lrun_skip (fpr := fpr) (sc := .squote) (sc' := .squote) (buf := buf) (buf' := buf ++ [39]) (p := [39, 39]) (v := escQuote s) (acc := acc) (r := 185)
          (by simp) rfl rfl
        have := h1.trans h
        simpa [escQuote] using this
      · obtain ⟨hs, hh⟩ := takeWhile_split (fun c => c != 39) (b :: s)
        have ha := takeWhile_all (fun c => c != 39) (b :: s)
        have hlen : 1 ≤ ((b :: s).takeWhile (fun c => c != 39)).length := by simp [hb]
        generalize hu : (b :: s).takeWhile (fun c => c != 39) = u at *
        generalize (b :: s).drop u.length = s' at *
        have hune : u ≠ [] := by rintro rfl; simp at hlen
        have hu39 : ∀ x ∈ u, x ≠ 39 := fun x hx => by simpa using ha x hx
        rw [hs] at hk ⊢
        obtain ⟨pcs, h⟩ := ih s' (buf ++ u) (u :: acc) (by simp at hk; omega)
        refine ⟨pcs, ?_⟩
        have hstep : handStep .squote (u ++ escQuote s') = (186, u.length) := by
          show handSquote _ = _
          have hhead : ∀ x, (escQuote s').head? = some x → (x != 39) = false := by
            intro x hx
            cases s' with
            | nil => simp [escQuote] at hx
            | cons c s' =>
              have hc := hh c rfl
              have hc : c = 39 := by simpa using hc
              subst hc
              simp [escQuote] at hx; simp [← hx]
          have htw := takeWhile_stop (p := fun c => c != 39) ha hhead
          cases u with
          | nil => exact absurd rfl hune
          | cons c u =>
            have hc := hu39 c (by simp)
            unfold handSquote
            split
            · rename_i heq; simp at heq; exact absurd heq.1 hc
            · rename_i heq; simp at heq; exact absurd heq.1 hc
            · rw [htw]
        have h1 := lrun_skip (fpr := fpr) (sc := .squote) (sc' := .squote) (buf := buf) (buf' := buf ++ u) (p := u) (v := escQuote s') (acc := acc) (r := 186)
          hune hstep rfl
        have := h1.trans h
        rw [escQuote_append, escQuote_id hu39]
        simpa using this

theorem string_open (fpr : Int) (s buf : Bytes) (acc : List Bytes) :
    ∃ acc', LRun fpr ⟨.initial, buf, 39 :: escQuote s⟩ acc [] ⟨.squote, s, []⟩ acc' := by
  obtain ⟨acc', h⟩ := squote_open fpr s.length s [] ([39] :: acc) (Nat.le_refl _)
  refine ⟨acc', ?_⟩
  have h1 := lrun_skip (fpr := fpr) (sc := .initial) (sc' := .squote) (buf := buf) (buf' := []) (p := [39]) (v := escQuote s) (acc := acc) (r := 184)
    (by simp) (by simp [handStep, handInitial, isBlank, isLetter, isDigit]) rfl
  simpa using h1.trans h

end Verif.Lex

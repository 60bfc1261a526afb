import Verif.Sql.Render
import Verif.Sql.Known
/-! The standard way to write words is one. Proof-internal. -/
namespace Verif.Sql
open Verif.Lex Verif.LR

theorem kwTexts_upper : kwTexts.all (fun e => upper e.2 == e.2) = true := by decide +kernel
theorem spell_bytes : spellings.all (fun e => e.2.all fun z => decide (z ≠ 0 ∧ z < 256)) = true := by decide +kernel

theorem stops32 {p : Nat → Bool} (h : p 32 = false) (y : Bytes) : Stops p (32 :: y) := by intro c hc; simp at hc; subst hc; exact h

theorem spelling_mem {a : Nat} (h : Known a) : ∃ e ∈ spellings, e.1 = a ∧ spelling a = e.2 := by
  unfold Known at h
  rw [List.any_eq_true] at h
  obtain ⟨e, h1, h2⟩ := h
  unfold spelling
  cases hf : spellings.find? (fun e => e.1 == a) with
  | none =>
    have := List.find?_eq_none.1 hf e h1
    exact absurd h2 this
  | some e' =>
    have h3 := List.find?_some hf
    exact ⟨e', List.mem_of_find?_eq_some hf, by simpa using h3, rfl⟩

theorem digits_spec (n : Nat) : digits n ≠ [] ∧ (∀ z ∈ digits n, isDigit z = true) ∧ decVal (digits n) = n ∧ ((digits n).head? = some 48 → n = 0) := by
  induction n using Nat.strongRecOn with
  | ind n ih =>
    unfold digits
    split
    · rename_i h
      refine ⟨by simp, ?_, ?_, ?_⟩
      · intro z hz
        simp only [List.mem_singleton] at hz
        subst hz
        simp only [isDigit, Bool.and_eq_true, decide_eq_true_eq]; omega
      · simp only [decVal, List.foldl_cons, List.foldl_nil]; omega
      · intro h'; simp at h'; exact h'
    · rename_i h
      obtain ⟨i1, i2, i3, i4⟩ := ih (n / 10) (by omega)
      refine ⟨by simp, ?_, ?_, ?_⟩
      · intro z hz
        rcases List.mem_append.1 hz with hz | hz
        · exact i2 z hz
        · simp only [List.mem_singleton] at hz
          subst hz
          simp only [isDigit, Bool.and_eq_true, decide_eq_true_eq]; omega
      · unfold decVal at i3 ⊢
        rw [List.foldl_append, i3]
        simp only [List.foldl_cons, List.foldl_nil]; omega
      · intro h'
        have := i4 (by
          cases hd : digits (n / 10) with
          | nil => exact absurd hd i1
          | cons c r => rw [hd] at h'; simpa using h')
        omega

theorem Word.writes {w : Word} (h : w.Ok) (hk : ∀ a, w = .kw a → Known a) (y : Bytes) : Writes w w.text (32 :: y) := by
  cases w with
  | kw a =>
    obtain ⟨⟨b, x⟩, h1, h2, h3⟩ := spelling_mem (hk a rfl)
    simp only [] at h2 h3
    subst h2
    simp only [Word.text, h3]
    rcases List.mem_append.1 h1 with h1 | h1
    · rcases List.mem_append.1 h1 with h1 | h1
      · exact .keyword h1 (eq_of_beq (List.all_eq_true.1 kwTexts_upper _ h1)) (stops32 rfl _)
      · exact .punct h1
    · simp only [List.mem_cons, Prod.mk.injEq, List.not_mem_nil, or_false] at h1
      rcases h1 with ⟨rfl, rfl⟩ | ⟨rfl, rfl⟩ | ⟨rfl, rfl⟩ | ⟨rfl, rfl⟩ | ⟨rfl, rfl⟩ | ⟨rfl, rfl⟩ | ⟨rfl, rfl⟩
      · exact .currentRow (c := b!"CURRENT") (b := b!" ") (r := b!"ROW") rfl (by decide) (by decide) rfl (stops32 rfl _)
      · exact .characterVarying (c := b!"CHARACTER") (b := b!" ") (r := b!"VARYING") rfl (by decide) (by decide) rfl (stops32 rfl _)
      · exact .eq (stops32 rfl _)
      · exact .lt (stops32 rfl _)
      · exact .gt (stops32 rfl _)
      · refine .minus (stops32 rfl _) ?_
        rintro ⟨t, ht⟩
        simp at ht
      · exact .dot (stops32 rfl _)
  | id b => exact .quoted h.1 fun z hz => ⟨(h.2 z hz).1, (h.2 z hz).2.1⟩
  | str b => exact .string (stops32 rfl _)
  | int n =>
    obtain ⟨i1, i2, i3, i4⟩ := digits_spec n.toNat
    have hn : ((decVal (digits n.toNat) : Nat) : Int) = n := by rw [i3]; have := h.1; omega
    have := Writes.int (d := digits n.toNat) (y := 32 :: y) i1 i2 (by
      intro h'
      rw [i4 h']
      decide +kernel) (by rw [i3]; have := h.2; have := h.1; omega) (stops32 rfl _)
    rw [hn] at this
    exact this
  | flt b =>
    obtain ⟨d, f, rfl, h1, h2⟩ := h
    exact .float h1 (fun z hz => h2 z (by simp [hz])) (fun z hz => h2 z (by simp [hz])) (stops32 rfl _)
  | par k => exact .param

theorem render_text' : ∀ (ws : List Word), (∀ w ∈ ws, w.Ok) → K ws → ∀ b, (∀ z ∈ b, isBlank z = true) → Text ws (b ++ render ws)
  | [], _, _, b, hb => by rw [render, List.append_nil]; exact .nil hb
  | w :: ws, h, hk, b, hb => by
    refine .cons hb (Word.writes (h w (by simp)) (fun a ha => hk a (by rw [ha]; simp)) _) ?_
    exact render_text' ws (fun w hw => h w (by simp [hw])) (fun a ha => hk a (by simp [ha])) [32] (by simp [isBlank])

theorem render_text {ws : List Word} (h : ∀ w ∈ ws, w.Ok) (hk : K ws) : Text ws (render ws) := render_text' ws h hk [] (by simp)

theorem double_mem {z : Nat} : ∀ {b : Bytes}, z ∈ double b → z ∈ b ∨ z = 39
  | c :: b, h => by
    unfold double at h
    split at h
    · simp only [List.mem_cons] at h
      rcases h with h | h | h
      · exact .inr h
      · exact .inr h
      · exact (double_mem h).imp (fun h => by simp [h]) id
    · simp only [List.mem_cons] at h
      rcases h with h | h
      · exact .inl (by simp [h])
      · exact (double_mem h).imp (fun h => by simp [h]) id

theorem Word.text_bytes {w : Word} (h : w.Ok) (hk : ∀ a, w = .kw a → Known a) : ∀ z ∈ w.text, z ≠ 0 ∧ z < 256 := by
  have dig : ∀ z, isDigit z = true → z ≠ 0 ∧ z < 256 := by
    intro z hz
    simp only [isDigit, Bool.and_eq_true, decide_eq_true_eq] at hz
    omega
  intro z hz
  cases w with
  | kw a =>
    obtain ⟨e, h1, h2, h3⟩ := spelling_mem (hk a rfl)
    rw [Word.text, h3] at hz
    simpa using List.all_eq_true.1 (List.all_eq_true.1 spell_bytes _ h1) z hz
  | id b =>
    simp only [Word.text, List.mem_cons, List.mem_append, List.not_mem_nil, or_false] at hz
    rcases hz with rfl | hz | rfl
    · decide
    · exact ⟨(h.2 z hz).2.2.1, (h.2 z hz).2.2.2⟩
    · decide
  | str b =>
    simp only [Word.text, List.mem_cons, List.mem_append, List.not_mem_nil, or_false] at hz
    rcases hz with rfl | hz | rfl
    · decide
    · rcases double_mem hz with hz | rfl
      · exact h z hz
      · decide
    · decide
  | int n => exact dig z ((digits_spec n.toNat).2.1 z hz)
  | flt b =>
    obtain ⟨d, f, rfl, h1, h2⟩ := h
    rcases List.mem_append.1 hz with hz | hz
    · exact dig z (h2 z (by simp [hz]))
    · rcases List.mem_cons.1 hz with rfl | hz
      · decide
      · exact dig z (h2 z (by simp [hz]))
  | par k => simp only [Word.text, List.mem_singleton] at hz; subst hz; decide

theorem render_bytes : ∀ {ws : List Word}, (∀ w ∈ ws, w.Ok) → K ws → ∀ z ∈ render ws, z ≠ 0 ∧ z < 256
  | [], _, _, z, hz => by simp [render] at hz
  | w :: ws, h, hk, z, hz => by
    rw [render] at hz
    rcases List.mem_append.1 hz with hz | hz
    · exact Word.text_bytes (h w (by simp)) (fun a ha => hk a (by rw [ha]; simp)) z hz
    · rcases List.mem_cons.1 hz with rfl | hz
      · decide
      · exact render_bytes (fun w hw => h w (by simp [hw])) (fun a ha => hk a (by simp [ha])) z hz

theorem cText_ofNat {x : Bytes} (h : ∀ z ∈ x, z ≠ 0 ∧ z < 256) : cText (x.map UInt8.ofNat) = x := by
  induction x with
  | nil => rfl
  | cons z x ih =>
    have hz := h z (by simp)
    have ht : (UInt8.ofNat z).toNat = z := by simp [UInt8.toNat_ofNat']; omega
    have hne : UInt8.ofNat z ≠ 0 := by
      intro e
      rw [e] at ht
      exact hz.1 ht.symm
    have := ih (fun z hz => h z (by simp [hz]))
    unfold cText at this ⊢
    rw [List.map_cons, List.takeWhile_cons, if_pos (by simpa using hne), List.map_cons, this, ht]

end Verif.Sql

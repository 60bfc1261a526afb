import Verif.Sql.Source
import Verif.Sql.Spellable
/-! The words of any text can be written one after the other with blanks between them. Proof-internal. -/
namespace Verif.Sql
open Verif.Lex Verif.LR

/-- How a formatter writes a word. -/
def Word.text2 : Word → Bytes
  | .int n => if n < 0 then b!"-9223372036854775808" else digits n.toNat
  | w => w.text

/-- The words that occur in texts. -/
def Word.Ok2 (w : Word) : Prop := w.Ok ∨ w = .int (-9223372036854775808) ∨ ∃ f, w = .flt (46 :: f) ∧ f ≠ [] ∧ ∀ z ∈ f, isDigit z = true

def render2 : List Word → Bytes
  | [] => []
  | w :: ws => w.text2 ++ 32 :: render2 ws

theorem Word.writes2 {w : Word} (h : w.Ok2) (hk : ∀ a, w = .kw a → Known a) (y : Bytes) : Writes w w.text2 (32 :: y) := by
  rcases h with h | rfl | ⟨f, rfl, h1, h2⟩
  · have := Word.writes h hk y
    cases w with
    | int n =>
      have hn : ¬ n < 0 := by have := h.1; omega
      simp only [Word.text2, if_neg hn]
      exact this
    | kw a => exact this
    | id a => exact this
    | str a => exact this
    | flt a => exact this
    | par a => exact this
  · exact .minInt
  · exact .dotFloat h1 h2 (stops32 rfl _)

theorem Word.text2_bytes {w : Word} (h : w.Ok2) (hk : ∀ a, w = .kw a → Known a) : ∀ z ∈ w.text2, z ≠ 0 ∧ z < 256 := by
  rcases h with h | rfl | ⟨f, rfl, h1, h2⟩
  · have := Word.text_bytes h hk
    cases w with
    | int n =>
      have hn : ¬ n < 0 := by have := h.1; omega
      simp only [Word.text2, if_neg hn]
      exact this
    | kw a => exact this
    | id a => exact this
    | str a => exact this
    | flt a => exact this
    | par a => exact this
  · simp only [Word.text2]
    decide
  · intro z hz
    rcases List.mem_cons.1 hz with rfl | hz
    · decide
    · have := h2 z hz
      simp only [isDigit, Bool.and_eq_true, decide_eq_true_eq] at this
      omega

theorem render2_source {fpr : Int} : ∀ {ws : List Word}, (∀ w ∈ ws, w.Ok2) → K ws → Source fpr false ws (render2 ws)
  | [], _, _ => .done
  | w :: ws, h, hk => by
    refine .word (.std (Word.writes2 (h w (by simp)) (fun a ha => hk a (by rw [ha]; simp)) _)) ?_
    exact .blanks (b := [32]) (by decide) (render2_source (fun w hw => h w (by simp [hw])) (fun a ha => hk a (by simp [ha])))

theorem render2_bytes : ∀ {ws : List Word}, (∀ w ∈ ws, w.Ok2) → K ws → ∀ z ∈ render2 ws, z ≠ 0 ∧ z < 256
  | [], _, _, z, hz => by simp [render2] at hz
  | w :: ws, h, hk, z, hz => by
    rw [render2] at hz
    rcases List.mem_append.1 hz with hz | hz
    · exact Word.text2_bytes (h w (by simp)) (fun a ha => hk a (by rw [ha]; simp)) z hz
    · rcases List.mem_cons.1 hz with rfl | hz
      · decide
      · exact render2_bytes (fun w hw => h w (by simp [hw])) (fun a ha => hk a (by simp [ha])) z hz

theorem mem_double {s : Bytes} {z : Nat} (h : z ∈ s) : z ∈ double s := by
  induction s with
  | nil => cases h
  | cons c s ih =>
    unfold double
    rcases List.mem_cons.1 h with rfl | h
    · split
      · rename_i e; simp [e]
      · simp
    · split <;> simp [ih h]

theorem wordc_bytes {z : Nat} (h : isWordc z = true) : z ≠ 34 ∧ z ≠ 10 ∧ z ≠ 0 ∧ z < 256 := by
  simp only [isWordc, isLetter, isDigit, Bool.or_eq_true, Bool.and_eq_true, decide_eq_true_eq, beq_iff_eq] at h
  omega

theorem letters_upper {x k : Bytes} (h : upper x = k) (hk : ∀ z ∈ k, 65 ≤ z ∧ z ≤ 90) : ∀ z ∈ x, z ≠ 34 ∧ z ≠ 10 ∧ z ≠ 0 ∧ z < 256 := by
  intro z hz
  have : upperB z ∈ k := by rw [← h]; exact List.mem_map_of_mem hz
  have := hk _ this
  unfold upperB at this
  split at this <;> omega

theorem Writes.ok {w : Word} {x y : Bytes} (h : Writes w x y) (hb : ∀ z ∈ x, z ≠ 0 ∧ z < 256) : w.Ok2 := by
  cases h with
  | keyword | currentRow | characterVarying | punct | eq | lt | gt | minus | dot | param => exact .inl trivial
  | ident h1 h2 h3 =>
    refine .inl ⟨by simp, fun z hz => ?_⟩
    rcases List.mem_cons.1 hz with rfl | hz
    · exact wordc_bytes (by simp [isWordc, h1])
    · exact wordc_bytes (h2 z hz)
  | quoted h1 h2 => exact .inl ⟨h1, fun z hz => ⟨(h2 z hz).1, (h2 z hz).2, (hb z (by simp [hz])).1, (hb z (by simp [hz])).2⟩⟩
  | string => exact .inl fun z hz => hb z (by simp [mem_double hz])
  | int h1 h2 h3 h4 => exact .inl ⟨by omega, by omega⟩
  | minInt => exact .inr (.inl rfl)
  | @float d f _ h1 h2 h3 => exact .inl ⟨d, f, rfl, h1, fun z hz => (List.mem_append.1 hz).elim (h2 z) (h3 z)⟩
  | dotFloat h1 h2 => exact .inr (.inr ⟨_, rfl, h1, h2⟩)

theorem Lexeme.ok {w : Word} {x y : Bytes} (h : Lexeme w x y) (hb : ∀ z ∈ x, z ≠ 0 ∧ z < 256) : w.Ok2 := by
  cases h with
  | std h => exact h.ok hb
  | currentRow | characterVarying => exact .inl trivial
  | current h => exact .inl ⟨by rintro rfl; exact absurd h (by decide), letters_upper h (by decide)⟩
  | character h => exact .inl ⟨by rintro rfl; exact absurd h (by decide), letters_upper h (by decide)⟩
  | octal h1 h2 h3 => exact .inl ⟨by omega, by omega⟩

theorem Source.ok {fpr : Int} {c : Bool} {ws : List Word} {x : Bytes} (h : Source fpr c ws x) : (∀ z ∈ x, z ≠ 0 ∧ z < 256) → ∀ w ∈ ws, w.Ok2 := by
  induction h with
  | done | unknown | openString | tooBig => intro _ w hw; cases hw
  | blanks h1 _ ih => intro hb; exact ih fun z hz => hb z (by simp [hz])
  | word h1 _ ih =>
    intro hb w hw
    rcases List.mem_cons.1 hw with rfl | hw
    · exact h1.ok fun z hz => hb z (by simp [hz])
    · exact ih (fun z hz => hb z (by simp [hz])) w hw
  | comment _ ih => intro hb; exact ih fun z hz => hb z (by simp [hz])
  | line _ _ _ _ _ _ ih => intro hb; exact ih fun z hz => hb z (by simp [hz])
  | newline _ _ ih => intro hb; exact ih fun z hz => hb z (by simp [hz])
  | onwards _ _ _ _ _ ih => intro hb; exact ih fun z hz => hb z (by simp [hz])
  | currentRow _ _ _ _ _ ih | characterVarying _ _ _ _ _ ih =>
    intro hb w hw
    rcases List.mem_cons.1 hw with rfl | hw
    · exact .inl trivial
    · exact ih (fun z hz => hb z (by simp [hz])) w hw

end Verif.Sql

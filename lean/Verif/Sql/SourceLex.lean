import Verif.Sql.Source
import Verif.Sql.TextLex
import Verif.Sql.Known
/-! What the scanner makes of any text: words of `Source`. Proof-internal. -/
namespace Verif.Sql
open Verif.Lex Verif.LR

/-! ## Lexemes are read as words -/

theorem same_prefix {a b c d : Bytes} (h : a ++ b = c ++ d) (hl : a.length = c.length) : a = c ∧ b = d := List.append_inj h hl

theorem two_of_then {k k' x y : Bytes} (hx : upper x = k) {n : Nat} (h : twoWords k k' (x ++ y) = some n) : ThenWord k' y := by
  obtain ⟨x', b, r, z, e, h1, h2, h3, h4, _⟩ := twoWords_some h
  have hl : x.length = x'.length := by rw [← upper_length x, ← upper_length x', hx, h1]
  obtain ⟨rfl, rfl⟩ := same_prefix e hl
  exact ⟨b, r, z, rfl, h2, h3, h4⟩

theorem two_none {k k' x y : Bytes} (hx : upper x = k) (h : ¬ ThenWord k' y) : twoWords k k' (x ++ y) = none := by
  cases e : twoWords k k' (x ++ y) with
  | none => rfl
  | some n => exact absurd (two_of_then hx e) h

theorem reads_half {fpr : Int} {x y : Bytes} (hl : ∀ z ∈ x, isLetter z = true) (hx : x ≠ []) (hy : Stops isWordc y) (hk : ∀ k ∈ keywords, upper x ≠ k.1) (h2 : NotTwoWord x y) : Reads fpr (.id x) x y := by
  cases x with
  | nil => exact absurd rfl hx
  | cons b w =>
    intro buf acc
    exact ⟨_, _, word_run_ident fpr (hl b (by simp)) (fun z hz => letter_wordc (hl z (by simp [hz]))) hy h2 hk, rfl, rfl⟩

theorem reads_current {fpr : Int} {x y : Bytes} (h1 : upper x = b!"CURRENT") (h2 : Stops isWordc y) (h3 : ¬ ThenWord b!"ROW" y) : Reads fpr (.id x) x y := by
  have hl := letters_of_upper h1 (by decide)
  refine reads_half hl (by rintro rfl; cases h1) h2 ?_ ⟨two_none h1 h3, twoWords_none (by decide) (fun z hz => letter_wordc (hl z hz)) h2 (by rw [h1]; decide)⟩
  rw [h1]; decide +kernel

theorem reads_character {fpr : Int} {x y : Bytes} (h1 : upper x = b!"CHARACTER") (h2 : Stops isWordc y) (h3 : ¬ ThenWord b!"VARYING" y) : Reads fpr (.id x) x y := by
  have hl := letters_of_upper h1 (by decide)
  refine reads_half hl (by rintro rfl; cases h1) h2 ?_ ⟨twoWords_none (by decide) (fun z hz => letter_wordc (hl z hz)) h2 (by rw [h1]; decide), two_none h1 h3⟩
  rw [h1]; decide +kernel

theorem stops_num {y : Bytes} (h : Stops (fun c => isDigit c || c == 46) y) : ∀ x, y.head? = some x → isDigit x = false ∧ x ≠ 46 := by
  intro x hx
  have := h x hx
  simpa using this

theorem strtoll_oct {d : Bytes} (h : d.head? = some 48) (h2 : octVal (d.takeWhile isOct) < 2 ^ 63) : strtoll0 d = some (octVal (d.takeWhile isOct) : Int) := by
  unfold strtoll0
  simp only [if_pos h]
  change (if octVal (d.takeWhile isOct) ≤ 2 ^ 63 - 1 then some (Int.ofNat (octVal (d.takeWhile isOct))) else none) = _
  rw [if_pos (by omega)]
  rfl

theorem reads_octal {fpr : Int} {d y : Bytes} (h1 : ∀ z ∈ d, isDigit z = true) (h2 : d.head? = some 48) (h3 : octVal (d.takeWhile isOct) < 2 ^ 63) (h4 : Stops (fun c => isDigit c || c == 46) y) :
    Reads fpr (.int (octVal (d.takeWhile isOct))) d y := fun buf acc =>
  ⟨_, _, int_run fpr (by rintro rfl; cases h2) h1 (stops_num h4) (strtoll_oct h2 h3), rfl, rfl⟩

theorem Lexeme.reads {fpr : Int} {w : Word} {x y : Bytes} (h : Lexeme w x y) : Reads fpr w x y := by
  cases h with
  | std h => exact h.reads
  | currentRow h1 h2 h3 h4 => exact reads_currentRow h1 h2 h3 h4
  | characterVarying h1 h2 h3 h4 => exact reads_charVarying h1 h2 h3 h4
  | current h1 h2 h3 => exact reads_current h1 h2 h3
  | character h1 h2 h3 => exact reads_character h1 h2 h3
  | octal h1 h2 h3 h4 => exact reads_octal h1 h2 h3 h4

theorem Lexeme.ne {w : Word} {x y : Bytes} (h : Lexeme w x y) : x ≠ [] := by
  cases h with
  | std h => obtain ⟨c, r, rfl, _⟩ := h.head; simp
  | @currentRow c b r y h1 h2 h3 h4 => intro e; simp at e; exact h2 e.2.1
  | @characterVarying c b r y h1 h2 h3 h4 => intro e; simp at e; exact h2 e.2.1
  | current h1 h2 h3 => rintro rfl; cases h1
  | character h1 h2 h3 => rintro rfl; cases h1
  | octal h1 h2 h3 h4 => rintro rfl; cases h2

theorem Lexeme.sym_pos {w : Word} {x y : Bytes} (h : Lexeme w x y) : w.sym ≠ 0 := by
  cases h with
  | std h => exact h.sym_pos
  | _ => simp only [Word.sym]; decide

/-- A word is determined by terminal and value, up to the number of a parameter. -/
theorem Lexeme.same {w w0 : Word} {x y : Bytes} (h : Lexeme w x y) (hk : ∀ a, w0 = .kw a → Known a) (h1 : w0.sym = w.sym) (h2 : w0.val = w.val) : Lexeme w0 x y := by
  have nk : ∀ a, Known a → a ≠ 198 ∧ a ≠ 3 ∧ a ≠ 4 ∧ a ≠ 5 ∧ a ≠ 6 := by
    intro a ha
    have : spellings.all (fun e => e.1 != 198 && e.1 != 3 && e.1 != 4 && e.1 != 5 && e.1 != 6) = true := by decide +kernel
    obtain ⟨e, he, hea⟩ := List.any_eq_true.1 ha
    have := List.all_eq_true.1 this e he
    have hea := eq_of_beq hea
    subst hea
    simp at this; omega
  have hcases : w0 = w ∨ (∃ k k', w0 = .par k ∧ w = .par k') ∨ (∃ a k, w0 = .par k ∧ w = .kw a ∧ a = 198) := by
    cases w0 with
    | kw a =>
      have := nk a (hk a rfl)
      cases w with
      | kw b => left; simp only [Word.sym] at h1; rw [h1]
      | par k => exfalso; simp only [Word.sym] at h1; exact this.1 h1
      | _ => cases h2
    | par k =>
      cases w with
      | par k' => exact .inr (.inl ⟨k, k', rfl, rfl⟩)
      | kw a => exact .inr (.inr ⟨a, k, rfl, rfl, h1.symm⟩)
      | _ => cases h2
    | id b => cases w <;> simp only [Word.sym, Word.val] at h1 h2 <;> first | (cases h2; left; rfl) | exact absurd h1 (by decide) | cases h2
    | str b => cases w <;> simp only [Word.sym, Word.val] at h1 h2 <;> first | (cases h2; left; rfl) | exact absurd h1 (by decide) | cases h2
    | int n => cases w <;> simp only [Word.sym, Word.val] at h1 h2 <;> first | cases h2; left; rfl | cases h2
    | flt b => cases w <;> simp only [Word.sym, Word.val] at h1 h2 <;> first | cases h2; left; rfl | cases h2
  rcases hcases with rfl | ⟨k, k', rfl, rfl⟩ | ⟨a, k, rfl, rfl, ha⟩
  · exact h
  · cases h with
    | std h => cases h with | param => exact .std .param
  · exfalso
    have : (kwTexts ++ punctTexts).all (fun e => e.1 != 198) = true := by decide +kernel
    cases h with
    | std h =>
      cases h with
      | keyword h _ _ => simpa [ha] using List.all_eq_true.1 this _ (List.mem_append_left _ h)
      | punct h => simpa [ha] using List.all_eq_true.1 this _ (List.mem_append_right _ h)
      | _ => cases ha
    | _ => cases ha

/-! ## Every text begins with one of these -/

/-- A terminal the grammar does not use. -/
def foreign (s : Nat) : Bool := !(spellings.any fun e => e.1 == s) && !([3, 4, 5, 6, 198].contains s) && !(s == 0)

theorem foreign_ne {s : Nat} (h : foreign s = true) {w : Word} (hk : ∀ a, w = .kw a → Known a) : w.sym ≠ s := by
  unfold foreign at h
  simp only [Bool.and_eq_true, Bool.not_eq_true'] at h
  obtain ⟨⟨h1, h2⟩, _⟩ := h
  intro e
  subst e
  cases w with
  | kw a => rw [show Word.sym (.kw a) = a from rfl, hk a rfl] at h1; cases h1
  | _ => simp only [Word.sym] at h2; exact absurd h2 (by decide)

inductive Cov : Bytes → Prop where
  | blanks {b y : Bytes} : b ≠ [] → (∀ z ∈ b, isBlank z = true) → Stops isBlank y → Cov (b ++ y)
  | word {w : Word} {p y : Bytes} : Lexeme w p y → Cov (p ++ y)
  | comment {y : Bytes} : Cov (45 :: 45 :: y)
  | unknown {x : Bytes} : Unknown x → Cov x
  | openString {s : Bytes} : Cov (39 :: double s)
  | tooBig {d y : Bytes} : TooBig d → Stops (fun c => isDigit c || c == 46) y → Cov (d ++ y)
  | other {p y : Bytes} {r : Nat} {c : Int} : p ≠ [] → handInitial (p ++ y) = (r, p.length) → (∀ fpr buf, lexAction fpr .initial buf r p = some (.ret .initial buf c .none)) → c ≠ 0 →
      foreign (tokSym c) = true → Cov (p ++ y)

theorem kw_cover : keywords.all (fun k => (kwTexts.any fun e => e.1 == tokSym k.2 && e.2 == k.1) || foreign (tokSym k.2)) = true := by decide +kernel
theorem kw_ne0 : ∀ k ∈ keywords, k.2 ≠ 0 := by decide +kernel

theorem cov_word {b : Nat} {t : Bytes} (hb : isLetter b = true) : Cov (b :: t) := by
  cases h1 : twoWords b!"CURRENT" b!"ROW" (b :: t) with
  | some n =>
    obtain ⟨c, bl, r, y, e, k1, k2, k3, k4, _⟩ := twoWords_some h1
    rw [e, show c ++ (bl ++ (r ++ y)) = c ++ bl ++ r ++ y by simp]
    exact .word (.currentRow k1 k2 k3 k4)
  | none =>
    cases h2 : twoWords b!"CHARACTER" b!"VARYING" (b :: t) with
    | some n =>
      obtain ⟨c, bl, r, y, e, k1, k2, k3, k4, _⟩ := twoWords_some h2
      rw [e, show c ++ (bl ++ (r ++ y)) = c ++ bl ++ r ++ y by simp]
      exact .word (.characterVarying k1 k2 k3 k4)
    | none =>
      obtain ⟨e, hst⟩ := takeWhile_split isWordc t
      have ha := takeWhile_all isWordc t
      generalize t.takeWhile isWordc = w at *
      generalize t.drop w.length = y at *
      subst e
      rw [← List.cons_append] at h1 h2 ⊢
      have hs := hand_word hb ha hst ⟨h1, h2⟩
      have hst : Stops isWordc y := hst
      by_cases hc1 : upper (b :: w) = b!"CURRENT"
      · refine .word (.current hc1 hst ?_)
        rintro ⟨bl, r, z, rfl, k2, k3, k4⟩
        have := hand_two (y := z) (by decide) (by decide) (by decide) (by decide) hc1 k2 k3 k4
        rw [List.append_assoc, List.append_assoc, h1] at this
        cases this
      · by_cases hc2 : upper (b :: w) = b!"CHARACTER"
        · refine .word (.character hc2 hst ?_)
          rintro ⟨bl, r, z, rfl, k2, k3, k4⟩
          have := hand_two (y := z) (by decide) (by decide) (by decide) (by decide) hc2 k2 k3 k4
          rw [List.append_assoc, List.append_assoc, h2] at this
          cases this
        · cases hk : kwIndex (b :: w) with
          | none =>
            refine .word (.std (.ident hb ha ?_ hc1 hc2 hst))
            intro k hk' hu
            unfold kwIndex at hk
            rw [List.findIdx?_eq_none_iff] at hk
            have := hk k hk'
            rw [hu] at this
            simp at this
          | some i =>
            rw [hk] at hs
            simp only [] at hs
            obtain ⟨k, hk1, hk2⟩ := kwIndex_some hk
            have hm := List.mem_of_getElem? hk1
            have hc := List.all_eq_true.1 kw_cover k hm
            rcases Bool.or_eq_true _ _ ▸ hc with hc | hc
            · obtain ⟨e, he, hee⟩ := List.any_eq_true.1 hc
              simp only [Bool.and_eq_true, beq_iff_eq] at hee
              refine .word (w := .kw e.1) (.std (.keyword (k := e.2) he ?_ hst))
              rw [hk2, hee.2]
            · refine .other (c := k.2) (by simp) hs ?_ (by have := kw_ne0 k hm; omega) hc
              intro fpr buf
              have hi' : i < 164 := by
                rcases Nat.lt_or_ge i keywords.length with h' | h'
                · rw [kw_len] at h'; exact h'
                · rw [List.getElem?_eq_none h'] at hk1; cases hk1
              unfold lexAction
              rw [if_neg (by omega), if_neg (by omega), if_neg (by omega), if_neg (by omega), if_pos (by omega), Nat.add_sub_cancel_left, hk1]
              rfl

theorem cov_number {b : Nat} {t : Bytes} (hb : isDigit b = true) : Cov (b :: t) := by
  obtain ⟨e, hst⟩ := takeWhile_split isDigit (b :: t)
  have ha := takeWhile_all isDigit (b :: t)
  have hne : (b :: t).takeWhile isDigit ≠ [] := by rw [List.takeWhile_cons, if_pos hb]; simp
  generalize (b :: t).takeWhile isDigit = d at *
  generalize (b :: t).drop d.length = y at *
  rw [e]
  have fin : Stops (fun c => isDigit c || c == 46) y → Cov (d ++ y) := by
    intro hy
    by_cases h8 : d.head? = some 48
    · by_cases hv : octVal (d.takeWhile isOct) < 2 ^ 63
      · exact .word (.octal ha h8 hv hy)
      · exact .tooBig ⟨hne, ha, by rw [if_pos h8]; omega⟩ hy
    · by_cases hv : decVal d < 2 ^ 63
      · exact .word (.std (.int hne ha (fun h => absurd h h8) hv hy))
      · exact .tooBig ⟨hne, ha, by rw [if_neg h8]; omega⟩ hy
  cases y with
  | nil => exact fin (by intro c hc; cases hc)
  | cons z y =>
    by_cases hz : z = 46
    · subst hz
      obtain ⟨e2, hst2⟩ := takeWhile_split isDigit y
      have ha2 := takeWhile_all isDigit y
      generalize y.takeWhile isDigit = f at *
      generalize y.drop f.length = q at *
      subst e2
      rw [← List.cons_append, ← List.append_assoc]
      exact .word (.std (.float hne ha ha2 hst2))
    · refine fin ?_
      intro c hc
      simp only [List.head?_cons, Option.some.injEq] at hc
      subst hc
      have := hst z rfl
      simp [this, hz]

theorem cov_quoted {t : Bytes} : Cov (34 :: t) := by
  by_cases h : ∃ x z, t = x ++ 34 :: z ∧ x ≠ [] ∧ ∀ b ∈ x, b ≠ 34 ∧ b ≠ 10
  · obtain ⟨x, z, rfl, h1, h2⟩ := h
    rw [show 34 :: (x ++ 34 :: z) = (34 :: (x ++ [34])) ++ z by simp]
    exact .word (.std (.quoted h1 h2))
  · exact .unknown (by simp only [Unknown, if_pos]; exact h)

/-- What follows a quote is the contents of a string literal, with or without end. -/
theorem string_split : ∀ (n : Nat) (t : Bytes), t.length ≤ n → (∃ s, t = double s) ∨ ∃ s y, t = double s ++ 39 :: y ∧ Stops (· == 39) y
  | _, [], _ => .inl ⟨[], rfl⟩
  | 0, _ :: _, h => by simp at h
  | n + 1, b :: t, h => by
    by_cases hb : b = 39
    · subst hb
      cases t with
      | nil => exact .inr ⟨[], [], rfl, by intro c hc; cases hc⟩
      | cons c t =>
        by_cases hc : c = 39
        · subst hc
          rcases string_split n t (by simp at h; omega) with ⟨s, rfl⟩ | ⟨s, y, rfl, hy⟩
          · exact .inl ⟨39 :: s, rfl⟩
          · exact .inr ⟨39 :: s, y, rfl, hy⟩
        · refine .inr ⟨[], c :: t, rfl, ?_⟩
          intro z hz
          simp only [List.head?_cons, Option.some.injEq] at hz
          subst hz
          simpa using hc
    · rcases string_split n t (by simp at h; omega) with ⟨s, rfl⟩ | ⟨s, y, rfl, hy⟩
      · exact .inl ⟨b :: s, by rw [double, if_neg hb]⟩
      · exact .inr ⟨b :: s, y, by rw [double, if_neg hb]; rfl, hy⟩

theorem cov_string {t : Bytes} : Cov (39 :: t) := by
  rcases string_split _ t (Nat.le_refl _) with ⟨s, rfl⟩ | ⟨s, y, rfl, hy⟩
  · exact .openString
  · rw [show 39 :: (double s ++ 39 :: y) = (39 :: (double s ++ [39])) ++ y by simp]
    exact .word (.std (.string hy))

theorem take2 {t : Bytes} {a b : Nat} (h : t.take 2 = [a, b]) : ∃ y, t = [a, b] ++ y := ⟨t.drop 2, by rw [← h, List.take_append_drop]⟩

theorem cov_op {c : Nat} {y : Bytes} (h1 : isBlank c = false) (h2 : isLetter c = false) (h3 : isDigit c = false) (h4 : c ≠ 46) (h5 : c ≠ 34) (h6 : c ≠ 39) : Cov (c :: y) := by
  have hh := hand_op (y := y) h1 h2 h3 h4 h5 h6
  by_cases k1 : (c :: y).take 2 = b!"--"
  · obtain ⟨z, e⟩ := take2 k1
    rw [e]; exact .comment
  by_cases k2 : (c :: y).take 20 = b!"-9223372036854775808"
  · rw [← List.take_append_drop 20 (c :: y), k2]
    exact .word (.std .minInt)
  have pn : ∀ {a b s : Nat}, (s, [a, b]) ∈ punctTexts → (c :: y).take 2 = [a, b] → Cov (c :: y) := by
    intro a b s hm he
    obtain ⟨z, e⟩ := take2 he
    rw [e]
    exact .word (.std (.punct hm))
  by_cases k3 : (c :: y).take 2 = b!"=="
  · exact pn (s := T.EQUALS) (by decide) k3
  by_cases k4 : (c :: y).take 2 = b!"!="
  · exact pn (s := T.NOTEQUALS) (by decide) k4
  by_cases k5 : (c :: y).take 2 = b!"<>"
  · exact pn (s := T.NOTEQUALS) (by decide) k5
  by_cases k6 : (c :: y).take 2 = b!"<="
  · exact pn (s := T.LESSEQ) (by decide) k6
  by_cases k7 : (c :: y).take 2 = b!">="
  · exact pn (s := T.GREATEREQ) (by decide) k7
  by_cases k8 : (c :: y).take 2 = b!"||"
  · exact pn (s := T.CONCAT) (by decide) k8
  unfold handOp at hh
  rw [if_neg k1, if_neg k2, if_neg k3, if_neg k4, if_neg k5, if_neg k6, if_neg k7, if_neg k8] at hh
  have st : ∀ {a : Nat} {p : Nat → Bool}, (∀ z, p z = true → (c :: z :: y.tail).take 2 ≠ (c :: y).take 2) → Stops p y := by
    intro a p h z hz
    cases hp : p z with
    | false => rfl
    | true =>
      exfalso
      cases y with
      | nil => cases hz
      | cons q y =>
        simp only [List.head?_cons, Option.some.injEq] at hz
        subst hz
        exact h q hp rfl
  by_cases k9 : isSelf c = true
  · rw [if_pos (by simpa using k9)] at hh
    have fo : foreign (tokSym (Int.ofNat c)) = true → Cov (c :: y) := by
      intro hf
      refine .other (p := [c]) (y := y) (r := 177) (c := Int.ofNat c) (by simp) hh (fun _ _ => rfl) ?_ hf
      intro h0
      have : c = 0 := Int.ofNat.inj h0
      subst this
      exact absurd k9 (by decide)
    have one : ∀ {s : Nat}, (s, [c]) ∈ punctTexts → Cov (c :: y) := fun hm => .word (p := [c]) (y := y) (.std (.punct hm))
    have mem : c ∈ selfChars := by simpa [isSelf] using k9
    simp only [selfChars, List.mem_cons, List.not_mem_nil, or_false] at mem
    rcases mem with rfl | rfl | rfl | rfl | rfl | rfl | rfl | rfl | rfl | rfl | rfl | rfl | rfl | rfl | rfl | rfl | rfl | rfl | rfl | rfl | rfl
    · refine .word (p := [45]) (.std (.minus (st (a := 0) ?_) ?_))
      · intro z hz e; rw [beq_iff_eq] at hz; subst hz; exact k1 e.symm
      · rintro ⟨q, rfl⟩; exact k2 (by simp)
    · exact one (s := T.PLUS) (by decide)
    · exact one (s := T.STAR) (by decide)
    · exact one (s := T.SLASH) (by decide)
    · exact one (s := T.LPAREN) (by decide)
    · exact one (s := T.RPAREN) (by decide)
    · exact fo (by decide +kernel)
    · exact fo (by decide +kernel)
    · exact one (s := T.COMMA) (by decide)
    · exact absurd rfl h4
    · exact one (s := T.SEMI) (by decide)
    · refine .word (p := [60]) (.std (.lt (st (a := 0) ?_)))
      intro z hz e
      simp only [Bool.or_eq_true, beq_iff_eq] at hz
      rcases hz with rfl | rfl
      · exact k6 e.symm
      · exact k5 e.symm
    · refine .word (p := [62]) (.std (.gt (st (a := 0) ?_)))
      intro z hz e; rw [beq_iff_eq] at hz; subst hz; exact k7 e.symm
    · refine .word (p := [61]) (.std (.eq (st (a := 0) ?_)))
      intro z hz e; rw [beq_iff_eq] at hz; subst hz; exact k3 e.symm
    · exact one (s := T.CARET) (by decide)
    · exact one (s := T.PERCENT) (by decide)
    · exact fo (by decide +kernel)
    · exact .word (p := [63]) (w := .par 0) (.std .param)
    · exact one (s := T.LBRACKET) (by decide)
    · exact one (s := T.RBRACKET) (by decide)
    · exact fo (by decide +kernel)
  · refine .unknown ?_
    unfold Unknown
    simp only []
    rw [if_neg h5]
    split
    · rename_i h33
      subst h33
      rintro ⟨z, rfl⟩
      exact k4 rfl
    · by_cases h95 : c = 95
      · exact .inr h95
      · refine .inl ⟨h1, ?_, h6, by simpa using k9⟩
        unfold isWordc
        simp [h2, h3, h95]

theorem cov {x : Bytes} (h : x ≠ []) : Cov x := by
  cases x with
  | nil => exact absurd rfl h
  | cons c t =>
    cases h1 : isBlank c with
    | true =>
      obtain ⟨e, hst⟩ := takeWhile_split isBlank (c :: t)
      rw [e]
      exact .blanks (by rw [List.takeWhile_cons, if_pos h1]; simp) (takeWhile_all _ _) hst
    | false =>
      cases h2 : isLetter c with
      | true => exact cov_word h2
      | false =>
        cases h3 : isDigit c with
        | true => exact cov_number h3
        | false =>
          by_cases h4 : c = 46
          · subst h4
            obtain ⟨e, hst⟩ := takeWhile_split isDigit t
            have ha := takeWhile_all isDigit t
            generalize t.takeWhile isDigit = f at *
            generalize t.drop f.length = y at *
            subst e
            by_cases hf : f = []
            · subst hf
              exact .word (p := [46]) (.std (.dot hst))
            · exact .word (p := 46 :: f) (.std (.dotFloat hf ha hst))
          by_cases h5 : c = 34
          · subst h5; exact cov_quoted
          by_cases h6 : c = 39
          · subst h6; exact cov_string
          exact cov_op h1 h2 h3 h4 h5 h6

/-! ## Comments -/

/-- The condition of `Source.line`. -/
def LineOk (c y : Bytes) : Prop := (y ≠ [] → ∃ z ∈ c, isBlank z = false) ∧
  (∀ k k', k = b!"CURRENT" ∧ k' = b!"ROW" ∨ k = b!"CHARACTER" ∧ k' = b!"VARYING" → ∀ p b, c = p ++ b → upper p = k → (∀ z ∈ b, isBlank z = true) → ¬ ThenWord k' (b ++ y))

inductive CovC : Bytes → Prop where
  | line {c y : Bytes} : c ≠ [] → 10 ∉ c → Stops (· != 10) y → LineOk c y → CovC (c ++ y)
  | newline {y : Bytes} : Stops isBlank y → CovC (10 :: y)
  | onwards {b y : Bytes} : (∀ z ∈ b, isBlank z = true) → 10 ∈ b → b ≠ [10] → Stops isBlank y → CovC (b ++ y)
  | currentRow {c b r y : Bytes} : upper c = b!"CURRENT" → (∀ z ∈ b, isBlank z = true) → 10 ∈ b → upper r = b!"ROW" → CovC (c ++ b ++ r ++ y)
  | characterVarying {c b r y : Bytes} : upper c = b!"CHARACTER" → (∀ z ∈ b, isBlank z = true) → 10 ∈ b → upper r = b!"VARYING" → CovC (c ++ b ++ r ++ y)

theorem stops_letters {r z : Bytes} {k' : Bytes} (h : upper r = k') (hl : k'.all isLetter = true) (h0 : k' ≠ []) : Stops isBlank (r ++ z) := by
  intro q hq
  cases r with
  | nil => exact absurd h.symm h0
  | cons a r =>
    simp only [List.cons_append, List.head?_cons, Option.some.injEq] at hq
    subst hq
    exact letter_not_blank (letters_of_upper h hl _ (by simp))

theorem then_blank {k' b y : Bytes} (hl : k'.all isLetter = true) (h0 : k' ≠ []) (hb : ∀ z ∈ b, isBlank z = true) (hy : Stops (· != 10) y) (h : ThenWord k' (b ++ y)) :
    ∃ b' r z, b ++ y = b' ++ (r ++ z) ∧ (∀ c ∈ b', isBlank c = true) ∧ 10 ∈ b' ∧ upper r = k' := by
  obtain ⟨b', r, z, e, h1, h2, h3⟩ := h
  refine ⟨b', r, z, e, h2, ?_, h3⟩
  have t1 : (b' ++ (r ++ z)).takeWhile isBlank = b' := takeWhile_stop h2 (stops_letters h3 hl h0)
  cases y with
  | nil =>
    exfalso
    rw [List.append_nil] at e
    have hr : r ≠ [] := by rintro rfl; exact h0 h3.symm
    cases r with
    | nil => exact hr rfl
    | cons a r =>
      have := hb a (by rw [e]; simp)
      rw [letter_not_blank (letters_of_upper h3 hl a (by simp))] at this
      cases this
  | cons q y =>
    have hq : q = 10 := by simpa using hy q rfl
    subst hq
    rw [← e, List.takeWhile_append_of_pos hb, List.takeWhile_cons, if_pos (by decide)] at t1
    rw [← t1]; simp

theorem covC {x : Bytes} (h : x ≠ []) : CovC x := by
  obtain ⟨e, hst⟩ := takeWhile_split (fun c => c != 10) x
  have ha := takeWhile_all (fun c => c != 10) x
  generalize x.takeWhile (fun c => c != 10) = c at *
  generalize x.drop c.length = y at *
  subst e
  have hst : Stops (· != 10) y := hst
  have h10 : 10 ∉ c := fun hm => by have := ha 10 hm; simp at this
  have onw : ∀ z, y = 10 :: z → (∀ q ∈ c, isBlank q = true) → CovC (c ++ y) := by
    intro z hz hc
    obtain ⟨e2, hst2⟩ := takeWhile_split isBlank (c ++ y)
    have ha2 := takeWhile_all isBlank (c ++ y)
    have hm : 10 ∈ (c ++ y).takeWhile isBlank := by
      rw [hz, List.takeWhile_append_of_pos hc, List.takeWhile_cons, if_pos (by decide)]; simp
    by_cases h1 : (c ++ y).takeWhile isBlank = [10]
    · rw [h1] at e2 hst2
      rw [e2]
      exact .newline hst2
    · rw [e2]
      exact .onwards ha2 hm h1 hst2
  by_cases hc : c = []
  · cases y with
    | nil => subst hc; exact absurd rfl h
    | cons q y =>
      have hq : q = 10 := by simpa using hst q rfl
      subst hq
      exact onw y rfl (by rw [hc]; simp)
  · by_cases hl : LineOk c y
    · exact .line hc h10 hst hl
    · by_cases h1 : y ≠ [] → ∃ z ∈ c, isBlank z = false
      · have : ¬ ∀ k k', k = b!"CURRENT" ∧ k' = b!"ROW" ∨ k = b!"CHARACTER" ∧ k' = b!"VARYING" → ∀ p b, c = p ++ b → upper p = k → (∀ z ∈ b, isBlank z = true) → ¬ ThenWord k' (b ++ y) :=
          fun h => hl ⟨h1, h⟩
        simp only [Classical.not_forall, Classical.not_not] at this
        obtain ⟨k, k', hk, p, b, rfl, hp, hb, ht⟩ := this
        have hk' : k'.all isLetter = true ∧ k' ≠ [] := by rcases hk with ⟨_, rfl⟩ | ⟨_, rfl⟩ <;> decide
        obtain ⟨b', r, z, e, h2, h3, h4⟩ := then_blank hk'.1 hk'.2 hb hst ht
        rw [List.append_assoc, e, show p ++ (b' ++ (r ++ z)) = p ++ b' ++ r ++ z by simp]
        rcases hk with ⟨rfl, rfl⟩ | ⟨rfl, rfl⟩
        · exact .currentRow hp h2 h3 h4
        · exact .characterVarying hp h2 h3 h4
      · simp only [Classical.not_imp, not_exists, not_and, Bool.not_eq_false] at h1
        cases y with
        | nil => exact absurd rfl h1.1
        | cons q y =>
          have hq : q = 10 := by simpa using hst q rfl
          subst hq
          exact onw y rfl h1.2

theorem tw_lt {p y : Bytes} (h : 10 ∈ p) : ((p ++ y).takeWhile (fun c => c != 10)).length < p.length := by
  induction p with
  | nil => cases h
  | cons a p ih =>
    rw [List.cons_append, List.takeWhile_cons]
    by_cases ha : a = 10
    · subst ha; simp
    · rw [if_pos (by simpa using ha)]
      have := ih (by rcases List.mem_cons.1 h with rfl | h; exact absurd rfl ha; exact h)
      simp only [List.length_cons]; omega

theorem handC_over {p y : Bytes} {r : Nat} (h : handInitial (p ++ y) = (r, p.length)) (hm : 10 ∈ p) (h1 : p ≠ [10]) : handComment (p ++ y) = (r, p.length) := by
  have hk := tw_lt (y := y) hm
  unfold handComment
  rw [h]
  simp only []
  by_cases h0 : ((p ++ y).takeWhile (fun c => c != 10)).length = 0
  · rw [if_pos h0, if_neg]
    intro hl
    obtain ⟨a, rfl⟩ := List.length_eq_one_iff.1 hl
    rw [List.mem_singleton] at hm
    exact h1 (by rw [← hm])
  · rw [if_neg h0, if_pos (.inl hk)]

theorem run_line {fpr : Int} {c y buf : Bytes} (hc : c ≠ []) (h10 : 10 ∉ c) (hy : Stops (· != 10) y) (hl : LineOk c y) (acc : List Bytes) :
    LRun fpr ⟨.comment, buf, c ++ y⟩ acc [] ⟨.comment, buf, y⟩ (c :: acc) := by
  have hb := best_hand (text := c ++ y) (by simp [hc])
  have hle : (handInitial (c ++ y)).2 ≤ c.length := by
    rcases Nat.lt_or_ge c.length (handInitial (c ++ y)).2 with hlt | hge
    · exfalso
      have hf := hb.fires
      have hlen := hb.le
      generalize (handInitial (c ++ y)).2 = n at *
      cases y with
      | nil => simp at hlen; omega
      | cons q v =>
        have hq : q = 10 := by simpa using hy q rfl
        subst hq
        have hw := List.take_append_drop n (c ++ 10 :: v)
        generalize hdq : (c ++ 10 :: v).drop n = q at hw
        have hwl : ((c ++ 10 :: v).take n).length = n := by rw [List.length_take]; omega
        generalize (c ++ 10 :: v).take n = w at *
        have hin : ∀ s ∈ c ++ [10], s ∈ w := by
          intro s hs
          rw [show c ++ 10 :: v = (c ++ [10]) ++ v by simp] at hw
          rcases append_cases hw with ⟨f, e1, e2⟩ | ⟨f, _, e1, e2⟩
          · have := congrArg List.length e1
            simp at this
            have : f = [] := List.length_eq_zero_iff.1 (by omega)
            subst this
            rw [List.append_nil] at e1
            rw [← e1]; exact hs
          · rw [e1]; exact List.mem_append_left _ hs
        rcases fires_newline hf (hin 10 (by simp)) with hall | ⟨x, bl, z, A, B, rfl, hx, hbl, hbb, hz, hAB⟩
        · obtain ⟨s, hs, hs2⟩ := hl.1 (by simp)
          rw [hall s (hin s (by simp [hs]))] at hs2
          cases hs2
        · have hxl : 10 ∉ x := by
            intro hm
            have := letters_of_upper hx (by rcases hAB with ⟨rfl, _⟩ | ⟨rfl, _⟩ <;> decide) 10 hm
            cases this
          have hzl : ∀ q ∈ z, isLetter q = true := letters_of_upper hz (by rcases hAB with ⟨_, rfl⟩ | ⟨_, rfl⟩ <;> decide)
          rw [List.append_assoc] at hw
          have hpre : ∃ y0, c = x ++ y0 := by
            rcases append_cases hw with ⟨f, e1, e2⟩ | ⟨f, hf0, e1, e2⟩
            · exact ⟨f, e1⟩
            · cases f with
              | nil => exact absurd rfl hf0
              | cons g f =>
                exfalso
                simp only [List.cons_append, List.cons.injEq] at e2
                exact hxl (by rw [e1, ← e2.1]; simp)
          obtain ⟨y0, rfl⟩ := hpre
          simp only [List.append_assoc, List.append_cancel_left_eq] at hw
          rcases append_cases hw with ⟨f, e1, e2⟩ | ⟨f, hf0, e1, e2⟩
          · -- y0 = bl ++ f: the second word ends within the line
            rcases append_cases e2 with ⟨g, e3, e4⟩ | ⟨g, hg0, e3, e4⟩
            · rw [e1, e3] at hlt
              simp only [List.length_append] at hlt hwl
              omega
            · cases g with
              | nil => exact absurd rfl hg0
              | cons g0 g =>
                simp only [List.cons_append, List.cons.injEq] at e4
                have := hzl 10 (by rw [e3, ← e4.1]; simp)
                cases this
          · refine hl.2 A B hAB x y0 rfl hx (fun s hs => hbb s (by rw [e1]; simp [hs])) ⟨bl, z, q, ?_, hbl, hbb, hz⟩
            exact hw.symm
    · exact hge
  have htw : (c ++ y).takeWhile (fun x => x != 10) = c :=
    takeWhile_stop (by intro x hx; simp; rintro rfl; exact h10 hx) hy
  have hcpos : 0 < c.length := List.length_pos_iff.2 hc
  have hstep : handStep .comment (c ++ y) = (2, c.length) ∨ handStep .comment (c ++ y) = (1, c.length) := by
    show handComment _ = _ ∨ handComment _ = _
    unfold handComment
    rw [htw]
    generalize handInitial (c ++ y) = rn at hle
    obtain ⟨r, n⟩ := rn
    simp only [] at hle ⊢
    rw [if_neg (by omega)]
    by_cases hcnd : c.length < n ∨ n = c.length ∧ r = 1
    · rw [if_pos hcnd]
      rcases hcnd with h | ⟨rfl, rfl⟩
      · omega
      · right; rfl
    · rw [if_neg hcnd]; left; rfl
  rcases hstep with hs | hs
  · exact lrun_skip hc hs rfl
  · exact lrun_skip hc hs rfl

theorem run_newline {fpr : Int} {y buf : Bytes} (hy : Stops isBlank y) (acc : List Bytes) : LRun fpr ⟨.comment, buf, 10 :: y⟩ acc [] ⟨.initial, buf, y⟩ ([10] :: acc) := by
  refine lrun_skip (p := [10]) (r := 3) (by simp) ?_ rfl
  show handComment (10 :: y) = _
  have htw : (10 :: y).takeWhile isBlank = [10] := takeWhile_stop (a := [10]) (by simp [isBlank]) hy
  have : handInitial (10 :: y) = (4, 1) := by
    unfold handInitial
    have : isBlank 10 = true := rfl
    simp only [this, if_true, htw]; rfl
  simp [handComment, this]

theorem run_onwards {fpr : Int} {b y buf : Bytes} (hb : ∀ z ∈ b, isBlank z = true) (h10 : 10 ∈ b) (h1 : b ≠ [10]) (hy : Stops isBlank y) (acc : List Bytes) :
    LRun fpr ⟨.comment, buf, b ++ y⟩ acc [] ⟨.comment, buf, y⟩ (b :: acc) := by
  have hne : b ≠ [] := by rintro rfl; cases h10
  exact lrun_skip (r := 4) hne (handC_over (hand_blank hne hb hy) h10 h1) rfl

theorem run_currentRow {fpr : Int} {c b r y buf : Bytes} (h1 : upper c = b!"CURRENT") (h3 : ∀ z ∈ b, isBlank z = true) (h10 : 10 ∈ b) (h4 : upper r = b!"ROW") (acc : List Bytes) :
    ∃ t, LRun fpr ⟨.comment, buf, c ++ b ++ r ++ y⟩ acc [t] ⟨.comment, buf, y⟩ [] ∧ tsym t = T.CURRENT_ROW ∧ t.val = .none := by
  have hb0 : b ≠ [] := by rintro rfl; cases h10
  cases c with
  | nil => cases h1
  | cons q c =>
    have hq : isLetter q = true := letters_of_upper h1 (by decide) q (by simp)
    have e := hand_two (y := y) (by decide) (by decide) (by decide) (by decide) h1 hb0 h3 h4
    have hh : handInitial ((q :: c) ++ b ++ r ++ y) = (169, ((q :: c) ++ b ++ r).length) := by
      simp only [List.cons_append] at e ⊢
      rw [hand_letter hq]
      unfold handWord
      rw [e]
    refine ⟨_, lrun_ret (r := 169) (c := 423) (by simp) (handC_over hh (by simp [h10]) ?_) rfl (by decide), rfl, rfl⟩
    intro hc
    simp [hb0] at hc

theorem run_charVarying {fpr : Int} {c b r y buf : Bytes} (h1 : upper c = b!"CHARACTER") (h3 : ∀ z ∈ b, isBlank z = true) (h10 : 10 ∈ b) (h4 : upper r = b!"VARYING") (acc : List Bytes) :
    ∃ t, LRun fpr ⟨.comment, buf, c ++ b ++ r ++ y⟩ acc [t] ⟨.comment, buf, y⟩ [] ∧ tsym t = T.CHARACTER_VARYING ∧ t.val = .none := by
  have hb0 : b ≠ [] := by rintro rfl; cases h10
  have hl := letters_of_upper h1 (by decide)
  have e2 : twoWords b!"CURRENT" b!"ROW" (c ++ (b ++ r ++ y)) = none := by
    refine twoWords_none (by decide) (fun z hz => letter_wordc (hl z hz)) ?_ (by rw [h1]; decide)
    intro z hz
    cases b with
    | nil => exact absurd rfl hb0
    | cons b0 b' =>
      simp only [List.cons_append, List.head?_cons, Option.some.injEq] at hz
      subst hz
      exact blank_not_wordc (h3 _ (by simp))
  cases c with
  | nil => cases h1
  | cons q c =>
    have hq : isLetter q = true := hl q (by simp)
    have e := hand_two (y := y) (by decide) (by decide) (by decide) (by decide) h1 hb0 h3 h4
    have hh : handInitial ((q :: c) ++ b ++ r ++ y) = (170, ((q :: c) ++ b ++ r).length) := by
      simp only [List.cons_append, List.append_assoc] at e e2 ⊢
      rw [hand_letter hq]
      unfold handWord
      rw [e, e2]
    refine ⟨_, lrun_ret (r := 170) (c := 284) (by simp) (handC_over hh (by simp [h10]) ?_) rfl (by decide), rfl, rfl⟩
    intro hc
    simp [hb0] at hc

/-! ## Where the scanner stops -/

theorem hand_unknown {x : Bytes} (h : Unknown x) : x ≠ [] ∧ handInitial x = (188, 1) := by
  cases x with
  | nil => exact h.elim
  | cons c y =>
    refine ⟨by simp, ?_⟩
    unfold Unknown at h
    simp only [] at h
    split at h
    · rename_i hc
      subst hc
      unfold handInitial
      simp only []
      rw [if_neg (by decide), if_neg (by decide), if_neg (by decide), if_neg (by decide), if_pos (by trivial)]
      unfold handQuoted
      simp only []
      rw [if_neg]
      rintro ⟨h1, h2⟩
      obtain ⟨e, _⟩ := takeWhile_split (fun c => c != 34 && c != 10) y
      have ha := takeWhile_all (fun c => c != 34 && c != 10) y
      generalize y.takeWhile (fun c => c != 34 && c != 10) = q at *
      cases hd : y.drop q.length with
      | nil => rw [hd] at h2; cases h2
      | cons a z =>
        rw [hd] at h2 e
        simp only [List.head?_cons, Option.some.injEq] at h2
        subst h2
        refine h ⟨q, z, e, h1, ?_⟩
        intro b hb
        have := ha b hb
        simpa using this
    · split at h
      · rename_i h34 h33
        subst h33
        rw [hand_op (by decide) (by decide) (by decide) (by decide) (by decide) (by decide)]
        unfold handOp
        have nt : ∀ {n b : Nat} {u : Bytes}, b ≠ 33 → (33 :: y).take (n + 1) ≠ b :: u := by
          intro n b u hb he
          simp only [List.take_succ_cons, List.cons.injEq] at he
          exact hb he.1.symm
        rw [if_neg (nt (by decide)), if_neg (nt (n := 19) (by decide)), if_neg (nt (by decide)), if_neg (by
          intro he
          obtain ⟨z, ez⟩ := take2 he
          exact h ⟨z, (List.cons.inj ez).2⟩), if_neg (nt (by decide)), if_neg (nt (by decide)), if_neg (nt (by decide)), if_neg (nt (by decide)), if_neg (by simp [isSelf, selfChars])]
      · rename_i h34 h33
        have hx : isBlank c = false ∧ isLetter c = false ∧ isDigit c = false ∧ c ≠ 39 ∧ isSelf c = false := by
          rcases h with ⟨a1, a2, a3, a4⟩ | rfl
          · unfold isWordc at a2
            simp only [Bool.or_eq_false_iff] at a2
            exact ⟨a1, a2.1.1, a2.1.2, a3, a4⟩
          · decide
        obtain ⟨a1, a2, a3, a4, a5⟩ := hx
        have ns : ∀ {b : Nat}, isSelf b = true → b ≠ c := by rintro b hb rfl; rw [hb] at a5; cases a5
        rw [hand_op a1 a2 a3 (ns (by decide)).symm h34 a4]
        unfold handOp
        have nt : ∀ {n b : Nat} {u : Bytes}, b ≠ c → (c :: y).take (n + 1) ≠ b :: u := by
          intro n b u hb he
          simp only [List.take_succ_cons, List.cons.injEq] at he
          exact hb he.1.symm
        rw [if_neg (nt (ns (by decide))), if_neg (nt (n := 19) (ns (by decide))), if_neg (nt (ns (by decide))), if_neg (nt (fun h => h33 h.symm)), if_neg (nt (ns (by decide))), if_neg (nt (ns (by decide))),
          if_neg (nt (ns (by decide))), if_neg (nt (ns (by decide))), if_neg (by simpa using a5)]

/-- A string without end is read to the end of the text. -/
theorem squote_open {fpr : Int} : ∀ (n : Nat) (s : Bytes), s.length ≤ n → ∀ buf acc, ∃ buf' acc', LRun fpr ⟨.squote, buf, double s⟩ acc [] ⟨.squote, buf', []⟩ acc'
  | _, [], _, buf, acc => ⟨buf, acc, .refl⟩
  | 0, _ :: _, h, _, _ => by simp at h
  | n + 1, b :: s, h, buf, acc => by
    by_cases hb : b = 39
    · subst hb
      obtain ⟨buf', acc', ih⟩ := squote_open (fpr := fpr) n s (by simp at h; omega) (buf ++ [39]) ([39, 39] :: acc)
      have h1 : LRun fpr ⟨.squote, buf, [39, 39] ++ double s⟩ acc [] ⟨.squote, buf ++ [39], double s⟩ ([39, 39] :: acc) := lrun_skip (r := 185) (by simp) rfl rfl
      exact ⟨buf', acc', h1.trans ih⟩
    · obtain ⟨e, hst⟩ := takeWhile_split (fun c => c != 39) (b :: s)
      generalize hp : (b :: s).takeWhile (fun c => c != 39) = p at e hst
      generalize (b :: s).drop p.length = q at e hst
      have hpa : ∀ z ∈ p, (z != 39) = true := by rw [← hp]; exact takeWhile_all _ _
      have hp0 : p ≠ [] := by
        rw [← hp, List.takeWhile_cons, if_pos (by simp [hb])]; simp
      have hd : ∀ (p : Bytes), (∀ z ∈ p, (z != 39) = true) → ∀ q, double (p ++ q) = p ++ double q := by
        intro p hp q
        induction p with
        | nil => rfl
        | cons c p ih =>
          have := hp c (by simp)
          rw [List.cons_append, double, if_neg (by simpa using this), ih (fun z hz => hp z (by simp [hz]))]
          rfl
      rw [e, hd p hpa]
      have hlen : q.length ≤ n := by
        have := congrArg List.length e
        have := List.length_pos_iff.2 hp0
        simp only [List.length_append] at *
        omega
      obtain ⟨buf', acc', ih⟩ := squote_open (fpr := fpr) n q hlen (buf ++ p) (p :: acc)
      have hhd : ∀ z, (double q).head? = some z → (z != 39) = false := by
        intro z hz
        cases q with
        | nil => cases hz
        | cons c q =>
          have hc : c = 39 := by simpa using hst c rfl
          subst hc
          simp [double] at hz
          subst hz; rfl
      have h1 : LRun fpr ⟨.squote, buf, p ++ double q⟩ acc [] ⟨.squote, buf ++ p, double q⟩ (p :: acc) := by
        refine lrun_skip (r := 186) hp0 ?_ rfl
        show handSquote _ = _
        have e2 := takeWhile_stop (p := fun c => c != 39) hpa hhd
        obtain ⟨c, p', rfl⟩ : ∃ c p', p = c :: p' := by
          cases p with
          | nil => exact absurd rfl hp0
          | cons c p' => exact ⟨c, p', rfl⟩
        have hc := hpa c (by simp)
        unfold handSquote
        split
        · rename_i heq; simp only [List.cons_append, List.cons.injEq] at heq; rw [heq.1] at hc; exact absurd hc (by decide)
        · rename_i heq; simp only [List.cons_append, List.cons.injEq] at heq; rw [heq.1] at hc; exact absurd hc (by decide)
        · rw [e2]
      exact ⟨buf', acc', h1.trans ih⟩

theorem run_openString {fpr : Int} {s buf : Bytes} (acc : List Bytes) : ∃ buf' acc', LRun fpr ⟨.initial, buf, 39 :: double s⟩ acc [] ⟨.squote, buf', []⟩ acc' := by
  obtain ⟨buf', acc', h2⟩ := squote_open (fpr := fpr) s.length s (Nat.le_refl _) [] ([39] :: acc)
  have h1 : LRun fpr ⟨.initial, buf, [39] ++ double s⟩ acc [] ⟨.squote, [], double s⟩ ([39] :: acc) := by
    refine lrun_skip (r := 184) (by simp) ?_ rfl
    show handInitial (39 :: double s) = _
    unfold handInitial
    simp only []
    rw [if_neg (by decide), if_neg (by decide), if_neg (by decide), if_neg (by decide), if_neg (by decide), if_pos (by trivial)]
    rfl
  exact ⟨buf', acc', h1.trans h2⟩

theorem run_comment {fpr : Int} {y buf : Bytes} (acc : List Bytes) : LRun fpr ⟨.initial, buf, 45 :: 45 :: y⟩ acc [] ⟨.comment, buf, y⟩ ([45, 45] :: acc) :=
  lrun_skip (p := [45, 45]) (r := 1) (by simp) (by simp [handStep, handInitial, isBlank, isLetter, isDigit, handOp]) rfl

theorem strtoll_big {d : Bytes} (h : TooBig d) : strtoll0 d = none := by
  obtain ⟨_, _, h⟩ := h
  unfold strtoll0
  simp only []
  change (if (if d.head? = some 48 then octVal (d.takeWhile isOct) else decVal d) ≤ 2 ^ 63 - 1 then _ else none) = none
  rw [if_neg (by omega)]

end Verif.Sql

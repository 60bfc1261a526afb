import Verif.Sql.Text
import Verif.Lex.Semi
/-! The scanner reads texts as the words they are written for. Proof-internal. -/
namespace Verif.Sql
open Verif.Lex Verif.LR

/-- One word has been read. -/
def Reads (fpr : Int) (w : Word) (x y : Bytes) : Prop := ∀ buf acc, ∃ t buf', LRun fpr ⟨.initial, buf, x ++ y⟩ acc [t] ⟨.initial, buf', y⟩ [] ∧ tsym t = w.sym ∧ t.val = w.val

theorem Reads.of {fpr : Int} {w : Word} {x y : Bytes} {r : Nat} {c : Int} (hx : x ≠ []) (hs : handInitial (x ++ y) = (r, x.length))
    (ha : ∀ buf, lexAction fpr .initial buf r x = some (.ret .initial buf c w.val)) (hc : tokSym c = w.sym) (h0 : c ≠ 0) : Reads fpr w x y := fun buf acc =>
  ⟨_, buf, lrun_ret hx hs (ha buf) h0, hc, rfl⟩

theorem upper_letter {b : Nat} (h : isLetter (upperB b) = true) : isLetter b = true := by
  unfold upperB isLetter at *
  split at h <;> simp only [Bool.or_eq_true, Bool.and_eq_true, decide_eq_true_eq] at * <;> omega
theorem letter_wordc {b : Nat} (h : isLetter b = true) : isWordc b = true := by unfold isWordc; rw [h]; rfl
theorem letter_not_blank {b : Nat} (h : isLetter b = true) : isBlank b = false := by
  unfold isLetter isBlank at *
  simp only [Bool.or_eq_true, Bool.and_eq_true, decide_eq_true_eq] at h
  simp only [Bool.or_eq_false_iff, beq_eq_false_iff_ne]; omega
theorem blank_not_wordc {b : Nat} (h : isBlank b = true) : isWordc b = false := by
  unfold isBlank at h
  simp only [Bool.or_eq_true, beq_iff_eq] at h
  rcases h with (rfl | rfl) | rfl <;> decide
theorem upper_length (w : Bytes) : (upper w).length = w.length := by simp [upper]

theorem letters_of_upper {x k : Bytes} (h : upper x = k) (hk : k.all isLetter = true) : ∀ z ∈ x, isLetter z = true := by
  intro z hz
  subst h
  exact upper_letter (List.all_eq_true.1 hk _ (List.mem_map.2 ⟨z, hz, rfl⟩))

/-- A two-word keyword begins with a whole word. -/
theorem twoWords_none {a b x y : Bytes} (ha : a.all isLetter = true) (hx : ∀ z ∈ x, isWordc z = true) (hy : Stops isWordc y) (hne : upper x ≠ a) : twoWords a b (x ++ y) = none := by
  unfold twoWords
  split
  · rename_i h
    unfold startsCI at h
    have h := eq_of_beq h
    simp only []
    rw [if_neg]
    rintro ⟨h1, _⟩
    -- the byte after the first word is blank
    have hsp : (x ++ y).take a.length ++ (x ++ y).drop a.length = x ++ y := List.take_append_drop _ _
    have hl := letters_of_upper h ha
    have hst : ∀ z, ((x ++ y).drop a.length).head? = some z → isWordc z = false := by
      intro z hz
      cases hd : (x ++ y).drop a.length with
      | nil => rw [hd] at hz; cases hz
      | cons c r =>
        rw [hd] at hz h1
        simp only [List.head?_cons, Option.some.injEq] at hz
        subst hz
        cases hb : isBlank c with
        | true => exact blank_not_wordc hb
        | false => rw [List.takeWhile_cons, hb] at h1; exact absurd rfl h1
    have e1 := takeWhile_stop (p := isWordc) (fun z hz => letter_wordc (hl z hz)) hst
    rw [hsp, takeWhile_stop hx hy] at e1
    rw [← e1] at h
    exact hne h
  · rfl

theorem kwTexts_ok : kwTexts.all (fun e => e.2.all isLetter && !(e.2 == []) && !(e.2 == b!"CURRENT") && !(e.2 == b!"CHARACTER") &&
    match kwIndex e.2 with
    | some i => match keywords[i]? with
      | some k => tokSym k.2 == e.1 && decide (i < 164) && !(k.2 == 0)
      | none => false
    | none => false) = true := by decide +kernel

theorem upper_upper (x : Bytes) : upper (upper x) = upper x := by
  unfold upper
  rw [List.map_map]
  refine List.map_congr_left fun b _ => ?_
  show upperB (upperB b) = upperB b
  unfold upperB
  split <;> rename_i h
  · rw [if_neg (by omega)]
  · rfl

theorem hand_letter {b : Nat} {t : Bytes} (h : isLetter b = true) : handInitial (b :: t) = handWord (b :: t) := by
  unfold handInitial
  simp only []
  rw [if_neg (by rw [letter_not_blank h]; simp), if_pos h]

theorem hand_plain {x y : Bytes} (hx0 : x ≠ []) (hh : ∀ z, x.head? = some z → isLetter z = true) (hx : ∀ z ∈ x, isWordc z = true) (hy : Stops isWordc y) (h1 : upper x ≠ b!"CURRENT") (h2 : upper x ≠ b!"CHARACTER") :
    handInitial (x ++ y) = match kwIndex x with
      | some i => (5 + i, x.length)
      | none => (183, x.length) := by
  cases x with
  | nil => exact absurd rfl hx0
  | cons b x =>
    rw [List.cons_append, hand_letter (hh b rfl)]
    unfold handWord
    have e := takeWhile_stop hx hy
    rw [← List.cons_append, twoWords_none (by decide) hx hy h1, twoWords_none (by decide) hx hy h2]
    simp only [e]
    cases kwIndex (b :: x) <;> rfl

theorem reads_keyword {fpr : Int} {a : Nat} {k x y : Bytes} (h1 : (a, k) ∈ kwTexts) (h2 : upper x = k) (h3 : Stops isWordc y) : Reads fpr (.kw a) x y := by
  have h := List.all_eq_true.1 kwTexts_ok _ h1
  simp only [Bool.and_eq_true] at h
  obtain ⟨⟨⟨⟨c1, c2⟩, c3⟩, c4⟩, c5⟩ := h
  have hl := letters_of_upper h2 c1
  have hki : kwIndex x = kwIndex k := by
    subst h2
    unfold kwIndex
    rw [upper_upper]
  have hne : x ≠ [] := by
    rintro rfl
    rw [← h2] at c2
    exact absurd c2 (by decide)
  have hh := hand_plain (y := y) hne (fun z hz => hl z (List.mem_of_mem_head? hz)) (fun z hz => letter_wordc (hl z hz)) h3
    (by rw [h2]; intro h; rw [h] at c3; exact absurd c3 (by decide)) (by rw [h2]; intro h; rw [h] at c4; exact absurd c4 (by decide))
  rw [hki] at hh
  cases hk : kwIndex k with
  | none => rw [hk] at c5; cases c5
  | some i =>
    rw [hk] at c5 hh
    simp only [] at c5 hh
    cases hg : keywords[i]? with
    | none => rw [hg] at c5; cases c5
    | some e =>
      rw [hg] at c5
      simp only [Bool.and_eq_true, decide_eq_true_eq, beq_iff_eq, Bool.not_eq_true', beq_eq_false_iff_ne] at c5
      obtain ⟨⟨d1, d2⟩, d3⟩ := c5
      refine Reads.of (c := e.2) hne hh ?_ d1 (by omega)
      intro buf
      unfold lexAction
      rw [if_neg (by omega), if_neg (by omega), if_neg (by omega), if_neg (by omega), if_pos (by omega), Nat.add_sub_cancel_left, hg]
      rfl

theorem reads_ident {fpr : Int} {b : Nat} {x y : Bytes} (h1 : isLetter b = true) (h2 : ∀ z ∈ x, isWordc z = true) (h3 : ∀ k ∈ keywords, upper (b :: x) ≠ k.1) (h4 : upper (b :: x) ≠ b!"CURRENT")
    (h5 : upper (b :: x) ≠ b!"CHARACTER") (h6 : Stops isWordc y) : Reads fpr (.id (b :: x)) (b :: x) y := by
  have hh := hand_plain (y := y) (x := b :: x) (by simp) (by intro z hz; simp at hz; rw [← hz]; exact h1) (by
    intro z hz
    rcases List.mem_cons.1 hz with rfl | hz
    · exact letter_wordc h1
    · exact h2 z hz) h6 h4 h5
  have hk : kwIndex (b :: x) = none := by
    unfold kwIndex
    rw [List.findIdx?_eq_none_iff]
    intro k hk
    simp only [beq_eq_false_iff_ne]
    exact fun h => h3 k hk h.symm
  rw [hk] at hh
  exact Reads.of (c := 258) (by simp) hh (fun _ => rfl) rfl (by decide)

theorem hand_two {a b c bl r y : Bytes} (ha : a.all isLetter = true) (ha0 : a ≠ []) (hb : b.all isLetter = true) (hb0 : b ≠ []) (h1 : upper c = a) (h2 : bl ≠ []) (h3 : ∀ z ∈ bl, isBlank z = true)
    (h4 : upper r = b) : twoWords a b (c ++ bl ++ r ++ y) = some (c ++ bl ++ r).length := by
  have hlc : c.length = a.length := by rw [← h1, upper_length]
  have hlr : r.length = b.length := by rw [← h4, upper_length]
  have hrl := letters_of_upper h4 hb
  unfold twoWords startsCI
  rw [List.append_assoc, List.append_assoc, ← hlc, List.take_left, if_pos (by rw [h1]; exact beq_self_eq_true a)]
  simp only [List.drop_left]
  have hst : ∀ z, (r ++ y).head? = some z → isBlank z = false := by
    intro z hz
    cases r with
    | nil => exfalso; rw [← h4] at hb0; exact hb0 rfl
    | cons q r =>
      simp only [List.cons_append, List.head?_cons, Option.some.injEq] at hz
      subst hz
      exact letter_not_blank (hrl q (by simp))
  rw [takeWhile_stop h3 hst, List.drop_left, ← hlr, List.take_left, h4, if_pos ⟨h2, beq_self_eq_true b⟩]
  simp only [List.length_append]

theorem reads_currentRow {fpr : Int} {c b r y : Bytes} (h1 : upper c = b!"CURRENT") (h2 : b ≠ []) (h3 : ∀ z ∈ b, isBlank z = true) (h4 : upper r = b!"ROW") :
    Reads fpr (.kw T.CURRENT_ROW) (c ++ b ++ r) y := by
  cases c with
  | nil => cases h1
  | cons q c =>
    have hq : isLetter q = true := letters_of_upper h1 (by decide) q (by simp)
    have e := hand_two (y := y) (by decide) (by decide) (by decide) (by decide) h1 h2 h3 h4
    refine Reads.of (r := 169) (c := 423) (by simp) ?_ (fun _ => rfl) rfl (by decide)
    simp only [List.cons_append] at e ⊢
    rw [hand_letter hq]
    unfold handWord
    rw [e]
theorem reads_charVarying {fpr : Int} {c b r y : Bytes} (h1 : upper c = b!"CHARACTER") (h2 : b ≠ []) (h3 : ∀ z ∈ b, isBlank z = true) (h4 : upper r = b!"VARYING") :
    Reads fpr (.kw T.CHARACTER_VARYING) (c ++ b ++ r) y := by
  cases hc : c with
  | nil => rw [hc] at h1; cases h1
  | cons q c' =>
    have hq : isLetter q = true := letters_of_upper h1 (by decide) q (by rw [hc]; simp)
    have e := hand_two (y := y) (by decide) (by decide) (by decide) (by decide) h1 h2 h3 h4
    have hl := letters_of_upper h1 (by decide)
    obtain ⟨b0, b', rfl⟩ : ∃ b0 b', b = b0 :: b' := by
      cases b with
      | nil => exact absurd rfl h2
      | cons b0 b' => exact ⟨_, _, rfl⟩
    have e2 : twoWords b!"CURRENT" b!"ROW" (c ++ ((b0 :: b') ++ r ++ y)) = none := by
      refine twoWords_none (by decide) (fun z hz => letter_wordc (hl z hz)) ?_ (by rw [h1]; decide)
      intro z hz
      simp only [List.cons_append, List.head?_cons, Option.some.injEq] at hz
      subst hz
      exact blank_not_wordc (h3 _ (by simp))
    rw [← hc]
    refine Reads.of (r := 170) (c := 284) (by simp) ?_ (fun _ => rfl) rfl (by decide)
    rw [List.append_assoc c, List.append_assoc c] at *
    generalize hX : c ++ (b0 :: b' ++ r) = X at *
    rw [← hX] 
    rw [← hX] at e
    rw [hc]
    simp only [List.cons_append]
    rw [hand_letter hq]
    rw [hc] at e e2
    simp only [List.cons_append, List.append_assoc] at e e2 ⊢
    unfold handWord
    rw [e, e2]

theorem hand_op {c : Nat} {y : Bytes} (h1 : isBlank c = false) (h2 : isLetter c = false) (h3 : isDigit c = false) (h4 : c ≠ 46) (h5 : c ≠ 34) (h6 : c ≠ 39) : handInitial (c :: y) = handOp (c :: y) := by
  unfold handInitial
  simp only []
  rw [if_neg (by rw [h1]; simp), if_neg (by rw [h2]; simp), if_neg (by rw [h3]; simp), if_neg h4, if_neg h5, if_neg h6]

theorem reads_punct {fpr : Int} {a : Nat} {x y : Bytes} (h : (a, x) ∈ punctTexts) : Reads fpr (.kw a) x y := by
  have hself : ∀ {c a : Nat}, isBlank c = false → isLetter c = false → isDigit c = false → c ≠ 46 → c ≠ 34 → c ≠ 39 → ([45, 61, 33, 60, 62, 124].contains c) = false → isSelf c = true → c ≠ 0 →
      tokSym (Int.ofNat c) = a → Reads fpr (.kw a) [c] y := by
    intro c a k1 k2 k3 k4 k5 k6 k7 k8 k9 k10
    refine Reads.of (r := 177) (c := Int.ofNat c) (by simp) ?_ (fun _ => rfl) k10 (by simp; omega)
    rw [List.cons_append, hand_op k1 k2 k3 k4 k5 k6, List.nil_append]
    simp at k7
    have h : ∀ (k b : Nat) (u : Bytes), b ≠ c → (c :: y).take (k + 1) ≠ b :: u := by
      intro k b u hb he
      simp only [List.take_succ_cons, List.cons.injEq] at he
      exact hb he.1.symm
    unfold handOp
    rw [if_neg (h 1 _ _ (by omega)), if_neg (h 19 _ _ (by omega)), if_neg (h 1 _ _ (by omega)), if_neg (h 1 _ _ (by omega)), if_neg (h 1 _ _ (by omega)),
      if_neg (h 1 _ _ (by omega)), if_neg (h 1 _ _ (by omega)), if_neg (h 1 _ _ (by omega)), if_pos (by simp [k8])]
    rfl
  simp only [punctTexts, List.mem_cons, Prod.mk.injEq, List.not_mem_nil, or_false] at h
  rcases h with ⟨rfl, rfl⟩ | ⟨rfl, rfl⟩ | ⟨rfl, rfl⟩ | ⟨rfl, rfl⟩ | ⟨rfl, rfl⟩ | ⟨rfl, rfl⟩ | ⟨rfl, rfl⟩ | ⟨rfl, rfl⟩ | ⟨rfl, rfl⟩ | ⟨rfl, rfl⟩ | ⟨rfl, rfl⟩ | ⟨rfl, rfl⟩ | ⟨rfl, rfl⟩ |
    ⟨rfl, rfl⟩ | ⟨rfl, rfl⟩ | ⟨rfl, rfl⟩ | ⟨rfl, rfl⟩
  iterate 11 exact hself (by decide) (by decide) (by decide) (by decide) (by decide) (by decide) (by decide) (by decide) (by decide) rfl
  · exact Reads.of (r := 171) (by simp) (by rw [List.cons_append, hand_op (by decide) (by decide) (by decide) (by decide) (by decide) (by decide)]; simp [handOp]) (fun _ => rfl) rfl (by decide)
  · exact Reads.of (r := 173) (by simp) (by rw [List.cons_append, hand_op (by decide) (by decide) (by decide) (by decide) (by decide) (by decide)]; simp [handOp]) (fun _ => rfl) rfl (by decide)
  · exact Reads.of (r := 172) (by simp) (by rw [List.cons_append, hand_op (by decide) (by decide) (by decide) (by decide) (by decide) (by decide)]; simp [handOp]) (fun _ => rfl) rfl (by decide)
  · exact Reads.of (r := 174) (by simp) (by rw [List.cons_append, hand_op (by decide) (by decide) (by decide) (by decide) (by decide) (by decide)]; simp [handOp]) (fun _ => rfl) rfl (by decide)
  · exact Reads.of (r := 175) (by simp) (by rw [List.cons_append, hand_op (by decide) (by decide) (by decide) (by decide) (by decide) (by decide)]; simp [handOp]) (fun _ => rfl) rfl (by decide)
  · exact Reads.of (r := 176) (by simp) (by rw [List.cons_append, hand_op (by decide) (by decide) (by decide) (by decide) (by decide) (by decide)]; simp [handOp]) (fun _ => rfl) rfl (by decide)

theorem reads_param {fpr : Int} {k : Nat} {y : Bytes} : Reads fpr (.par k) b!"?" y :=
  Reads.of (r := 177) (by simp) (by rw [List.cons_append, hand_op (by decide) (by decide) (by decide) (by decide) (by decide) (by decide)]; simp [handOp, isSelf, selfChars]) (fun _ => rfl) rfl (by decide)

theorem reads_eq {fpr : Int} {y : Bytes} (h : Stops (· == 61) y) : Reads fpr (.kw T.EQ) b!"=" y := by
  refine Reads.of (r := 177) (by simp) ?_ (fun _ => rfl) rfl (by decide)
  rw [List.cons_append, hand_op (by decide) (by decide) (by decide) (by decide) (by decide) (by decide), List.nil_append]
  cases y with
  | nil => rfl
  | cons z y => have := h z rfl; simp [handOp, isSelf, selfChars] at this ⊢; exact this
theorem reads_lt {fpr : Int} {y : Bytes} (h : Stops (fun c => c == 61 || c == 62) y) : Reads fpr (.kw T.LT) b!"<" y := by
  refine Reads.of (r := 177) (by simp) ?_ (fun _ => rfl) rfl (by decide)
  rw [List.cons_append, hand_op (by decide) (by decide) (by decide) (by decide) (by decide) (by decide), List.nil_append]
  cases y with
  | nil => rfl
  | cons z y => have := h z rfl; simp [handOp, isSelf, selfChars] at this ⊢; simp [this]
theorem reads_gt {fpr : Int} {y : Bytes} (h : Stops (· == 61) y) : Reads fpr (.kw T.GT) b!">" y := by
  refine Reads.of (r := 177) (by simp) ?_ (fun _ => rfl) rfl (by decide)
  rw [List.cons_append, hand_op (by decide) (by decide) (by decide) (by decide) (by decide) (by decide), List.nil_append]
  cases y with
  | nil => rfl
  | cons z y => have := h z rfl; simp [handOp, isSelf, selfChars] at this ⊢; exact this
theorem reads_minus {fpr : Int} {y : Bytes} (h : Stops (· == 45) y) (h2 : ¬ b!"9223372036854775808" <+: y) : Reads fpr (.kw T.HYPHEN) b!"-" y := by
  refine Reads.of (r := 177) (by simp) ?_ (fun _ => rfl) rfl (by decide)
  rw [List.cons_append, hand_op (by decide) (by decide) (by decide) (by decide) (by decide) (by decide), List.nil_append]
  unfold handOp
  rw [if_neg (by
    cases y with
    | nil => decide
    | cons z y => have := h z rfl; simp at this ⊢; exact this), if_neg (by
    intro e
    refine h2 ⟨y.drop 19, ?_⟩
    rw [show (20 : Nat) = 19 + 1 from rfl, List.take_succ_cons] at e
    rw [← (List.cons.inj e).2]
    exact List.take_append_drop 19 y)]
  simp [isSelf, selfChars]
theorem reads_dot {fpr : Int} {y : Bytes} (h : Stops isDigit y) : Reads fpr (.kw T.DOT) b!"." y := by
  refine Reads.of (r := 177) (by simp) ?_ (fun _ => rfl) rfl (by decide)
  show handInitial (46 :: y) = _
  unfold handInitial
  simp only []
  rw [if_neg (by decide), if_neg (by decide), if_neg (by decide), if_pos (by trivial), if_pos]
  · rfl
  · cases y with
    | nil => rfl
    | cons z y => rw [List.takeWhile_cons, h z rfl]; rfl

theorem reads_minInt {fpr : Int} {y : Bytes} : Reads fpr (.int (-9223372036854775808)) b!"-9223372036854775808" y := by
  refine Reads.of (r := 180) (by simp) ?_ (fun _ => rfl) rfl (by decide)
  rw [List.cons_append, hand_op (by decide) (by decide) (by decide) (by decide) (by decide) (by decide)]
  unfold handOp
  rw [if_neg (by simp), if_pos (by simp)]
  simp

theorem reads_quoted {fpr : Int} {x y : Bytes} (h1 : x ≠ []) (h2 : ∀ z ∈ x, z ≠ 34 ∧ z ≠ 10) : Reads fpr (.id x) (34 :: (x ++ [34])) y := by
  have hh : handInitial ((34 :: (x ++ [34])) ++ y) = (182, (34 :: (x ++ [34])).length) := by
    show handInitial (34 :: ((x ++ [34]) ++ y)) = _
    unfold handInitial
    simp only []
    rw [if_neg (by decide), if_neg (by decide), if_neg (by decide), if_neg (by decide), if_pos (by trivial)]
    unfold handQuoted
    rw [List.append_assoc]
    have e : (x ++ ([34] ++ y)).takeWhile (fun c => c != 34 && c != 10) = x := takeWhile_stop (by
      intro z hz
      have := h2 z hz
      simp [this]) (by intro z hz; simp at hz; subst hz; rfl)
    simp only [e]
    rw [if_pos ⟨h1, by rw [List.drop_left]; rfl⟩]
    simp
  refine Reads.of (c := 258) (by simp) hh ?_ rfl (by decide)
  intro buf
  show some (ActRes.ret .initial buf 258 (.sval _)) = some (ActRes.ret .initial buf 258 (.sval _))
  simp

theorem digit_facts {b : Nat} (h : isDigit b = true) : isBlank b = false ∧ isLetter b = false := by
  unfold isDigit isBlank isLetter at *
  simp only [Bool.and_eq_true, decide_eq_true_eq] at h
  simp only [Bool.or_eq_false_iff, beq_eq_false_iff_ne, Bool.and_eq_false_iff, decide_eq_false_iff_not]
  omega

theorem hand_digit {d t : Bytes} (h0 : d ≠ []) (h : ∀ z ∈ d, isDigit z = true) : handInitial (d ++ t) = handNumber (d ++ t) := by
  cases d with
  | nil => exact absurd rfl h0
  | cons b d =>
    have hb := h b (by simp)
    obtain ⟨h1, h2⟩ := digit_facts hb
    rw [List.cons_append]
    unfold handInitial
    simp only []
    rw [if_neg (by rw [h1]; simp), if_neg (by rw [h2]; simp), if_pos hb]

theorem strtoll_dec {d : Bytes} (h0 : d ≠ []) (h1 : d.head? = some 48 → d = [48]) (h2 : decVal d < 2 ^ 63) : strtoll0 d = some (decVal d : Int) := by
  unfold strtoll0
  by_cases h : d.head? = some 48
  · rw [h1 h]; rfl
  · simp only [if_neg h]
    rw [if_pos (by omega)]
    rfl

theorem reads_int {fpr : Int} {d y : Bytes} (h0 : d ≠ []) (h1 : ∀ z ∈ d, isDigit z = true) (h2 : d.head? = some 48 → d = [48]) (h3 : decVal d < 2 ^ 63)
    (h4 : Stops (fun c => isDigit c || c == 46) y) : Reads fpr (.int (decVal d)) d y := by
  refine Reads.of (r := 181) (c := 261) h0 ?_ ?_ rfl (by decide)
  · rw [hand_digit h0 h1]
    unfold handNumber
    have e : (d ++ y).takeWhile isDigit = d := takeWhile_stop h1 (by
      intro z hz
      have := h4 z hz
      simp only [Bool.or_eq_false_iff] at this
      exact this.1)
    simp only [e, List.drop_left]
    cases y with
    | nil => rfl
    | cons z y =>
      have := h4 z rfl
      simp only [Bool.or_eq_false_iff, beq_eq_false_iff_ne] at this
      split
      · rename_i he; simp only [List.cons.injEq] at he; exact absurd he.1 this.2
      · rfl
  · intro buf
    unfold lexAction
    simp only [if_neg, if_pos]
    rw [strtoll_dec h0 h2 h3]
    rfl

theorem reads_float {fpr : Int} {d f y : Bytes} (h0 : d ≠ []) (h1 : ∀ z ∈ d, isDigit z = true) (h2 : ∀ z ∈ f, isDigit z = true) (h3 : Stops isDigit y) :
    Reads fpr (.flt (d ++ 46 :: f)) (d ++ 46 :: f) y := by
  refine Reads.of (r := 178) (c := 260) (by simp) ?_ (fun _ => rfl) rfl (by decide)
  rw [List.append_assoc, hand_digit h0 h1, List.cons_append]
  unfold handNumber
  have e : (d ++ (46 :: (f ++ y))).takeWhile isDigit = d := takeWhile_stop h1 (by intro z hz; simp at hz; subst hz; decide)
  simp only [e, List.drop_left]
  rw [takeWhile_stop h2 h3]
  simp only [List.length_append, List.length_cons]
  rw [Nat.add_assoc, Nat.add_comm 1]

theorem reads_dotFloat {fpr : Int} {f y : Bytes} (h0 : f ≠ []) (h2 : ∀ z ∈ f, isDigit z = true) (h3 : Stops isDigit y) : Reads fpr (.flt (46 :: f)) (46 :: f) y := by
  refine Reads.of (r := 179) (c := 260) (by simp) ?_ (fun _ => rfl) rfl (by decide)
  rw [List.cons_append]
  unfold handInitial
  simp only []
  rw [if_neg (by decide), if_neg (by decide), if_neg (by decide), if_pos (by trivial), takeWhile_stop h2 h3, if_neg]
  · simp only [List.length_cons]; rw [Nat.add_comm]
  · intro h; exact h0 (List.length_eq_zero_iff.1 h)

/-! ## Strings -/

theorem squote_content {fpr : Int} : ∀ (n : Nat) (x y : Bytes), x.length ≤ n → ∀ buf acc, Stops (· == 39) y → ∃ acc',
    LRun fpr ⟨.squote, buf, double x ++ 39 :: y⟩ acc [] ⟨.squote, buf ++ x, 39 :: y⟩ acc'
  | _, [], y, _, buf, acc, _ => ⟨acc, by rw [List.append_nil]; exact .refl⟩
  | 0, _ :: _, y, h, _, _, _ => by simp at h
  | n + 1, b :: x, y, h, buf, acc, hy => by
    by_cases hb : b = 39
    · subst hb
      obtain ⟨acc', ih⟩ := squote_content n x y (by simp at h; omega) (buf ++ [39]) ([39, 39] :: acc) hy
      refine ⟨acc', ?_⟩
      have h1 : LRun fpr ⟨.squote, buf, [39, 39] ++ (double x ++ 39 :: y)⟩ acc [] ⟨.squote, buf ++ [39], double x ++ 39 :: y⟩ ([39, 39] :: acc) :=
        lrun_skip (r := 185) (by simp) rfl rfl
      have := h1.trans ih
      rw [List.append_assoc] at this
      exact this
    · -- a run without quotes
      obtain ⟨e, hst⟩ := takeWhile_split (fun c => c != 39) (b :: x)
      generalize hp : (b :: x).takeWhile (fun c => c != 39) = p at e hst
      generalize (b :: x).drop p.length = q at e hst
      have hpa : ∀ z ∈ p, (z != 39) = true := by rw [← hp]; exact takeWhile_all _ _
      have hp0 : p ≠ [] := by
        rw [← hp, List.takeWhile_cons, if_pos (by simp [hb])]; simp
      have hd : ∀ (p : Bytes), (∀ z ∈ p, (z != 39) = true) → ∀ q, double (p ++ q) = p ++ double q := by
        intro p hp q
        induction p with
        | nil => rfl
        | cons c p ih =>
          have := hp c (by simp)
          rw [List.cons_append, double, if_neg (by simpa using this), ih (fun z hz => hp z (by simp [hz]))]
          rfl
      rw [e, hd p hpa]
      have hlen : q.length ≤ n := by
        have := congrArg List.length e
        have := List.length_pos_iff.2 hp0
        simp only [List.length_append] at *
        omega
      obtain ⟨acc', ih⟩ := squote_content n q y hlen (buf ++ p) (p :: acc) hy
      refine ⟨acc', ?_⟩
      have hhd : ∀ z, (double q ++ 39 :: y).head? = some z → (z != 39) = false := by
        intro z hz
        cases q with
        | nil => simp [double] at hz; subst hz; rfl
        | cons c q =>
          have hc : c = 39 := by simpa using hst c rfl
          subst hc
          simp [double] at hz
          subst hz; rfl
      have h1 : LRun fpr ⟨.squote, buf, p ++ (double q ++ 39 :: y)⟩ acc [] ⟨.squote, buf ++ p, double q ++ 39 :: y⟩ (p :: acc) := by
        refine lrun_skip (r := 186) hp0 ?_ rfl
        show handSquote _ = _
        have e2 := takeWhile_stop (p := fun c => c != 39) hpa hhd
        obtain ⟨c, p', rfl⟩ : ∃ c p', p = c :: p' := by
          cases p with
          | nil => exact absurd rfl hp0
          | cons c p' => exact ⟨c, p', rfl⟩
        have hc := hpa c (by simp)
        unfold handSquote
        split
        · rename_i heq; simp only [List.cons_append, List.cons.injEq] at heq; rw [heq.1] at hc; exact absurd hc (by decide)
        · rename_i heq; simp only [List.cons_append, List.cons.injEq] at heq; rw [heq.1] at hc; exact absurd hc (by decide)
        · rw [e2]
      have := h1.trans ih
      simp only [List.append_assoc] at this ⊢
      exact this

theorem reads_string {fpr : Int} {x y : Bytes} (h : Stops (· == 39) y) : Reads fpr (.str x) (39 :: (double x ++ [39])) y := by
  intro buf acc
  obtain ⟨acc1, h2⟩ := squote_content (fpr := fpr) x.length x y (Nat.le_refl _) [] ([39] :: acc) h
  have h1 : LRun fpr ⟨.initial, buf, [39] ++ (double x ++ 39 :: y)⟩ acc [] ⟨.squote, [], double x ++ 39 :: y⟩ ([39] :: acc) := by
    refine lrun_skip (r := 184) (by simp) ?_ rfl
    show handInitial (39 :: (double x ++ 39 :: y)) = _
    unfold handInitial
    simp only []
    rw [if_neg (by decide), if_neg (by decide), if_neg (by decide), if_neg (by decide), if_neg (by decide), if_pos (by trivial)]
    rfl
  have h3 : LRun fpr ⟨.squote, [] ++ x, [39] ++ y⟩ acc1 [⟨259, .sval x, ([39] :: acc1).reverse⟩] ⟨.initial, x, y⟩ [] := by
    refine lrun_ret (r := 187) (by simp) ?_ rfl (by decide)
    show handSquote (39 :: y) = _
    cases y with
    | nil => rfl
    | cons z y =>
      have := h z rfl
      unfold handSquote
      split
      · rename_i heq; simp only [List.cons.injEq] at heq; rw [heq.2.1] at this; exact absurd this (by decide)
      · rfl
      · rename_i h1 h2; exact absurd rfl (h2 (z :: y))
  have := (h1.trans h2).trans h3
  refine ⟨⟨259, .sval x, ([39] :: acc1).reverse⟩, x, ?_, rfl, rfl⟩
  simpa using this

/-! ## Texts -/

theorem Writes.reads {fpr : Int} {w : Word} {x y : Bytes} (h : Writes w x y) : Reads fpr w x y := by
  cases h with
  | keyword h1 h2 h3 => exact reads_keyword h1 h2 h3
  | currentRow h1 h2 h3 h4 _ => exact reads_currentRow h1 h2 h3 h4
  | characterVarying h1 h2 h3 h4 _ => exact reads_charVarying h1 h2 h3 h4
  | punct h => exact reads_punct h
  | eq h => exact reads_eq h
  | lt h => exact reads_lt h
  | gt h => exact reads_gt h
  | minus h h2 => exact reads_minus h h2
  | dot h => exact reads_dot h
  | param => exact reads_param
  | ident h1 h2 h3 h4 h5 h6 => exact reads_ident h1 h2 h3 h4 h5 h6
  | quoted h1 h2 => exact reads_quoted h1 h2
  | string h => exact reads_string h
  | int h1 h2 h3 h4 h5 => exact reads_int h1 h2 h3 h4 h5
  | minInt => exact reads_minInt
  | float h1 h2 h3 h4 => exact reads_float h1 h2 h3 h4
  | dotFloat h1 h2 h3 => exact reads_dotFloat h1 h2 h3

/-- The first byte of a word is not blank. -/
theorem Writes.head {w : Word} {x y : Bytes} (h : Writes w x y) : ∃ c r, x = c :: r ∧ isBlank c = false := by
  have hl : ∀ {c k : Bytes}, upper c = k → k ≠ [] → k.all isLetter = true → ∃ a r, c = a :: r ∧ isBlank a = false := by
    intro c k h1 h2 h3
    cases c with
    | nil => exact absurd h1.symm h2
    | cons a r => exact ⟨a, r, rfl, letter_not_blank (letters_of_upper h1 h3 a (by simp))⟩
  cases h with
  | keyword h1 h2 h3 =>
    have h := List.all_eq_true.1 kwTexts_ok _ h1
    simp only [Bool.and_eq_true] at h
    exact hl h2 (by rintro rfl; exact absurd h.1.1.1.2 (by decide)) h.1.1.1.1
  | currentRow h1 _ _ _ _ => obtain ⟨a, r, rfl, h⟩ := hl h1 (by decide) (by decide); exact ⟨a, _, rfl, h⟩
  | characterVarying h1 _ _ _ _ => obtain ⟨a, r, rfl, h⟩ := hl h1 (by decide) (by decide); exact ⟨a, _, rfl, h⟩
  | punct h =>
    simp only [punctTexts, List.mem_cons, Prod.mk.injEq, List.not_mem_nil, or_false] at h
    rcases h with ⟨rfl, rfl⟩ | ⟨rfl, rfl⟩ | ⟨rfl, rfl⟩ | ⟨rfl, rfl⟩ | ⟨rfl, rfl⟩ | ⟨rfl, rfl⟩ | ⟨rfl, rfl⟩ | ⟨rfl, rfl⟩ | ⟨rfl, rfl⟩ | ⟨rfl, rfl⟩ | ⟨rfl, rfl⟩ | ⟨rfl, rfl⟩ | ⟨rfl, rfl⟩ |
      ⟨rfl, rfl⟩ | ⟨rfl, rfl⟩ | ⟨rfl, rfl⟩ | ⟨rfl, rfl⟩ <;> exact ⟨_, _, rfl, rfl⟩
  | eq h => exact ⟨_, _, rfl, rfl⟩
  | lt h => exact ⟨_, _, rfl, rfl⟩
  | gt h => exact ⟨_, _, rfl, rfl⟩
  | minus h h2 => exact ⟨_, _, rfl, rfl⟩
  | dot h => exact ⟨_, _, rfl, rfl⟩
  | param => exact ⟨_, _, rfl, rfl⟩
  | ident h1 h2 h3 h4 h5 h6 => exact ⟨_, _, rfl, letter_not_blank h1⟩
  | quoted h1 h2 => exact ⟨_, _, rfl, rfl⟩
  | string h => exact ⟨_, _, rfl, rfl⟩
  | int h1 h2 h3 h4 h5 =>
    cases hd : x with
    | nil => exact absurd hd h1
    | cons b d' => exact ⟨b, d', rfl, (digit_facts (h2 b (by rw [hd]; simp))).1⟩
  | minInt => exact ⟨_, _, rfl, rfl⟩
  | @float d f y h1 h2 h3 h4 =>
    cases hd : d with
    | nil => exact absurd hd h1
    | cons b d' => exact ⟨b, _, rfl, (digit_facts (h2 b (by rw [hd]; simp))).1⟩
  | dotFloat h1 h2 h3 => exact ⟨_, _, rfl, rfl⟩

theorem kwTexts_pos : (kwTexts ++ punctTexts).all (fun e => !(e.1 == 0)) = true := by decide +kernel
theorem Writes.sym_pos {w : Word} {x y : Bytes} (h : Writes w x y) : w.sym ≠ 0 := by
  cases h with
  | keyword h1 _ _ => simpa [Word.sym] using List.all_eq_true.1 kwTexts_pos _ (List.mem_append_left _ h1)
  | punct h1 => simpa [Word.sym] using List.all_eq_true.1 kwTexts_pos _ (List.mem_append_right _ h1)
  | _ => simp only [Word.sym]; decide

theorem blanks_run {fpr : Int} {b v : Bytes} (hb : ∀ z ∈ b, isBlank z = true) (hv : ∀ z, v.head? = some z → isBlank z = false) (buf : Bytes) (acc : List Bytes) :
    ∃ acc', LRun fpr ⟨.initial, buf, b ++ v⟩ acc [] ⟨.initial, buf, v⟩ acc' := by
  cases b with
  | nil => exact ⟨acc, .refl⟩
  | cons c b =>
    refine ⟨_, lrun_skip (r := 4) (by simp) ?_ rfl⟩
    show handInitial (c :: (b ++ v)) = _
    unfold handInitial
    simp only []
    rw [if_pos (hb c (by simp))]
    have := takeWhile_stop (p := isBlank) hb hv
    rw [← List.cons_append, this]

theorem Text.run {fpr : Int} {ws : List Word} {x : Bytes} (h : Text ws x) : ∀ buf acc, ∃ T buf' acc', LRun fpr ⟨.initial, buf, x⟩ acc T ⟨.initial, buf', []⟩ acc' ∧ Spelled ws T ∧ ∀ t ∈ T, tsym t ≠ 0 := by
  induction h with
  | @nil b hb =>
    intro buf acc
    obtain ⟨acc', h⟩ := blanks_run (fpr := fpr) (v := []) hb (by simp) buf acc
    rw [List.append_nil] at h
    exact ⟨[], buf, acc', h, trivial, by simp⟩
  | @cons w ws b x y hb hw _ ih =>
    intro buf acc
    obtain ⟨c, r, rfl, hc⟩ := hw.head
    obtain ⟨acc1, h1⟩ := blanks_run (fpr := fpr) (v := c :: r ++ y) hb (by intro z hz; simp at hz; subst hz; exact hc) buf acc
    obtain ⟨t, buf1, h2, h3, h4⟩ := hw.reads (fpr := fpr) buf acc1
    obtain ⟨T, buf2, acc2, h5, h6, h7⟩ := ih buf1 []
    refine ⟨t :: T, buf2, acc2, h1.trans (h2.trans h5), ⟨h3, h4, h6⟩, ?_⟩
    intro u hu
    rcases List.mem_cons.1 hu with rfl | hu
    · rw [h3]; exact hw.sym_pos
    · exact h7 u hu

end Verif.Sql

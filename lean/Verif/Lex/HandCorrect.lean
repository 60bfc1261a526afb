import Verif.Lex.Hand
/-! `scan` equals the readable scanner `handStep` (proof). -/
namespace Verif.Lex

theorem takeWhile_le {p : Nat → Bool} {a b : Bytes} (h : ∀ x ∈ a, p x = true) :
    a.length ≤ ((a ++ b).takeWhile p).length := by
  rw [List.takeWhile_append_of_pos h]; simp

theorem takeWhile_stop {p : Nat → Bool} {a b : Bytes} (h : ∀ x ∈ a, p x = true) (hb : ∀ x, b.head? = some x → p x = false) :
    (a ++ b).takeWhile p = a := by
  rw [List.takeWhile_append_of_pos h]
  cases b with
  | nil => simp
  | cons x b => simp [hb x rfl]

theorem takeWhile_all (p : Nat → Bool) (t : Bytes) : ∀ x ∈ t.takeWhile p, p x = true :=
  by
  induction t with
  | nil => simp
  | cons b t ih =>
    cases h : p b with
    | false => simp [h]
    | true =>
      simp only [List.takeWhile_cons, h, if_true, List.mem_cons]
      rintro x (rfl | hx)
      · exact h
      · exact ih x hx

theorem takeWhile_split (p : Nat → Bool) (t : Bytes) :
    t = t.takeWhile p ++ t.drop (t.takeWhile p).length ∧
      ∀ x, (t.drop (t.takeWhile p).length).head? = some x → p x = false := by
  induction t with
  | nil => simp
  | cons b t ih =>
    cases h : p b with
    | false => simp [h]
    | true =>
      simp only [List.takeWhile_cons, h, if_true, List.length_cons, List.drop_succ_cons, List.cons_append]
      exact ⟨by rw [← ih.1], ih.2⟩

theorem upper_length (w : Bytes) : (upper w).length = w.length := by simp [upper]

theorem kw_letters : ∀ k ∈ keywords, k.1 ≠ [] ∧ ∀ b ∈ k.1, isLetter b = true := by decide +kernel

theorem letter_of_upper {b : Nat} (h : isLetter (upperB b) = true) : isLetter b = true := by
  unfold upperB isLetter at *
  split at h <;> simp_all
theorem letters_of_upper {w : Bytes} (h : ∀ b ∈ upper w, isLetter b = true) : ∀ b ∈ w, isLetter b = true := by
  intro b hb
  exact letter_of_upper (h _ (List.mem_map_of_mem hb))

theorem not_blank_of_letter {b : Nat} (h : isLetter b = true) : isBlank b = false := by
  unfold isLetter at h; unfold isBlank; simp at *; omega
theorem wordc_of_letter {b : Nat} (h : isLetter b = true) : isWordc b = true := by
  unfold isWordc; simp [h]
theorem not_wordc_of_blank {b : Nat} (h : isBlank b = true) : isWordc b = false := by
  unfold isBlank at h; unfold isWordc isLetter isDigit; simp at *; omega

theorem twoWords_of {a b x y z q : Bytes} (hx : upper x = a) (hy : y ≠ []) (hyb : ∀ c ∈ y, isBlank c = true)
    (hz : upper z = b) (hb : b ≠ [] ∧ ∀ c ∈ b, isLetter c = true) :
    twoWords a b (x ++ (y ++ (z ++ q))) = some (a.length + y.length + b.length) := by
  have hxl : a.length = x.length := by rw [← hx, upper_length]
  have hzl : b.length = z.length := by rw [← hz, upper_length]
  have hzz : ∀ c, (z ++ q).head? = some c → isBlank c = false := by
    intro c hc
    cases z with
    | nil => simp [upper] at hz; exact absurd hz hb.1
    | cons d z =>
      simp at hc; subst hc
      exact not_blank_of_letter (letters_of_upper (w := d :: z) (by rw [hz]; exact hb.2) d (by simp))
  have htw := takeWhile_stop hyb hzz
  unfold twoWords startsCI
  simp only [hxl, List.take_left, hx, beq_self_eq_true, if_true, List.drop_left, htw, hzl, hz]
  simp [hy]

theorem twoWords_some {a b text : Bytes} {n : Nat} (h : twoWords a b text = some n) :
    ∃ x y z q, text = x ++ (y ++ (z ++ q)) ∧ upper x = a ∧ y ≠ [] ∧ (∀ c ∈ y, isBlank c = true) ∧ upper z = b ∧
      n = x.length + y.length + z.length := by
  unfold twoWords startsCI at h
  split at h
  · rename_i h1
    simp only [beq_iff_eq] at h1
    simp only [] at h
    split at h
    · rename_i h2
      obtain ⟨h2, h3⟩ := h2
      have h3 := eq_of_beq h3
      simp only [Option.some.injEq] at h
      refine ⟨text.take a.length, (text.drop a.length).takeWhile isBlank,
        ((text.drop a.length).drop ((text.drop a.length).takeWhile isBlank).length).take b.length,
        ((text.drop a.length).drop ((text.drop a.length).takeWhile isBlank).length).drop b.length, ?_, h1, h2,
        takeWhile_all _ _, h3, ?_⟩
      · rw [List.take_append_drop, ← (takeWhile_split isBlank _).1, List.take_append_drop]
      · rw [← h, ← upper_length (text.take _), h1, ← upper_length (List.take _ _), h3]
    · cases h
  · cases h

theorem kwIndex_some {w : Bytes} {i : Nat} (h : kwIndex w = some i) :
    ∃ k, keywords[i]? = some k ∧ upper w = k.1 := by
  unfold kwIndex at h
  rw [List.findIdx?_eq_some_iff_getElem] at h
  obtain ⟨h1, h2, _⟩ := h
  exact ⟨keywords[i], by simp [h1], (eq_of_beq h2).symm⟩

theorem kw_nodup : (keywords.map (·.1)).Nodup := by decide +kernel

theorem kwIndex_of {w : Bytes} {i : Nat} {k} (h : keywords[i]? = some k) (hw : upper w = k.1) : kwIndex w = some i := by
  unfold kwIndex
  have hi : i < keywords.length := by
    rcases Nat.lt_or_ge i keywords.length with h' | h'
    · exact h'
    · rw [List.getElem?_eq_none h'] at h; cases h
  rw [List.findIdx?_eq_some_iff_getElem]
  have hk : keywords[i] = k := by
    rw [List.getElem?_eq_getElem hi] at h; exact Option.some.inj h
  refine ⟨hi, by rw [hk, hw]; simp, ?_⟩
  intro j hj hc
  have hc := eq_of_beq hc
  have := (List.nodup_iff_pairwise_ne.1 kw_nodup)
  rw [List.pairwise_iff_getElem] at this
  have := this j i (by simp; omega) (by simpa using hi) hj
  simp only [List.getElem_map] at this
  rw [hk, ← hw] at this
  exact this hc

/-- What the readable scanner has to satisfy in `INITIAL`. -/
structure Best (text : Bytes) (r n : Nat) : Prop where
  le : n ≤ text.length
  fires : Fires r (text.take n)
  best : ∀ r' p q, text = p ++ q → Fires r' p → p.length ≤ n ∧ (p.length = n → r ≤ r')

theorem fires_ne {r : Nat} {w : Bytes} (h : Fires r w) : w ≠ [] := by
  cases h with
  | kw h1 h2 =>
    rintro rfl
    exact (kw_letters _ (List.mem_of_getElem? h1)).1 h2.symm
  | blank h _ => exact h
  | int h _ => exact h
  | op h => simp at h; rcases h with ⟨_, rfl⟩ | ⟨_, rfl⟩ | ⟨_, rfl⟩ | ⟨_, rfl⟩ | ⟨_, rfl⟩ | ⟨_, rfl⟩ | ⟨_, rfl⟩ <;> simp
  | currentRow _ h => simp [h]
  | charVarying _ h => simp [h]
  | _ => simp

/-- First byte of a match of each rule. -/
theorem fires_head {r b : Nat} {w : Bytes} (h : Fires r (b :: w)) :
    (r = 1 ∧ b = 45) ∨ (r = 4 ∧ isBlank b = true) ∨ (5 ≤ r ∧ r ≤ 170 ∧ isLetter b = true) ∨
    (171 ≤ r ∧ r ≤ 177 ∧ (isSelf b = true ∨ b = 33)) ∨ (r = 178 ∧ isDigit b = true) ∨ (r = 179 ∧ b = 46) ∨ (r = 180 ∧ b = 45) ∨
    (r = 181 ∧ isDigit b = true) ∨ (r = 182 ∧ b = 34) ∨ (r = 183 ∧ isLetter b = true) ∨ (r = 184 ∧ b = 39) ∨
    (r = 188 ∧ w = []) := by
  generalize hv : b :: w = v at h
  cases h with
  | comment => cases hv; simp
  | blank _ h => subst hv; right; left; exact ⟨rfl, h b (by simp)⟩
  | @kw i k _ h1 h2 =>
    subst hv
    have hk := kw_letters _ (List.mem_of_getElem? h1)
    have : i < 164 := by
      rcases Nat.lt_or_ge i keywords.length with h' | h'
      · rw [kw_len] at h'; exact h'
      · rw [List.getElem?_eq_none h'] at h1; cases h1
    have hl := letters_of_upper (w := b :: w) (by rw [h2]; exact hk.2) b (by simp)
    right; right; left; exact ⟨by omega, by omega, hl⟩
  | @currentRow x y z h1 h2 h3 h4 =>
    cases x with
    | nil => simp [upper] at h1
    | cons c x =>
      cases hv
      right; right; left
      exact ⟨by omega, by omega, letters_of_upper (w := b :: x) (by rw [h1]; decide) b (by simp)⟩
  | @charVarying x y z h1 h2 h3 h4 =>
    cases x with
    | nil => simp [upper] at h1
    | cons c x =>
      cases hv
      right; right; left
      exact ⟨by omega, by omega, letters_of_upper (w := b :: x) (by rw [h1]; decide) b (by simp)⟩
  | op h1 =>
    simp only [List.mem_cons, Prod.mk.injEq, List.not_mem_nil, or_false] at h1
    rcases h1 with ⟨rfl, rfl⟩ | ⟨rfl, rfl⟩ | ⟨rfl, rfl⟩ | ⟨rfl, rfl⟩ | ⟨rfl, rfl⟩ | ⟨rfl, rfl⟩ | ⟨rfl, rfl⟩ <;> cases hv <;> decide
  | self h => cases hv; simp [h]
  | @float u v h1 h2 h3 =>
    cases u with
    | nil => simp at h1
    | cons c u => cases hv; simp [h2 b (by simp)]
  | dotFloat _ => cases hv; simp
  | int h1 h2 => subst hv; simp [h2 b (by simp)]
  | quoted h1 h2 => cases hv; simp
  | word h1 h2 => cases hv; simp [h1]
  | squote => cases hv; simp
  | any h => cases hv; simp

theorem fires4 {w : Bytes} (h : Fires 4 w) : ∀ x ∈ w, isBlank x = true := by
  generalize hr : 4 = r at h
  cases h <;> first | (exfalso; omega) | skip
  · assumption
  · rename_i h; simp at h; exfalso; omega
theorem fires181 {w : Bytes} (h : Fires 181 w) : ∀ x ∈ w, isDigit x = true := by
  generalize hr : 181 = r at h
  cases h <;> first | (exfalso; omega) | skip
  · rename_i i _ h _
    have : i < keywords.length := by
      rcases Nat.lt_or_ge i keywords.length with h' | h'
      · exact h'
      · rw [List.getElem?_eq_none h'] at h; cases h
    rw [kw_len] at this; omega
  · rename_i h; simp at h; exfalso; omega
  · assumption
theorem fires178 {w : Bytes} (h : Fires 178 w) : ∃ u v, w = u ++ 46 :: v ∧ (∀ x ∈ u, isDigit x = true) ∧ (∀ x ∈ v, isDigit x = true) := by
  generalize hr : 178 = r at h
  cases h <;> first | (exfalso; omega) | skip
  · rename_i i _ h _
    have : i < keywords.length := by
      rcases Nat.lt_or_ge i keywords.length with h' | h'
      · exact h'
      · rw [List.getElem?_eq_none h'] at h; cases h
    rw [kw_len] at this; omega
  · rename_i h; simp at h; exfalso; omega
  · exact ⟨_, _, rfl, by assumption, by assumption⟩
theorem fires179 {w : Bytes} (h : Fires 179 w) : ∃ v, w = 46 :: v ∧ (∀ x ∈ v, isDigit x = true) := by
  generalize hr : 179 = r at h
  cases h <;> first | (exfalso; omega) | skip
  · rename_i i _ h _
    have : i < keywords.length := by
      rcases Nat.lt_or_ge i keywords.length with h' | h'
      · exact h'
      · rw [List.getElem?_eq_none h'] at h; cases h
    rw [kw_len] at this; omega
  · rename_i h; simp at h; exfalso; omega
  · exact ⟨_, rfl, by assumption⟩
theorem fires182 {w : Bytes} (h : Fires 182 w) : ∃ u, w = 34 :: u ++ [34] ∧ u ≠ [] ∧ (∀ x ∈ u, x ≠ 34 ∧ x ≠ 10) := by
  generalize hr : 182 = r at h
  cases h <;> first | (exfalso; omega) | skip
  · rename_i i _ h _
    have : i < keywords.length := by
      rcases Nat.lt_or_ge i keywords.length with h' | h'
      · exact h'
      · rw [List.getElem?_eq_none h'] at h; cases h
    rw [kw_len] at this; omega
  · rename_i h; simp at h; exfalso; omega
  · exact ⟨_, rfl, by assumption, by assumption⟩
theorem fires183 {w : Bytes} (h : Fires 183 w) : ∀ x ∈ w, isWordc x = true := by
  generalize hr : 183 = r at h
  cases h <;> first | (exfalso; omega) | skip
  · rename_i i _ h _
    have : i < keywords.length := by
      rcases Nat.lt_or_ge i keywords.length with h' | h'
      · exact h'
      · rw [List.getElem?_eq_none h'] at h; cases h
    rw [kw_len] at this; omega
  · rename_i h; simp at h; exfalso; omega
  · rename_i h1 h2
    intro x hx
    rcases List.mem_cons.1 hx with rfl | hx
    · exact wordc_of_letter h1
    · exact h2 x hx
theorem fires184 {w : Bytes} (h : Fires 184 w) : w = [39] := by
  generalize hr : 184 = r at h
  cases h <;> first | (exfalso; omega) | skip
  · rename_i i _ h _
    have : i < keywords.length := by
      rcases Nat.lt_or_ge i keywords.length with h' | h'
      · exact h'
      · rw [List.getElem?_eq_none h'] at h; cases h
    rw [kw_len] at this; omega
  · rename_i h; simp at h; exfalso; omega
  · rfl
/-- The rules of a text that starts with a letter. -/
theorem firesWord {r : Nat} {w : Bytes} (h : Fires r w) (h1 : 5 ≤ r) (h2 : r ≤ 170) :
    (∃ i k, r = 5 + i ∧ keywords[i]? = some k ∧ upper w = k.1) ∨
    (∃ x y z, r = 169 ∧ w = x ++ (y ++ z) ∧ upper x = b!"CURRENT" ∧ y ≠ [] ∧ (∀ c ∈ y, isBlank c = true) ∧ upper z = b!"ROW") ∨
    (∃ x y z, r = 170 ∧ w = x ++ (y ++ z) ∧ upper x = b!"CHARACTER" ∧ y ≠ [] ∧ (∀ c ∈ y, isBlank c = true) ∧ upper z = b!"VARYING") := by
  cases h <;> first | (exfalso; omega) | skip
  · rename_i a b; exact .inl ⟨_, _, rfl, a, b⟩
  · exact .inr (.inl ⟨_, _, _, rfl, List.append_assoc _ _ _, by assumption, by assumption, by assumption, by assumption⟩)
  · exact .inr (.inr ⟨_, _, _, rfl, List.append_assoc _ _ _, by assumption, by assumption, by assumption, by assumption⟩)
  · rename_i h; simp at h; exfalso; omega
/-- The rules of operators. -/
theorem firesOp {r : Nat} {w : Bytes} (h : Fires r w) (h1 : r = 1 ∨ r = 180 ∨ 171 ≤ r ∧ r ≤ 177) :
    (r, w) ∈ [(1, b!"--"), (171, b!"=="), (172, b!"!="), (173, b!"<>"), (174, b!"<="), (175, b!">="), (176, b!"||"),
      (180, b!"-9223372036854775808")] ∨ (r = 177 ∧ ∃ b, w = [b] ∧ isSelf b = true) := by
  cases h <;> first | (exfalso; omega) | skip
  · left; decide
  · rename_i i _ h _
    have : i < keywords.length := by
      rcases Nat.lt_or_ge i keywords.length with h' | h'
      · exact h'
      · rw [List.getElem?_eq_none h'] at h; cases h
    rw [kw_len] at this; omega
  · rename_i h; left; exact List.mem_cons_of_mem _ h
  · right; exact ⟨rfl, _, rfl, by assumption⟩

theorem best_of {b : Nat} {t : Bytes} {r n : Nat} (le : n ≤ t.length + 1) (f : Fires r ((b :: t).take n))
    (hb : ∀ r' w q, t = w ++ q → Fires r' (b :: w) → w.length + 1 ≤ n ∧ (w.length + 1 = n → r ≤ r')) : Best (b :: t) r n := by
  refine ⟨by simpa using le, f, ?_⟩
  intro r' p q e hf
  cases p with
  | nil => exact absurd rfl (fires_ne hf)
  | cons c p =>
    cases e
    simpa using hb r' p q rfl hf

theorem blank_facts {b : Nat} (h : isBlank b = true) : isLetter b = false ∧ isDigit b = false ∧ isSelf b = false ∧ b ≠ 33 ∧ b ≠ 45 ∧ b ≠ 46 ∧ b ≠ 34 ∧ b ≠ 39 := by
  unfold isBlank at h
  simp at h
  rcases h with (rfl | rfl) | rfl <;> decide

theorem best_blank {b : Nat} {t : Bytes} (h : isBlank b = true) :
    Best (b :: t) 4 ((b :: t).takeWhile isBlank).length := by
  have hs := takeWhile_split isBlank (b :: t)
  have ht : (b :: t).take ((b :: t).takeWhile isBlank).length = (b :: t).takeWhile isBlank := by
    have := congrArg (List.take ((b :: t).takeWhile isBlank).length) hs.1
    rwa [List.take_left] at this
  have hpos : 1 ≤ ((b :: t).takeWhile isBlank).length := by simp [h]
  refine best_of ?_ ?_ ?_
  · simpa using (List.takeWhile_sublist (l := b :: t) isBlank).length_le
  · rw [ht]
    refine .blank ?_ (takeWhile_all _ _)
    intro e; rw [e] at hpos; simp at hpos
  · rintro r' w q rfl hf
    obtain ⟨f1, f2, f3, f4, f5, f6, f7, f8⟩ := blank_facts h
    rcases fires_head hf with ⟨_, hh⟩ | ⟨rfl, _⟩ | ⟨_, _, hh⟩ | ⟨_, _, hh⟩ | ⟨_, hh⟩ | ⟨_, hh⟩ | ⟨_, hh⟩ | ⟨_, hh⟩ | ⟨_, hh⟩ | ⟨_, hh⟩ | ⟨_, hh⟩ | ⟨rfl, rfl⟩
    · exact absurd hh f5
    · refine ⟨?_, fun _ => Nat.le_refl _⟩
      simpa using takeWhile_le (b := q) (fires4 hf)
    · simp [f1] at hh
    · simp [f3, f4] at hh
    · simp [f2] at hh
    · exact absurd hh f6
    · exact absurd hh f5
    · simp [f2] at hh
    · exact absurd hh f7
    · simp [f1] at hh
    · exact absurd hh f8
    · exact ⟨by simpa using hpos, fun _ => by omega⟩


theorem take_tw (p : Nat → Bool) (t : Bytes) : t.take (t.takeWhile p).length = t.takeWhile p := by
  have := congrArg (List.take (t.takeWhile p).length) (takeWhile_split p t).1
  rwa [List.take_left] at this
theorem tw_le (p : Nat → Bool) (t : Bytes) : (t.takeWhile p).length ≤ t.length :=
  (List.takeWhile_sublist p).length_le

theorem letter_facts {b : Nat} (h : isLetter b = true) : isBlank b = false ∧ isDigit b = false ∧ isSelf b = false ∧ b ≠ 33 ∧ b ≠ 45 ∧ b ≠ 46 ∧ b ≠ 34 ∧ b ≠ 39 := by
  refine ⟨not_blank_of_letter h, ?_, ?_, ?_⟩
  · unfold isLetter at h; unfold isDigit; simp at *; omega
  · unfold isLetter at h
    unfold isSelf selfChars
    simp at *; omega
  · unfold isLetter at h; simp at *; omega
theorem digit_facts {b : Nat} (h : isDigit b = true) : isBlank b = false ∧ isLetter b = false ∧ isSelf b = false ∧ b ≠ 33 ∧ b ≠ 45 ∧ b ≠ 46 ∧ b ≠ 34 ∧ b ≠ 39 ∧ b ≠ 10 := by
  unfold isDigit at h
  unfold isBlank isLetter isSelf selfChars
  simp at *; omega

/-- The maximal word at the front bounds every word-shaped match. -/
theorem word_bound {w q : Bytes} (h : ∀ x ∈ w, isWordc x = true) : w.length ≤ ((w ++ q).takeWhile isWordc).length :=
  takeWhile_le h

theorem upper_append (a b : Bytes) : upper (a ++ b) = upper a ++ upper b := by simp [upper]

theorem best_word {b : Nat} {t : Bytes} (h : isLetter b = true) :
    Best (b :: t) (handWord (b :: t)).1 (handWord (b :: t)).2 := by
  obtain ⟨f1, f2, f3, f4, f5, f6, f7, f8⟩ := letter_facts h
  have hcr : (b!"ROW" : Bytes) ≠ [] ∧ ∀ c ∈ (b!"ROW" : Bytes), isLetter c = true := by decide
  have hcv : (b!"VARYING" : Bytes) ≠ [] ∧ ∀ c ∈ (b!"VARYING" : Bytes), isLetter c = true := by decide
  -- every match of a one-word rule is bounded by the maximal word
  have hkw : ∀ (i : Nat) (k : Bytes × Nat) (w : Bytes), keywords[i]? = some k → upper w = k.1 → ∀ x ∈ w, isWordc x = true := by
    intro i k w h1 h2 x hx
    exact wordc_of_letter (letters_of_upper (w := w) (by rw [h2]; exact (kw_letters _ (List.mem_of_getElem? h1)).2) x hx)
  -- the word in front of blanks
  have hfront : ∀ {x y z q : Bytes} {A : Bytes}, upper x = A → (∀ c ∈ A, isLetter c = true) → y ≠ [] → (∀ c ∈ y, isBlank c = true) →
      (x ++ (y ++ (z ++ q))).takeWhile isWordc = x := by
    intro x y z q A hx hA hy hyb
    apply takeWhile_stop
    · intro c hc; exact wordc_of_letter (letters_of_upper (by rw [hx]; exact hA) c hc)
    · intro c hc
      cases y with
      | nil => simp at hy
      | cons d y => simp at hc; subst hc; exact not_wordc_of_blank (hyb _ (by simp))
  have hWpos : 1 ≤ ((b :: t).takeWhile isWordc).length := by simp [wordc_of_letter h]
  unfold handWord
  cases h1 : twoWords b!"CURRENT" b!"ROW" (b :: t) with
  | some n =>
    simp only []
    obtain ⟨x, y, z, q, e, hx, hy, hyb, hz, rfl⟩ := twoWords_some h1
    have hfw := hfront (z := z) (q := q) hx (by decide) hy hyb
    rw [← e] at hfw
    have hxl : x.length = 7 := by rw [← upper_length, hx]; rfl
    have hzl : z.length = 3 := by rw [← upper_length, hz]; rfl
    have e' : b :: t = (x ++ y ++ z) ++ q := by rw [e]; simp
    have hylen : 1 ≤ y.length := by
      cases y with
      | nil => simp at hy
      | cons => simp
    refine best_of ?_ ?_ ?_
    · have := congrArg List.length e; simp at this; omega
    · rw [e']
      have : (x ++ y ++ z ++ q).take (x.length + y.length + z.length) = x ++ y ++ z := by
        rw [List.take_left' (by simp; omega)]
      rw [this]; exact .currentRow hx hy hyb hz
    · rintro r' w q' rfl hf
      have hone : ∀ r', (∀ x ∈ b :: w, isWordc x = true) → w.length + 1 ≤ x.length + y.length + z.length ∧ (w.length + 1 = x.length + y.length + z.length → 169 ≤ r') := by
        intro r' hall
        have := word_bound (q := q') hall
        rw [List.cons_append, hfw] at this
        simp at this; omega
      rcases fires_head hf with ⟨_, hh⟩ | ⟨_, hh⟩ | ⟨g1, g2, _⟩ | ⟨_, _, hh⟩ | ⟨_, hh⟩ | ⟨_, hh⟩ | ⟨_, hh⟩ | ⟨_, hh⟩ | ⟨_, hh⟩ | ⟨rfl, _⟩ | ⟨_, hh⟩ | ⟨rfl, rfl⟩
      · exact absurd hh f5
      · simp [f1] at hh
      · rcases firesWord hf g1 g2 with ⟨i, k, rfl, k1, k2⟩ | ⟨x', y', z', rfl, e2, k1, k2, k3, k4⟩ | ⟨x', y', z', rfl, e2, k1, k2, k3, k4⟩
        · exact hone _ (hkw _ _ _ k1 k2)
        · have e3 : b :: (w ++ q') = x' ++ (y' ++ (z' ++ q')) := by rw [← List.cons_append, e2]; simp
          rw [e3, twoWords_of k1 k2 k3 k4 hcr] at h1
          have hxl' : x'.length = 7 := by rw [← upper_length, k1]; rfl
          have hzl' : z'.length = 3 := by rw [← upper_length, k4]; rfl
          have := congrArg List.length e2
          simp at this h1
          omega
        · exfalso
          have e3 : x' ++ (y' ++ (z' ++ q')) = x ++ (y ++ (z ++ q)) := by rw [← e, ← List.cons_append, e2]; simp
          have hfw' := hfront (z := z') (q := q') k1 (by decide) k2 k3
          rw [e3, ← e, hfw] at hfw'
          rw [← hfw', hx] at k1; simp at k1
      · simp [f3, f4] at hh
      · simp [f2] at hh
      · exact absurd hh f6
      · exact absurd hh f5
      · simp [f2] at hh
      · exact absurd hh f7
      · exact hone _ (fires183 hf)
      · exact absurd hh f8
      · simp; omega
  | none =>
    cases h2 : twoWords b!"CHARACTER" b!"VARYING" (b :: t) with
    | some n =>
      simp only []
      obtain ⟨x, y, z, q, e, hx, hy, hyb, hz, rfl⟩ := twoWords_some h2
      have hfw := hfront (z := z) (q := q) hx (by decide) hy hyb
      rw [← e] at hfw
      have hxl : x.length = 9 := by rw [← upper_length, hx]; rfl
      have hzl : z.length = 7 := by rw [← upper_length, hz]; rfl
      have e' : b :: t = (x ++ y ++ z) ++ q := by rw [e]; simp
      have hylen : 1 ≤ y.length := by
        cases y with
        | nil => simp at hy
        | cons => simp
      refine best_of ?_ ?_ ?_
      · have := congrArg List.length e; simp at this; omega
      · rw [e']
        have : (x ++ y ++ z ++ q).take (x.length + y.length + z.length) = x ++ y ++ z := by
          rw [List.take_left' (by simp; omega)]
        rw [this]; exact .charVarying hx hy hyb hz
      · rintro r' w q' rfl hf
        have hone : ∀ r', (∀ x ∈ b :: w, isWordc x = true) → w.length + 1 ≤ x.length + y.length + z.length ∧ (w.length + 1 = x.length + y.length + z.length → 170 ≤ r') := by
          intro r' hall
          have := word_bound (q := q') hall
          rw [List.cons_append, hfw] at this
          simp at this; omega
        rcases fires_head hf with ⟨_, hh⟩ | ⟨_, hh⟩ | ⟨g1, g2, _⟩ | ⟨_, _, hh⟩ | ⟨_, hh⟩ | ⟨_, hh⟩ | ⟨_, hh⟩ | ⟨_, hh⟩ | ⟨_, hh⟩ | ⟨rfl, _⟩ | ⟨_, hh⟩ | ⟨rfl, rfl⟩
        · exact absurd hh f5
        · simp [f1] at hh
        · rcases firesWord hf g1 g2 with ⟨i, k, rfl, k1, k2⟩ | ⟨x', y', z', rfl, e2, k1, k2, k3, k4⟩ | ⟨x', y', z', rfl, e2, k1, k2, k3, k4⟩
          · exact hone _ (hkw _ _ _ k1 k2)
          · have e3 : b :: (w ++ q') = x' ++ (y' ++ (z' ++ q')) := by rw [← List.cons_append, e2]; simp
            rw [e3, twoWords_of k1 k2 k3 k4 hcr] at h1
            cases h1
          · have e3 : b :: (w ++ q') = x' ++ (y' ++ (z' ++ q')) := by rw [← List.cons_append, e2]; simp
            rw [e3, twoWords_of k1 k2 k3 k4 hcv] at h2
            have hxl' : x'.length = 9 := by rw [← upper_length, k1]; rfl
            have hzl' : z'.length = 7 := by rw [← upper_length, k4]; rfl
            have := congrArg List.length e2
            simp at this h2
            omega
        · simp [f3, f4] at hh
        · simp [f2] at hh
        · exact absurd hh f6
        · exact absurd hh f5
        · simp [f2] at hh
        · exact absurd hh f7
        · exact hone _ (fires183 hf)
        · exact absurd hh f8
        · simp; omega
    | none =>
      simp only []
      have hother : ∀ r' : Nat, (∀ (i : Nat) (k : Bytes × Nat), keywords[i]? = some k → upper ((b :: t).takeWhile isWordc) = k.1 → r' ≤ 5 + i) → r' ≤ 183 →
          ∀ r'' w q, t = w ++ q → Fires r'' (b :: w) → w.length + 1 ≤ ((b :: t).takeWhile isWordc).length ∧ (w.length + 1 = ((b :: t).takeWhile isWordc).length → r' ≤ r'') := by
        rintro r' hr1 hr2 r'' w q' rfl hf
        have hone : (∀ x ∈ b :: w, isWordc x = true) → w.length + 1 ≤ ((b :: (w ++ q')).takeWhile isWordc).length := by
          intro hall
          exact word_bound (q := q') hall
        rcases fires_head hf with ⟨_, hh⟩ | ⟨_, hh⟩ | ⟨g1, g2, _⟩ | ⟨_, _, hh⟩ | ⟨_, hh⟩ | ⟨_, hh⟩ | ⟨_, hh⟩ | ⟨_, hh⟩ | ⟨_, hh⟩ | ⟨rfl, _⟩ | ⟨_, hh⟩ | ⟨rfl, rfl⟩
        · exact absurd hh f5
        · simp [f1] at hh
        · rcases firesWord hf g1 g2 with ⟨i, k, rfl, k1, k2⟩ | ⟨x', y', z', rfl, e2, k1, k2, k3, k4⟩ | ⟨x', y', z', rfl, e2, k1, k2, k3, k4⟩
          · refine ⟨hone (hkw _ _ _ k1 k2), fun e => hr1 i k k1 ?_⟩
            have : (b :: w) = (b :: (w ++ q')).takeWhile isWordc := by
              have e1 := take_tw isWordc (b :: (w ++ q'))
              rw [← e] at e1
              rw [← e1, ← List.cons_append, List.take_left' (by simp)]
            rw [← this]; exact k2
          · have e3 : b :: (w ++ q') = x' ++ (y' ++ (z' ++ q')) := by rw [← List.cons_append, e2]; simp
            rw [e3, twoWords_of k1 k2 k3 k4 hcr] at h1
            cases h1
          · have e3 : b :: (w ++ q') = x' ++ (y' ++ (z' ++ q')) := by rw [← List.cons_append, e2]; simp
            rw [e3, twoWords_of k1 k2 k3 k4 hcv] at h2
            cases h2
        · simp [f3, f4] at hh
        · simp [f2] at hh
        · exact absurd hh f6
        · exact absurd hh f5
        · simp [f2] at hh
        · exact absurd hh f7
        · exact ⟨hone (fires183 hf), fun _ => hr2⟩
        · exact absurd hh f8
        · exact ⟨hWpos, fun _ => by omega⟩
      cases h3 : kwIndex ((b :: t).takeWhile isWordc) with
      | some i =>
        simp only []
        obtain ⟨k, k1, k2⟩ := kwIndex_some h3
        have hi : i < keywords.length := by
          rcases Nat.lt_or_ge i keywords.length with h' | h'
          · exact h'
          · rw [List.getElem?_eq_none h'] at k1; cases k1
        rw [kw_len] at hi
        refine best_of (by simpa using tw_le isWordc (b :: t)) ?_ (hother _ ?_ (by omega))
        · rw [take_tw]; exact .kw k1 k2
        · intro j k' k1' k2'
          have := kwIndex_of k1' k2'
          rw [h3] at this; cases this; exact Nat.le_refl _
      | none =>
        simp only []
        refine best_of (by simpa using tw_le isWordc (b :: t)) ?_ (hother _ ?_ (by omega))
        · rw [take_tw]
          have : (b :: t).takeWhile isWordc = b :: t.takeWhile isWordc := by simp [wordc_of_letter h]
          rw [this]; exact .word h (takeWhile_all _ _)
        · intro j k' k1' k2'
          have := kwIndex_of k1' k2'
          rw [h3] at this; cases this


theorem best_number {b : Nat} {t : Bytes} (h : isDigit b = true) :
    Best (b :: t) (handNumber (b :: t)).1 (handNumber (b :: t)).2 := by
  obtain ⟨f1, f2, f3, f4, f5, f6, f7, f8, f9⟩ := digit_facts h
  have hs := takeWhile_split isDigit (b :: t)
  have hpos : 1 ≤ ((b :: t).takeWhile isDigit).length := by simp [h]
  have hall := takeWhile_all isDigit (b :: t)
  have hle := tw_le isDigit (b :: t)
  unfold handNumber
  generalize hd : (b :: t).takeWhile isDigit = d at *
  simp only []
  have hdne : d ≠ [] := by
    intro e; rw [e] at hpos; simp at hpos
  -- a float match starts with exactly the digits
  have hfl : ∀ (w q u v : Bytes), t = w ++ q → b :: w = u ++ 46 :: v → (∀ x ∈ u, isDigit x = true) → u = d ∧
      (b :: t).drop d.length = 46 :: (v ++ q) := by
    rintro w q u v rfl e hu
    have e2 : b :: (w ++ q) = u ++ 46 :: (v ++ q) := by rw [← List.cons_append, e]; simp
    have : (u ++ 46 :: (v ++ q)).takeWhile isDigit = u := takeWhile_stop hu (by simp; decide)
    rw [← e2, hd] at this
    subst this
    refine ⟨rfl, ?_⟩
    rw [e2]; simp
  split
  · rename_i r hr
    rw [hr] at hs
    have hs1 : b :: t = (d ++ 46 :: r.takeWhile isDigit) ++ r.drop (r.takeWhile isDigit).length := by
      rw [List.append_assoc, List.cons_append, ← (takeWhile_split isDigit r).1]; exact hs.1
    refine best_of ?_ ?_ ?_
    · have := congrArg List.length hs1; simp at this; omega
    · rw [hs1, List.take_left' (by simp; omega)]
      exact .float hdne hall (takeWhile_all _ _)
    · rintro r' w q rfl hf
      rcases fires_head hf with ⟨_, hh⟩ | ⟨_, hh⟩ | ⟨g1, g2, hh⟩ | ⟨_, _, hh⟩ | ⟨rfl, _⟩ | ⟨_, hh⟩ | ⟨_, hh⟩ | ⟨rfl, _⟩ | ⟨_, hh⟩ | ⟨_, hh⟩ | ⟨_, hh⟩ | ⟨rfl, rfl⟩
      · exact absurd hh f5
      · simp [f1] at hh
      · simp [f2] at hh
      · simp [f3, f4] at hh
      · obtain ⟨u, v, e, k1, k2⟩ := fires178 hf
        obtain ⟨rfl, k3⟩ := hfl w q u v rfl e k1
        rw [hr] at k3
        simp only [List.cons.injEq, true_and] at k3
        subst k3
        have := takeWhile_le (b := q) k2
        have e := congrArg List.length e
        simp at e
        constructor
        · omega
        · omega
      · exact absurd hh f6
      · exact absurd hh f5
      · have := takeWhile_le (b := q) (fires181 hf)
        rw [List.cons_append, hd] at this
        simp at this; omega
      · exact absurd hh f7
      · simp [f2] at hh
      · exact absurd hh f8
      · simp; omega
  · rename_i hr
    refine best_of (by simpa using hle) ?_ ?_
    · have := take_tw isDigit (b :: t)
      rw [hd] at this
      rw [this]
      exact .int hdne hall
    · rintro r' w q rfl hf
      rcases fires_head hf with ⟨_, hh⟩ | ⟨_, hh⟩ | ⟨g1, g2, hh⟩ | ⟨_, _, hh⟩ | ⟨rfl, _⟩ | ⟨_, hh⟩ | ⟨_, hh⟩ | ⟨rfl, _⟩ | ⟨_, hh⟩ | ⟨_, hh⟩ | ⟨_, hh⟩ | ⟨rfl, rfl⟩
      · exact absurd hh f5
      · simp [f1] at hh
      · simp [f2] at hh
      · simp [f3, f4] at hh
      · obtain ⟨u, v, e, k1, k2⟩ := fires178 hf
        obtain ⟨rfl, k3⟩ := hfl w q u v rfl e k1
        exact absurd k3 (hr _)
      · exact absurd hh f6
      · exact absurd hh f5
      · have := takeWhile_le (b := q) (fires181 hf)
        rw [List.cons_append, hd] at this
        simp at this; omega
      · exact absurd hh f7
      · simp [f2] at hh
      · exact absurd hh f8
      · simp; omega

theorem best_dot {t : Bytes} :
    Best (46 :: t) (if (t.takeWhile isDigit).length = 0 then (177, 1) else (179, 1 + (t.takeWhile isDigit).length) : Nat × Nat).1
     (if (t.takeWhile isDigit).length = 0 then (177, 1) else (179, 1 + (t.takeWhile isDigit).length) : Nat × Nat).2 := by
  have hle := tw_le isDigit t
  have key : ∀ r' w q, t = w ++ q → Fires r' (46 :: w) → (r' = 177 ∧ w = []) ∨ (r' = 179 ∧ w.length ≤ (t.takeWhile isDigit).length) ∨ (r' = 188 ∧ w = []) := by
    rintro r' w q rfl hf
    rcases fires_head hf with ⟨_, hh⟩ | ⟨_, hh⟩ | ⟨g1, g2, hh⟩ | ⟨g1, g2, _⟩ | ⟨_, hh⟩ | ⟨rfl, _⟩ | ⟨_, hh⟩ | ⟨_, hh⟩ | ⟨_, hh⟩ | ⟨_, hh⟩ | ⟨_, hh⟩ | ⟨rfl, rfl⟩
    · cases hh
    · cases hh
    · cases hh
    · rcases firesOp hf (by omega) with hh | ⟨rfl, b, e, _⟩
      · simp at hh
      · simp at e; simp [e]
    · cases hh
    · obtain ⟨v, e, k1⟩ := fires179 hf
      cases e
      right; left; exact ⟨rfl, takeWhile_le (b := q) k1⟩
    · cases hh
    · cases hh
    · cases hh
    · cases hh
    · cases hh
    · simp
  split
  · rename_i h0
    refine best_of (by simp) (.self (by decide)) ?_
    intro r' w q e hf
    rcases key r' w q e hf with ⟨rfl, rfl⟩ | ⟨rfl, h⟩ | ⟨rfl, rfl⟩
    · simp
    · rw [h0] at h; exact ⟨by omega, fun _ => by decide⟩
    · simp
  · rename_i h0
    refine best_of (by simp; omega) ?_ ?_
    · have := take_tw isDigit t
      have e : (46 :: t).take (1 + (t.takeWhile isDigit).length) = 46 :: t.takeWhile isDigit := by
        rw [Nat.add_comm, List.take_succ_cons, this]
      simp only []
      rw [e]; exact .dotFloat (takeWhile_all _ _)
    · intro r' w q e hf
      rcases key r' w q e hf with ⟨rfl, rfl⟩ | ⟨rfl, h⟩ | ⟨rfl, rfl⟩
      · refine ⟨by simp, fun e => ?_⟩
        simp only [List.length_nil] at e; omega
      · exact ⟨by omega, fun _ => by simp⟩
      · exact ⟨by simp, fun _ => by simp⟩

theorem best_quoted {t : Bytes} : Best (34 :: t) (handQuoted t).1 (handQuoted t).2 := by
  unfold handQuoted
  generalize hd : t.takeWhile (fun c => c != 34 && c != 10) = d
  have hs := takeWhile_split (fun c => c != 34 && c != 10) t
  have hall := takeWhile_all (fun c => c != 34 && c != 10) t
  rw [hd] at hs hall
  have key : ∀ r' w q, t = w ++ q → Fires r' (34 :: w) → (r' = 182 ∧ w.length = d.length + 1 ∧ d ≠ [] ∧ (t.drop d.length).head? = some 34) ∨ (r' = 188 ∧ w = []) := by
    rintro r' w q rfl hf
    rcases fires_head hf with ⟨_, hh⟩ | ⟨_, hh⟩ | ⟨g1, g2, hh⟩ | ⟨g1, g2, hh⟩ | ⟨_, hh⟩ | ⟨_, hh⟩ | ⟨_, hh⟩ | ⟨_, hh⟩ | ⟨rfl, _⟩ | ⟨_, hh⟩ | ⟨_, hh⟩ | ⟨rfl, rfl⟩
    · cases hh
    · cases hh
    · cases hh
    · rcases hh with hh | hh <;> cases hh
    · cases hh
    · cases hh
    · cases hh
    · cases hh
    · obtain ⟨u, e, k1, k2⟩ := fires182 hf
      simp only [List.cons_append, List.cons.injEq, true_and] at e
      subst e
      have : (u ++ ([34] ++ q)).takeWhile (fun c => c != 34 && c != 10) = u :=
        takeWhile_stop (by intro x hx; simpa using k2 x hx) (by simp)
      rw [← List.append_assoc, hd] at this
      subst this
      left; refine ⟨rfl, by simp, k1, ?_⟩
      rw [List.append_assoc, List.drop_left]; rfl
    · cases hh
    · cases hh
    · simp
  simp only []
  split
  · rename_i h0
    obtain ⟨h0, h1⟩ := h0
    obtain ⟨q, hq⟩ : ∃ q, t.drop d.length = 34 :: q := by
      cases hx : t.drop d.length with
      | nil => rw [hx] at h1; simp at h1
      | cons y q => rw [hx] at h1; simp at h1; subst h1; exact ⟨q, rfl⟩
    have e : t = d ++ 34 :: q := by rw [← hq]; exact hs.1
    refine best_of ?_ ?_ ?_
    · rw [e]; simp
    · have e2 : 34 :: t = (34 :: d ++ [34]) ++ q := by rw [e]; simp
      rw [e2, List.take_left' (by simp)]
      refine .quoted h0 ?_
      intro x hx; simpa using hall x hx
    · intro r' w q e hf
      rcases key r' w q e hf with ⟨rfl, h, _⟩ | ⟨rfl, rfl⟩
      · simp; omega
      · simp
  · rename_i h0
    refine best_of (by simp) (.any (by decide)) ?_
    intro r' w q e hf
    rcases key r' w q e hf with ⟨rfl, h, h1, h2⟩ | ⟨rfl, rfl⟩
    · exact absurd ⟨h1, h2⟩ h0
    · simp

theorem best_squote {t : Bytes} : Best (39 :: t) 184 1 := by
  refine best_of (by simp) .squote ?_
  rintro r' w q rfl hf
  rcases fires_head hf with ⟨_, hh⟩ | ⟨_, hh⟩ | ⟨g1, g2, hh⟩ | ⟨g1, g2, hh⟩ | ⟨_, hh⟩ | ⟨_, hh⟩ | ⟨_, hh⟩ | ⟨_, hh⟩ | ⟨_, hh⟩ | ⟨_, hh⟩ | ⟨rfl, _⟩ | ⟨rfl, rfl⟩
  any_goals cases hh
  · rename_i hh; cases hh
  · rename_i hh; cases hh
  · have := fires184 hf; simp at this; simp [this]
  · simp

theorem best_op {b : Nat} {t : Bytes} (h1 : isBlank b = false) (h2 : isLetter b = false) (h3 : isDigit b = false)
    (h4 : b ≠ 46) (h5 : b ≠ 34) (h6 : b ≠ 39) : Best (b :: t) (handOp (b :: t)).1 (handOp (b :: t)).2 := by
  have hb10 : b ≠ 10 := by rintro rfl; cases h1
  have key : ∀ r' w q, t = w ++ q → Fires r' (b :: w) →
      (r', b :: w) ∈ [(1, b!"--"), (171, b!"=="), (172, b!"!="), (173, b!"<>"), (174, b!"<="), (175, b!">="), (176, b!"||"),
      (180, b!"-9223372036854775808")] ∨ (r' = 177 ∧ w = [] ∧ isSelf b = true) ∨ (r' = 188 ∧ w = []) := by
    rintro r' w q rfl hf
    rcases fires_head hf with ⟨g, _⟩ | ⟨_, hh⟩ | ⟨g1, g2, hh⟩ | ⟨g1, g2, _⟩ | ⟨_, hh⟩ | ⟨_, hh⟩ | ⟨g, _⟩ | ⟨_, hh⟩ | ⟨_, hh⟩ | ⟨_, hh⟩ | ⟨_, hh⟩ | ⟨rfl, rfl⟩
    · rcases firesOp hf (by omega) with h | ⟨h, c, e, hc⟩
      · exact .inl h
      · simp at e; obtain ⟨rfl, rfl⟩ := e; exact .inr (.inl ⟨h, rfl, hc⟩)
    · simp [h1] at hh
    · simp [h2] at hh
    · rcases firesOp hf (by omega) with h | ⟨h, c, e, hc⟩
      · exact .inl h
      · simp at e; obtain ⟨rfl, rfl⟩ := e; exact .inr (.inl ⟨h, rfl, hc⟩)
    · simp [h3] at hh
    · exact absurd hh h4
    · rcases firesOp hf (by omega) with h | ⟨h, c, e, hc⟩
      · exact .inl h
      · simp at e; obtain ⟨rfl, rfl⟩ := e; exact .inr (.inl ⟨h, rfl, hc⟩)
    · simp [h3] at hh
    · exact absurd hh h5
    · simp [h2] at hh
    · exact absurd hh h6
    · simp
  have pre : ∀ (w q : Bytes) (n : Nat) (l : Bytes), b :: (w ++ q) = b :: t → b :: w = l → l.length = n → (b :: t).take n = l := by
    intro w q n l e1 e2 e3
    rw [← e1, ← List.cons_append, e2, List.take_left' e3]
  have len : ∀ (n : Nat) (l : Bytes), (b :: t).take n = l → l.length = n → n ≤ t.length + 1 := by
    intro n l e1 e2
    have := congrArg List.length e1
    simp at this; omega
  have case2 : ∀ (r n : Nat) (l : Bytes), (b :: t).take n = l → l.length = n → Fires r l →
      (∀ r' l', (r', l') ∈ [(1, b!"--"), (171, b!"=="), (172, b!"!="), (173, b!"<>"), (174, b!"<="), (175, b!">="), (176, b!"||"),
      (180, b!"-9223372036854775808")] → (b :: t).take l'.length = l' → l'.length ≤ n ∧ (l'.length = n → r ≤ r')) → 
      2 ≤ n → Best (b :: t) r n := by
    intro r n l e1 e2 f hcomp hn
    refine best_of (len n l e1 e2) (by rw [e1]; exact f) ?_
    rintro r' w q rfl hf
    rcases key r' w q rfl hf with hh | ⟨rfl, rfl, _⟩ | ⟨rfl, rfl⟩
    · have := hcomp r' (b :: w) hh (by rw [← List.cons_append, List.take_left' rfl])
      simpa using this
    · simp; omega
    · simp; omega
  have t20 : ∀ {l l' : Bytes} {n n' : Nat}, (b :: t).take n = l → (b :: t).take n' = l' → n ≤ n' → l = l'.take n := by
    intro l l' n n' e1 e2 hn
    rw [← e2, List.take_take, Nat.min_eq_left hn, e1]
  unfold handOp
  have tac : ∀ {r n : Nat} {l : Bytes}, (b :: t).take n = l → l.length = n → Fires r l → n = 2 → l ≠ b!"-9" → (∀ r', (r', l) ∈ [(1, b!"--"), (171, b!"=="), (172, b!"!="), (173, b!"<>"), (174, b!"<="), (175, b!">="), (176, b!"||"),
      (180, b!"-9223372036854775808")] → r ≤ r') → Best (b :: t) r n := by
    intro r n l e1 e2 f hn hl hr
    refine case2 r n l e1 e2 f ?_ (by omega)
    intro r' l' hm ht
    subst hn
    have hm' := hm
    simp only [List.mem_cons, Prod.mk.injEq, List.not_mem_nil, or_false] at hm'
    by_cases hl' : l'.length = 2
    · rw [hl'] at ht
      have : l' = l := by rw [← ht, e1]
      subst this
      exact ⟨by omega, fun _ => hr r' hm⟩
    · rcases hm' with ⟨rfl, rfl⟩ | ⟨rfl, rfl⟩ | ⟨rfl, rfl⟩ | ⟨rfl, rfl⟩ | ⟨rfl, rfl⟩ | ⟨rfl, rfl⟩ | ⟨rfl, rfl⟩ | ⟨rfl, rfl⟩
      any_goals (exfalso; exact hl' rfl)
      exfalso
      exact hl (t20 e1 ht (by decide))
  by_cases c1 : (b :: t).take 2 = b!"--"
  · rw [if_pos c1]; exact tac c1 rfl .comment rfl (by decide) (by simp)
  rw [if_neg c1]
  by_cases c2 : (b :: t).take 20 = b!"-9223372036854775808"
  · rw [if_pos c2]
    refine case2 180 20 _ c2 rfl (.op (by decide)) ?_ (by omega)
    intro r' l' hm ht
    simp only [List.mem_cons, Prod.mk.injEq, List.not_mem_nil, or_false] at hm
    rcases hm with ⟨rfl, rfl⟩ | ⟨rfl, rfl⟩ | ⟨rfl, rfl⟩ | ⟨rfl, rfl⟩ | ⟨rfl, rfl⟩ | ⟨rfl, rfl⟩ | ⟨rfl, rfl⟩ | ⟨rfl, rfl⟩ <;> simp
  rw [if_neg c2]
  by_cases c3 : (b :: t).take 2 = b!"=="
  · rw [if_pos c3]; exact tac c3 rfl (.op (by decide)) rfl (by decide) (by simp)
  rw [if_neg c3]
  by_cases c4 : (b :: t).take 2 = b!"!="
  · rw [if_pos c4]; exact tac c4 rfl (.op (by decide)) rfl (by decide) (by simp)
  rw [if_neg c4]
  by_cases c5 : (b :: t).take 2 = b!"<>"
  · rw [if_pos c5]; exact tac c5 rfl (.op (by decide)) rfl (by decide) (by simp)
  rw [if_neg c5]
  by_cases c6 : (b :: t).take 2 = b!"<="
  · rw [if_pos c6]; exact tac c6 rfl (.op (by decide)) rfl (by decide) (by simp)
  rw [if_neg c6]
  by_cases c7 : (b :: t).take 2 = b!">="
  · rw [if_pos c7]; exact tac c7 rfl (.op (by decide)) rfl (by decide) (by simp)
  rw [if_neg c7]
  by_cases c8 : (b :: t).take 2 = b!"||"
  · rw [if_pos c8]; exact tac c8 rfl (.op (by decide)) rfl (by decide) (by simp)
  rw [if_neg c8]
  have nomulti : ∀ r' w q, t = w ++ q → Fires r' (b :: w) → (r' = 177 ∧ w = [] ∧ isSelf b = true) ∨ (r' = 188 ∧ w = []) := by
    rintro r' w q rfl hf
    rcases key r' w q rfl hf with hh | hh | hh
    · exfalso
      have ht : (b :: (w ++ q)).take (b :: w).length = b :: w := by rw [← List.cons_append, List.take_left' rfl]
      generalize b :: w = l at hh ht
      simp only [List.mem_cons, Prod.mk.injEq, List.not_mem_nil, or_false] at hh
      rcases hh with ⟨rfl, rfl⟩ | ⟨rfl, rfl⟩ | ⟨rfl, rfl⟩ | ⟨rfl, rfl⟩ | ⟨rfl, rfl⟩ | ⟨rfl, rfl⟩ | ⟨rfl, rfl⟩ | ⟨rfl, rfl⟩
      · exact c1 ht
      · exact c3 ht
      · exact c4 ht
      · exact c5 ht
      · exact c6 ht
      · exact c7 ht
      · exact c8 ht
      · exact c2 ht
    · exact .inl hh
    · exact .inr hh
  by_cases c9 : ((b :: t).take 1).all isSelf = true
  · rw [if_pos c9]
    have hself : isSelf b = true := by simpa using c9
    refine best_of (by simp) (.self hself) ?_
    intro r' w q e hf
    rcases nomulti r' w q e hf with ⟨rfl, rfl, _⟩ | ⟨rfl, rfl⟩ <;> simp
  · rw [if_neg c9]
    have hself : ¬ isSelf b = true := by simpa using c9
    refine best_of (by simp) (.any hb10) ?_
    intro r' w q e hf
    rcases nomulti r' w q e hf with ⟨rfl, rfl, h⟩ | ⟨rfl, rfl⟩
    · exact absurd h hself
    · simp

theorem best_hand {text : Bytes} (h : text ≠ []) : Best text (handInitial text).1 (handInitial text).2 := by
  cases text with
  | nil => exact absurd rfl h
  | cons b t =>
    unfold handInitial
    by_cases c1 : isBlank b = true
    · simp only [c1, if_true]; exact best_blank c1
    simp only [c1]
    by_cases c2 : isLetter b = true
    · simp only [c2, if_true]; exact best_word c2
    simp only [c2]
    by_cases c3 : isDigit b = true
    · simp only [c3, if_true]; exact best_number c3
    simp only [c3]
    by_cases c4 : b = 46
    · subst c4; simp only [if_true]; exact best_dot
    simp only [c4, if_false]
    by_cases c5 : b = 34
    · subst c5; simp only [if_true]; exact best_quoted
    simp only [c5, if_false]
    by_cases c6 : b = 39
    · subst c6; simp only [if_true]; exact best_squote
    simp only [c6, if_false]
    exact best_op (by simpa using c1) (by simpa using c2) (by simpa using c3) c4 c5 c6


/-! ## The three start conditions -/

theorem rm_initial {r : Nat} {w : Bytes} (hc : Clean w) : RuleMatches .initial r w ↔ Fires r w := by
  constructor
  · rintro ⟨rule, h1, h2, h3, h4⟩
    exact fires_of_matches hc h1 h2 (by simpa [LexRule.active] using h3) h4
  · intro h
    obtain ⟨rule, h1, h2, h3, h4⟩ := matches_of_fires hc h
    exact ⟨rule, h1, h2, by simp [LexRule.active, h3], h4⟩

theorem rm_comment {r : Nat} {w : Bytes} (hc : Clean w) : RuleMatches .comment r w ↔
    (Fires r w ∨ (r = 2 ∧ ∀ x ∈ w, x ≠ 10) ∨ (r = 3 ∧ w = [10])) := by
  constructor
  · rintro ⟨rule, h1, h2, h3, h4⟩
    have h3 : rule.sc = none ∨ rule.sc = some .comment := by simpa [LexRule.active] using h3
    rcases h3 with h3 | h3
    · exact .inl (fires_of_matches hc h1 h2 h3 h4)
    · right
      rcases rule_cases h1 h2 with ⟨i, rfl, hr⟩ | ⟨i, k, rfl, hk, rfl⟩ | ⟨i, rfl, hr⟩
      · rcases i with _ | _ | _ | _ | i
        · cases hr; cases h3
        · cases hr
          left; refine ⟨rfl, fun x hx => ?_⟩
          have := matches_many.1 h4 x hx
          rw [mem_notNewline (hc x hx).2] at this
          simp at this; exact this.2
        · cases hr
          obtain ⟨b, rfl, hb⟩ := matches_single.1 h4
          rw [mem_byte] at hb; subst hb; right; exact ⟨rfl, rfl⟩
        · cases hr; cases h3
        · cases hr
      · cases h3
      · exfalso
        have : ∀ (j : Nat) (rule : LexRule), rulesPost[j]? = some rule → rule.sc ≠ some .comment := by
          intro j rule hj
          have hm := List.mem_of_getElem? hj
          exact (by decide +kernel : ∀ r ∈ rulesPost, r.sc ≠ some SC.comment) rule hm
        exact this _ _ hr h3
  · rintro (h | ⟨rfl, h⟩ | ⟨rfl, rfl⟩)
    · obtain ⟨rule, h1, h2, h3, h4⟩ := matches_of_fires hc h
      exact ⟨rule, h1, h2, by simp [LexRule.active, h3], h4⟩
    · refine ⟨_, lexRules_pre (j := 1) rfl, by omega, rfl, matches_many.2 ?_⟩
      intro x hx
      have := hc x hx
      rw [mem_notNewline this.2]; have := h x hx; simp; omega
    · exact ⟨_, lexRules_pre (j := 2) rfl, by omega, rfl, matches_single.2 ⟨10, rfl, (mem_byte _ _).2 rfl⟩⟩

theorem rm_squote {r : Nat} {w : Bytes} (hc : Clean w) : RuleMatches .squote r w ↔
    ((r = 185 ∧ w = [39, 39]) ∨ (r = 186 ∧ ∀ x ∈ w, x ≠ 39) ∨ (r = 187 ∧ w = [39])) := by
  constructor
  · rintro ⟨rule, h1, h2, h3, h4⟩
    have h3 : rule.sc = some .squote := by simpa [LexRule.active] using h3
    rcases rule_cases h1 h2 with ⟨i, rfl, hr⟩ | ⟨i, k, rfl, hk, rfl⟩ | ⟨i, rfl, hr⟩
    · exfalso
      have : ∀ (j : Nat) (rule : LexRule), rulesPre[j]? = some rule → rule.sc ≠ some .squote := by
        intro j rule hj
        have hm := List.mem_of_getElem? hj
        exact (by decide +kernel : ∀ r ∈ rulesPre, r.sc ≠ some SC.squote) rule hm
      exact this _ _ hr h3
    · cases h3
    · rcases i with _ | _ | _ | _ | _ | _ | _ | _ | _ | _ | _ | _ | _ | _ | _ | _ | _ | _ | _ | _ | i
      case succ.succ.succ.succ.succ.succ.succ.succ.succ.succ.succ.succ.succ.succ.succ.succ.zero =>
        cases hr
        obtain ⟨b, w', rfl, h5, h6⟩ := matches_one_iff.1 h4
        obtain ⟨c, rfl, h7⟩ := matches_single.1 h6
        rw [mem_byte] at h5 h7
        subst h5 h7; left; exact ⟨rfl, rfl⟩
      case succ.succ.succ.succ.succ.succ.succ.succ.succ.succ.succ.succ.succ.succ.succ.succ.succ.zero =>
        cases hr
        right; left; refine ⟨rfl, fun x hx => ?_⟩
        have := matches_many.1 h4 x hx
        rw [mem_notQuote (hc x hx).2] at this
        simp at this; exact this.2
      case succ.succ.succ.succ.succ.succ.succ.succ.succ.succ.succ.succ.succ.succ.succ.succ.succ.succ.zero =>
        cases hr
        obtain ⟨b, rfl, hb⟩ := matches_single.1 h4
        rw [mem_byte] at hb; subst hb; right; right; exact ⟨rfl, rfl⟩
      all_goals first | (cases hr; cases h3; done) | (simp [rulesPost] at hr; done)
  · rintro (⟨rfl, rfl⟩ | ⟨rfl, h⟩ | ⟨rfl, rfl⟩)
    · exact ⟨_, lexRules_post (j := 16) rfl, by omega, rfl, matches_one_iff.2 ⟨39, [39], rfl, (mem_byte _ _).2 rfl, matches_single.2 ⟨39, rfl, (mem_byte _ _).2 rfl⟩⟩⟩
    · refine ⟨_, lexRules_post (j := 17) rfl, by omega, rfl, matches_many.2 ?_⟩
      intro x hx
      have := hc x hx
      rw [mem_notQuote this.2]; have := h x hx; simp; omega
    · exact ⟨_, lexRules_post (j := 18) rfl, by omega, rfl, matches_single.2 ⟨39, rfl, (mem_byte _ _).2 rfl⟩⟩

theorem Clean.take {t : Bytes} (h : Clean t) (n : Nat) : Clean (t.take n) := fun b hb => h b (List.mem_of_mem_take hb)

theorem longest_initial {t : Bytes} (hc : Clean t) (hne : t ≠ []) : LongestMatch .initial t (handInitial t).1 (handInitial t).2 := by
  have hb := best_hand hne
  refine ⟨hb.le, (rm_initial (hc.take _)).2 hb.fires, ?_, ?_⟩
  · intro r' n' hn hm
    have := (hb.best r' _ _ (List.take_append_drop n' t).symm ((rm_initial (hc.take _)).1 hm)).1
    simp at this; omega
  · intro r' hm
    have := (hb.best r' _ _ (List.take_append_drop _ t).symm ((rm_initial (hc.take _)).1 hm)).2
    apply this
    have := hb.le
    simp; omega

theorem fires_ne_23 {r : Nat} {w : Bytes} (h : Fires r w) : r ≠ 2 ∧ r ≠ 3 ∧ 1 ≤ r := by
  have hne := fires_ne h
  cases w with
  | nil => exact absurd rfl hne
  | cons b w =>
    rcases fires_head h with h | h | h | h | h | h | h | h | h | h | h | h <;> omega

theorem longest_comment {t : Bytes} (hc : Clean t) (hne : t ≠ []) : LongestMatch .comment t (handComment t).1 (handComment t).2 := by
  have hb := best_hand hne
  have hbf := fires_ne_23 hb.fires
  generalize hk : t.takeWhile (fun c => c != 10) = d
  have hs := takeWhile_split (fun c => c != 10) t
  have hall := takeWhile_all (fun c => c != 10) t
  have hkt := take_tw (fun c => c != 10) t
  have hkl := tw_le (fun c => c != 10) t
  rw [hk] at hs hall hkt hkl
  have hlines : ∀ n', n' ≤ t.length → (∀ x ∈ t.take n', x ≠ 10) → n' ≤ d.length := by
    intro n' hn h
    have := takeWhile_le (p := fun c => c != 10) (b := t.drop n') (a := t.take n') (by intro x hx; simpa using h x hx)
    rw [List.take_append_drop, hk] at this
    simp at this; omega
  have hfires : ∀ r' n', n' ≤ t.length → Fires r' (t.take n') → n' ≤ (handInitial t).2 ∧ (n' = (handInitial t).2 → (handInitial t).1 ≤ r') := by
    intro r' n' hn hf
    have := hb.best r' _ _ (List.take_append_drop n' t).symm hf
    simp only [List.length_take, Nat.min_eq_left hn] at this
    exact this
  have hnl : ∀ n', n' ≤ t.length → t.take n' = [10] → n' = 1 ∧ d.length = 0 := by
    intro n' hn e
    have e1 := congrArg List.length e
    simp at e1
    have : n' = 1 := by omega
    subst this
    refine ⟨rfl, ?_⟩
    cases t with
    | nil => exact absurd rfl hne
    | cons b t =>
      simp at e; subst e
      rw [← hk]; simp
  unfold handComment
  rw [hk]
  generalize handInitial t = rn at *
  obtain ⟨r, n⟩ := rn
  simp only [] at hb hbf hfires ⊢
  have hn1 : 1 ≤ n := by
    have := fires_ne hb.fires
    rcases n with _ | n
    · simp at this
    · omega
  by_cases c1 : d.length = 0
  · rw [if_pos c1]
    have hd : d = [] := List.eq_nil_of_length_eq_zero c1
    have h10 : t.head? = some 10 := by
      cases t with
      | nil => exact absurd rfl hne
      | cons b t =>
        have := hs.2 b
        rw [hd] at this; simp at this; simp [this]
    have h10' : t.take 1 = [10] := by
      cases t with
      | nil => simp at h10
      | cons b t => simp at h10; simp [h10]
    have hl1 : 1 ≤ t.length := by
      cases t with
      | nil => simp at h10
      | cons b t => simp
    by_cases c2 : n = 1
    · rw [if_pos c2]
      subst c2
      refine ⟨hl1, (rm_comment (hc.take _)).2 (.inr (.inr ⟨rfl, h10'⟩)), ?_, ?_⟩
      · intro r' n' hn hm
        rcases (rm_comment (hc.take _)).1 hm with h | ⟨_, h⟩ | ⟨_, h⟩
        · exact (hfires r' n' hn h).1
        · have := hlines n' hn h; omega
        · have := hnl n' hn h; omega
      · intro r' hm
        rcases (rm_comment (hc.take _)).1 hm with h | ⟨rfl, h⟩ | ⟨rfl, h⟩
        · simp only [] at h
          rw [h10'] at h
          rcases fires_head h with h | h | h | h | h | h | h | h | h | h | h | h
          · cases h.2
          all_goals (simp only []; omega)
        · simp only [] at h; rw [h10'] at h; simp at h
        · simp
    · rw [if_neg c2]
      refine ⟨hb.le, (rm_comment (hc.take _)).2 (.inl hb.fires), ?_, ?_⟩
      · intro r' n' hn hm
        rcases (rm_comment (hc.take _)).1 hm with h | ⟨_, h⟩ | ⟨_, h⟩
        · exact (hfires r' n' hn h).1
        · have := hlines n' hn h; omega
        · have := hnl n' hn h; omega
      · intro r' hm
        rcases (rm_comment (hc.take _)).1 hm with h | ⟨rfl, h⟩ | ⟨rfl, h⟩
        · exact (hfires r' n hb.le h).2 rfl
        · have := hlines n hb.le h; omega
        · have := hnl n hb.le h; omega
  · rw [if_neg c1]
    by_cases c2 : d.length < n ∨ (n = d.length ∧ r = 1)
    · rw [if_pos c2]
      refine ⟨hb.le, (rm_comment (hc.take _)).2 (.inl hb.fires), ?_, ?_⟩
      · intro r' n' hn hm
        rcases (rm_comment (hc.take _)).1 hm with h | ⟨_, h⟩ | ⟨_, h⟩
        · exact (hfires r' n' hn h).1
        · have := hlines n' hn h; omega
        · have := hnl n' hn h; omega
      · intro r' hm
        rcases (rm_comment (hc.take _)).1 hm with h | ⟨rfl, h⟩ | ⟨rfl, h⟩
        · exact (hfires r' n hb.le h).2 rfl
        · have := hlines n hb.le h
          rcases c2 with c2 | c2
          · omega
          · simp [c2.2]
        · have := hnl n hb.le h; omega
    · rw [if_neg c2]
      refine ⟨hkl, (rm_comment (hc.take _)).2 (.inr (.inl ⟨rfl, ?_⟩)), ?_, ?_⟩
      · rw [hkt]; intro x hx; simpa using hall x hx
      · intro r' n' hn hm
        rcases (rm_comment (hc.take _)).1 hm with h | ⟨_, h⟩ | ⟨_, h⟩
        · have := (hfires r' n' hn h).1
          have : n ≤ d.length := by
            rcases Nat.lt_or_ge d.length n with h | h
            · exact absurd (.inl h) c2
            · exact h
          simp only []; omega
        · exact hlines n' hn h
        · have := hnl n' hn h; omega
      · intro r' hm
        rcases (rm_comment (hc.take _)).1 hm with h | ⟨rfl, h⟩ | ⟨rfl, h⟩
        · have h1 := fires_ne_23 h
          have h2 := hfires r' d.length hkl h
          simp only []
          by_cases e : r' = 1
          · exfalso
            apply c2
            right
            have hnd : n = d.length := by
              have := h2.1
              rcases Nat.lt_or_ge d.length n with h | h
              · exact absurd (.inl h) c2
              · omega
            have := h2.2 hnd.symm
            exact ⟨hnd, by omega⟩
          · omega
        · simp
        · have := hnl d.length hkl h; omega

theorem longest_squote {t : Bytes} (hc : Clean t) (hne : t ≠ []) : LongestMatch .squote t (handSquote t).1 (handSquote t).2 := by
  unfold handSquote
  split
  · rename_i t
    refine ⟨by simp, (rm_squote (hc.take _)).2 (.inl ⟨rfl, rfl⟩), ?_, ?_⟩
    · intro r' n' hn hm
      rcases (rm_squote (hc.take _)).1 hm with ⟨rfl, h⟩ | ⟨rfl, h⟩ | ⟨rfl, h⟩
      · have := congrArg List.length h; rw [List.length_take, Nat.min_eq_left hn] at this; simp at this; simp [this]
      · rcases n' with _ | n'
        · simp
        · exact absurd rfl (h 39 (by simp))
      · have := congrArg List.length h; rw [List.length_take, Nat.min_eq_left hn] at this; simp at this; simp [this]
    · intro r' hm
      rcases (rm_squote (hc.take _)).1 hm with ⟨rfl, h⟩ | ⟨rfl, h⟩ | ⟨rfl, h⟩ <;> simp
  · rename_i t hnot
    refine ⟨by simp, (rm_squote (hc.take _)).2 (.inr (.inr ⟨rfl, rfl⟩)), ?_, ?_⟩
    · intro r' n' hn hm
      rcases (rm_squote (hc.take _)).1 hm with ⟨rfl, h⟩ | ⟨rfl, h⟩ | ⟨rfl, h⟩
      · exfalso
        rcases n' with _ | _ | n'
        · simp at h
        · simp at h
        · cases t with
          | nil => simp at h
          | cons c t =>
            simp at h; exact hnot t (by rw [h.1])
      · rcases n' with _ | n'
        · simp
        · exact absurd rfl (h 39 (by simp))
      · have := congrArg List.length h; rw [List.length_take, Nat.min_eq_left hn] at this; simp at this; simp [this]
    · intro r' hm
      rcases (rm_squote (hc.take _)).1 hm with ⟨rfl, h⟩ | ⟨rfl, h⟩ | ⟨rfl, h⟩
      · simp at h
      · exact absurd rfl (h 39 (by simp))
      · simp
  · rename_i h1 h2
    have hkt := take_tw (fun c => c != 39) t
    have hkl := tw_le (fun c => c != 39) t
    have hall := takeWhile_all (fun c => c != 39) t
    have hpos : ∃ b t', t = b :: t' ∧ b ≠ 39 := by
      cases t with
      | nil => exact absurd rfl hne
      | cons b t' => exact ⟨b, t', rfl, fun e => h2 t' (by rw [e])⟩
    refine ⟨hkl, (rm_squote (hc.take _)).2 (.inr (.inl ⟨rfl, ?_⟩)), ?_, ?_⟩
    · simp only []; rw [hkt]; intro x hx; simpa using hall x hx
    · intro r' n' hn hm
      obtain ⟨b, t', rfl, hb⟩ := hpos
      rcases (rm_squote (hc.take _)).1 hm with ⟨rfl, h⟩ | ⟨rfl, h⟩ | ⟨rfl, h⟩
      · exfalso; rcases n' with _ | n'
        · simp at h
        · simp at h; exact hb h.1
      · have := takeWhile_le (p := fun c => c != 39) (b := (b :: t').drop n') (a := (b :: t').take n') (by intro x hx; simpa using h x hx)
        rw [List.take_append_drop] at this
        simp only [List.length_take, Nat.min_eq_left hn] at this
        exact this
      · exfalso; rcases n' with _ | n'
        · simp at h
        · simp at h; exact hb h.1
    · intro r' hm
      obtain ⟨b, t', rfl, hb⟩ := hpos
      have e : (b :: t').takeWhile (fun c => c != 39) = b :: t'.takeWhile (fun c => c != 39) := by simp [hb]
      rcases (rm_squote (hc.take _)).1 hm with ⟨rfl, h⟩ | ⟨rfl, h⟩ | ⟨rfl, h⟩
      · simp only [] at h; rw [hkt, e] at h; simp at h; exact absurd h.1 hb
      · simp
      · simp

theorem longest_hand (sc : SC) {t : Bytes} (hc : Clean t) (hne : t ≠ []) : LongestMatch sc t (handStep sc t).1 (handStep sc t).2 := by
  cases sc
  · exact longest_initial hc hne
  · exact longest_squote hc hne
  · exact longest_comment hc hne

/-- The table-driven scanner is the readable scanner. -/
theorem scan_eq_hand (sc : SC) {t : Bytes} (hc : Clean t) (hne : t ≠ []) :
    scan sc t = some (.rule (handStep sc t).1 (handStep sc t).2) :=
  scan_of_longest hc hne (longest_hand sc hc hne)

theorem hand_pos (sc : SC) {t : Bytes} (hc : Clean t) (hne : t ≠ []) :
    0 < (handStep sc t).2 ∧ (handStep sc t).2 ≤ t.length := by
  obtain ⟨r, n, h1, h2, _, h4⟩ := scan_spec sc t hc hne
  obtain ⟨rfl, rfl⟩ := longestMatch_unique h4 (longest_hand sc hc hne)
  exact ⟨h2, h4.le⟩

end Verif.Lex

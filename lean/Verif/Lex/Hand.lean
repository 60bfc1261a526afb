import Verif.Lex.Fast
/-!
# A readable scanner

`handStep` says, by looking at the first byte of the text, which rule fires and how long the matched
text is.  It models no code: it is a reading aid and proof device.  `scan_eq_hand` proves that the
table-driven scanner of `Verif.Lex.Scan` does exactly this on every text.
-/
namespace Verif.Lex

/-! ## Byte classes -/
def isBlank (b : Nat) : Bool := b == 32 || b == 9 || b == 10
def isDigit (b : Nat) : Bool := 48 ≤ b && b ≤ 57
def isLetter (b : Nat) : Bool := (65 ≤ b && b ≤ 90) || (97 ≤ b && b ≤ 122)
def isWordc (b : Nat) : Bool := isLetter b || isDigit b || b == 95
def isSelf (b : Nat) : Bool := selfChars.contains b

/-- ASCII upper case of a text. -/
def upper (w : Bytes) : Bytes := w.map upperB

/-- Position of a word in the keyword list, up to case. -/
def kwIndex (w : Bytes) : Option Nat := keywords.findIdx? (fun k => k.1 == upper w)

/-- Does `text` begin with `p`, up to case? -/
def startsCI (p text : Bytes) : Bool := upper (text.take p.length) == p

/-- Two-word keywords: `a`, blanks, `b` (up to case); the total length if present. -/
def twoWords (a b : Bytes) (text : Bytes) : Option Nat :=
  if startsCI a text then
    let after := text.drop a.length
    let bl := after.takeWhile isBlank
    if bl ≠ [] ∧ startsCI b (after.drop bl.length) then some (a.length + bl.length + b.length) else none
  else none

/-- Rule and length for a text starting with a letter. -/
def handWord (text : Bytes) : Nat × Nat :=
  match twoWords b!"CURRENT" b!"ROW" text, twoWords b!"CHARACTER" b!"VARYING" text with
  | some n, _ => (169, n)
  | none, some n => (170, n)
  | none, none =>
    let w := text.takeWhile isWordc
    match kwIndex w with
    | some i => (5 + i, w.length)
    | none => (183, w.length)

/-- Rule and length for a text starting with a digit. -/
def handNumber (text : Bytes) : Nat × Nat :=
  let d := text.takeWhile isDigit
  match text.drop d.length with
  | 46 :: r => (178, d.length + 1 + (r.takeWhile isDigit).length)
  | _ => (181, d.length)

/-- A quoted identifier; `rest` is the text after the opening quote. -/
def handQuoted (rest : Bytes) : Nat × Nat :=
  let q := rest.takeWhile (fun c => c != 34 && c != 10)
  if q ≠ [] ∧ (rest.drop q.length).head? = some 34 then (182, q.length + 2) else (188, 1)

/-- Rule and length for a text starting with an operator character or anything else. -/
def handOp (text : Bytes) : Nat × Nat :=
  if text.take 2 = b!"--" then (1, 2)
  else if text.take 20 = b!"-9223372036854775808" then (180, 20)
  else if text.take 2 = b!"==" then (171, 2)
  else if text.take 2 = b!"!=" then (172, 2)
  else if text.take 2 = b!"<>" then (173, 2)
  else if text.take 2 = b!"<=" then (174, 2)
  else if text.take 2 = b!">=" then (175, 2)
  else if text.take 2 = b!"||" then (176, 2)
  else if (text.take 1).all isSelf then (177, 1)
  else (188, 1)

/-- The scanner step in the `INITIAL` start condition: rule number and length. -/
def handInitial (text : Bytes) : Nat × Nat :=
  match text with
  | [] => (0, 0)
  | b :: rest =>
    if isBlank b then (4, (text.takeWhile isBlank).length)
    else if isLetter b then handWord text
    else if isDigit b then handNumber text
    else if b = 46 then
      (if (rest.takeWhile isDigit).length = 0 then (177, 1) else (179, 1 + (rest.takeWhile isDigit).length))
    else if b = 34 then handQuoted rest
    else if b = 39 then (184, 1)
    else handOp text

/-- The scanner step in the `COMMENT` start condition. -/
def handComment (text : Bytes) : Nat × Nat :=
  let k := (text.takeWhile (fun c => c != 10)).length
  let (r, n) := handInitial text
  if k = 0 then (if n = 1 then (3, 1) else (r, n))
  else if k < n ∨ (n = k ∧ r = 1) then (r, n) else (2, k)

/-- The scanner step inside a string literal. -/
def handSquote (text : Bytes) : Nat × Nat :=
  match text with
  | 39 :: 39 :: _ => (185, 2)
  | 39 :: _ => (187, 1)
  | _ => (186, (text.takeWhile (fun c => c != 39)).length)

def handStep : SC → Bytes → Nat × Nat
  | .initial, t => handInitial t
  | .comment, t => handComment t
  | .squote, t => handSquote t

/-! ## Classes -/

theorem mem_of_all {m : Nat} {p : Nat → Bool} (h : allN 256 (fun b => m.testBit b == p b) = true)
    {b : Nat} (hb : b ≤ 255) : CC.mem m b = p b := by
  have := allN_spec h b (by omega)
  exact eq_of_beq this

theorem mem_blank {b : Nat} (h : b ≤ 255) : CC.mem blank b = isBlank b :=
  mem_of_all (by decide +kernel) h
theorem mem_digit {b : Nat} (h : b ≤ 255) : CC.mem digit b = isDigit b :=
  mem_of_all (by decide +kernel) h
theorem mem_letter {b : Nat} (h : b ≤ 255) : CC.mem letter b = isLetter b :=
  mem_of_all (by decide +kernel) h
theorem mem_wordc {b : Nat} (h : b ≤ 255) : CC.mem wordc b = isWordc b :=
  mem_of_all (by decide +kernel) h
theorem mem_self {b : Nat} (h : b ≤ 255) : CC.mem selfc b = isSelf b :=
  mem_of_all (by decide +kernel) h
theorem mem_notNewline {b : Nat} (h : b ≤ 255) : CC.mem notNewline b = (b != 0 && b != 10) :=
  mem_of_all (p := fun b => b != 0 && b != 10) (by decide +kernel) h
theorem mem_notQuote {b : Nat} (h : b ≤ 255) : CC.mem (CC.compl (CC.byte 39)) b = (b != 0 && b != 39) :=
  mem_of_all (p := fun b => b != 0 && b != 39) (by decide +kernel) h
theorem mem_notDq {b : Nat} (h : b ≤ 255) :
    CC.mem (CC.compl (CC.union [CC.byte 34, CC.byte 10])) b = (b != 0 && (b != 34 && b != 10)) :=
  mem_of_all (p := fun b => b != 0 && (b != 34 && b != 10)) (by decide +kernel) h
theorem mem_byte (c b : Nat) : CC.mem (CC.byte c) b = true ↔ b = c := by
  unfold CC.mem CC.byte
  rw [Nat.testBit_shiftLeft]
  constructor
  · intro h
    simp only [Bool.and_eq_true, decide_eq_true_eq] at h
    have : b - c = 0 := by
      have h2 := h.2
      cases hb : b - c with
      | zero => rfl
      | succ k => rw [hb, Nat.testBit_succ] at h2; simp at h2
    omega
  · rintro rfl; simp
theorem mem_ci (c b : Nat) : CC.mem (CC.ci c) b = true ↔ upperB b = upperB c := by
  unfold CC.ci
  have : CC.mem (CC.byte (lowerB c) ||| CC.byte (upperB c)) b = true ↔ b = lowerB c ∨ b = upperB c := by
    rw [CC.mem, Nat.testBit_or, Bool.or_eq_true]
    exact or_congr (mem_byte _ _) (mem_byte _ _)
  rw [this]
  unfold lowerB upperB
  constructor
  · rintro (rfl | rfl) <;> (repeat' split) <;> omega
  · intro h; revert h; (repeat' split) <;> omega

/-! ## Patterns -/

theorem matches_nil_iff {w : Bytes} : Matches [] w ↔ w = [] := by
  constructor
  · intro h; cases h; rfl
  · rintro rfl; exact .nil

theorem matches_one_iff {c : CC} {p : Pat} {w : Bytes} :
    Matches (one c :: p) w ↔ ∃ b w', w = b :: w' ∧ c.mem b = true ∧ Matches p w' := by
  constructor
  · intro h
    cases h with
    | one _ h2 h3 => exact ⟨_, _, rfl, h2, h3⟩
    | skip h1 _ => cases h1
    | more h1 _ _ => cases h1
  · rintro ⟨b, w', rfl, h1, h2⟩; exact .one rfl h1 h2

theorem matches_many_iff {c : CC} {p : Pat} {w : Bytes} :
    Matches (many c :: p) w ↔ ∃ u v, w = u ++ v ∧ (∀ b ∈ u, c.mem b = true) ∧ Matches p v := by
  constructor
  · intro h
    generalize hq : many c :: p = q at h
    induction h with
    | nil => cases hq
    | one h1 => cases hq; cases h1
    | skip _ h2 => cases hq; exact ⟨[], _, rfl, by simp, h2⟩
    | more _ h2 _ ih =>
      cases hq
      obtain ⟨u, v, rfl, h4, h5⟩ := ih rfl
      refine ⟨_ :: u, v, rfl, ?_, h5⟩
      intro b hb
      rcases List.mem_cons.1 hb with rfl | hb
      · exact h2
      · exact h4 b hb
  · rintro ⟨u, v, rfl, h1, h2⟩
    induction u with
    | nil => exact .skip rfl h2
    | cons b u ih => exact .more rfl (h1 b (by simp)) (ih (fun b hb => h1 b (by simp [hb])))

theorem matches_lit_append {u : Bytes} {p : Pat} {w : Bytes} :
    Matches (lit u ++ p) w ↔ ∃ a v, w = a ++ v ∧ upper a = upper u ∧ Matches p v := by
  induction u generalizing w with
  | nil =>
    constructor
    · intro h; exact ⟨[], w, rfl, rfl, h⟩
    · rintro ⟨a, v, rfl, h, h2⟩
      have : a = [] := by simpa [upper] using h
      subst this; exact h2
  | cons x u ih =>
    show Matches (one (CC.ci x) :: (lit u ++ p)) w ↔ _
    rw [matches_one_iff]
    constructor
    · rintro ⟨b, w', rfl, h1, h2⟩
      obtain ⟨a, v, rfl, h3, h4⟩ := ih.1 h2
      refine ⟨b :: a, v, rfl, ?_, h4⟩
      simp only [upper, List.map_cons] at h3 ⊢
      rw [(mem_ci _ _).1 h1, h3]
    · rintro ⟨a, v, rfl, h3, h4⟩
      cases a with
      | nil => simp [upper] at h3
      | cons b a =>
        simp only [upper, List.map_cons, List.cons.injEq] at h3
        exact ⟨b, a ++ v, rfl, (mem_ci _ _).2 h3.1, ih.2 ⟨a, v, rfl, h3.2, h4⟩⟩

theorem matches_lit {u : Bytes} {w : Bytes} : Matches (lit u) w ↔ upper w = upper u := by
  have := matches_lit_append (u := u) (p := []) (w := w)
  rw [List.append_nil] at this
  rw [this]
  constructor
  · rintro ⟨a, v, rfl, h, h2⟩
    rw [matches_nil_iff] at h2; subst h2; simpa using h
  · intro h; exact ⟨w, [], by simp, h, .nil⟩

/-! ## What the rules match, spelled out -/

/-- `Fires r w`: rule `r` of the rules without start condition matches `w`. -/
inductive Fires : Nat → Bytes → Prop where
  | comment : Fires 1 b!"--"
  | blank {w} : w ≠ [] → (∀ b ∈ w, isBlank b = true) → Fires 4 w
  | kw {i k w} : keywords[i]? = some k → upper w = k.1 → Fires (5 + i) w
  | currentRow {a b c} : upper a = b!"CURRENT" → b ≠ [] → (∀ x ∈ b, isBlank x = true) → upper c = b!"ROW" →
      Fires 169 (a ++ b ++ c)
  | charVarying {a b c} : upper a = b!"CHARACTER" → b ≠ [] → (∀ x ∈ b, isBlank x = true) → upper c = b!"VARYING" →
      Fires 170 (a ++ b ++ c)
  | op {r u} : (r, u) ∈ [(171, b!"=="), (172, b!"!="), (173, b!"<>"), (174, b!"<="), (175, b!">="), (176, b!"||"),
      (180, b!"-9223372036854775808")] → Fires r u
  | self {b} : isSelf b = true → Fires 177 [b]
  | float {u v} : u ≠ [] → (∀ x ∈ u, isDigit x = true) → (∀ x ∈ v, isDigit x = true) → Fires 178 (u ++ 46 :: v)
  | dotFloat {v} : (∀ x ∈ v, isDigit x = true) → Fires 179 (46 :: v)
  | int {u} : u ≠ [] → (∀ x ∈ u, isDigit x = true) → Fires 181 u
  | quoted {u} : u ≠ [] → (∀ x ∈ u, x ≠ 34 ∧ x ≠ 10) → Fires 182 (34 :: u ++ [34])
  | word {b u} : isLetter b = true → (∀ x ∈ u, isWordc x = true) → Fires 183 (b :: u)
  | squote : Fires 184 [39]
  | any {b} : b ≠ 10 → Fires 188 [b]

theorem upper_kw : ∀ k ∈ keywords, upper k.1 = k.1 := by decide +kernel

theorem matches_plus {c : CC} {w : Bytes} :
    Matches [one c, many c] w ↔ w ≠ [] ∧ ∀ b ∈ w, c.mem b = true := by
  rw [matches_one_iff]
  constructor
  · rintro ⟨b, w', rfl, h1, h2⟩
    obtain ⟨u, v, rfl, h3, h4⟩ := matches_many_iff.1 h2
    rw [matches_nil_iff] at h4; subst h4
    refine ⟨by simp, ?_⟩
    intro x hx
    rcases List.mem_cons.1 hx with rfl | hx
    · exact h1
    · exact h3 x (by simpa using hx)
  · rintro ⟨h1, h2⟩
    cases w with
    | nil => simp at h1
    | cons b w => exact ⟨b, w, rfl, h2 b (by simp), matches_many_iff.2 ⟨w, [], by simp, fun x hx => h2 x (by simp [hx]), .nil⟩⟩

theorem matches_many {c : CC} {w : Bytes} : Matches [many c] w ↔ ∀ b ∈ w, c.mem b = true := by
  rw [matches_many_iff]
  constructor
  · rintro ⟨u, v, rfl, h1, h2⟩
    rw [matches_nil_iff] at h2; subst h2; simpa using h1
  · intro h; exact ⟨w, [], by simp, h, .nil⟩

theorem matches_single {c : CC} {w : Bytes} : Matches [one c] w ↔ ∃ b, w = [b] ∧ c.mem b = true := by
  rw [matches_one_iff]
  constructor
  · rintro ⟨b, w', rfl, h1, h2⟩; rw [matches_nil_iff] at h2; subst h2; exact ⟨b, rfl, h1⟩
  · rintro ⟨b, rfl, h⟩; exact ⟨b, [], rfl, h, .nil⟩

theorem upper_fix {u w : Bytes} (h : upper w = u) (hu : ∀ b ∈ u, ¬ isLetter b = true) : w = u := by
  subst h
  induction w with
  | nil => rfl
  | cons b w ih =>
    have h1 := hu (upperB b) (by simp [upper])
    have h2 := ih (fun x hx => hu x (by simp only [upper, List.map_cons] at hx ⊢; exact List.mem_cons_of_mem _ hx))
    have h3 : b = upperB b := by
      unfold upperB at *
      split at h1
      · rename_i hh
        exfalso; apply h1
        unfold isLetter
        simp; omega
      · rename_i hh; simp [hh]
    simp only [upper, List.map_cons] at h2 ⊢
    rw [← h2, ← h3]


theorem upper_lit_op {u w : Bytes} (h : Matches (lit u) w) (hu : ∀ b ∈ u, ¬ isLetter b = true) (hu2 : upper u = u) :
    w = u := upper_fix ((matches_lit.1 h).trans hu2) hu

theorem kw_len : keywords.length = 164 := by decide +kernel

theorem rule_cases {r : Nat} {rule : LexRule} (h : lexRules[r - 1]? = some rule) (h1 : 1 ≤ r) :
    (∃ i, r = i + 1 ∧ rulesPre[i]? = some rule) ∨
    (∃ i k, r = 5 + i ∧ keywords[i]? = some k ∧ rule = ⟨none, lit k.1⟩) ∨
    (∃ i, r = 169 + i ∧ rulesPost[i]? = some rule) := by
  have hl : (rulesPre ++ keywords.map (fun k => (⟨none, lit k.1⟩ : LexRule))).length = 168 := by
    simp [kw_len, rulesPre]
  unfold lexRules at h
  by_cases e : r - 1 < 168
  · rw [List.getElem?_append_left (by omega)] at h
    by_cases e2 : r - 1 < 4
    · rw [List.getElem?_append_left (by simpa [rulesPre] using e2)] at h
      exact .inl ⟨r - 1, by omega, h⟩
    · rw [List.getElem?_append_right (by simp [rulesPre]; omega)] at h
      have hp : rulesPre.length = 4 := rfl
      rw [hp, List.getElem?_map] at h
      cases hk : keywords[r - 1 - 4]? with
      | none => simp [hk] at h
      | some k =>
        simp only [hk, Option.map_some, Option.some.injEq] at h
        exact .inr (.inl ⟨r - 1 - 4, k, by omega, hk, h.symm⟩)
  · rw [List.getElem?_append_right (by omega), hl] at h
    exact .inr (.inr ⟨r - 1 - 168, by omega, h⟩)

theorem lexRules_kw {i : Nat} {k} (h : keywords[i]? = some k) : lexRules[5 + i - 1]? = some ⟨none, lit k.1⟩ := by
  have hp : rulesPre.length = 4 := rfl
  have hi : i < keywords.length := by
    rcases Nat.lt_or_ge i keywords.length with h' | h'
    · exact h'
    · rw [List.getElem?_eq_none h'] at h; cases h
  unfold lexRules
  rw [List.append_assoc, List.getElem?_append_right (by rw [hp]; omega), hp,
    List.getElem?_append_left (by simp; omega), List.getElem?_map]
  have : 5 + i - 1 - 4 = i := by omega
  rw [this, h]; rfl

theorem lexRules_post {j : Nat} {rule} (h : rulesPost[j]? = some rule) : lexRules[169 + j - 1]? = some rule := by
  have hl : (rulesPre ++ keywords.map (fun k => (⟨none, lit k.1⟩ : LexRule))).length = 168 := by
    simp [kw_len, rulesPre]
  unfold lexRules
  rw [List.getElem?_append_right (by omega), hl]
  have : 169 + j - 1 - 168 = j := by omega
  rw [this, h]

theorem lexRules_pre {j : Nat} {rule} (h : rulesPre[j]? = some rule) : lexRules[j + 1 - 1]? = some rule := by
  have hp : rulesPre.length = 4 := rfl
  have hi : j < rulesPre.length := by
    rcases Nat.lt_or_ge j rulesPre.length with h' | h'
    · exact h'
    · rw [List.getElem?_eq_none h'] at h; cases h
  unfold lexRules
  rw [List.append_assoc, Nat.add_sub_cancel, List.getElem?_append_left hi, h]

theorem twoWord_matches {a b : Bytes} {w : Bytes} (hc : Clean w) (ha : upper a = a) (hb : upper b = b)
    (h : Matches (lit a ++ [one blank, many blank] ++ lit b) w) :
    ∃ x y z, w = x ++ y ++ z ∧ upper x = a ∧ y ≠ [] ∧ (∀ c ∈ y, isBlank c = true) ∧ upper z = b := by
  rw [List.append_assoc, matches_lit_append] at h
  obtain ⟨x, v, rfl, h1, h2⟩ := h
  change Matches (one blank :: many blank :: lit b) v at h2
  rw [matches_one_iff] at h2
  obtain ⟨c, v', rfl, h3, h4⟩ := h2
  obtain ⟨y, z, rfl, h5, h6⟩ := matches_many_iff.1 h4
  rw [matches_lit] at h6
  refine ⟨x, c :: y, z, by simp, h1.trans ha, by simp, ?_, h6.trans hb⟩
  intro d hd
  have hd' : d ≤ 255 := (hc d (by simp at hd ⊢; grind)).2
  rw [← mem_blank hd']
  rcases List.mem_cons.1 hd with rfl | hd
  · exact h3
  · exact h5 d hd

theorem all_mem {w : Bytes} (hc : Clean w) {m : CC} {p : Nat → Bool} (hp : ∀ {b : Nat}, b ≤ 255 → CC.mem m b = p b)
    (h : ∀ b ∈ w, CC.mem m b = true) : ∀ b ∈ w, p b = true := by
  intro b hb; rw [← hp (hc b hb).2]; exact h b hb

theorem Clean.sub {w u : Bytes} (h : Clean w) (hs : ∀ b ∈ u, b ∈ w) : Clean u := fun b hb => h b (hs b hb)

theorem fires_of_matches {r : Nat} {w : Bytes} {rule : LexRule} (hc : Clean w) (h : lexRules[r - 1]? = some rule)
    (h1 : 1 ≤ r) (hn : rule.sc = none) (hm : Matches rule.pat w) : Fires r w := by
  rcases rule_cases h h1 with ⟨i, rfl, hr⟩ | ⟨i, k, rfl, hk, rfl⟩ | ⟨i, rfl, hr⟩
  · rcases i with _ | _ | _ | _ | i
    · cases hr
      have := upper_lit_op hm (by decide) (by decide)
      subst this; exact .comment
    · cases hr; cases hn
    · cases hr; cases hn
    · cases hr
      obtain ⟨h1, h2⟩ := matches_plus.1 hm
      exact .blank h1 (all_mem hc mem_blank h2)
    · cases hr
  · have := matches_lit.1 hm
    exact .kw hk (this.trans (upper_kw _ (List.mem_of_getElem? hk)))
  · rcases i with _ | _ | _ | _ | _ | _ | _ | _ | _ | _ | _ | _ | _ | _ | _ | _ | _ | _ | _ | _ | i
    · cases hr
      obtain ⟨x, y, z, rfl, h1, h2, h3, h4⟩ := twoWord_matches hc (by decide) (by decide) hm
      exact .currentRow h1 h2 h3 h4
    · cases hr
      obtain ⟨x, y, z, rfl, h1, h2, h3, h4⟩ := twoWord_matches hc (by decide) (by decide) hm
      exact .charVarying h1 h2 h3 h4
    · cases hr
      have := upper_lit_op hm (by decide) (by decide)
      subst this; exact .op (by decide)
    · cases hr
      have := upper_lit_op hm (by decide) (by decide)
      subst this; exact .op (by decide)
    · cases hr
      have := upper_lit_op hm (by decide) (by decide)
      subst this; exact .op (by decide)
    · cases hr
      have := upper_lit_op hm (by decide) (by decide)
      subst this; exact .op (by decide)
    · cases hr
      have := upper_lit_op hm (by decide) (by decide)
      subst this; exact .op (by decide)
    · cases hr
      have := upper_lit_op hm (by decide) (by decide)
      subst this; exact .op (by decide)
    · cases hr
      obtain ⟨b, rfl, hb⟩ := matches_single.1 hm
      rw [mem_self (hc b (by simp)).2] at hb
      exact .self hb
    · cases hr
      obtain ⟨b, w', rfl, h1, h2⟩ := matches_one_iff.1 hm
      obtain ⟨u, v, rfl, h3, h4⟩ := matches_many_iff.1 h2
      obtain ⟨c, v', rfl, h5, h6⟩ := matches_one_iff.1 h4
      have h6 := matches_many.1 h6
      rw [mem_byte] at h5; subst h5
      have := Fires.float (u := b :: u) (v := v') (by simp) (all_mem (hc.sub (by intros; simp_all <;> grind)) mem_digit (by
        intro x hx; rcases List.mem_cons.1 hx with rfl | hx
        · exact h1
        · exact h3 x hx)) (all_mem (hc.sub (by intros; simp_all <;> grind)) mem_digit h6)
      simpa using this
    · cases hr
      obtain ⟨b, w', rfl, h1, h2⟩ := matches_one_iff.1 hm
      have h2 := matches_many.1 h2
      rw [mem_byte] at h1; subst h1
      exact .dotFloat (all_mem (hc.sub (by intros; simp_all <;> grind)) mem_digit h2)
    · cases hr
      have := upper_lit_op hm (by decide) (by decide)
      subst this; exact .op (by decide)
    · cases hr
      obtain ⟨h1, h2⟩ := matches_plus.1 hm
      exact .int h1 (all_mem hc mem_digit h2)
    · cases hr
      obtain ⟨b, w', rfl, h1, h2⟩ := matches_one_iff.1 hm
      obtain ⟨c, w'', rfl, h3, h4⟩ := matches_one_iff.1 h2
      obtain ⟨u, v, rfl, h5, h6⟩ := matches_many_iff.1 h4
      obtain ⟨d, rfl, h7⟩ := matches_single.1 h6
      rw [mem_byte] at h1 h7; subst h1 h7
      have key : ∀ x ∈ c :: u, x ≠ 34 ∧ x ≠ 10 := by
        intro x hx
        have hx' : CC.mem (CC.compl (CC.union [CC.byte 34, CC.byte 10])) x = true := by
          rcases List.mem_cons.1 hx with rfl | hx
          · exact h3
          · exact h5 x hx
        rw [mem_notDq (hc x (by simp at hx ⊢; grind)).2] at hx'
        simp at hx'; grind
      have := Fires.quoted (u := c :: u) (by simp) key
      simpa using this
    · cases hr
      obtain ⟨b, w', rfl, h1, h2⟩ := matches_one_iff.1 hm
      rw [mem_letter (hc b (by simp)).2] at h1
      exact .word h1 (all_mem (hc.sub (by intros; simp_all <;> grind)) mem_wordc (matches_many.1 h2))
    · cases hr
      obtain ⟨b, rfl, hb⟩ := matches_single.1 hm
      rw [mem_byte] at hb; subst hb; exact .squote
    · cases hr; cases hn
    · cases hr; cases hn
    · cases hr; cases hn
    · cases hr
      obtain ⟨b, rfl, hb⟩ := matches_single.1 hm
      rw [mem_notNewline (hc b (by simp)).2] at hb
      simp at hb
      exact .any hb.2
    · simp [rulesPost] at hr

theorem mem_all {w : Bytes} (hc : Clean w) {m : CC} {p : Nat → Bool} (hp : ∀ {b : Nat}, b ≤ 255 → CC.mem m b = p b)
    (h : ∀ b ∈ w, p b = true) : ∀ b ∈ w, CC.mem m b = true := by
  intro b hb; rw [hp (hc b hb).2]; exact h b hb

theorem matches_of_fires {r : Nat} {w : Bytes} (hc : Clean w) (h : Fires r w) :
    ∃ rule, lexRules[r - 1]? = some rule ∧ 1 ≤ r ∧ rule.sc = none ∧ Matches rule.pat w := by
  cases h with
  | comment => exact ⟨_, lexRules_pre (j := 0) rfl, by omega, rfl, matches_lit.2 rfl⟩
  | blank h1 h2 => exact ⟨_, lexRules_pre (j := 3) rfl, by omega, rfl, matches_plus.2 ⟨h1, mem_all hc mem_blank h2⟩⟩
  | kw h1 h2 =>
    exact ⟨_, lexRules_kw h1, by omega, rfl, matches_lit.2 (h2.trans (upper_kw _ (List.mem_of_getElem? h1)).symm)⟩
  | @currentRow a b c h1 h2 h3 h4 =>
    refine ⟨_, lexRules_post (j := 0) rfl, by omega, rfl, ?_⟩
    show Matches (lit b!"CURRENT" ++ [one blank, many blank] ++ lit b!"ROW") _
    rw [List.append_assoc, matches_lit_append]
    refine ⟨a, b ++ c, by simp, h1, ?_⟩
    cases b with
    | nil => simp at h2
    | cons x b =>
      have := mem_all (hc.sub (by intros; simp_all <;> grind)) mem_blank h3
      exact matches_one_iff.2 ⟨x, b ++ c, rfl, this x (by simp), matches_many_iff.2 ⟨b, c, rfl, fun y hy => this y (by simp [hy]), matches_lit.2 h4⟩⟩
  | @charVarying a b c h1 h2 h3 h4 =>
    refine ⟨_, lexRules_post (j := 1) rfl, by omega, rfl, ?_⟩
    show Matches (lit b!"CHARACTER" ++ [one blank, many blank] ++ lit b!"VARYING") _
    rw [List.append_assoc, matches_lit_append]
    refine ⟨a, b ++ c, by simp, h1, ?_⟩
    cases b with
    | nil => simp at h2
    | cons x b =>
      have := mem_all (hc.sub (by intros; simp_all <;> grind)) mem_blank h3
      exact matches_one_iff.2 ⟨x, b ++ c, rfl, this x (by simp), matches_many_iff.2 ⟨b, c, rfl, fun y hy => this y (by simp [hy]), matches_lit.2 h4⟩⟩
  | op h1 =>
    simp only [List.mem_cons, Prod.mk.injEq, List.not_mem_nil, or_false] at h1
    rcases h1 with ⟨rfl, rfl⟩ | ⟨rfl, rfl⟩ | ⟨rfl, rfl⟩ | ⟨rfl, rfl⟩ | ⟨rfl, rfl⟩ | ⟨rfl, rfl⟩ | ⟨rfl, rfl⟩
    · exact ⟨_, lexRules_post (j := 2) rfl, by omega, rfl, matches_lit.2 rfl⟩
    · exact ⟨_, lexRules_post (j := 3) rfl, by omega, rfl, matches_lit.2 rfl⟩
    · exact ⟨_, lexRules_post (j := 4) rfl, by omega, rfl, matches_lit.2 rfl⟩
    · exact ⟨_, lexRules_post (j := 5) rfl, by omega, rfl, matches_lit.2 rfl⟩
    · exact ⟨_, lexRules_post (j := 6) rfl, by omega, rfl, matches_lit.2 rfl⟩
    · exact ⟨_, lexRules_post (j := 7) rfl, by omega, rfl, matches_lit.2 rfl⟩
    · exact ⟨_, lexRules_post (j := 11) rfl, by omega, rfl, matches_lit.2 rfl⟩
  | @self b h1 => exact ⟨_, lexRules_post (j := 8) rfl, by omega, rfl, matches_single.2 ⟨_, rfl, by rw [mem_self (hc b (by simp)).2]; exact h1⟩⟩
  | @float u v h1 h2 h3 =>
    refine ⟨_, lexRules_post (j := 9) rfl, by omega, rfl, ?_⟩
    cases u with
    | nil => simp at h1
    | cons x u =>
      have k1 := mem_all (hc.sub (by intros; simp_all <;> grind)) mem_digit h2
      have k2 := mem_all (hc.sub (by intros; simp_all <;> grind)) mem_digit h3
      exact matches_one_iff.2 ⟨x, u ++ 46 :: v, rfl, k1 x (by simp), matches_many_iff.2 ⟨u, 46 :: v, rfl, fun y hy => k1 y (by simp [hy]),
        matches_one_iff.2 ⟨46, v, rfl, (mem_byte _ _).2 rfl, matches_many.2 k2⟩⟩⟩
  | @dotFloat v h1 =>
    have k2 := mem_all (hc.sub (by intros; simp_all <;> grind)) mem_digit h1
    exact ⟨_, lexRules_post (j := 10) rfl, by omega, rfl, matches_one_iff.2 ⟨46, v, rfl, (mem_byte _ _).2 rfl, matches_many.2 k2⟩⟩
  | int h1 h2 => exact ⟨_, lexRules_post (j := 12) rfl, by omega, rfl, matches_plus.2 ⟨h1, mem_all hc mem_digit h2⟩⟩
  | @quoted u h1 h2 =>
    refine ⟨_, lexRules_post (j := 13) rfl, by omega, rfl, ?_⟩
    have k : ∀ x ∈ u, CC.mem (CC.compl (CC.union [CC.byte 34, CC.byte 10])) x = true := by
      intro x hx
      have hcx := hc x (by simp [hx])
      rw [mem_notDq hcx.2]
      have := h2 x hx
      simp; omega
    cases u with
    | nil => simp at h1
    | cons x u =>
      exact matches_one_iff.2 ⟨34, _, rfl, (mem_byte _ _).2 rfl, matches_one_iff.2 ⟨x, u ++ [34], rfl, k x (by simp),
        matches_many_iff.2 ⟨u, [34], rfl, fun y hy => k y (by simp [hy]), matches_single.2 ⟨34, rfl, (mem_byte _ _).2 rfl⟩⟩⟩⟩
  | @word b u h1 h2 =>
    exact ⟨_, lexRules_post (j := 14) rfl, by omega, rfl, matches_one_iff.2 ⟨b, u, rfl, by rw [mem_letter (hc b (by simp)).2]; exact h1,
      matches_many.2 (mem_all (hc.sub (by intros; simp_all <;> grind)) mem_wordc h2)⟩⟩
  | squote => exact ⟨_, lexRules_post (j := 15) rfl, by omega, rfl, matches_single.2 ⟨39, rfl, (mem_byte _ _).2 rfl⟩⟩
  | @any b h1 =>
    have := hc b (by simp)
    exact ⟨_, lexRules_post (j := 19) rfl, by omega, rfl, matches_single.2 ⟨b, rfl, by rw [mem_notNewline this.2]; simp; omega⟩⟩

end Verif.Lex

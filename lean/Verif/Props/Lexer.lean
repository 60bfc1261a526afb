import Verif.Lex.CaseFacts
import Verif.Api.Tokenize
/-!
# Lexer properties: C02 - C09, C21 (lexer part), C30

`lexInit buf text` is the state in which a parse or tokenize of `text` starts; `yylex` is one call of
`hsql_lex`; `lexAll` is the whole sequence of its results up to the first 0.
-/
namespace Verif.Props
open Verif.Lex Verif.Api

/-! ## C02 -/

/-- C02. For every input the calls of `hsql_lex` terminate without undefined behaviour; only the last result
is the end-of-input code 0; the texts consumed, concatenated, followed by the unread text, are exactly the
input; and text is left unread only after a byte that matches no rule but the catch-all one (number 188). -/
theorem C02_scanning_total_lossless (fpr : Int) (hfpr : fpr ≠ 0) (buf : Bytes) (sql : List UInt8) :
    ∃ T last st, lexAll fpr (lexInit buf (cText sql)) = some (T ++ [last], st) ∧
      last.code = 0 ∧ (∀ t ∈ T, t.code ≠ 0) ∧
      (((T ++ [last]).map fun t => t.pieces.flatten).flatten) ++ st.rest = cText sql ∧
      (st.rest = [] ∨ ∃ b, last.pieces.getLast? = some [b] ∧ LongestMatch .initial (b :: st.rest) 188 1) := by
  have hc := cText_clean sql
  obtain ⟨h1, T, t, hT, ht, hx, hl⟩ := lexH_lossless fpr hfpr (cText sql).length (lexInit buf (cText sql)) [] hc (Nat.le_refl _)
  refine ⟨T, t, (lexH fpr (lexInit buf (cText sql)) []).2, ?_, ht, hx, ?_, hl⟩
  · rw [lexAll_eq fpr _ hc, ← hT]
  · rw [← hT]; simpa [consumed, lexInit] using h1

/-! ## C03 -/

/-- `t` and `t'` have the same bytes up to the case of ASCII letters. -/
def SameUpToCase (t t' : Bytes) : Prop := t.map upperB = t'.map upperB

/-- C03. Two inputs that differ only in the case of letters give the same number of tokens, with the same
codes, covering the same extents of the text, and values that differ at most in case. -/
theorem C03_case_insensitive_tokens (fpr : Int) (buf : Bytes) (t t' : Bytes)
    (hbytes : ∀ b ∈ t, 1 ≤ b ∧ b ≤ 255) (h : SameUpToCase t t') :
    ∃ T st T' st', lexAll fpr (lexInit buf t) = some (T, st) ∧ lexAll fpr (lexInit buf t') = some (T', st') ∧
      T.map Tok.code = T'.map Tok.code ∧
      T.map (fun x => x.pieces.map List.length) = T'.map (fun x => x.pieces.map List.length) ∧
      T.map (fun x => x.val.upper) = T'.map (fun x => x.val.upper) := by
  have hc : Clean t := hbytes
  have hc' : Clean t' := clean_case h hc
  obtain ⟨h1, _⟩ := lexH_case fpr t.length (lexInit buf t) (lexInit buf t') [] [] hc (Nat.le_refl _)
    (by simp only [LexSt.upper, lexInit, LexSt.mk.injEq, true_and]; exact h) rfl
  refine ⟨_, _, _, _, lexAll_eq fpr _ hc, lexAll_eq fpr _ hc', ?_, ?_, ?_⟩
  · have := congrArg (List.map Tok.code) h1
    simpa [List.map_map, Function.comp_def, Tok.upper] using this
  · have := congrArg (List.map (fun x : Tok => x.pieces.map List.length)) h1
    simpa [List.map_map, Function.comp_def, Tok.upper, upper_length] using this
  · have := congrArg (List.map Tok.val) h1
    simpa [List.map_map, Function.comp_def, Tok.upper] using this


/-- Concretely: `sElEcT x` and `SELECT X` both give SELECT, IDENTIFIER, end. -/
example : SameUpToCase b!"sElEcT x" b!"SELECT X" := by unfold SameUpToCase; decide

/-! ## C04 -/

/-- The text of a string literal denoting `s`: the bytes of `s` with every quote doubled, in quotes. -/
def stringLiteral (s : Bytes) : Bytes :=
  [39] ++ s.flatMap (fun b => if b = 39 then [39, 39] else [b]) ++ [39]

theorem escQuote_flatMap (s : Bytes) : escQuote s = s.flatMap (fun b => if b = 39 then [39, 39] else [b]) := by
  induction s with
  | nil => rfl
  | cons b s ih => by_cases h : b = 39 <;> simp [escQuote, h, ih]

/-- C04. At any point in the `INITIAL` start condition, the literal of `s` followed by anything not beginning
with a quote is one STRING token (code 259) whose value is exactly `s`, and exactly the literal is consumed. -/
theorem C04_string_literals (fpr : Int) (buf s rest : Bytes) (hs : ∀ b ∈ s, 1 ≤ b ∧ b ≤ 255)
    (hrest : ∀ b ∈ rest, 1 ≤ b ∧ b ≤ 255) (hq : rest.head? ≠ some 39) :
    ∃ pieces, yylex fpr ⟨.initial, buf, stringLiteral s ++ rest⟩ =
      some (⟨259, .sval s, pieces⟩, ⟨.initial, s, rest⟩) := by
  obtain ⟨pcs, h⟩ := string_run fpr hq s buf []
  have e : stringLiteral s ++ rest = 39 :: (escQuote s ++ 39 :: rest) := by
    simp [stringLiteral, escQuote_flatMap]
  refine ⟨pcs, ?_⟩
  rw [e]
  refine h.yylex ?_
  intro b hb
  simp only [List.mem_cons, List.mem_append] at hb
  rcases hb with rfl | hb | rfl | hb
  · omega
  · exact escQuote_clean hs b hb
  · omega
  · exact hrest b hb

/-- Every NUL-free string meets the hypotheses; e.g. `it's`, written `'it''s'`. -/
example : stringLiteral b!"it's" = b!"'it''s'" := by decide

/-! ## C05 -/

/-- Decimal representation of a number, without leading zeros (`0` is `0`). -/
def dec (n : Nat) : Bytes := if n < 10 then [48 + n] else dec (n / 10) ++ [48 + n % 10]
decreasing_by omega

theorem dec_digits (n : Nat) : dec n ≠ [] ∧ ∀ x ∈ dec n, isDigit x = true := by
  induction n using Nat.strongRecOn with
  | _ n ih =>
    rw [dec]
    split
    · refine ⟨by simp, ?_⟩
      intro x hx; simp at hx; subst hx; unfold isDigit; simp; omega
    · obtain ⟨h1, h2⟩ := ih (n / 10) (by omega)
      refine ⟨by simp, ?_⟩
      intro x hx
      rcases List.mem_append.1 hx with hx | hx
      · exact h2 x hx
      · simp at hx; subst hx; unfold isDigit; simp; omega

theorem dec_val (n : Nat) : decVal (dec n) = n := by
  induction n using Nat.strongRecOn with
  | _ n ih =>
    rw [dec]
    split
    · simp [decVal]
    · have := ih (n / 10) (by omega)
      unfold decVal at this ⊢
      rw [List.foldl_append, this]
      simp; omega

theorem dec_head (n : Nat) : (dec n).head? = some 48 ↔ n = 0 := by
  induction n using Nat.strongRecOn with
  | _ n ih =>
    rw [dec]
    split
    · simp
    · have h := ih (n / 10) (by omega)
      have hne := (dec_digits (n / 10)).1
      rw [List.head?_append]
      cases hd : (dec (n/10)).head? with
      | none => simp at hd; exact absurd hd hne
      | some c => rw [hd] at h; simp at h ⊢; omega

theorem strtoll0_dec (n : Nat) : strtoll0 (dec n) = if n ≤ 2 ^ 63 - 1 then some (n : Int) else none := by
  unfold strtoll0
  by_cases h0 : n = 0
  · subst h0; rw [dec]; decide
  · rw [if_neg (mt (dec_head n).1 h0), dec_val]; rfl

theorem dec_clean (n : Nat) {rest : Bytes} (hrest : ∀ b ∈ rest, 1 ≤ b ∧ b ≤ 255) : Clean (dec n ++ rest) := by
  intro b hb
  rcases List.mem_append.1 hb with h | h
  · have := (dec_digits n).2 b h; unfold isDigit at this; simp at this; omega
  · exact hrest b h

/-- C05, values: the decimal representation of `n < 2^63`, followed by something other than a digit or a
dot, is one INTVAL token (code 261) of value `n`. -/
theorem C05_decimal_value (fpr : Int) (buf rest : Bytes) (n : Nat) (hn : n < 2 ^ 63)
    (hrest : ∀ b ∈ rest, 1 ≤ b ∧ b ≤ 255) (hv : ∀ x, rest.head? = some x → ¬ (48 ≤ x ∧ x ≤ 57) ∧ x ≠ 46) :
    yylex fpr ⟨.initial, buf, dec n ++ rest⟩ = some (⟨261, .ival n, [dec n]⟩, ⟨.initial, buf, rest⟩) := by
  refine LRun.yylex ?_ (dec_clean n hrest)
  have := int_run fpr (acc := []) (buf := buf) (dec_digits n).1 (dec_digits n).2 (v := rest) (n := n)
    (fun x hx => ⟨by have := (hv x hx).1; unfold isDigit; simp; omega, (hv x hx).2⟩)
    (by rw [strtoll0_dec, if_pos (by omega)])
  simpa using this

/-- C05, range: the decimal representation of a number `≥ 2^63` is not an INTVAL token: the token code is the
return value of `fprintf` (64, or negative if stderr is not writable), which is no token of the grammar. -/
theorem C05_out_of_range (fpr : Int) (hfpr : fpr ≠ 0) (buf rest : Bytes) (n : Nat) (hn : 2 ^ 63 ≤ n)
    (hrest : ∀ b ∈ rest, 1 ≤ b ∧ b ≤ 255) (hv : ∀ x, rest.head? = some x → ¬ (48 ≤ x ∧ x ≤ 57) ∧ x ≠ 46) :
    ∃ val, yylex fpr ⟨.initial, buf, dec n ++ rest⟩ = some (⟨fpr, val, [dec n]⟩, ⟨.initial, buf, rest⟩) := by
  refine ⟨.ival 9223372036854775807, LRun.yylex ?_ (dec_clean n hrest)⟩
  have := int_run_bad fpr (acc := []) (buf := buf) (dec_digits n).1 (dec_digits n).2 (v := rest)
    (fun x hx => ⟨by have := (hv x hx).1; unfold isDigit; simp; omega, (hv x hx).2⟩)
    (by rw [strtoll0_dec, if_neg (by omega)]) hfpr
  simpa using this

/-- C05, minimum: `-` directly followed by the decimal representation of 2^63 is one INTVAL token of value
-2^63. -/
theorem C05_int64_min (fpr : Int) (buf rest : Bytes) (hrest : ∀ b ∈ rest, 1 ≤ b ∧ b ≤ 255) :
    yylex fpr ⟨.initial, buf, [45] ++ b!"9223372036854775808" ++ rest⟩ =
      some (⟨261, .ival (-2 ^ 63), [[45] ++ b!"9223372036854775808"]⟩, ⟨.initial, buf, rest⟩) := by
  have h : LRun fpr ⟨.initial, buf, b!"-9223372036854775808" ++ rest⟩ [] _ ⟨.initial, buf, rest⟩ [] :=
    lrun_ret (sc' := .initial) (buf' := buf) (c := 261) (val := .ival (-9223372036854775808)) (r := 180) (by simp) (by
      simp [handStep, handInitial, isBlank, isLetter, isDigit, handOp]) (by simp [lexAction]) (by decide)
  refine LRun.yylex h ?_
  intro b hb
  rcases List.mem_append.1 hb with h | h
  · clear hb; revert b; decide
  · exact hrest b h

/-- C05 is violated for numbers written with a leading zero: `010` denotes 8, and `08` denotes 0. -/
theorem C05_leading_zero_violation (fpr : Int) (buf : Bytes) :
    yylex fpr ⟨.initial, buf, b!"010"⟩ = some (⟨261, .ival 8, [b!"010"]⟩, ⟨.initial, buf, []⟩) ∧
    yylex fpr ⟨.initial, buf, b!"08"⟩ = some (⟨261, .ival 0, [b!"08"]⟩, ⟨.initial, buf, []⟩) := by
  constructor
  · exact LRun.yylex (int_run fpr (d := b!"010") (v := []) (acc := []) (by simp) (by decide) (by simp) (by decide)) (by simp; decide)
  · exact LRun.yylex (int_run fpr (d := b!"08") (v := []) (acc := []) (by simp) (by decide) (by simp) (by decide)) (by simp; decide)

/-! ## C06 -/

/-- `[A-Za-z][A-Za-z0-9_]*` -/
def IsWord (w : Bytes) : Prop :=
  (∃ b, w.head? = some b ∧ isLetter b = true) ∧ ∀ b ∈ w, isWordc b = true

theorem word_split {w : Bytes} (h : IsWord w) : ∃ b w', w = b :: w' ∧ isLetter b = true ∧ ∀ x ∈ w', isWordc x = true := by
  obtain ⟨⟨b, h1, h2⟩, h3⟩ := h
  cases w with
  | nil => simp at h1
  | cons c w => simp at h1; subst h1; exact ⟨c, w, rfl, h2, fun x hx => h3 x (by simp [hx])⟩

theorem word_clean {w rest : Bytes} (hw : IsWord w) (hrest : ∀ b ∈ rest, 1 ≤ b ∧ b ≤ 255) : Clean (w ++ rest) := by
  intro b hb
  rcases List.mem_append.1 hb with h | h
  · have := hw.2 b h; unfold isWordc isLetter isDigit at this; simp at this; omega
  · exact hrest b h

/-- C06, keywords: a maximal word that equals a listed keyword up to case is that keyword's token.  (The two
words that begin a two-word token, CURRENT and CHARACTER, are not keywords by themselves.) -/
theorem C06_keyword (fpr : Int) (buf w rest : Bytes) (hw : IsWord w) (hrest : ∀ b ∈ rest, 1 ≤ b ∧ b ≤ 255)
    (hv : ∀ x, rest.head? = some x → isWordc x = false) (kw : Bytes × Nat) (hk : kw ∈ keywords) (hu : upper w = kw.1) :
    yylex fpr ⟨.initial, buf, w ++ rest⟩ = some (⟨kw.2, .none, [w]⟩, ⟨.initial, buf, rest⟩) := by
  obtain ⟨b, w', rfl, h1, h2⟩ := word_split hw
  obtain ⟨i, hi⟩ := List.getElem?_of_mem hk
  have hn : ∀ k ∈ keywords, k.1 ≠ b!"CURRENT" ∧ k.1 ≠ b!"CHARACTER" := by decide +kernel
  refine LRun.yylex ?_ (word_clean hw hrest)
  have := word_run_kw fpr (buf := buf) (acc := []) h1 h2 hv
    (notTwo_of_not hw.2 hv (by rw [hu]; exact (hn _ hk).1) (by rw [hu]; exact (hn _ hk).2)) hi hu
  simpa using this

/-- C06, identifiers: any other maximal word is an IDENTIFIER (258) carrying exactly its bytes. -/
theorem C06_identifier (fpr : Int) (buf w rest : Bytes) (hw : IsWord w) (hrest : ∀ b ∈ rest, 1 ≤ b ∧ b ≤ 255)
    (hv : ∀ x, rest.head? = some x → isWordc x = false) (hk : ∀ kw ∈ keywords, upper w ≠ kw.1)
    (h2 : upper w ≠ b!"CURRENT") (h3 : upper w ≠ b!"CHARACTER") :
    yylex fpr ⟨.initial, buf, w ++ rest⟩ = some (⟨258, .sval w, [w]⟩, ⟨.initial, buf, rest⟩) := by
  obtain ⟨b, w', rfl, h1, h2'⟩ := word_split hw
  refine LRun.yylex ?_ (word_clean hw hrest)
  have := word_run_ident fpr (buf := buf) (acc := []) h1 h2' hv (notTwo_of_not hw.2 hv h2 h3) hk
  simpa using this

/-- C06, quoted identifiers: `"s"` is an IDENTIFIER carrying exactly `s`, whatever (keyword or not) `s` is. -/
theorem C06_quoted_identifier (fpr : Int) (buf s rest : Bytes) (hs : s ≠ []) (hb : ∀ b ∈ s, 1 ≤ b ∧ b ≤ 255)
    (hq : ∀ b ∈ s, b ≠ 34 ∧ b ≠ 10) (hrest : ∀ b ∈ rest, 1 ≤ b ∧ b ≤ 255) :
    yylex fpr ⟨.initial, buf, [34] ++ s ++ [34] ++ rest⟩ =
      some (⟨258, .sval s, [[34] ++ s ++ [34]]⟩, ⟨.initial, buf, rest⟩) := by
  have := quoted_run fpr (buf := buf) (acc := []) (v := rest) hs hq
  refine LRun.yylex (by simpa using this) ?_
  intro b hb'
  simp at hb'
  rcases hb' with rfl | h | rfl | h
  · omega
  · exact hb b h
  · omega
  · exact hrest b h

example : IsWord b!"selected_1" ∧ (∀ kw ∈ keywords, upper b!"selected_1" ≠ kw.1) := by
  refine ⟨⟨⟨115, rfl, rfl⟩, by decide⟩, by decide +kernel⟩
example : IsWord b!"Select" ∧ (b!"SELECT", 313) ∈ keywords ∧ upper b!"Select" = b!"SELECT" := by
  refine ⟨⟨⟨83, rfl, rfl⟩, by decide⟩, by decide +kernel, by decide⟩

/-! ## C07 -/

/-- C07. Suppose that after some calls of `hsql_lex` the scanner is between two tokens, in front of a blank run
`w`.  Replacing that run by any other non-empty blank run changes neither codes nor values of any token. -/
theorem C07_whitespace_insignificant (fpr : Int) (buf buf' p w w' v : Bytes) (k : Nat) (T : List Tok)
    (hbytes : ∀ b ∈ p ++ w ++ v, 1 ≤ b ∧ b ≤ 255)
    (hw : w ≠ []) (hwb : ∀ c ∈ w, c = 32 ∨ c = 9 ∨ c = 10) (hw' : w' ≠ []) (hwb' : ∀ c ∈ w', c = 32 ∨ c = 9 ∨ c = 10)
    (hbound : lexCalls fpr k (lexInit buf (p ++ w ++ v)) = some (T, ⟨.initial, buf', w ++ v⟩)) :
    ∃ T1 st T2 st', lexAll fpr (lexInit buf (p ++ w ++ v)) = some (T1, st) ∧
      lexAll fpr (lexInit buf (p ++ w' ++ v)) = some (T2, st') ∧
      T1.map Tok.code = T2.map Tok.code ∧ T1.map Tok.val = T2.map Tok.val := by
  have bl : ∀ c, (c = 32 ∨ c = 9 ∨ c = 10) → isBlank c = true := by rintro c (rfl | rfl | rfl) <;> rfl
  have hb1 : ∀ c ∈ w, isBlank c = true := fun c hc => bl c (hwb c hc)
  have hb2 : ∀ c ∈ w', isBlank c = true := fun c hc => bl c (hwb' c hc)
  have hc : Clean (p ++ w ++ v) := hbytes
  have hc' : Clean (p ++ w' ++ v) := by
    intro b hb
    simp only [List.mem_append] at hb
    rcases hb with (h | h) | h
    · exact hc b (by simp [h])
    · have := hwb' b h; omega
    · exact hc b (by simp [h])
  have hrun := lexCalls_run fpr k _ _ _ hc hbound
  have hrun' := hrun.swap hw hb1 hw' hb2 p hc (by simp [lexInit]) rfl
  have hrun' : LRun fpr (lexInit buf (p ++ w' ++ v)) [] T ⟨.initial, buf', w' ++ v⟩ [] := by
    simpa [lexInit] using hrun'
  obtain ⟨e1, c1⟩ := hrun.lexH hc
  obtain ⟨e2, c2⟩ := hrun'.lexH hc'
  refine ⟨_, _, _, _, lexAll_eq fpr _ hc, lexAll_eq fpr _ hc', ?_⟩
  have f1 := (lexH_blanks fpr (w := w) (v := v) (buf := buf') [] c1 hb1).1
  have f2 := (lexH_blanks fpr (w := w') (v := v) (buf := buf') [] c2 hb2).1
  have f := f1.trans f2.symm
  rw [e1, e2]
  constructor
  · have := congrArg (List.map Prod.fst) f
    simp only [List.map_map, Function.comp_def, Tok.cv] at this
    simp only [List.map_append]; rw [this]
  · have := congrArg (List.map Prod.snd) f
    simp only [List.map_map, Function.comp_def, Tok.cv] at this
    simp only [List.map_append]; rw [this]

/-- C07: blanks at the very beginning (and hence in front of everything) do not matter either. -/
theorem C07_leading_whitespace (fpr : Int) (buf w v : Bytes) (hbytes : ∀ b ∈ w ++ v, 1 ≤ b ∧ b ≤ 255)
    (hwb : ∀ c ∈ w, c = 32 ∨ c = 9 ∨ c = 10) :
    ∃ T1 st T2 st', lexAll fpr (lexInit buf (w ++ v)) = some (T1, st) ∧ lexAll fpr (lexInit buf v) = some (T2, st') ∧
      T1.map Tok.code = T2.map Tok.code ∧ T1.map Tok.val = T2.map Tok.val := by
  have hc : Clean (w ++ v) := hbytes
  have hc2 : Clean v := fun b hb => hc b (by simp [hb])
  have hb1 : ∀ c ∈ w, isBlank c = true := by
    intro c hcw; rcases hwb c hcw with rfl | rfl | rfl <;> rfl
  refine ⟨_, _, _, _, lexAll_eq fpr _ hc, lexAll_eq fpr _ hc2, ?_⟩
  have f := (lexH_blanks fpr (w := w) (v := v) (buf := buf) [] hc hb1).1
  constructor
  · have := congrArg (List.map Prod.fst) f
    simpa [List.map_map, Function.comp_def, Tok.cv, lexInit] using this
  · have := congrArg (List.map Prod.snd) f
    simpa [List.map_map, Function.comp_def, Tok.cv, lexInit] using this

example : lexCalls 64 1 (lexInit [] (b!"SELECT" ++ [32, 32] ++ b!"1")) =
    some ([⟨313, .none, [b!"SELECT"]⟩], ⟨.initial, [], [32, 32] ++ b!"1"⟩) := by
  have h := C06_keyword 64 [] b!"SELECT" b!"  1" ⟨⟨83, rfl, rfl⟩, by decide⟩ (by decide) (by simp; decide) (b!"SELECT", 313) (by decide +kernel) (by decide)
  simp only [lexCalls, Option.bind_eq_bind]
  show (yylex 64 ⟨.initial, [], b!"SELECT" ++ b!"  1"⟩).bind _ = _
  rw [h]; rfl

/-! ## C08 -/

/-- C08, the part that holds.  In the `INITIAL` state a comment `--c` up to and including its newline produces
no token and leaves the scanner in the `INITIAL` state at the text `v` after the newline, if `v` does not begin
with a blank, the comment text is not all blanks, and comment and `v` do not begin with the two halves of a
two-word keyword.  Missing for the full property: these three conditions (see the violations below). -/
theorem C08_comment_is_skipped_partial (fpr : Int) (buf c v : Bytes) (hbytes : ∀ b ∈ c ++ [10] ++ v, 1 ≤ b ∧ b ≤ 255)
    (hc : ∀ x ∈ c, x ≠ 10) (hv : ∀ x, v.head? = some x → isBlank x = false)
    (h1 : c = [] ∨ ∃ x ∈ c, isBlank x = false)
    (h2 : ¬ (startsCI b!"CURRENT" c = true ∧ startsCI b!"ROW" v = true))
    (h3 : ¬ (startsCI b!"CHARACTER" c = true ∧ startsCI b!"VARYING" v = true)) :
    ∃ T1 st T2 st', lexAll fpr (lexInit buf (b!"--" ++ c ++ [10] ++ v)) = some (T1, st) ∧
      lexAll fpr (lexInit buf v) = some (T2, st') ∧
      T1.map Tok.code = T2.map Tok.code ∧ T1.map Tok.val = T2.map Tok.val ∧ st = st' := by
  have hcl : Clean (c ++ 10 :: v) := by
    intro b hb; exact hbytes b (by simpa using hb)
  obtain ⟨acc', hrun⟩ := comment_run fpr (buf := buf) [] hcl hc hv h1 h2 h3
  have hclt : Clean (b!"--" ++ (c ++ 10 :: v)) := by
    intro b hb
    rcases List.mem_append.1 hb with h | h
    · clear hb; revert b; decide
    · exact hcl b h
  have hc2 : Clean v := fun b hb => hcl b (by simp [hb])
  have e : b!"--" ++ c ++ [10] ++ v = b!"--" ++ (c ++ 10 :: v) := by simp
  obtain ⟨e1, _⟩ := hrun.lexH hclt
  have hacc := lexH_acc fpr v.length ⟨.initial, buf, v⟩ acc' [] hc2 (Nat.le_refl _)
  rw [e]
  refine ⟨_, _, _, _, lexAll_eq fpr _ hclt, lexAll_eq fpr _ hc2, ?_⟩
  show ((lexH fpr ⟨.initial, buf, b!"--" ++ (c ++ 10 :: v)⟩ []).1.map Tok.code = _ ∧ _)
  unfold lexInit
  rw [e1]
  refine ⟨?_, ?_, hacc.2⟩
  · have := congrArg (List.map Prod.fst) hacc.1
    simpa [List.map_map, Function.comp_def, Tok.cv] using this
  · have := congrArg (List.map Prod.snd) hacc.1
    simpa [List.map_map, Function.comp_def, Tok.cv] using this

/-- C08, in context: if the calls so far led to the front of such a comment, the tokens of the whole text are
those read so far followed by those of the text after the comment. -/
theorem C08_comment_in_context_partial (fpr : Int) (st : LexSt) (buf c v : Bytes) (k : Nat) (T : List Tok)
    (hst : ∀ b ∈ st.rest, 1 ≤ b ∧ b ≤ 255)
    (hbound : lexCalls fpr k st = some (T, ⟨.initial, buf, b!"--" ++ c ++ [10] ++ v⟩))
    (hc : ∀ x ∈ c, x ≠ 10) (hv : ∀ x, v.head? = some x → isBlank x = false)
    (h1 : c = [] ∨ ∃ x ∈ c, isBlank x = false)
    (h2 : ¬ (startsCI b!"CURRENT" c = true ∧ startsCI b!"ROW" v = true))
    (h3 : ¬ (startsCI b!"CHARACTER" c = true ∧ startsCI b!"VARYING" v = true)) :
    ∃ T1 s1 T2 s2, lexAll fpr st = some (T1, s1) ∧ lexAll fpr (lexInit buf v) = some (T2, s2) ∧
      T1.map Tok.code = T.map Tok.code ++ T2.map Tok.code ∧ T1.map Tok.val = T.map Tok.val ++ T2.map Tok.val := by
  have hrun := lexCalls_run fpr k _ _ _ hst hbound
  obtain ⟨e1, hcl⟩ := hrun.lexH hst
  have hcl' : ∀ b ∈ c ++ [10] ++ v, 1 ≤ b ∧ b ≤ 255 := by
    intro b hb; exact hcl b (by simp at hb ⊢; rcases hb with h | h | h <;> simp [h])
  obtain ⟨T1, s1, T2, s2, g1, g2, g3, g4, _⟩ := C08_comment_is_skipped_partial fpr buf c v hcl' hc hv h1 h2 h3
  unfold lexInit at g1
  rw [lexAll_eq fpr _ hcl] at g1
  simp only [Option.some.injEq] at g1
  have g1' : lexH fpr ⟨.initial, buf, b!"--" ++ c ++ [10] ++ v⟩ [] = (T1, s1) := g1
  refine ⟨_, _, T2, s2, lexAll_eq fpr _ hst, g2, ?_, ?_⟩
  · rw [e1, g1']; simp [g3]
  · rw [e1, g1']; simp [g4]

/-- C08 is violated if the newline is followed by a blank, or if the comment text is blank: then the comment
swallows the following line as well.  `--x⏎ SELECT 1` and `-- ⏎SELECT 1` have no token at all. -/
theorem C08_comment_violation :
    (lexAll 64 (lexInit [] b!"--x\n SELECT 1")).map (fun r => r.1.map Tok.code) = some [0] ∧
    (lexAll 64 (lexInit [] b!"-- \nSELECT 1")).map (fun r => r.1.map Tok.code) = some [0] := by
  constructor
  · rw [lexAll_of_lexE (f := 10) (r := ([⟨0, .none, [b!"--", b!"x", b!"\n ", b!"SELECT 1"]⟩], ⟨.comment, [], []⟩)) (by decide) (by decide +kernel)]; rfl
  · rw [lexAll_of_lexE (f := 10) (r := ([⟨0, .none, [b!"--", b!" \n", b!"SELECT 1"]⟩], ⟨.comment, [], []⟩)) (by decide) (by decide +kernel)]; rfl

/-! ## C09 (tokenize), C30, C21 (tokenize) -/

/-- C09 for the scanner: what it reads depends only on the bytes before the first NUL. -/
theorem C09_nul_terminates_text (a b : List UInt8) : cText (a ++ 0 :: b) = cText a := by
  unfold cText
  congr 1
  induction a with
  | nil => simp
  | cons x a ih =>
    by_cases h : x = 0
    · simp [h]
    · simpa [h] using ih

/-- C09 for `tokenize`: the bytes from the first NUL on are ignored. -/
theorem C09_tokenize_ignores_after_nul (fpr : Int) (buf : Bytes) (a b : List UInt8) :
    tokenize fpr buf (a ++ 0 :: b) = tokenize fpr buf a := by
  unfold tokenize; rw [C09_nul_terminates_text]

/-- The token codes the lexer can return: of a character, of a token, or the `fprintf` result. -/
theorem code_range {fpr : Int} {sc : SC} {buf t : Bytes} (hc : Clean t) (hne : t ≠ []) {sc' : SC} {buf' : Bytes} {c : Int} {v : TokVal}
    (ha : lexAction fpr sc buf (handStep sc t).1 (t.take (handStep sc t).2) = some (.ret sc' buf' c v)) : (0 ≤ c ∧ c ≤ 435) ∨ c = fpr := by
  have hcw : Clean (t.take (handStep sc t).2) := fun b hb => hc b (List.mem_of_mem_take hb)
  have hm := (longest_hand sc hc hne).isMatch
  have hr1 : 1 ≤ (handStep sc t).1 := by obtain ⟨_, _, h, _⟩ := hm; exact h
  generalize (handStep sc t).1 = r at *
  have hkw : ∀ k ∈ keywords, k.2 ≤ 435 := by decide +kernel
  unfold lexAction at ha
  by_cases k : r ≤ 168
  · by_cases k1 : 5 ≤ r
    · rw [if_neg (by omega), if_neg (by omega), if_neg (by omega), if_neg (by omega), if_pos k] at ha
      simp only [Option.map_eq_some_iff, ActRes.ret.injEq] at ha
      obtain ⟨x, hx, _, _, e, _⟩ := ha
      have := hkw x (List.mem_of_getElem? hx)
      omega
    · have : r = 1 ∨ r = 2 ∨ r = 3 ∨ r = 4 := by omega
      rcases this with rfl | rfl | rfl | rfl
      all_goals cases ha
  · by_cases k2 : 189 ≤ r
    · repeat rw [if_neg (by omega)] at ha
      cases ha
    have : r = 169 ∨ r = 170 ∨ r = 171 ∨ r = 172 ∨ r = 173 ∨ r = 174 ∨ r = 175 ∨ r = 176 ∨ r = 177 ∨ r = 178 ∨ r = 179 ∨ r = 180 ∨ r = 181 ∨ r = 182 ∨ r = 183 ∨ r = 184 ∨ r = 185 ∨ r = 186 ∨ r = 187 ∨ r = 188 := by omega
    rcases this with rfl | rfl | rfl | rfl | rfl | rfl | rfl | rfl | rfl | rfl | rfl | rfl | rfl | rfl | rfl | rfl | rfl | rfl | rfl | rfl
    all_goals try (simp at ha)
    all_goals try omega
    · obtain ⟨a, hx, _, _, e, _⟩ := ha
      have hx := List.mem_of_mem_head? hx
      have := hcw a hx
      omega
    · split at ha
      · simp at ha; omega
      · simp at ha; omega

theorem lexH_codes (fpr : Int) : ∀ (k : Nat) (st : LexSt) (acc : List Bytes), Clean st.rest → st.rest.length ≤ k →
    ∀ t ∈ (lexH fpr st acc).1, (0 ≤ t.code ∧ t.code ≤ 435) ∨ t.code = fpr := by
  intro k
  induction k with
  | zero =>
    rintro ⟨sc, buf, rest⟩ acc hc hk
    have : rest = [] := List.eq_nil_of_length_eq_zero (by simpa using hk)
    subst this
    rw [lexH_nil]; simp
  | succ k ih =>
    rintro ⟨sc, buf, rest⟩ acc hc hk
    simp only [] at hc hk
    by_cases hne : rest = []
    · subst hne; rw [lexH_nil]; simp
    · obtain ⟨a, ha⟩ := lexAction_total fpr sc buf hc hne
      have hp := hand_pos sc hc hne
      cases a with
      | skip sc' buf' =>
        rw [lexH_skip hc hne (Prod.eta _).symm ha]
        exact ih _ _ (clean_drop hc _) (by simp; omega)
      | ret sc' buf' c v =>
        have hr := code_range hc hne ha
        by_cases h0 : c = 0
        · subst h0; rw [lexH_ret0 hc hne (Prod.eta _).symm ha]; simp
        · rw [lexH_ret hc hne (Prod.eta _).symm ha h0]
          intro t ht
          rcases List.mem_cons.1 ht with rfl | ht
          · exact hr
          · exact ih _ _ (clean_drop hc _) (by simp; omega) t ht

theorem tokenizeFuel_eq (fpr : Int) (hfpr : fpr = 64 ∨ fpr = -1) : ∀ (f : Nat) (st : LexSt), Clean st.rest → st.rest.length < f →
    tokenizeFuel fpr f st = some (((lexH fpr st []).1.map Tok.code).dropLast) := by
  intro f
  induction f with
  | zero => intro st _ h; omega
  | succ f ih =>
    intro st hc hl
    obtain ⟨t, st', h1, h2, h3, h4, h5⟩ := yylexFuel_eq fpr (st.rest.length + 1) st [] hc (by omega)
    have h1 : yylex fpr st = some (t, st') := h1
    have hr := lexH_codes fpr st.rest.length st [] hc (Nat.le_refl _)
    rw [tokenizeFuel, h1]
    have ht : (0 ≤ t.code ∧ t.code ≤ 435) ∨ t.code = fpr := by
      apply hr; rw [h5]; split <;> simp
    have hi : toInt16 t.code = t.code := by unfold toInt16; omega
    simp only [hi]
    by_cases h0 : t.code = 0
    · rw [h5]; simp [h0]
    · rw [h5]
      simp only [h0, if_false]
      have hlt := h4 h0
      rw [ih st' h2 (by omega)]
      obtain ⟨_, T, t', hT, _⟩ := lexH_lossless fpr (by omega) st'.rest.length st' [] h2 (Nat.le_refl _)
      rw [hT]
      have : (t :: (T ++ [t'])).map Tok.code = (t.code :: T.map Tok.code) ++ [t'.code] := by simp
      rw [this, List.dropLast_concat]
      simp

/-- C30. `tokenize` terminates and returns exactly the codes (as `int16_t`, without loss) of the results of
`hsql_lex` before the first 0, i.e. of the token sequence `lexAll` from which the parser reads. -/
theorem C30_tokenize_is_lexer (fpr : Int) (hfpr : fpr = 64 ∨ fpr = -1) (buf : Bytes) (sql : List UInt8) :
    ∃ T last st, lexAll fpr (lexInit buf (cText sql)) = some (T ++ [last], st) ∧ last.code = 0 ∧
      tokenize fpr buf sql = some (T.map Tok.code) := by
  have hc := cText_clean sql
  obtain ⟨T, last, st, h1, h2, h3, _⟩ := C02_scanning_total_lossless fpr (by omega) buf sql
  refine ⟨T, last, st, h1, h2, ?_⟩
  have := tokenizeFuel_eq fpr hfpr ((cText sql).length + 1) (lexInit buf (cText sql)) hc (by simp [lexInit])
  rw [lexAll_eq fpr _ hc] at h1
  simp only [Option.some.injEq] at h1
  rw [h1] at this
  unfold tokenize
  simp only []
  rw [show (lexInit buf (cText sql)).rest.length = (cText sql).length from rfl, this]
  simp

/-- C21, tokens: the tokens read, and the text left unread, do not depend on what earlier calls left in the
thread-local string buffer. -/
theorem C21_tokens_independent_of_buffer (fpr : Int) (buf buf' : Bytes) (sql : List UInt8) :
    ∃ T st st', lexAll fpr (lexInit buf (cText sql)) = some (T, st) ∧
      lexAll fpr (lexInit buf' (cText sql)) = some (T, st') ∧ st.rest = st'.rest := by
  have hc := cText_clean sql
  obtain ⟨h1, h2⟩ := lexH_buf fpr (cText sql).length .initial buf buf' (cText sql) [] hc (Nat.le_refl _) (by simp)
  refine ⟨_, _, (lexH fpr ⟨.initial, buf', cText sql⟩ []).2, lexAll_eq fpr _ hc, ?_, h2⟩
  rw [lexAll_eq fpr _ hc]
  show some (lexH fpr ⟨.initial, buf', cText sql⟩ []) = some ((lexH fpr ⟨.initial, buf, cText sql⟩ []).1, _)
  rw [h1]

end Verif.Props

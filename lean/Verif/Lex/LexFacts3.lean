import Verif.Lex.LexFacts2
/-! Token-level facts: literals, words, operators, comments (proof-internal). -/
namespace Verif.Lex

/-! ## From a run to a call of `hsql_lex` -/

theorem LRun.acc_nil {fpr : Int} {st st' : LexSt} {acc acc' : List Bytes} {T : List Tok} (h : LRun fpr st acc T st' acc') :
    T = [] → acc'.length ≤ acc.length → st = st' ∧ acc = acc' := by
  induction h with
  | refl => intro _ _; exact ⟨rfl, rfl⟩
  | @skip sc buf rest acc r n sc' buf1 T st' acc' _ _ _ h ih =>
    intro hT hl
    exfalso
    have key : ∀ {st st' : LexSt} {acc acc' : List Bytes} {T : List Tok}, LRun fpr st acc T st' acc' → T = [] → acc.length ≤ acc'.length := by
      intro st st' acc acc' T h
      induction h with
      | refl => intro _; exact Nat.le_refl _
      | skip _ _ _ _ ih => intro hT; have := ih hT; simp at this; omega
      | ret _ _ _ _ _ _ => intro hT; cases hT
    have := key h hT
    simp at this; omega
  | ret _ _ _ _ _ _ => intro hT; cases hT

theorem LRun.yylexFuel {fpr : Int} {st st' : LexSt} {acc acc' : List Bytes} {T : List Tok} {t : Tok} (h : LRun fpr st acc T st' acc') :
    T = [t] → acc' = [] → Clean st.rest → ∀ f, st.rest.length < f → yylexFuel fpr f st acc = some (t, st') := by
  induction h with
  | refl => intro h; cases h
  | @skip sc buf rest acc r n sc' buf1 T st' acc' h1 h2 h3 h4 ih =>
    intro hT ha hc f hf
    have hp := hand_pos sc hc h1
    have hs := scan_eq_hand sc hc h1
    rw [h2] at hp hs
    rcases f with _ | f
    · omega
    simp only [] at hf hp
    have := ih hT ha (clean_drop hc n) f (by simp; omega)
    simp only [Verif.Lex.yylexFuel, hs, h3, this]
  | @ret sc buf rest acc r n sc' buf1 c v T st' acc' h1 h2 h3 h5 h4 ih =>
    intro hT ha hc f hf
    simp only [List.cons.injEq] at hT
    obtain ⟨rfl, rfl⟩ := hT
    subst ha
    obtain ⟨rfl, _⟩ := h4.acc_nil rfl (by simp)
    have hs := scan_eq_hand sc hc h1
    rw [h2] at hs
    rcases f with _ | f
    · omega
    simp only [Verif.Lex.yylexFuel, hs, h3]

theorem LRun.yylex {fpr : Int} {st st' : LexSt} {t : Tok} (h : LRun fpr st [] [t] st' []) (hc : Clean st.rest) :
    yylex fpr st = some (t, st') := h.yylexFuel rfl rfl hc _ (by omega)

/-- A step that returns a token. -/
theorem lrun_ret {fpr : Int} {sc sc' : SC} {buf buf' p v : Bytes} {acc : List Bytes} {r : Nat} {c : Int} {val : TokVal}
    (hp : p ≠ []) (hs : handStep sc (p ++ v) = (r, p.length)) (ha : lexAction fpr sc buf r p = some (.ret sc' buf' c val)) (h0 : c ≠ 0) :
    LRun fpr ⟨sc, buf, p ++ v⟩ acc [⟨c, val, (p :: acc).reverse⟩] ⟨sc', buf', v⟩ [] := by
  have h := LRun.ret (fpr := fpr) (sc := sc) (buf := buf) (rest := p ++ v) (acc := acc) (r := r) (n := p.length) (sc' := sc') (buf' := buf')
    (c := c) (v := val) (T := []) (st' := ⟨sc', buf', v⟩) (acc' := []) (by simp [hp]) hs (by rw [List.take_left]; exact ha) h0
    (by rw [List.drop_left]; exact .refl)
  rw [List.take_left] at h
  exact h

/-- A step that returns nothing. -/
theorem lrun_skip {fpr : Int} {sc sc' : SC} {buf buf' p v : Bytes} {acc : List Bytes} {r : Nat}
    (hp : p ≠ []) (hs : handStep sc (p ++ v) = (r, p.length)) (ha : lexAction fpr sc buf r p = some (.skip sc' buf')) :
    LRun fpr ⟨sc, buf, p ++ v⟩ acc [] ⟨sc', buf', v⟩ (p :: acc) := by
  have h := LRun.skip (fpr := fpr) (sc := sc) (buf := buf) (rest := p ++ v) (acc := acc) (r := r) (n := p.length) (sc' := sc') (buf' := buf')
    (T := []) (st' := ⟨sc', buf', v⟩) (acc' := p :: acc) (by simp [hp]) hs (by rw [List.take_left]; exact ha)
    (by rw [List.drop_left, List.take_left]; exact .refl)
  exact h

/-! ## String literals -/

/-- A string literal body: every quote doubled. -/
def escQuote : Bytes → Bytes
  | [] => []
  | b :: s => if b = 39 then 39 :: 39 :: escQuote s else b :: escQuote s

theorem escQuote_append (a b : Bytes) : escQuote (a ++ b) = escQuote a ++ escQuote b := by
  induction a with
  | nil => rfl
  | cons x a ih => by_cases h : x = 39 <;> simp [escQuote, h, ih]

theorem escQuote_id {a : Bytes} (h : ∀ x ∈ a, x ≠ 39) : escQuote a = a := by
  induction a with
  | nil => rfl
  | cons x a ih => simp [escQuote, h x (by simp), ih (fun y hy => h y (by simp [hy]))]

theorem escQuote_clean {s : Bytes} (h : Clean s) : Clean (escQuote s) := by
  induction s with
  | nil => exact h
  | cons x s ih =>
    have := ih (fun b hb => h b (by simp [hb]))
    have hx := h x (by simp)
    intro b hb
    by_cases e : x = 39
    · simp only [escQuote, e, if_true, List.mem_cons] at hb
      rcases hb with rfl | rfl | hb
      · exact ⟨by omega, by omega⟩
      · exact ⟨by omega, by omega⟩
      · exact this b hb
    · simp only [escQuote, e, if_false, List.mem_cons] at hb
      rcases hb with rfl | hb
      · exact hx
      · exact this b hb

theorem squote_run (fpr : Int) {rest : Bytes} (hr : rest.head? ≠ some 39) : ∀ (k : Nat) (s buf : Bytes) (acc : List Bytes), s.length ≤ k →
    ∃ pcs, LRun fpr ⟨.squote, buf, escQuote s ++ 39 :: rest⟩ acc [⟨259, .sval (buf ++ s), pcs⟩] ⟨.initial, buf ++ s, rest⟩ [] := by
  have fin : ∀ (buf : Bytes) (acc : List Bytes), ∃ pcs, LRun fpr ⟨.squote, buf, 39 :: rest⟩ acc [⟨259, .sval buf, pcs⟩] ⟨.initial, buf, rest⟩ [] := by
    intro buf acc
    refine ⟨_, lrun_ret (p := [39]) (v := rest) (r := 187) (by simp) ?_ rfl (by decide)⟩
    show handSquote (39 :: rest) = _
    unfold handSquote
    split
    · rename_i heq; cases heq; simp at hr
    · rfl
    · rename_i h2; exact absurd rfl (h2 rest)
  intro k
  induction k with
  | zero =>
    intro s buf acc hk
    have : s = [] := List.eq_nil_of_length_eq_zero (by omega)
    subst this
    simpa [escQuote] using fin buf acc
  | succ k ih =>
    intro s buf acc hk
    cases s with
    | nil => simpa [escQuote] using fin buf acc
    | cons b s =>
      by_cases hb : b = 39
      · subst hb
        obtain ⟨pcs, h⟩ := ih s (buf ++ [39]) ([39, 39] :: acc) (by simp at hk; omega)
        refine ⟨pcs, ?_⟩
        have h1 := lrun_skip (fpr := fpr) (sc := .squote) (sc' := .squote) (buf := buf) (buf' := buf ++ [39]) (p := [39, 39]) (v := escQuote s ++ 39 :: rest) (acc := acc) (r := 185)
          (by simp) rfl rfl
        have := h1.trans h
        simpa [escQuote] using this
      · obtain ⟨hs, hh⟩ := takeWhile_split (fun c => c != 39) (b :: s)
        have ha := takeWhile_all (fun c => c != 39) (b :: s)
        have hlen : 1 ≤ ((b :: s).takeWhile (fun c => c != 39)).length := by simp [hb]
        generalize hu : (b :: s).takeWhile (fun c => c != 39) = u at *
        generalize (b :: s).drop u.length = s' at *
        have hune : u ≠ [] := by rintro rfl; simp at hlen
        have hu39 : ∀ x ∈ u, x ≠ 39 := fun x hx => by simpa using ha x hx
        rw [hs] at hk ⊢
        obtain ⟨pcs, h⟩ := ih s' (buf ++ u) (u :: acc) (by simp at hk; omega)
        refine ⟨pcs, ?_⟩
        have hstep : handStep .squote (u ++ (escQuote s' ++ 39 :: rest)) = (186, u.length) := by
          show handSquote _ = _
          have hhead : ∀ x, (escQuote s' ++ 39 :: rest).head? = some x → (x != 39) = false := by
            intro x hx
            cases s' with
            | nil => simp [escQuote] at hx; simp [hx]
            | cons c s' =>
              have hc := hh c rfl
              have hc : c = 39 := by simpa using hc
              subst hc
              simp [escQuote] at hx; simp [← hx]
          have htw := takeWhile_stop (p := fun c => c != 39) ha hhead
          cases u with
          | nil => exact absurd rfl hune
          | cons c u =>
            have hc := hu39 c (by simp)
            unfold handSquote
            split
            · rename_i heq; simp at heq; exact absurd heq.1 hc
            · rename_i heq; simp at heq; exact absurd heq.1 hc
            · rw [htw]
        have h1 := lrun_skip (fpr := fpr) (sc := .squote) (sc' := .squote) (buf := buf) (buf' := buf ++ u) (p := u) (v := escQuote s' ++ 39 :: rest) (acc := acc) (r := 186)
          hune hstep rfl
        have := h1.trans h
        rw [escQuote_append, escQuote_id hu39]
        simpa using this

theorem string_run (fpr : Int) {rest : Bytes} (hr : rest.head? ≠ some 39) (s buf : Bytes) (acc : List Bytes) :
    ∃ pcs, LRun fpr ⟨.initial, buf, 39 :: (escQuote s ++ 39 :: rest)⟩ acc [⟨259, .sval s, pcs⟩] ⟨.initial, s, rest⟩ [] := by
  obtain ⟨pcs, h⟩ := squote_run fpr hr s.length s [] ([39] :: acc) (Nat.le_refl _)
  refine ⟨pcs, ?_⟩
  have h1 := lrun_skip (fpr := fpr) (sc := .initial) (sc' := .squote) (buf := buf) (buf' := []) (p := [39]) (v := escQuote s ++ 39 :: rest) (acc := acc) (r := 184)
    (by simp) (by simp [handStep, handInitial, isBlank, isLetter, isDigit]) rfl
  simpa using h1.trans h

/-! ## Words -/

/-- The word `w` cannot be the first half of a two-word keyword in front of `v`. -/
def NotTwoWord (w v : Bytes) : Prop :=
  twoWords b!"CURRENT" b!"ROW" (w ++ v) = none ∧ twoWords b!"CHARACTER" b!"VARYING" (w ++ v) = none

theorem hand_word {b : Nat} {w v : Bytes} (hb : isLetter b = true) (hw : ∀ x ∈ w, isWordc x = true)
    (hv : ∀ x, v.head? = some x → isWordc x = false) (h2 : NotTwoWord (b :: w) v) :
    handStep .initial (b :: w ++ v) = (match kwIndex (b :: w) with | some i => 5 + i | none => 183, (b :: w).length) := by
  have htw : (b :: w ++ v).takeWhile isWordc = b :: w := takeWhile_stop (by
    intro x hx; rcases List.mem_cons.1 hx with rfl | hx
    · exact wordc_of_letter hb
    · exact hw x hx) hv
  show handInitial (b :: (w ++ v)) = _
  unfold handInitial
  simp only [(letter_facts hb).1, hb, if_true]
  unfold handWord
  obtain ⟨h3, h4⟩ := h2
  rw [List.cons_append] at h3 h4 htw
  rw [h3, h4]
  simp only [htw]
  cases kwIndex (b :: w) <;> simp

theorem word_run_kw (fpr : Int) {b : Nat} {w v buf : Bytes} {acc : List Bytes} {i : Nat} {k : Bytes × Nat} (hb : isLetter b = true)
    (hw : ∀ x ∈ w, isWordc x = true)
    (hv : ∀ x, v.head? = some x → isWordc x = false) (h2 : NotTwoWord (b :: w) v) (hi : keywords[i]? = some k) (hk : upper (b :: w) = k.1) :
    LRun fpr ⟨.initial, buf, b :: w ++ v⟩ acc [⟨k.2, .none, ((b :: w) :: acc).reverse⟩] ⟨.initial, buf, v⟩ [] := by
  have hs := hand_word hb hw hv h2
  rw [kwIndex_of hi hk] at hs
  simp only [] at hs
  have hi' : i < 164 := by
    rcases Nat.lt_or_ge i keywords.length with h' | h'
    · rw [kw_len] at h'; exact h'
    · rw [List.getElem?_eq_none h'] at hi; cases hi
  refine lrun_ret (by simp) hs ?_ ?_
  · unfold lexAction
    rw [if_neg (by omega), if_neg (by omega), if_neg (by omega), if_neg (by omega), if_pos (by omega)]
    have : 5 + i - 5 = i := by omega
    rw [this, hi]; rfl
  · have : ∀ k ∈ keywords, k.2 ≠ 0 := by decide +kernel
    have := this k (List.mem_of_getElem? hi)
    omega

theorem word_run_ident (fpr : Int) {b : Nat} {w v buf : Bytes} {acc : List Bytes} (hb : isLetter b = true) (hw : ∀ x ∈ w, isWordc x = true)
    (hv : ∀ x, v.head? = some x → isWordc x = false) (h2 : NotTwoWord (b :: w) v) (hk : ∀ k ∈ keywords, upper (b :: w) ≠ k.1) :
    LRun fpr ⟨.initial, buf, b :: w ++ v⟩ acc [⟨258, .sval (b :: w), ((b :: w) :: acc).reverse⟩] ⟨.initial, buf, v⟩ [] := by
  have hs := hand_word hb hw hv h2
  have : kwIndex (b :: w) = none := by
    cases h : kwIndex (b :: w) with
    | none => rfl
    | some i =>
      obtain ⟨k, h1, h2⟩ := kwIndex_some h
      exact absurd h2 (hk k (List.mem_of_getElem? h1))
  rw [this] at hs
  exact lrun_ret (by simp) hs rfl (by decide)

theorem notTwo_of_not {w v : Bytes} (h1 : ∀ x ∈ w, isWordc x = true) (hv : ∀ x, v.head? = some x → isWordc x = false)
    (h2 : upper w ≠ b!"CURRENT") (h3 : upper w ≠ b!"CHARACTER") : NotTwoWord w v := by
  have key : ∀ (A B : Bytes), upper w ≠ A → (∀ c ∈ A, isLetter c = true) → twoWords A B (w ++ v) = none := by
    intro A B hA hAl
    cases h : twoWords A B (w ++ v) with
    | none => rfl
    | some n =>
      exfalso
      obtain ⟨x, y, z, q, e, hx, hy, hyb, hz, _⟩ := twoWords_some h
      have t1 : (w ++ v).takeWhile isWordc = w := takeWhile_stop h1 hv
      have t2 : (x ++ (y ++ (z ++ q))).takeWhile isWordc = x := by
        apply takeWhile_stop
        · intro c hc; exact wordc_of_letter (letters_of_upper (by rw [hx]; exact hAl) c hc)
        · intro c hc
          cases y with
          | nil => simp at hy
          | cons d y => simp at hc; subst hc; exact not_wordc_of_blank (hyb _ (by simp))
      rw [e, t2] at t1
      rw [t1] at hx
      exact hA hx
  exact ⟨key _ _ h2 (by decide), key _ _ h3 (by decide)⟩

/-- A quoted identifier. -/
theorem quoted_run (fpr : Int) {s v buf : Bytes} {acc : List Bytes} (hs : s ≠ []) (hq : ∀ x ∈ s, x ≠ 34 ∧ x ≠ 10) :
    LRun fpr ⟨.initial, buf, (34 :: s ++ [34]) ++ v⟩ acc [⟨258, .sval s, ((34 :: s ++ [34]) :: acc).reverse⟩] ⟨.initial, buf, v⟩ [] := by
  have htw : (s ++ 34 :: v).takeWhile (fun c => c != 34 && c != 10) = s :=
    takeWhile_stop (by intro x hx; simpa using hq x hx) (by simp)
  refine lrun_ret (by simp) (r := 182) ?_ ?_ (by decide)
  · show handInitial (34 :: (s ++ [34] ++ v)) = _
    unfold handInitial
    have e : s ++ [34] ++ v = s ++ 34 :: v := by simp
    rw [e]
    simp only [isBlank, isLetter, isDigit]
    simp [handQuoted, htw, hs]
  · simp [lexAction]

/-! ## Numbers -/

theorem hand_int {d v : Bytes} (hd : d ≠ []) (hdd : ∀ x ∈ d, isDigit x = true) (hv : ∀ x, v.head? = some x → isDigit x = false ∧ x ≠ 46) :
    handStep .initial (d ++ v) = (181, d.length) := by
  have htw : (d ++ v).takeWhile isDigit = d := takeWhile_stop hdd (fun x hx => (hv x hx).1)
  cases d with
  | nil => exact absurd rfl hd
  | cons b d =>
    have hb := hdd b (by simp)
    have f := digit_facts hb
    show handInitial (b :: (d ++ v)) = _
    unfold handInitial
    simp only [f.1, f.2.1, hb, if_true]
    unfold handNumber
    rw [List.cons_append] at htw
    simp only [htw]
    rw [← List.cons_append, List.drop_left]
    simp only [Bool.false_eq_true, if_false]
    split
    · rename_i r; exact absurd rfl (hv 46 rfl).2
    · rfl

theorem int_run (fpr : Int) {d v buf : Bytes} {acc : List Bytes} {n : Int} (hd : d ≠ []) (hdd : ∀ x ∈ d, isDigit x = true)
    (hv : ∀ x, v.head? = some x → isDigit x = false ∧ x ≠ 46) (hn : strtoll0 d = some n) :
    LRun fpr ⟨.initial, buf, d ++ v⟩ acc [⟨261, .ival n, (d :: acc).reverse⟩] ⟨.initial, buf, v⟩ [] :=
  lrun_ret hd (hand_int hd hdd hv) (by simp [lexAction, hn]) (by decide)

theorem int_run_bad (fpr : Int) {d v buf : Bytes} {acc : List Bytes} (hd : d ≠ []) (hdd : ∀ x ∈ d, isDigit x = true)
    (hv : ∀ x, v.head? = some x → isDigit x = false ∧ x ≠ 46) (hn : strtoll0 d = none) (h0 : fpr ≠ 0) :
    LRun fpr ⟨.initial, buf, d ++ v⟩ acc [⟨fpr, .ival 9223372036854775807, (d :: acc).reverse⟩] ⟨.initial, buf, v⟩ [] :=
  lrun_ret hd (hand_int hd hdd hv) (by simp [lexAction, hn]) h0

/-! ## Comments -/

theorem fires_newline {r : Nat} {w : Bytes} (h : Fires r w) (hn : 10 ∈ w) : (∀ x ∈ w, isBlank x = true) ∨
    (∃ x y z A B, w = x ++ (y ++ z) ∧ upper x = A ∧ y ≠ [] ∧ (∀ c ∈ y, isBlank c = true) ∧ upper z = B ∧
      ((A = b!"CURRENT" ∧ B = b!"ROW") ∨ (A = b!"CHARACTER" ∧ B = b!"VARYING"))) := by
  cases h with
  | comment => simp at hn
  | blank h1 h2 => exact .inl h2
  | kw h1 h2 =>
    exfalso
    have := letters_of_upper (by rw [h2]; exact (kw_letters _ (List.mem_of_getElem? h1)).2) 10 hn
    cases this
  | currentRow h1 h2 h3 h4 => exact .inr ⟨_, _, _, _, _, List.append_assoc _ _ _, h1, h2, h3, h4, .inl ⟨rfl, rfl⟩⟩
  | charVarying h1 h2 h3 h4 => exact .inr ⟨_, _, _, _, _, List.append_assoc _ _ _, h1, h2, h3, h4, .inr ⟨rfl, rfl⟩⟩
  | op h1 =>
    exfalso
    simp only [List.mem_cons, Prod.mk.injEq, List.not_mem_nil, or_false] at h1
    rcases h1 with ⟨_, rfl⟩ | ⟨_, rfl⟩ | ⟨_, rfl⟩ | ⟨_, rfl⟩ | ⟨_, rfl⟩ | ⟨_, rfl⟩ | ⟨_, rfl⟩ <;> simp at hn
  | self h1 => simp at hn; subst hn; cases h1
  | float h1 h2 h3 =>
    exfalso
    rcases List.mem_append.1 hn with h | h
    · cases h2 10 h
    · rcases List.mem_cons.1 h with h | h
      · cases h
      · cases h3 10 h
  | dotFloat h1 =>
    exfalso
    rcases List.mem_cons.1 hn with h | h
    · cases h
    · cases h1 10 h
  | int h1 h2 => cases h2 10 hn
  | quoted h1 h2 =>
    simp at hn
    exact absurd rfl (h2 10 hn).2
  | word h1 h2 =>
    exfalso
    rcases List.mem_cons.1 hn with h | h
    · rw [← h] at h1; cases h1
    · cases h2 10 h
  | squote => simp at hn
  | any h1 => simp at hn; exact absurd hn.symm h1

theorem comment_run (fpr : Int) {c v buf : Bytes} (acc : List Bytes) (hcl : Clean (c ++ 10 :: v)) (hc : ∀ x ∈ c, x ≠ 10)
    (hv : ∀ x, v.head? = some x → isBlank x = false)
    (h1 : c = [] ∨ ∃ x ∈ c, isBlank x = false)
    (h2 : ¬ (startsCI b!"CURRENT" c = true ∧ startsCI b!"ROW" v = true))
    (h3 : ¬ (startsCI b!"CHARACTER" c = true ∧ startsCI b!"VARYING" v = true)) :
    ∃ acc', LRun fpr ⟨.initial, buf, b!"--" ++ (c ++ 10 :: v)⟩ acc [] ⟨.initial, buf, v⟩ acc' := by
  have s1 := lrun_skip (fpr := fpr) (sc := .initial) (sc' := .comment) (buf := buf) (buf' := buf) (p := b!"--") (v := c ++ 10 :: v) (acc := acc) (r := 1)
    (by simp) (by simp [handStep, handInitial, isBlank, isLetter, isDigit, handOp]) rfl
  have nl : ∀ acc, LRun fpr ⟨.comment, buf, [10] ++ v⟩ acc [] ⟨.initial, buf, v⟩ ([10] :: acc) := by
    intro acc
    refine lrun_skip (r := 3) (by simp) ?_ rfl
    show handComment (10 :: v) = _
    have htw : (10 :: v).takeWhile isBlank = [10] := takeWhile_stop (a := [10]) (by simp [isBlank]) hv
    have : handInitial (10 :: v) = (4, 1) := by
      unfold handInitial
      have : isBlank 10 = true := rfl
      simp only [this, if_true, htw]; rfl
    simp [handComment, this]
  by_cases hce : c = []
  · subst hce
    have := s1.trans (nl _)
    exact ⟨_, by simpa using this⟩
  · have hb := best_hand (text := c ++ 10 :: v) (by simp)
    have hle : (handInitial (c ++ 10 :: v)).2 ≤ c.length := by
      rcases Nat.lt_or_ge c.length (handInitial (c ++ 10 :: v)).2 with hlt | hge
      · exfalso
        have hf := hb.fires
        have hlen := hb.le
        generalize (handInitial (c ++ 10 :: v)).2 = n at *
        have hsplit : (c ++ 10 :: v).take n = c ++ 10 :: v.take (n - c.length - 1) := by
          rw [List.take_append]
          have : c.take n = c := List.take_of_length_le (by omega)
          rw [this]
          obtain ⟨m, hm⟩ : ∃ m, n - c.length = m + 1 := ⟨n - c.length - 1, by omega⟩
          rw [hm]; simp
        rw [hsplit] at hf
        generalize n - c.length - 1 = m at hf
        rcases fires_newline hf (by simp) with hall | ⟨x, y, z, A, B, e, hx, hy, hyb, hz, hAB⟩
        · rcases h1 with h1 | ⟨x, hx, hxb⟩
          · exact hce h1
          · rw [hall x (by simp [hx])] at hxb; cases hxb
        · -- c = x ++ y0, y = y0 ++ [10], v starts with z
          have hxl : 10 ∉ x := by
            intro hm
            have := letters_of_upper (w := x) (by
              rw [hx]; rcases hAB with ⟨rfl, _⟩ | ⟨rfl, _⟩ <;> decide) 10 hm
            cases this
          have hzl : ∀ q ∈ z, isLetter q = true := letters_of_upper (by
              rw [hz]; rcases hAB with ⟨_, rfl⟩ | ⟨_, rfl⟩ <;> decide)
          have hA : x.length = A.length := by rw [← hx, upper_length]
          have hB : z.length = B.length := by rw [← hz, upper_length]
          have hpre : ∃ y0, c = x ++ y0 := by
            rcases append_cases e with ⟨f, e1, e2⟩ | ⟨f, hf0, e1, e2⟩
            · -- x = c ++ f
              cases f with
              | nil => exact ⟨[], by simpa using e1.symm⟩
              | cons g f =>
                exfalso
                simp only [List.cons_append, List.cons.injEq] at e2
                exact hxl (by rw [e1, e2.1]; simp)
            · exact ⟨f, e1⟩
          obtain ⟨y0, rfl⟩ := hpre
          rw [List.append_assoc, List.append_cancel_left_eq] at e
          -- y0 ++ 10 :: v' = y ++ z
          have hzv : ∃ q, v = z ++ q := by
            rcases append_cases e with ⟨f, e1, e2⟩ | ⟨f, hf0, e1, e2⟩
            · cases f with
              | nil =>
                exfalso
                simp only [List.nil_append] at e2
                have := hzl 10 (by rw [← e2]; simp)
                cases this
              | cons g f =>
                simp only [List.cons_append, List.cons.injEq] at e2
                obtain ⟨rfl, e2⟩ := e2
                cases f with
                | nil => simp only [List.nil_append] at e2; exact ⟨v.drop m, by rw [← e2, List.take_append_drop]⟩
                | cons g f =>
                  exfalso
                  have hg : isBlank g = true := hyb g (by rw [e1]; simp)
                  have : v.head? = some g := by
                    cases v with
                    | nil => simp at e2
                    | cons a v =>
                      cases m with
                      | zero => simp at e2
                      | succ m => simp at e2; simp [e2.1]
                  rw [hv g this] at hg; cases hg
            · exfalso
              have := hzl 10 (by rw [e2]; simp)
              cases this
          obtain ⟨q, rfl⟩ := hzv
          have k1 : startsCI A (x ++ y0) = true := by
            unfold startsCI
            rw [← hA, List.take_left, hx]; simp
          have k2 : startsCI B (z ++ q) = true := by
            unfold startsCI
            rw [← hB, List.take_left, hz]; simp
          rcases hAB with ⟨rfl, rfl⟩ | ⟨rfl, rfl⟩
          · exact h2 ⟨k1, k2⟩
          · exact h3 ⟨k1, k2⟩
      · exact hge
    have htw : (c ++ 10 :: v).takeWhile (fun x => x != 10) = c :=
      takeWhile_stop (by intro x hx; simpa using hc x hx) (by simp)
    have hcpos : 0 < c.length := List.length_pos_iff.2 hce
    have s2 : ∃ acc', LRun fpr ⟨.comment, buf, c ++ 10 :: v⟩ (b!"--" :: acc) [] ⟨.comment, buf, 10 :: v⟩ acc' := by
      have hstep : handStep .comment (c ++ 10 :: v) = (2, c.length) ∨ handStep .comment (c ++ 10 :: v) = (1, c.length) := by
        show handComment _ = _ ∨ handComment _ = _
        unfold handComment
        rw [htw]
        generalize handInitial (c ++ 10 :: v) = rn at hle
        obtain ⟨r, n⟩ := rn
        simp only [] at hle ⊢
        rw [if_neg (by omega)]
        by_cases hcnd : c.length < n ∨ n = c.length ∧ r = 1
        · rw [if_pos hcnd]
          rcases hcnd with h | ⟨rfl, rfl⟩
          · omega
          · right; rfl
        · rw [if_neg hcnd]; left; rfl
      rcases hstep with hs | hs
      · exact ⟨_, lrun_skip hce hs rfl⟩
      · exact ⟨_, lrun_skip hce hs rfl⟩
    obtain ⟨acc', s2⟩ := s2
    exact ⟨_, (s1.trans s2).trans (nl _)⟩

end Verif.Lex

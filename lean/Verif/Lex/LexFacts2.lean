import Verif.Lex.LexFacts
/-! More facts about the lexer (proof-internal). -/
namespace Verif.Lex

/-- Code and semantic value of a token. -/
def Tok.cv (t : Tok) : Int × TokVal := (t.code, t.val)

/-- The collected pieces influence neither codes nor values nor the final state. -/
theorem lexH_acc (fpr : Int) : ∀ (k : Nat) (st : LexSt) (acc acc' : List Bytes), Clean st.rest → st.rest.length ≤ k →
    (lexH fpr st acc).1.map Tok.cv = (lexH fpr st acc').1.map Tok.cv ∧ (lexH fpr st acc).2 = (lexH fpr st acc').2 := by
  intro k
  induction k with
  | zero =>
    rintro ⟨sc, buf, rest⟩ acc acc' hc hk
    have : rest = [] := List.eq_nil_of_length_eq_zero (by simpa using hk)
    subst this
    rw [lexH_nil, lexH_nil]; simp [Tok.cv]
  | succ k ih =>
    rintro ⟨sc, buf, rest⟩ acc acc' hc hk
    simp only [] at hc hk
    by_cases hne : rest = []
    · subst hne; rw [lexH_nil, lexH_nil]; simp [Tok.cv]
    · obtain ⟨a, ha⟩ := lexAction_total fpr sc buf hc hne
      have hp := hand_pos sc hc hne
      generalize hrn : handStep sc rest = rn at *
      obtain ⟨r, n⟩ := rn
      simp only [] at ha hp
      cases a with
      | skip sc' buf' =>
        rw [lexH_skip hc hne hrn ha, lexH_skip hc hne hrn ha]
        exact ih _ _ _ (clean_drop hc n) (by simp; omega)
      | ret sc' buf' c v =>
        by_cases h0 : c = 0
        · subst h0
          rw [lexH_ret0 hc hne hrn ha, lexH_ret0 hc hne hrn ha]; simp [Tok.cv]
        · rw [lexH_ret hc hne hrn ha h0, lexH_ret hc hne hrn ha h0]; simp [Tok.cv]

/-- Some scanner steps: from `st` with pieces `acc`, emitting the tokens `T`, to `st'` with pieces `acc'`. -/
inductive LRun (fpr : Int) : LexSt → List Bytes → List Tok → LexSt → List Bytes → Prop where
  | refl {st acc} : LRun fpr st acc [] st acc
  | skip {sc buf rest acc r n sc' buf' T st' acc'} : rest ≠ [] → handStep sc rest = (r, n) →
      lexAction fpr sc buf r (rest.take n) = some (.skip sc' buf') →
      LRun fpr ⟨sc', buf', rest.drop n⟩ (rest.take n :: acc) T st' acc' → LRun fpr ⟨sc, buf, rest⟩ acc T st' acc'
  | ret {sc buf rest acc r n sc' buf' c v T st' acc'} : rest ≠ [] → handStep sc rest = (r, n) →
      lexAction fpr sc buf r (rest.take n) = some (.ret sc' buf' c v) → c ≠ 0 →
      LRun fpr ⟨sc', buf', rest.drop n⟩ [] T st' acc' →
      LRun fpr ⟨sc, buf, rest⟩ acc (⟨c, v, (rest.take n :: acc).reverse⟩ :: T) st' acc'

theorem LRun.lexH {fpr : Int} {st st' : LexSt} {acc acc' : List Bytes} {T : List Tok} (h : LRun fpr st acc T st' acc') :
    Clean st.rest → lexH fpr st acc = (T ++ (lexH fpr st' acc').1, (lexH fpr st' acc').2) ∧ Clean st'.rest := by
  induction h with
  | refl => intro hc; simp [hc]
  | skip h1 h2 h3 _ ih =>
    intro hc
    rw [lexH_skip hc h1 h2 h3]
    exact ih (clean_drop hc _)
  | ret h1 h2 h3 h4 _ ih =>
    intro hc
    rw [lexH_ret hc h1 h2 h3 h4, (ih (clean_drop hc _)).1]
    exact ⟨rfl, (ih (clean_drop hc _)).2⟩

theorem LRun.trans {fpr : Int} {st st' st'' : LexSt} {acc acc' acc'' : List Bytes} {T T' : List Tok}
    (h : LRun fpr st acc T st' acc') (h' : LRun fpr st' acc' T' st'' acc'') : LRun fpr st acc (T ++ T') st'' acc'' := by
  induction h with
  | refl => exact h'
  | skip h1 h2 h3 _ ih => exact .skip h1 h2 h3 (ih h')
  | ret h1 h2 h3 h4 _ ih => exact .ret h1 h2 h3 h4 (ih h')

/-- One call of `hsql_lex` is such a run. -/
theorem yylexFuel_run (fpr : Int) : ∀ (f : Nat) (st : LexSt) (acc : List Bytes) (t : Tok) (st' : LexSt), Clean st.rest →
    yylexFuel fpr f st acc = some (t, st') → t.code ≠ 0 → LRun fpr st acc [t] st' [] := by
  intro f
  induction f with
  | zero => intro st acc t st' _ h; cases h
  | succ f ih =>
    rintro ⟨sc, buf, rest⟩ acc t st' hc h h0
    simp only [] at hc
    by_cases hne : rest = []
    · subst hne
      simp [yylexFuel, scan_nil] at h
      rw [← h.1] at h0; simp at h0
    · obtain ⟨a, ha⟩ := lexAction_total fpr sc buf hc hne
      have hs := scan_eq_hand sc hc hne
      generalize hrn : handStep sc rest = rn at *
      obtain ⟨r, n⟩ := rn
      simp only [] at ha hs
      cases a with
      | skip sc' buf' =>
        simp [yylexFuel, hs, ha] at h
        exact .skip hne hrn ha (ih _ _ _ _ (clean_drop hc n) h h0)
      | ret sc' buf' c v =>
        simp only [yylexFuel, hs, ha, Option.some.injEq, Prod.mk.injEq] at h
        obtain ⟨rfl, rfl⟩ := h
        exact .ret hne hrn ha h0 .refl

/-- `k` successive calls of `hsql_lex`, none of which returns 0. -/
def lexCalls (fpr : Int) : Nat → LexSt → Option (List Tok × LexSt)
  | 0, st => some ([], st)
  | k + 1, st => do
    let (t, st') ← yylex fpr st
    if t.code = 0 then none
    else
      let (ts, st'') ← lexCalls fpr k st'
      some (t :: ts, st'')

theorem lexCalls_run (fpr : Int) : ∀ (k : Nat) (st : LexSt) (T : List Tok) (st' : LexSt), Clean st.rest →
    lexCalls fpr k st = some (T, st') → LRun fpr st [] T st' [] := by
  intro k
  induction k with
  | zero =>
    intro st T st' _ h
    simp [lexCalls] at h
    obtain ⟨rfl, rfl⟩ := h
    exact .refl
  | succ k ih =>
    intro st T st' hc h
    simp only [lexCalls, Option.bind_eq_bind, Option.bind_eq_some_iff] at h
    obtain ⟨⟨t, st1⟩, h1, h2⟩ := h
    simp only [] at h2
    split at h2
    · cases h2
    · rename_i h0
      obtain ⟨⟨ts, st2⟩, h3, h4⟩ := Option.bind_eq_some_iff.1 h2
      simp only [Option.some.injEq, Prod.mk.injEq] at h4
      obtain ⟨rfl, rfl⟩ := h4
      have hr := yylexFuel_run fpr _ _ _ _ _ hc h1 h0
      exact hr.trans (ih _ _ _ (hr.lexH hc).2 h3)

/-! ## Blanks -/

theorem hand_blank {w v : Bytes} (hw : w ≠ []) (hb : ∀ x ∈ w, isBlank x = true) (hv : ∀ x, v.head? = some x → isBlank x = false) :
    handStep .initial (w ++ v) = (4, w.length) := by
  cases w with
  | nil => exact absurd rfl hw
  | cons b w =>
    have := takeWhile_stop hb hv
    show handInitial (b :: (w ++ v)) = _
    unfold handInitial
    simp only [hb b (by simp), if_true]
    rw [← List.cons_append, this]

theorem lexH_blank (fpr : Int) {w v buf : Bytes} {acc : List Bytes} (hc : Clean (w ++ v)) (hw : w ≠ []) (hb : ∀ x ∈ w, isBlank x = true)
    (hv : ∀ x, v.head? = some x → isBlank x = false) :
    lexH fpr ⟨.initial, buf, w ++ v⟩ acc = lexH fpr ⟨.initial, buf, v⟩ (w :: acc) := by
  have := lexH_skip (fpr := fpr) (buf := buf) (acc := acc) hc (by simp [hw]) (hand_blank hw hb hv) (sc' := .initial) (buf' := buf) rfl
  rw [this]; simp

/-- Blanks in front change no token. -/
theorem lexH_blanks (fpr : Int) {w v buf : Bytes} (acc : List Bytes) (hc : Clean (w ++ v)) (hb : ∀ x ∈ w, isBlank x = true) :
    (lexH fpr ⟨.initial, buf, w ++ v⟩ acc).1.map Tok.cv = (lexH fpr ⟨.initial, buf, v⟩ []).1.map Tok.cv ∧
    (lexH fpr ⟨.initial, buf, w ++ v⟩ acc).2 = (lexH fpr ⟨.initial, buf, v⟩ []).2 := by
  obtain ⟨hs, hh⟩ := takeWhile_split isBlank v
  have ha := takeWhile_all isBlank v
  generalize v.takeWhile isBlank = w2 at *
  generalize v.drop w2.length = v2 at *
  subst hs
  have hcv : Clean v2 := fun b hb => hc b (by simp [hb])
  have key : ∀ (x : Bytes) (acc : List Bytes), Clean (x ++ v2) → (∀ y ∈ x, isBlank y = true) →
      (lexH fpr ⟨.initial, buf, x ++ v2⟩ acc).1.map Tok.cv = (lexH fpr ⟨.initial, buf, v2⟩ []).1.map Tok.cv ∧
      (lexH fpr ⟨.initial, buf, x ++ v2⟩ acc).2 = (lexH fpr ⟨.initial, buf, v2⟩ []).2 := by
    intro x acc hcx hx
    by_cases e : x = []
    · subst e; exact lexH_acc fpr _ ⟨.initial, buf, v2⟩ acc [] hcv (Nat.le_refl _)
    · rw [lexH_blank fpr hcx e hx hh]
      exact lexH_acc fpr _ ⟨.initial, buf, v2⟩ _ [] hcv (Nat.le_refl _)
  have k1 := key (w ++ w2) acc (by simpa using hc) (by intro y hy; rcases List.mem_append.1 hy with h | h; exact hb y h; exact ha y h)
  have k2 := key w2 [] (fun b hb => hc b (by simp at hb ⊢; grind)) ha
  rw [List.append_assoc] at k1
  exact ⟨k1.1.trans k2.1.symm, k1.2.trans k2.2.symm⟩

/-! ## Replacing blanks after a token boundary -/

theorem append_cases {a b c d : Bytes} (h : a ++ b = c ++ d) : (∃ e, c = a ++ e ∧ b = e ++ d) ∨ (∃ e, e ≠ [] ∧ a = c ++ e ∧ d = e ++ b) := by
  rcases List.append_eq_append_iff.1 h with ⟨e, h1, h2⟩ | ⟨e, h1, h2⟩
  · exact .inl ⟨e, h1, h2⟩
  · by_cases he : e = []
    · subst he; exact .inl ⟨[], by simp_all, by simp_all⟩
    · exact .inr ⟨e, he, h1, h2⟩

/-- A match of an `INITIAL` rule that extends beyond `p` into blanks `w'` also exists (maybe with another
length) if the blanks are others, except for quoted identifiers. -/
theorem fires_over {r : Nat} {p w w' v x z : Bytes} (hp : p ≠ []) (hw : w ≠ []) (hwb : ∀ c ∈ w, isBlank c = true)
    (hw' : w' ≠ []) (hwb' : ∀ c ∈ w', isBlank c = true) (hx : x ≠ []) (e : w' ++ v = x ++ z) (h : Fires r (p ++ x)) :
    (∃ y q, y ≠ [] ∧ w ++ v = y ++ q ∧ Fires r (p ++ y)) ∨ (∃ u, p = 34 :: u ∧ ∀ c ∈ u, c ≠ 34 ∧ c ≠ 10) := by
  -- the first byte after p is a blank
  obtain ⟨b, x', rfl⟩ : ∃ b x', x = b :: x' := by
    cases x with
    | nil => exact absurd rfl hx
    | cons b x' => exact ⟨b, x', rfl⟩
  have hbb : isBlank b = true := by
    cases w' with
    | nil => exact absurd rfl hw'
    | cons c w' => simp only [List.cons_append, List.cons.injEq] at e; rw [← e.1]; exact hwb' _ (by simp)
  obtain ⟨b1, b2, b3, b4, b5, b6, b7, b8⟩ := blank_facts hbb
  have hmem : b ∈ p ++ b :: x' := by simp
  have nolet : ∀ {A a : Bytes}, upper a = A → (∀ c ∈ A, isLetter c = true) → b ∈ a → False := by
    intro A a h1 h2 h3
    have := letters_of_upper (w := a) (by rw [h1]; exact h2) b h3
    rw [b1] at this; cases this
  have two : ∀ (A B a y c : Bytes), p ++ b :: x' = a ++ y ++ c → upper a = A → y ≠ [] → (∀ c ∈ y, isBlank c = true) → upper c = B →
      (∀ c ∈ A, isLetter c = true) → (∀ c ∈ B, isLetter c = true) →
      ∃ y' q, a ++ y' ++ c = p ++ q ∧ y' ≠ [] ∧ (∀ c ∈ y', isBlank c = true) ∧ q ≠ [] ∧ ∃ q', w ++ v = q ++ q' := by
    intro A B a y c e1 ha hy hyb hc hA hB
    -- p is a prefix of a ++ y
    have hpa : ∃ y0 y1, p = a ++ y0 ∧ y = y0 ++ y1 ∧ b :: x' = y1 ++ c := by
      rw [List.append_assoc] at e1
      rcases append_cases e1.symm with ⟨f, e2, e3⟩ | ⟨f, hf, e2, e3⟩
      · -- p = a ++ f
        rcases append_cases e3 with ⟨g, e4, e5⟩ | ⟨g, hg, e4, e5⟩
        · exfalso
          have : b ∈ c := by rw [e5]; simp
          exact nolet hc hB this
        · exact ⟨f, g, e2, e4, e5⟩
      · exfalso
        cases f with
        | nil => exact absurd rfl hf
        | cons d f =>
          cases e3
          exact nolet ha hA (by rw [e2]; simp)
    obtain ⟨y0, y1, rfl, rfl, e2⟩ := hpa
    -- w' ++ v = y1 ++ c ++ z
    rw [e2] at e
    -- w' is within y1
    have hcase : ∃ v0, v = v0 ++ c ++ z ∧ (∀ x ∈ v0, isBlank x = true) ∨ c = [] := by
      rw [List.append_assoc] at e
      rcases append_cases e with ⟨f, e3, e4⟩ | ⟨f, hf, e3, e4⟩
      · refine ⟨f, .inl ⟨by rw [e4]; simp, fun x hx => hyb x (by simp [e3, hx])⟩⟩
      · by_cases hcn : c = []
        · exact ⟨[], .inr hcn⟩
        · exfalso
          cases c with
          | nil => exact absurd rfl hcn
          | cons d c =>
            cases f with
            | nil => exact absurd rfl hf
            | cons g f =>
              simp only [List.cons_append, List.cons.injEq] at e4
              have h1 := hwb' d (by rw [e3, e4.1]; simp)
              have h2 := letters_of_upper (w := d :: c) (by rw [hc]; exact hB) d (by simp)
              rw [not_blank_of_letter h2] at h1; cases h1
    obtain ⟨v0, hcase⟩ := hcase
    rcases hcase with ⟨rfl, hv0⟩ | rfl
    · refine ⟨y0 ++ w ++ v0, w ++ v0 ++ c, by simp, by simp [hw], ?_, by simp [hw], z, by simp⟩
      intro x hx
      simp only [List.mem_append] at hx
      rcases hx with (hx | hx) | hx
      · exact hyb x (by simp [hx])
      · exact hwb x hx
      · exact hv0 x hx
    · refine ⟨y0 ++ w, w, by simp, by simp [hw], ?_, hw, v, rfl⟩
      intro x hx
      simp only [List.mem_append] at hx
      rcases hx with hx | hx
      · exact hyb x (by simp [hx])
      · exact hwb x hx
  generalize hpx : p ++ b :: x' = t at h
  cases h with
  | comment => rw [hpx] at hmem; simp at hmem; omega
  | blank h1 h2 =>
    left
    subst hpx
    refine ⟨w, v, hw, rfl, .blank (by simp [hp]) ?_⟩
    intro c hc
    rcases List.mem_append.1 hc with hc | hc
    · exact h2 c (by simp [hc])
    · exact hwb c hc
  | kw h1 h2 =>
    exfalso; rw [hpx] at hmem
    exact nolet h2 (kw_letters _ (List.mem_of_getElem? h1)).2 hmem
  | currentRow h1 h2 h3 h4 =>
    obtain ⟨y', q, e1, hy', hyb', hq, q', e2⟩ := two _ _ _ _ _ hpx h1 h2 h3 h4 (by decide) (by decide)
    left; exact ⟨q, q', hq, e2, by rw [← e1]; exact .currentRow h1 hy' hyb' h4⟩
  | charVarying h1 h2 h3 h4 =>
    obtain ⟨y', q, e1, hy', hyb', hq, q', e2⟩ := two _ _ _ _ _ hpx h1 h2 h3 h4 (by decide) (by decide)
    left; exact ⟨q, q', hq, e2, by rw [← e1]; exact .charVarying h1 hy' hyb' h4⟩
  | op h1 =>
    exfalso
    rw [hpx] at hmem
    simp only [List.mem_cons, Prod.mk.injEq, List.not_mem_nil, or_false] at h1
    unfold isBlank at hbb
    simp at hbb
    rcases h1 with ⟨_, rfl⟩ | ⟨_, rfl⟩ | ⟨_, rfl⟩ | ⟨_, rfl⟩ | ⟨_, rfl⟩ | ⟨_, rfl⟩ | ⟨_, rfl⟩ <;> simp at hmem <;> omega
  | self h1 =>
    exfalso
    cases p with
    | nil => exact absurd rfl hp
    | cons => simp at hpx
  | float h1 h2 h3 =>
    exfalso; rw [hpx] at hmem
    rcases List.mem_append.1 hmem with h | h
    · have := h2 b h; rw [b2] at this; cases this
    · rcases List.mem_cons.1 h with h | h
      · exact b6 h
      · have := h3 b h; rw [b2] at this; cases this
  | dotFloat h1 =>
    exfalso; rw [hpx] at hmem
    rcases List.mem_cons.1 hmem with h | h
    · exact b6 h
    · have := h1 b h; rw [b2] at this; cases this
  | int h1 h2 =>
    exfalso; rw [hpx] at hmem
    have := h2 b hmem; rw [b2] at this; cases this
  | quoted h1 h2 =>
    right
    cases p with
    | nil => exact absurd rfl hp
    | cons d p =>
      rename_i u
      simp only [List.cons_append, List.cons.injEq] at hpx
      obtain ⟨rfl, hpx⟩ := hpx
      refine ⟨p, rfl, fun c hc => ?_⟩
      have hcm : c ∈ u ++ [34] := by rw [← hpx]; simp [hc]
      -- c lies in u since something follows p
      rcases append_cases hpx with ⟨f, e1, e2⟩ | ⟨f, hf, e1, e2⟩
      · exact h2 c (by rw [e1]; simp [hc])
      · exfalso
        cases f with
        | nil => exact absurd rfl hf
        | cons g f =>
          have := congrArg List.length e2
          simp at this
  | word h1 h2 =>
    exfalso; rw [hpx] at hmem
    rcases List.mem_cons.1 hmem with h | h
    · rw [← h, b1] at h1; cases h1
    · have := h2 b h; rw [not_wordc_of_blank hbb] at this; cases this
  | squote =>
    exfalso
    cases p with
    | nil => exact absurd rfl hp
    | cons => simp at hpx
  | any h1 =>
    exfalso
    cases p with
    | nil => exact absurd rfl hp
    | cons => simp at hpx


theorem Best.unique {t : Bytes} {r n r' n' : Nat} (h : Best t r n) (h' : Best t r' n') : r = r' ∧ n = n' := by
  have a := h.best r' _ _ (List.take_append_drop n' t).symm h'.fires
  have b := h'.best r _ _ (List.take_append_drop n t).symm h.fires
  have l := h.le
  have l' := h'.le
  simp only [List.length_take, Nat.min_eq_left l, Nat.min_eq_left l'] at a b
  omega

theorem hand_swap_initial {p w w' v : Bytes} {r n : Nat} (hp : p ≠ []) (hw : w ≠ []) (hwb : ∀ c ∈ w, isBlank c = true)
    (hw' : w' ≠ []) (hwb' : ∀ c ∈ w', isBlank c = true) (h : handInitial (p ++ (w ++ v)) = (r, n)) (hn : n ≤ p.length)
    (h188 : r ≠ 188 ∨ 10 ∈ p) : handInitial (p ++ (w' ++ v)) = (r, n) := by
  have hb := best_hand (text := p ++ (w ++ v)) (by simp [hp])
  rw [h] at hb
  simp only [] at hb
  have hb' := best_hand (text := p ++ (w' ++ v)) (by simp [hp])
  have key : Best (p ++ (w' ++ v)) r n := by
    have ht : ∀ x : Bytes, (p ++ x).take n = p.take n := fun x => by
      rw [List.take_append_of_le_length hn]
    refine ⟨by simp; omega, ?_, ?_⟩
    · have := hb.fires
      rw [ht] at this ⊢; exact this
    · intro r' p' q e hf
      rcases append_cases e with ⟨f, rfl, e2⟩ | ⟨f, hf0, rfl, e2⟩
      · by_cases hf0 : f = []
        · subst hf0
          exact hb.best r' (p ++ []) (w ++ v) (by simp) hf
        · rcases fires_over hp hw hwb hw' hwb' hf0 e2 hf with ⟨y, q', hy, e3, hf'⟩ | ⟨u, rfl, hu⟩
          · have := (hb.best r' (p ++ y) q' (by rw [e3]; simp) hf').1
            exfalso
            cases y with
            | nil => exact absurd rfl hy
            | cons => simp at this; omega
          · exfalso
            have hfi := hb.fires
            rw [ht] at hfi
            rcases n with _ | n
            · simp at hfi; exact fires_ne hfi rfl
            simp only [List.take_succ_cons] at hfi
            rcases h188 with h188 | h188
            · rcases fires_head hfi with ⟨_, hh⟩ | ⟨_, hh⟩ | ⟨g1, g2, hh⟩ | ⟨g1, g2, hh⟩ | ⟨_, hh⟩ | ⟨_, hh⟩ | ⟨_, hh⟩ | ⟨_, hh⟩ | ⟨rfl, _⟩ | ⟨_, hh⟩ | ⟨_, hh⟩ | ⟨hh, _⟩
              · cases hh
              · cases hh
              · cases hh
              · rcases hh with hh | hh <;> cases hh
              · cases hh
              · cases hh
              · cases hh
              · cases hh
              · obtain ⟨u', e4, _, _⟩ := fires182 hfi
                simp only [List.cons_append, List.cons.injEq, true_and] at e4
                have : 34 ∈ u.take n := by rw [e4]; simp
                exact (hu 34 (List.mem_of_mem_take this)).1 rfl
              · cases hh
              · cases hh
              · exact h188 hh
            · rcases List.mem_cons.1 h188 with h | h
              · cases h
              · exact (hu 10 h).2 rfl
      · exact hb.best r' p' (f ++ (w ++ v)) (by simp) hf
  have := key.unique hb'
  cases hx : handInitial (p ++ (w' ++ v))
  rw [hx] at this
  simp only [] at this
  rw [this.1, this.2]

theorem takeWhile_append_of_neg {q : Nat → Bool} {a b b' : Bytes} (h : ∃ x ∈ a, q x = false) :
    (a ++ b).takeWhile q = (a ++ b').takeWhile q ∧ ((a ++ b).takeWhile q).length < a.length := by
  induction a with
  | nil => simp at h
  | cons c a ih =>
    cases hc : q c with
    | false => simp [hc]
    | true =>
      have : ∃ x ∈ a, q x = false := by
        obtain ⟨x, hx, hq⟩ := h
        rcases List.mem_cons.1 hx with rfl | hx
        · rw [hc] at hq; cases hq
        · exact ⟨x, hx, hq⟩
      have := ih this
      simp [hc, this.1]
      rw [← this.1]; simpa using this.2

theorem hand_swap {sc : SC} {p w w' v : Bytes} {r n : Nat} (hp : p ≠ []) (hw : w ≠ []) (hwb : ∀ c ∈ w, isBlank c = true)
    (hw' : w' ≠ []) (hwb' : ∀ c ∈ w', isBlank c = true) (h : handStep sc (p ++ (w ++ v)) = (r, n)) (hn : n ≤ p.length)
    (h188 : r ≠ 188) (hend : n = p.length → r ≠ 1 ∧ r ≠ 2) : handStep sc (p ++ (w' ++ v)) = (r, n) := by
  cases sc with
  | initial => exact hand_swap_initial hp hw hwb hw' hwb' h hn (.inl h188)
  | squote =>
    obtain ⟨c, w1, rfl⟩ : ∃ c w1, w = c :: w1 := by
      cases w with
      | nil => exact absurd rfl hw
      | cons c w1 => exact ⟨c, w1, rfl⟩
    obtain ⟨c', w1', rfl⟩ : ∃ c' w1', w' = c' :: w1' := by
      cases w' with
      | nil => exact absurd rfl hw'
      | cons c w1 => exact ⟨c, w1, rfl⟩
    have hc := (blank_facts (hwb c (by simp))).2.2.2.2.2.2.2
    have hc' := (blank_facts (hwb' c' (by simp))).2.2.2.2.2.2.2
    change handSquote _ = _ at h
    show handSquote _ = _
    obtain ⟨b, p1, rfl⟩ : ∃ b p1, p = b :: p1 := by
      cases p with
      | nil => exact absurd rfl hp
      | cons c w1 => exact ⟨c, w1, rfl⟩
    by_cases hb : b = 39
    · subst hb
      cases p1 with
      | nil =>
        simp [handSquote, hc] at h
        simp [handSquote, hc', h]
      | cons d p1 =>
        by_cases hd : d = 39
        · subst hd; simpa [handSquote] using h
        · simp [handSquote, hd] at h ⊢; exact h
    · have e : ∀ x, handSquote (b :: p1 ++ x) = (186, ((b :: p1 ++ x).takeWhile (fun c => c != 39)).length) := by
        intro x
        unfold handSquote
        split
        · rename_i heq; simp at heq; exact absurd heq.1 hb
        · rename_i heq; simp at heq; exact absurd heq.1 hb
        · rfl
      rw [e] at h ⊢
      by_cases hq : ∃ x ∈ b :: p1, (x != 39) = false
      · rw [← (takeWhile_append_of_neg (b := c :: w1 ++ v) hq).1]; exact h
      · exfalso
        have hall : ∀ x ∈ b :: p1 ++ [c], (x != 39) = true := by
          intro x hx
          rcases List.mem_append.1 hx with hx | hx
          · cases hxx : (x != 39) with
            | true => rfl
            | false => exact absurd ⟨x, hx, hxx⟩ hq
          · simp at hx; subst hx; simpa using hc
        have := takeWhile_le (p := fun x => x != 39) (b := w1 ++ v) hall
        have e2 : b :: p1 ++ [c] ++ (w1 ++ v) = b :: p1 ++ (c :: w1 ++ v) := by simp
        rw [e2] at this
        simp only [Prod.mk.injEq] at h
        have h2 := h.2
        simp at this h2 hn
        omega
  | comment =>
    change handComment _ = _ at h
    show handComment _ = _
    by_cases hnl : 10 ∈ p
    · have hk := takeWhile_append_of_neg (q := fun c => c != 10) (b := w ++ v) (b' := w' ++ v) ⟨10, hnl, by simp⟩
      unfold handComment at h ⊢
      rw [← hk.1]
      generalize hI : handInitial (p ++ (w ++ v)) = rn at h
      obtain ⟨rI, nI⟩ := rn
      simp only [] at h
      have hsw : nI ≤ p.length → handInitial (p ++ (w' ++ v)) = (rI, nI) := fun hle =>
        hand_swap_initial hp hw hwb hw' hwb' hI hle (.inr hnl)
      have hle : nI ≤ p.length := by
        have h2 := hk.2
        split at h
        · split at h
          · rename_i hn1
            have := List.length_pos_of_mem hnl
            omega
          · simp only [Prod.mk.injEq] at h; omega
        · split at h
          · simp only [Prod.mk.injEq] at h; omega
          · rename_i hcon
            simp only [not_or, Nat.not_lt] at hcon
            have := hcon.1
            omega
      rw [hsw hle]; exact h
    · exfalso
      unfold handComment at h
      have hall : ∀ x ∈ p, (x != 10) = true := by
        intro x hx; simp; rintro rfl; exact hnl hx
      have hk := takeWhile_le (p := fun c => c != 10) (b := w ++ v) hall
      have hppos : 0 < p.length := List.length_pos_iff.2 hp
      generalize handInitial (p ++ (w ++ v)) = rn at h
      obtain ⟨rI, nI⟩ := rn
      generalize ((p ++ (w ++ v)).takeWhile (fun c => c != 10)).length = k at h hk
      simp only [] at h
      rw [if_neg (by omega)] at h
      split at h
      · rename_i hc
        simp only [Prod.mk.injEq] at h
        obtain ⟨rfl, rfl⟩ := h
        rcases hc with hc | hc
        · omega
        · exact (hend (by omega)).1 hc.2
      · simp only [Prod.mk.injEq] at h
        exact (hend (by omega)).2 h.1.symm

theorem LRun.length_le {fpr : Int} {st st' : LexSt} {acc acc' : List Bytes} {T : List Tok} (h : LRun fpr st acc T st' acc') :
    st'.rest.length ≤ st.rest.length := by
  induction h with
  | refl => exact Nat.le_refl _
  | skip _ _ _ _ ih => simp at ih ⊢; omega
  | ret _ _ _ _ _ ih => simp at ih ⊢; omega

theorem LRun.eq_of_length {fpr : Int} {st st' : LexSt} {acc acc' : List Bytes} {T : List Tok} (h : LRun fpr st acc T st' acc')
    (hc : Clean st.rest) (hl : st.rest.length ≤ st'.rest.length) : st = st' ∧ T = [] ∧ acc = acc' := by
  cases h with
  | refl => exact ⟨rfl, rfl, rfl⟩
  | @skip sc _ _ _ _ _ _ _ _ _ _ h1 h2 h3 h4 =>
    exfalso
    have := h4.length_le
    have hp := hand_pos sc hc h1
    rw [h2] at hp
    simp at this hl hp; omega
  | @ret sc _ _ _ _ _ _ _ _ _ _ _ _ h1 h2 h3 h5 h4 =>
    exfalso
    have := h4.length_le
    have hp := hand_pos sc hc h1
    rw [h2] at hp
    simp at this hl hp; omega

theorem rule2_comment {sc : SC} {t : Bytes} {n : Nat} (hc : Clean t) (hne : t ≠ []) (h : handStep sc t = (2, n)) : sc = .comment := by
  have := (longest_hand sc hc hne).isMatch
  rw [h] at this
  obtain ⟨rule, h1, _, h3, _⟩ := this
  have : lexRules[2 - 1]? = some ⟨some .comment, [many notNewline]⟩ := rfl
  simp only [] at h1
  rw [this] at h1
  cases h1
  cases sc
  · cases h3
  · cases h3
  · rfl

theorem LRun.swap {fpr : Int} {w w' v : Bytes} {buf' : Bytes} (hw : w ≠ []) (hwb : ∀ c ∈ w, isBlank c = true)
    (hw' : w' ≠ []) (hwb' : ∀ c ∈ w', isBlank c = true) {st st' : LexSt} {acc acc' : List Bytes} {T : List Tok}
    (h : LRun fpr st acc T st' acc') : ∀ p, Clean st.rest → st.rest = p ++ (w ++ v) → st' = ⟨.initial, buf', w ++ v⟩ →
    LRun fpr ⟨st.sc, st.buf, p ++ (w' ++ v)⟩ acc T ⟨.initial, buf', w' ++ v⟩ acc' := by
  have side : ∀ {acc' : List Bytes} {sc sc' : SC} {buf1 rest : Bytes} {acc1 : List Bytes} {r n : Nat} {T' : List Tok} (p : Bytes),
      Clean rest → rest ≠ [] → rest = p ++ (w ++ v) → handStep sc rest = (r, n) →
      LRun fpr ⟨sc', buf1, rest.drop n⟩ acc1 T' ⟨.initial, buf', w ++ v⟩ acc' → r ≠ 188 → (r = 1 → sc' = .comment) → (r = 2 → sc' = sc) →
      rest.drop n = p.drop n ++ (w ++ v) ∧ rest.take n = (p ++ (w' ++ v)).take n ∧ (p ++ (w' ++ v)).drop n = p.drop n ++ (w' ++ v) ∧
      handStep sc (p ++ (w' ++ v)) = (r, n) ∧ p ++ (w' ++ v) ≠ [] := by
    intro acc' sc sc' buf1 rest acc1 r n T' p hc hne e hs hrun h188 h1 h2
    have hl := hrun.length_le
    have hp := hand_pos sc hc hne
    rw [hs] at hp
    simp only [List.length_drop] at hl
    have hlen : rest.length = p.length + (w ++ v).length := by rw [e]; simp
    have hn : n ≤ p.length := by simp only [] at hp; omega
    have hpne : p ≠ [] := by
      rintro rfl
      simp at hn; omega
    subst e
    refine ⟨?_, ?_, ?_, ?_, by simp [hpne]⟩
    · rw [List.drop_append_of_le_length hn]
    · rw [List.take_append_of_le_length hn, List.take_append_of_le_length hn]
    · rw [List.drop_append_of_le_length hn]
    · refine hand_swap hpne hw hwb hw' hwb' hs hn h188 ?_
      intro hnp
      have hfin := hrun.eq_of_length (clean_drop hc n) (by simp only [List.length_drop]; omega)
      have hsc : sc' = .initial := by
        have := congrArg LexSt.sc hfin.1; exact this
      refine ⟨fun hr => ?_, fun hr => ?_⟩
      · rw [h1 hr] at hsc; cases hsc
      · rw [h2 hr] at hsc
        subst hr
        rw [rule2_comment hc hne hs] at hsc; cases hsc
  induction h with
  | refl =>
    intro p hc e e'
    subst e'
    have : p = [] := by
      have := congrArg List.length e
      simp at this
      exact this
    subst this
    simpa using LRun.refl
  | @skip sc buf rest acc r n sc' buf1 T st' acc' h1 h2 h3 h4 ih =>
    intro p hc e e'
    subst e'
    have h188 : r ≠ 188 := by rintro rfl; simp [lexAction] at h3
    obtain ⟨k1, k2, k3, k4, k5⟩ := side p hc h1 e h2 h4 h188
      (by rintro rfl; simp [lexAction] at h3; exact h3.1.symm) (by rintro rfl; simp [lexAction] at h3; exact h3.1.symm)
    have := ih (p.drop n) (clean_drop hc n) k1 rfl
    rw [k2] at h3
    refine .skip k5 k4 h3 ?_
    rw [k3, ← k2]
    exact this
  | @ret sc buf rest acc r n sc' buf1 c val T st' acc' h1 h2 h3 h5 h4 ih =>
    intro p hc e e'
    subst e'
    have h188 : r ≠ 188 := by rintro rfl; simp [lexAction] at h3; exact h5 h3.2.2.1.symm
    obtain ⟨k1, k2, k3, k4, k5⟩ := side p hc h1 e h2 h4 h188
      (by rintro rfl; simp [lexAction] at h3) (by rintro rfl; simp [lexAction] at h3)
    have := ih (p.drop n) (clean_drop hc n) k1 rfl
    rw [k2] at h3
    rw [k2]
    refine .ret k5 k4 h3 h5 ?_
    rw [k3]
    exact this

end Verif.Lex

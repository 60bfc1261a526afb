import Verif.Lex.Cut
/-! The scanner on a text cut off right behind a token. Proof-internal. -/
namespace Verif.Lex

/-- What a run read. -/
theorem LRun.text {fpr : Int} {st st' : LexSt} {acc acc' : List Bytes} {T : List Tok} (h : LRun fpr st acc T st' acc') :
    acc.reverse.flatten ++ st.rest = (T.flatMap Tok.pieces).flatten ++ (acc'.reverse.flatten ++ st'.rest) := by
  induction h with
  | refl => simp
  | @skip sc buf rest acc r n sc' buf1 T st' acc' h1 h2 h3 h4 ih =>
    rw [← ih]; simp
  | @ret sc buf rest acc r n sc' buf' c v T st' acc' h1 h2 h3 h4 h5 ih =>
    rw [List.flatMap_cons, List.flatten_append, List.append_assoc, ← ih]; simp

/-- The tokens before any token are read by a run. -/
theorem lexH_run (fpr : Int) : ∀ (k : Nat) (st : LexSt) (acc : List Bytes), Clean st.rest → st.rest.length ≤ k → ∀ (P R : List Tok) (t : Tok),
    (lexH fpr st acc).1 = P ++ t :: R → (∀ x ∈ P, x.code ≠ 0) → P ≠ [] → ∃ st', LRun fpr st acc P st' [] := by
  intro k
  induction k with
  | zero =>
    intro st acc hc hk P R t h hP hne
    obtain ⟨sc, buf, rest⟩ := st
    have : rest = [] := List.eq_nil_of_length_eq_zero (by simpa using hk)
    subst this
    rw [lexH_nil] at h
    cases P with
    | nil => exact absurd rfl hne
    | cons p P => have := congrArg List.length h; simp at this
  | succ k ih =>
    intro st acc hc hk P R t h hP hne
    obtain ⟨sc, buf, rest⟩ := st
    by_cases hr : rest = []
    · subst hr
      rw [lexH_nil] at h
      cases P with
      | nil => exact absurd rfl hne
      | cons p P => have := congrArg List.length h; simp at this
    · obtain ⟨a, ha⟩ := lexAction_total fpr sc buf hc hr
      have hp := hand_pos sc hc hr
      generalize hs : handStep sc rest = rn at ha hp
      obtain ⟨r, n⟩ := rn
      simp only [] at ha hp
      have hl : (rest.drop n).length ≤ k := by
        have : 0 < rest.length := by cases rest with
          | nil => exact absurd rfl hr
          | cons => simp
        simp only [List.length_drop]
        simp only [] at hk
        omega
      cases a with
      | skip sc' buf' =>
        rw [lexH_skip hc hr hs ha] at h
        obtain ⟨st', h'⟩ := ih ⟨sc', buf', rest.drop n⟩ _ (clean_drop hc n) hl P R t h hP hne
        exact ⟨st', .skip hr hs ha h'⟩
      | ret sc' buf' c v =>
        by_cases h0 : c = 0
        · subst h0
          rw [lexH_ret0 hc hr hs ha] at h
          cases P with
          | nil => exact absurd rfl hne
          | cons p P => have := congrArg List.length h; simp at this
        · rw [lexH_ret hc hr hs ha h0] at h
          cases P with
          | nil => exact absurd rfl hne
          | cons p P =>
            simp only [List.cons_append, List.cons.injEq] at h
            obtain ⟨rfl, h⟩ := h
            by_cases hPn : P = []
            · subst hPn
              exact ⟨_, .ret hr hs ha h0 .refl⟩
            · obtain ⟨st', h'⟩ := ih ⟨sc', buf', rest.drop n⟩ [] (clean_drop hc n) hl P R t h (fun x hx => hP x (by simp [hx])) hPn
              exact ⟨st', .ret hr hs ha h0 h'⟩

theorem takeWhile_take {α : Type} (p : α → Bool) : ∀ (l : List α) (k : Nat), (l.take k).takeWhile p = (l.takeWhile p).take k
  | [], k => by simp
  | x :: l, 0 => by simp
  | x :: l, k + 1 => by
    simp only [List.take_succ_cons, List.takeWhile_cons]
    split
    · rw [List.take_succ_cons, takeWhile_take p l k]
    · simp

theorem cText_take (sql : List UInt8) (k : Nat) : cText (sql.take k) = (cText sql).take k := by
  unfold cText
  rw [takeWhile_take, List.map_take]

/-- The length of the text of some tokens, with the blanks and comments before them. -/
def textLen (ts : List Tok) : Nat := (ts.flatMap Tok.pieces).flatten.length

theorem lexH_cut {fpr : Int} {sql : List UInt8} {P R : List Tok} {t : Tok} (h : (lexH fpr (lexInit [] (cText sql)) []).1 = P ++ t :: R) (hP : ∀ x ∈ P, x.code ≠ 0) :
    (lexH fpr (lexInit [] (cText (sql.take (textLen P)))) []).1 = P ++ [⟨0, .none, []⟩] := by
  by_cases hne : P = []
  · subst hne
    have : textLen [] = 0 := rfl
    rw [this]
    show (lexH fpr ⟨.initial, [], []⟩ []).1 = _
    rw [lexH_nil]; rfl
  · obtain ⟨⟨sc, buf, v⟩, hr⟩ := lexH_run fpr _ _ _ (cText_clean sql) (Nat.le_refl _) P R t h hP hne
    have ht := hr.text
    simp only [List.reverse_nil, List.flatten_nil, List.nil_append] at ht
    have ht : cText sql = (P.flatMap Tok.pieces).flatten ++ v := ht
    have hcut := hr.cut _ (cText_clean sql) ht rfl
    have hcl : Clean ((P.flatMap Tok.pieces).flatten) := by
      intro b hb
      exact cText_clean sql b (by rw [ht]; simp only [List.mem_append]; exact .inl hb)
    have e : cText (sql.take (textLen P)) = (P.flatMap Tok.pieces).flatten := by
      rw [cText_take, ht, textLen, List.take_left']
      rfl
    have h1 := (hcut.lexH hcl).1
    rw [lexH_nil] at h1
    rw [e]
    show (lexH fpr ⟨.initial, [], _⟩ []).1 = _
    have e2 : lexH fpr ⟨.initial, [], (P.flatMap Tok.pieces).flatten⟩ [] = _ := h1
    rw [e2]
    rfl

end Verif.Lex

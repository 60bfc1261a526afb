import Verif.Lex.HandCorrect
import Verif.Lex.Lexer
/-! Facts about the lexer: totality, a flat recursion, one-step lemmas (proof-internal). -/
namespace Verif.Lex

/-- The action never fails on a match found by the scanner. -/
theorem lexAction_total (fpr : Int) (sc : SC) (buf : Bytes) {t : Bytes} (hc : Clean t) (hne : t ≠ []) :
    ∃ a, lexAction fpr sc buf (handStep sc t).1 (t.take (handStep sc t).2) = some a := by
  have hl := longest_hand sc hc hne
  obtain ⟨rule, h1, h2, _, _⟩ := hl.isMatch
  have hr : (handStep sc t).1 ≤ 188 := by
    have : (handStep sc t).1 - 1 < lexRules.length := by
      rcases Nat.lt_or_ge ((handStep sc t).1 - 1) lexRules.length with h | h
      · exact h
      · rw [List.getElem?_eq_none h] at h1; cases h1
    rw [lexRules_len] at this; omega
  have hp := hand_pos sc hc hne
  have hh : ∃ c, (t.take (handStep sc t).2).head? = some c := by
    cases t with
    | nil => exact absurd rfl hne
    | cons b t =>
      generalize hn : (handStep sc (b :: t)).2 = n at hp
      rcases n with _ | n
      · omega
      · exact ⟨b, rfl⟩
  obtain ⟨c, hh⟩ := hh
  generalize (handStep sc t).1 = r at *
  generalize t.take (handStep sc t).2 = w at *
  unfold lexAction
  by_cases k : r ≤ 168
  · by_cases k1 : 5 ≤ r
    · have : ∃ k, keywords[r - 5]? = some k := by
        have : r - 5 < keywords.length := by rw [kw_len]; omega
        exact ⟨keywords[r-5], by simp [this]⟩
      obtain ⟨k', hk'⟩ := this
      rw [if_neg (by omega), if_neg (by omega), if_neg (by omega), if_neg (by omega), if_pos k, hk']
      exact ⟨_, rfl⟩
    · have : r = 1 ∨ r = 2 ∨ r = 3 ∨ r = 4 := by omega
      rcases this with rfl | rfl | rfl | rfl <;> exact ⟨_, rfl⟩
  · have : r = 169 ∨ r = 170 ∨ r = 171 ∨ r = 172 ∨ r = 173 ∨ r = 174 ∨ r = 175 ∨ r = 176 ∨ r = 177 ∨ r = 178 ∨ r = 179 ∨ r = 180 ∨ r = 181 ∨ r = 182 ∨ r = 183 ∨ r = 184 ∨ r = 185 ∨ r = 186 ∨ r = 187 ∨ r = 188 := by omega
    rcases this with rfl | rfl | rfl | rfl | rfl | rfl | rfl | rfl | rfl | rfl | rfl | rfl | rfl | rfl | rfl | rfl | rfl | rfl | rfl | rfl
    all_goals first | exact ⟨_, rfl⟩ | (rw [hh]; exact ⟨_, rfl⟩)

/-- The lexer as one flat recursion on the readable scanner: `acc` are the pieces since the last token. -/
noncomputable def lexH (fpr : Int) (st : LexSt) (acc : List Bytes) : List Tok × LexSt :=
  if _hr : st.rest = [] then ([⟨0, .none, acc.reverse⟩], st)
  else
    if _hn : (handStep st.sc st.rest).2 = 0 then ([], st)
    else
      match lexAction fpr st.sc st.buf (handStep st.sc st.rest).1 (st.rest.take (handStep st.sc st.rest).2) with
      | none => ([], st)
      | some (.skip sc buf) => lexH fpr ⟨sc, buf, st.rest.drop (handStep st.sc st.rest).2⟩ (st.rest.take (handStep st.sc st.rest).2 :: acc)
      | some (.ret sc buf c v) =>
        if c = 0 then ([⟨c, v, (st.rest.take (handStep st.sc st.rest).2 :: acc).reverse⟩], ⟨sc, buf, st.rest.drop (handStep st.sc st.rest).2⟩)
        else
          (⟨c, v, (st.rest.take (handStep st.sc st.rest).2 :: acc).reverse⟩ ::
            (lexH fpr ⟨sc, buf, st.rest.drop (handStep st.sc st.rest).2⟩ []).1,
            (lexH fpr ⟨sc, buf, st.rest.drop (handStep st.sc st.rest).2⟩ []).2)
termination_by st.rest.length
decreasing_by
  all_goals
    have : st.rest.length ≠ 0 := by simpa using _hr
    simp only [List.length_drop]
    omega

theorem clean_drop {t : Bytes} (h : Clean t) (n : Nat) : Clean (t.drop n) := fun b hb => h b (List.mem_of_mem_drop hb)

theorem lexH_nil (fpr : Int) (sc : SC) (buf : Bytes) (acc : List Bytes) :
    lexH fpr ⟨sc, buf, []⟩ acc = ([⟨0, .none, acc.reverse⟩], ⟨sc, buf, []⟩) := by
  rw [lexH]; simp

theorem lexH_skip {fpr : Int} {sc sc' : SC} {buf buf' t : Bytes} {acc : List Bytes} {r n : Nat} (hc : Clean t) (hne : t ≠ [])
    (hs : handStep sc t = (r, n)) (ha : lexAction fpr sc buf r (t.take n) = some (.skip sc' buf')) :
    lexH fpr ⟨sc, buf, t⟩ acc = lexH fpr ⟨sc', buf', t.drop n⟩ (t.take n :: acc) := by
  have hp := hand_pos sc hc hne
  rw [hs] at hp
  rw [lexH]
  simp only [hs, ha, hne, dite_false]
  rw [dif_neg (by omega)]

theorem lexH_ret {fpr : Int} {sc sc' : SC} {buf buf' t : Bytes} {acc : List Bytes} {r n : Nat} {c : Int} {v : TokVal} (hc : Clean t) (hne : t ≠ [])
    (hs : handStep sc t = (r, n)) (ha : lexAction fpr sc buf r (t.take n) = some (.ret sc' buf' c v)) (h0 : c ≠ 0) :
    lexH fpr ⟨sc, buf, t⟩ acc = (⟨c, v, (t.take n :: acc).reverse⟩ :: (lexH fpr ⟨sc', buf', t.drop n⟩ []).1,
      (lexH fpr ⟨sc', buf', t.drop n⟩ []).2) := by
  have hp := hand_pos sc hc hne
  rw [hs] at hp
  rw [lexH]
  simp only [hs, ha, hne, dite_false]
  rw [dif_neg (by omega), if_neg h0]

theorem lexH_ret0 {fpr : Int} {sc sc' : SC} {buf buf' t : Bytes} {acc : List Bytes} {r n : Nat} {v : TokVal} (hc : Clean t) (hne : t ≠ [])
    (hs : handStep sc t = (r, n)) (ha : lexAction fpr sc buf r (t.take n) = some (.ret sc' buf' 0 v)) :
    lexH fpr ⟨sc, buf, t⟩ acc = ([⟨0, v, (t.take n :: acc).reverse⟩], ⟨sc', buf', t.drop n⟩) := by
  have hp := hand_pos sc hc hne
  rw [hs] at hp
  rw [lexH]
  simp only [hs, ha, hne, dite_false]
  rw [dif_neg (by omega), if_pos trivial]

theorem yylexFuel_eq (fpr : Int) : ∀ (f : Nat) (st : LexSt) (acc : List Bytes), Clean st.rest → st.rest.length < f →
    ∃ t st', yylexFuel fpr f st acc = some (t, st') ∧ Clean st'.rest ∧ st'.rest.length ≤ st.rest.length ∧
      (t.code ≠ 0 → st'.rest.length < st.rest.length) ∧
      lexH fpr st acc = if t.code = 0 then ([t], st') else (t :: (lexH fpr st' []).1, (lexH fpr st' []).2) := by
  intro f
  induction f with
  | zero => intro st acc _ h; omega
  | succ f ih =>
    rintro ⟨sc, buf, rest⟩ acc hc hlen
    simp only [] at hc hlen
    by_cases hne : rest = []
    · subst hne
      refine ⟨⟨0, .none, acc.reverse⟩, ⟨sc, buf, []⟩, ?_, hc, by simp, by simp, ?_⟩
      · simp [yylexFuel, scan_nil]
      · rw [lexH_nil]; simp
    · obtain ⟨a, ha⟩ := lexAction_total fpr sc buf hc hne
      have hp := hand_pos sc hc hne
      have hs := scan_eq_hand sc hc hne
      generalize hrn : handStep sc rest = rn at *
      obtain ⟨r, n⟩ := rn
      simp only [] at ha hp hs
      have hl : rest.length - n < rest.length := by omega
      cases a with
      | skip sc' buf' =>
        obtain ⟨t, st', h1, h2, h3, h4, h5⟩ := ih ⟨sc', buf', rest.drop n⟩ (rest.take n :: acc) (clean_drop hc n) (by simp; omega)
        simp only [List.length_drop] at h3 h4
        refine ⟨t, st', ?_, h2, ?_, fun h => ?_, ?_⟩
        · simp [yylexFuel, hs, ha, h1]
        · simp only []; omega
        · have := h4 h; simp only []; omega
        · rw [lexH_skip hc hne hrn ha, h5]
      | ret sc' buf' c v =>
        refine ⟨⟨c, v, (rest.take n :: acc).reverse⟩, ⟨sc', buf', rest.drop n⟩, ?_, clean_drop hc n, ?_, fun h => ?_, ?_⟩
        · simp [yylexFuel, hs, ha]
        · simp
        · simp; omega
        · by_cases h0 : c = 0
          · subst h0
            rw [lexH_ret0 hc hne hrn ha]; simp
          · rw [lexH_ret hc hne hrn ha h0]; simp [h0]

/-- The lexer never fails and equals the flat recursion. -/
theorem lexFuel_eq (fpr : Int) : ∀ (f : Nat) (st : LexSt), Clean st.rest → st.rest.length < f →
    lexFuel fpr f st = some (lexH fpr st []) := by
  intro f
  induction f with
  | zero => intro st _ h; omega
  | succ f ih =>
    intro st hc hl
    obtain ⟨t, st', h1, h2, h3, h4, h5⟩ := yylexFuel_eq fpr (st.rest.length + 1) st [] hc (by omega)
    have h1 : yylex fpr st = some (t, st') := h1
    rw [lexFuel, h1, h5]
    by_cases h0 : t.code = 0
    · simp [h0]
    · simp only [h0, if_false]
      have := h4 h0
      rw [ih st' h2 (by omega)]

theorem lexAll_eq (fpr : Int) (st : LexSt) (hc : Clean st.rest) : lexAll fpr st = some (lexH fpr st []) :=
  lexFuel_eq fpr _ st hc (by omega)

theorem cText_clean (sql : List UInt8) : Clean (cText sql) := by
  intro b hb
  unfold cText at hb
  obtain ⟨c, hc, rfl⟩ := List.mem_map.1 hb
  have h1 : c ≠ 0 := by
    have : ∀ (l : List UInt8), c ∈ l.takeWhile (· ≠ 0) → c ≠ 0 := by
      intro l
      induction l with
      | nil => simp
      | cons d l ih =>
        intro h
        by_cases hd : d = 0
        · simp [hd] at h
        · simp [hd] at h
          rcases h with rfl | h
          · exact hd
          · exact ih (by simpa using h)
    exact this _ hc
  have h2 := c.toNat_lt
  refine ⟨?_, by omega⟩
  rcases Nat.eq_zero_or_pos c.toNat with h | h
  · exact absurd (UInt8.toNat_inj.1 (by simpa using h)) h1
  · exact h

end Verif.Lex

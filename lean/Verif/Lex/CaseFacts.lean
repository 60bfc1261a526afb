import Verif.Lex.LexFacts3
/-! Case changes and the lexer; losslessness (proof-internal). -/
namespace Verif.Lex

theorem ite_iff {α : Type} {p q : Prop} [Decidable p] [Decidable q] (h : p ↔ q) (a b : α) : ite p a b = ite q a b := by
  by_cases hp : p
  · rw [if_pos hp, if_pos (h.1 hp)]
  · rw [if_neg hp, if_neg (fun hq => hp (h.2 hq))]

theorem upperB_idem (b : Nat) : upperB (upperB b) = upperB b := by
  unfold upperB; (repeat' split) <;> omega

theorem upper_idem (w : Bytes) : upper (upper w) = upper w := by
  simp [upper, upperB_idem]

theorem blank_up (b : Nat) : isBlank (upperB b) = isBlank b := by
  have : isBlank (upperB b) = true ↔ isBlank b = true := by
    unfold isBlank upperB; simp; (repeat' split) <;> omega
  cases h : isBlank b <;> cases h' : isBlank (upperB b) <;> simp_all
theorem digit_up (b : Nat) : isDigit (upperB b) = isDigit b := by
  have : isDigit (upperB b) = true ↔ isDigit b = true := by
    unfold isDigit upperB; simp; (repeat' split) <;> omega
  cases h : isDigit b <;> cases h' : isDigit (upperB b) <;> simp_all
theorem letter_up (b : Nat) : isLetter (upperB b) = isLetter b := by
  have : isLetter (upperB b) = true ↔ isLetter b = true := by
    unfold isLetter upperB; simp; (repeat' split) <;> omega
  cases h : isLetter b <;> cases h' : isLetter (upperB b) <;> simp_all
theorem eq_up {c : Nat} (hc : ¬ (65 ≤ c ∧ c ≤ 90) ∧ ¬ (97 ≤ c ∧ c ≤ 122)) (b : Nat) : upperB b = c ↔ b = c := by
  unfold upperB; split <;> omega
theorem beq_up {c : Nat} (hc : ¬ (65 ≤ c ∧ c ≤ 90) ∧ ¬ (97 ≤ c ∧ c ≤ 122)) (b : Nat) : (upperB b == c) = (b == c) := by
  have := eq_up hc b
  cases h : (b == c) <;> cases h' : (upperB b == c) <;> simp_all
theorem wordc_up (b : Nat) : isWordc (upperB b) = isWordc b := by
  unfold isWordc; rw [letter_up, digit_up, beq_up (by omega)]
theorem self_up (b : Nat) : isSelf (upperB b) = isSelf b := by
  unfold isSelf selfChars
  simp only [List.contains_cons, List.contains_nil]
  simp only [beq_up (show ¬ (65 ≤ 45 ∧ 45 ≤ 90) ∧ ¬ (97 ≤ 45 ∧ 45 ≤ 122) by omega)]
  repeat rw [beq_up (by omega)]

theorem tw_up {p : Nat → Bool} (hp : ∀ b, p (upperB b) = p b) (t : Bytes) : (upper t).takeWhile p = upper (t.takeWhile p) := by
  induction t with
  | nil => rfl
  | cons b t ih =>
    simp only [upper, List.map_cons, List.takeWhile_cons, hp]
    split
    · simp only [List.map_cons]; exact congrArg _ ih
    · rfl

theorem upper_drop (t : Bytes) (n : Nat) : (upper t).drop n = upper (t.drop n) := by simp [upper]
theorem upper_take (t : Bytes) (n : Nat) : (upper t).take n = upper (t.take n) := by simp [upper]

theorem startsCI_up (a t : Bytes) : startsCI a (upper t) = startsCI a t := by
  unfold startsCI; rw [upper_take, upper_idem]

theorem upper_eq_nil (t : Bytes) : upper t = [] ↔ t = [] := by simp [upper]

theorem twoWords_up (a b t : Bytes) : twoWords a b (upper t) = twoWords a b t := by
  unfold twoWords
  simp only [startsCI_up, upper_drop, tw_up blank_up, upper_length, ne_eq, upper_eq_nil]

theorem kwIndex_up (w : Bytes) : kwIndex (upper w) = kwIndex w := by
  unfold kwIndex; rw [upper_idem]

theorem handWord_up (t : Bytes) : handWord (upper t) = handWord t := by
  unfold handWord
  simp only [twoWords_up, tw_up wordc_up, kwIndex_up, upper_length]

theorem handNumber_up (t : Bytes) : handNumber (upper t) = handNumber t := by
  unfold handNumber
  simp only [tw_up digit_up, upper_length, upper_drop]
  generalize t.drop (t.takeWhile isDigit).length = d
  cases d with
  | nil => rfl
  | cons b d =>
    by_cases hb : b = 46
    · subst hb
      show (178, _) = (178, _)
      have := tw_up digit_up d
      unfold upper at this
      rw [this]; simp
    · have hb' : upperB b ≠ 46 := fun h => hb ((eq_up (by omega) b).1 h)
      simp only [upper, List.map_cons]
      split
      · rename_i h; simp at h; exact absurd h.1 hb'
      · split
        · rename_i h; simp at h; exact absurd h.1 hb
        · rfl

theorem handQuoted_up (t : Bytes) : handQuoted (upper t) = handQuoted t := by
  unfold handQuoted
  have hp : ∀ b, (fun c => c != 34 && c != 10) (upperB b) = (fun c : Nat => c != 34 && c != 10) b := by
    intro b; simp only [bne, beq_up (show ¬ (65 ≤ 34 ∧ 34 ≤ 90) ∧ ¬ (97 ≤ 34 ∧ 34 ≤ 122) by omega), beq_up (show ¬ (65 ≤ 10 ∧ 10 ≤ 90) ∧ ¬ (97 ≤ 10 ∧ 10 ≤ 122) by omega)]
  simp only [tw_up (p := fun c => c != 34 && c != 10) hp, upper_length, upper_drop, ne_eq, upper_eq_nil]
  have hh : ∀ d : Bytes, ((upper d).head? = some 34) ↔ (d.head? = some 34) := by
    intro d
    cases d with
    | nil => rfl
    | cons b d => simp [upper, eq_up (show ¬ (65 ≤ 34 ∧ 34 ≤ 90) ∧ ¬ (97 ≤ 34 ∧ 34 ≤ 122) by omega)]
  simp only [hh]

theorem upper_eq_lit {c : Bytes} (hc : ∀ x ∈ c, ¬ (65 ≤ x ∧ x ≤ 90) ∧ ¬ (97 ≤ x ∧ x ≤ 122)) : ∀ w : Bytes, upper w = c ↔ w = c := by
  induction c with
  | nil => intro w; simp [upper]
  | cons x c ih =>
    intro w
    cases w with
    | nil => simp [upper]
    | cons b w =>
      simp only [upper, List.map_cons, List.cons.injEq]
      rw [eq_up (hc x (by simp))]
      have := ih (fun y hy => hc y (by simp [hy])) w
      unfold upper at this
      rw [this]

theorem handOp_up (t : Bytes) : handOp (upper t) = handOp t := by
  unfold handOp
  simp only [upper_take]
  rw [ite_iff (upper_eq_lit (by decide) _), ite_iff (upper_eq_lit (by decide) _),
    ite_iff (upper_eq_lit (by decide) _), ite_iff (upper_eq_lit (by decide) _),
    ite_iff (upper_eq_lit (by decide) _), ite_iff (upper_eq_lit (by decide) _),
    ite_iff (upper_eq_lit (by decide) _), ite_iff (upper_eq_lit (by decide) _)]
  have : (upper (t.take 1)).all isSelf = (t.take 1).all isSelf := by
    unfold upper; rw [List.all_map]; congr 1; funext b; exact self_up b
  rw [this]

theorem handInitial_up (t : Bytes) : handInitial (upper t) = handInitial t := by
  cases t with
  | nil => rfl
  | cons b t =>
    have e : upper (b :: t) = upperB b :: upper t := rfl
    rw [e]
    unfold handInitial
    simp only []
    rw [← e, handWord_up, handNumber_up, handQuoted_up, handOp_up, tw_up blank_up, tw_up digit_up, upper_length, upper_length,
      blank_up, letter_up, digit_up]
    rw [ite_iff (eq_up (c := 46) (by omega) b), ite_iff (eq_up (c := 34) (by omega) b), ite_iff (eq_up (c := 39) (by omega) b)]

theorem handStep_up (sc : SC) (t : Bytes) : handStep sc (upper t) = handStep sc t := by
  have hp : ∀ c, ¬ (65 ≤ c ∧ c ≤ 90) ∧ ¬ (97 ≤ c ∧ c ≤ 122) → ∀ b, (fun x => x != c) (upperB b) = (fun x : Nat => x != c) b := by
    intro c hc b; simp only [bne, beq_up hc]
  cases sc with
  | initial => exact handInitial_up t
  | comment =>
    show handComment _ = handComment _
    unfold handComment
    rw [tw_up (hp 10 (by omega)), upper_length, handInitial_up]
  | squote =>
    show handSquote _ = handSquote _
    have htw : ((upper t).takeWhile (fun c => c != 39)).length = (t.takeWhile (fun c => c != 39)).length := by
      rw [tw_up (hp 39 (by omega)), upper_length]
    have u39 : ∀ b, upperB b = 39 ↔ b = 39 := eq_up (by omega)
    rcases t with _ | ⟨b, _ | ⟨c, t⟩⟩
    · rfl
    · by_cases hb : b = 39
      · subst hb; rfl
      · have hb' := mt (u39 b).1 hb
        unfold handSquote
        rw [htw]
        simp only [upper, List.map_cons, List.map_nil]
        split <;> split <;> simp_all
    · unfold handSquote
      rw [htw]
      have e : upper (b :: c :: t) = upperB b :: upperB c :: upper t := rfl
      rw [e]
      by_cases hb : b = 39
      · subst hb
        by_cases hc : c = 39
        · subst hc; rfl
        · have hc' := mt (u39 c).1 hc
          show (match 39 :: upperB c :: upper t with | 39 :: 39 :: _ => (185, 2) | 39 :: _ => (187, 1) | _ => _) = _
          split
          · rename_i h; simp at h; exact absurd h.1 hc'
          · split
            · rename_i h; simp at h; exact absurd h.1 hc
            · rfl
            · rename_i h; exact absurd rfl (h _)
          · rename_i h; exact absurd rfl (h _)
      · have hb' := mt (u39 b).1 hb
        split
        · rename_i h; simp at h; exact absurd h.1 hb'
        · rename_i h; simp at h; exact absurd h.1 hb'
        · split
          · rename_i h; simp at h; exact absurd h.1 hb
          · rename_i h; simp at h; exact absurd h.1 hb
          · rfl

theorem handStep_case {t t' : Bytes} (h : upper t = upper t') (sc : SC) : handStep sc t = handStep sc t' := by
  rw [← handStep_up sc t, ← handStep_up sc t', h]

/-- Upper case of a token value. -/
def TokVal.upper : TokVal → TokVal
  | .none => .none
  | .ival v => .ival v
  | .fval t => .fval (Lex.upper t)
  | .sval s => .sval (Lex.upper s)

def LexSt.upper (st : LexSt) : LexSt := ⟨st.sc, Lex.upper st.buf, Lex.upper st.rest⟩
def Tok.upper (t : Tok) : Tok := ⟨t.code, t.val.upper, t.pieces.map Lex.upper⟩

theorem eq_of_upper_fixed {p : Nat → Bool} (hp : ∀ b, p b = true → ¬ (65 ≤ b ∧ b ≤ 90) ∧ ¬ (97 ≤ b ∧ b ≤ 122)) (hpu : ∀ b, p (upperB b) = p b)
    {w w' : Bytes} (h : upper w = upper w') (hw : ∀ x ∈ w, p x = true) : w = w' := by
  have : ∀ v : Bytes, (∀ x ∈ v, p x = true) → upper v = v := by
    intro v hv
    exact (upper_eq_lit (fun x hx => hp x (hv x hx)) v).2 rfl
  have hw' : ∀ x ∈ w', p x = true := by
    intro x hx
    have : upperB x ∈ upper w := by rw [h]; exact List.mem_map_of_mem hx
    obtain ⟨y, hy, e⟩ := List.mem_map.1 this
    rw [← hpu x, ← e, hpu]; exact hw y hy
  rw [this w hw, this w' hw'] at h; exact h

inductive ActUp : ActRes → ActRes → Prop where
  | skip {sc buf buf'} : upper buf = upper buf' → ActUp (.skip sc buf) (.skip sc buf')
  | ret {sc buf buf' c v v'} : upper buf = upper buf' → TokVal.upper v = TokVal.upper v' → ActUp (.ret sc buf c v) (.ret sc buf' c v')


theorem lexAction_up (fpr : Int) (sc : SC) {buf buf' : Bytes} (hb : upper buf = upper buf') {t t' : Bytes} (h : upper t = upper t') (hc : Clean t) (hne : t ≠ [])
    {a a' : ActRes} (ha : lexAction fpr sc buf (handStep sc t).1 (t.take (handStep sc t).2) = some a)
    (ha' : lexAction fpr sc buf' (handStep sc t').1 (t'.take (handStep sc t').2) = some a') : ActUp a a' := by
  rw [← handStep_case h sc] at ha'
  have hm := (longest_hand sc hc hne).isMatch
  have hw : upper (t.take (handStep sc t).2) = upper (t'.take (handStep sc t).2) := by
    rw [← upper_take, h, upper_take]
  have hcw : Clean (t.take (handStep sc t).2) := fun b hb => hc b (List.mem_of_mem_take hb)
  have hf : ∀ r, r = 177 ∨ r = 181 → (handStep sc t).1 = r → Fires r (t.take (handStep sc t).2) := by
    intro r hr e
    rw [e] at hm
    cases sc with
    | initial => exact (rm_initial hcw).1 hm
    | comment =>
      rcases (rm_comment hcw).1 hm with h | h | h
      · exact h
      · omega
      · omega
    | squote => rcases (rm_squote hcw).1 hm with h | h | h <;> omega
  generalize (handStep sc t).1 = r at *
  generalize t.take (handStep sc t).2 = w at *
  generalize t'.take (handStep sc t).2 = w' at *
  have h177 : r = 177 → w = w' := by
    rintro rfl
    have := hf 177 (by simp) rfl
    generalize hr : 177 = r at this
    have : ∀ x ∈ w, isSelf x = true := by
      cases this with
      | op h => simp at h; omega
      | @self b h => intro x hx; simp at hx; subst hx; exact h
      | kw h _ => have := List.getElem?_eq_some_iff.1 h; obtain ⟨h, _⟩ := this; rw [kw_len] at h; omega
      | _ => omega
    refine eq_of_upper_fixed (p := isSelf) ?_ self_up hw this
    intro b hb
    have : ∀ b ∈ selfChars, ¬ (65 ≤ b ∧ b ≤ 90) ∧ ¬ (97 ≤ b ∧ b ≤ 122) := by decide
    exact this b (by unfold isSelf at hb; simpa using hb)
  have h181 : r = 181 → w = w' := by
    rintro rfl
    have := hf 181 (by simp) rfl
    generalize hr : 181 = r at this
    have : ∀ x ∈ w, isDigit x = true := by
      cases this with
      | op h => simp at h; omega
      | int h1 h2 => exact h2
      | kw h _ => have := List.getElem?_eq_some_iff.1 h; obtain ⟨h, _⟩ := this; rw [kw_len] at h; omega
      | _ => omega
    refine eq_of_upper_fixed (p := isDigit) ?_ digit_up hw this
    intro b hb; unfold isDigit at hb; simp at hb; omega
  have hr1 : 1 ≤ r := by obtain ⟨_, _, h, _⟩ := hm; exact h
  clear hf hm
  unfold lexAction at ha ha'
  by_cases k : r ≤ 168
  · by_cases k1 : 5 ≤ r
    · rw [if_neg (by omega), if_neg (by omega), if_neg (by omega), if_neg (by omega), if_pos k] at ha ha'
      simp only [Option.map_eq_some_iff] at ha ha'
      obtain ⟨x, hx, rfl⟩ := ha
      obtain ⟨y, hy, rfl⟩ := ha'
      rw [hx] at hy; cases hy
      exact .ret hb rfl
    · have : r = 1 ∨ r = 2 ∨ r = 3 ∨ r = 4 := by omega
      rcases this with rfl | rfl | rfl | rfl
      all_goals (cases ha; cases ha'; exact .skip hb)
  · by_cases k2 : 189 ≤ r
    · repeat rw [if_neg (by omega)] at ha
      cases ha
    have : r = 169 ∨ r = 170 ∨ r = 171 ∨ r = 172 ∨ r = 173 ∨ r = 174 ∨ r = 175 ∨ r = 176 ∨ r = 177 ∨ r = 178 ∨ r = 179 ∨ r = 180 ∨ r = 181 ∨ r = 182 ∨ r = 183 ∨ r = 184 ∨ r = 185 ∨ r = 186 ∨ r = 187 ∨ r = 188 := by omega
    rcases this with rfl | rfl | rfl | rfl | rfl | rfl | rfl | rfl | rfl | rfl | rfl | rfl | rfl | rfl | rfl | rfl | rfl | rfl | rfl | rfl
    all_goals try (cases ha; cases ha'; exact .ret hb rfl)
    · -- 177
      have e := h177 rfl
      subst e
      rw [if_neg (by omega), if_neg (by omega), if_neg (by omega), if_neg (by omega), if_neg (by omega), if_neg (by omega), if_neg (by omega), if_neg (by omega), if_neg (by omega), if_neg (by omega), if_neg (by omega), if_neg (by omega), if_neg (by omega), if_pos rfl] at ha ha'
      simp only [Option.map_eq_some_iff] at ha ha'
      obtain ⟨x, hx, rfl⟩ := ha
      obtain ⟨y, hy, rfl⟩ := ha'
      rw [hx] at hy; cases hy
      exact .ret hb rfl
    · cases ha; cases ha'; exact .ret hb (by simp [TokVal.upper, hw])
    · cases ha; cases ha'; exact .ret hb (by simp [TokVal.upper, hw])
    · have e := h181 rfl
      subst e
      cases ha; cases ha'
      cases strtoll0 w <;> exact .ret hb rfl
    · cases ha; cases ha'
      refine .ret hb ?_
      have hl : w.length = w'.length := by rw [← upper_length w, hw, upper_length]
      simp only [TokVal.upper]
      rw [← upper_take, ← upper_drop, hw, hl, upper_drop, upper_take]
    · cases ha; cases ha'; exact .ret hb (by simp [TokVal.upper, hw])
    · cases ha; cases ha'; exact .skip rfl
    · cases ha; cases ha'; exact .skip (by simp [upper_append, hb])
    · cases ha; cases ha'; exact .skip (by simp [upper_append, hb, hw])
    · cases ha; cases ha'; exact .ret hb (by simp [TokVal.upper, hb])

theorem clean_case {t t' : Bytes} (h : upper t = upper t') (hc : Clean t) : Clean t' := by
  intro b hb
  have : upperB b ∈ upper t := by rw [h]; exact List.mem_map_of_mem hb
  obtain ⟨c, hc', e⟩ := List.mem_map.1 this
  have := hc c hc'
  unfold upperB at e
  revert e; (repeat' split) <;> omega

theorem lexH_case (fpr : Int) : ∀ (k : Nat) (st st' : LexSt) (acc acc' : List Bytes), Clean st.rest → st.rest.length ≤ k →
    st.upper = st'.upper → acc.map upper = acc'.map upper →
    (lexH fpr st acc).1.map Tok.upper = (lexH fpr st' acc').1.map Tok.upper ∧ (lexH fpr st acc).2.upper = (lexH fpr st' acc').2.upper := by
  intro k
  induction k with
  | zero =>
    rintro ⟨sc, buf, rest⟩ ⟨sc', buf', rest'⟩ acc acc' hc hk hu ha
    have : rest = [] := List.eq_nil_of_length_eq_zero (by simpa using hk)
    subst this
    simp only [LexSt.upper, LexSt.mk.injEq] at hu
    obtain ⟨rfl, hb, hr⟩ := hu
    have : rest' = [] := (upper_eq_nil _).1 hr.symm
    subst this
    rw [lexH_nil, lexH_nil]
    simp [Tok.upper, LexSt.upper, TokVal.upper, hb, ha]
  | succ k ih =>
    rintro ⟨sc, buf, rest⟩ ⟨sc', buf', rest'⟩ acc acc' hc hk hu hac
    simp only [LexSt.upper, LexSt.mk.injEq] at hu
    obtain ⟨rfl, hb, hr⟩ := hu
    simp only [] at hc hk
    by_cases hne : rest = []
    · subst hne
      have : rest' = [] := (upper_eq_nil _).1 hr.symm
      subst this
      rw [lexH_nil, lexH_nil]
      simp [Tok.upper, LexSt.upper, TokVal.upper, hb, hac]
    · have hne' : rest' ≠ [] := by
        intro e; subst e; exact hne ((upper_eq_nil _).1 hr)
      have hc' := clean_case hr hc
      obtain ⟨a, ha⟩ := lexAction_total fpr sc buf hc hne
      obtain ⟨a', ha'⟩ := lexAction_total fpr sc buf' hc' hne'
      have hau := lexAction_up fpr sc hb hr hc hne ha ha'
      have hp := hand_pos sc hc hne
      have hss := handStep_case hr sc
      generalize hrn : handStep sc rest = rn at *
      obtain ⟨r, n⟩ := rn
      rw [← hss] at ha'
      simp only [] at ha ha' hp
      have hw : upper (rest.take n) = upper (rest'.take n) := by rw [← upper_take, hr, upper_take]
      have hd : upper (rest.drop n) = upper (rest'.drop n) := by rw [← upper_drop, hr, upper_drop]
      cases hau with
      | skip hb' =>
        rw [lexH_skip hc hne hrn ha, lexH_skip hc' hne' hss.symm ha']
        refine ih _ _ _ _ (clean_drop hc n) (by simp; omega) ?_ ?_
        · simp [LexSt.upper, hb', hd]
        · simp [hw, hac]
      | @ret sc2 b1 b2 c v v' hb' hv =>
        by_cases h0 : c = 0
        · subst h0
          rw [lexH_ret0 hc hne hrn ha, lexH_ret0 hc' hne' hss.symm ha']
          simp [LexSt.upper, Tok.upper, hb', hd, hv, hw, hac]
        · rw [lexH_ret hc hne hrn ha h0, lexH_ret hc' hne' hss.symm ha' h0]
          have := ih ⟨sc2, b1, rest.drop n⟩ ⟨sc2, b2, rest'.drop n⟩ [] [] (clean_drop hc n) (by simp; omega) (by simp [LexSt.upper, hb', hd]) rfl
          simp [Tok.upper, hv, hw, hac]
          exact this

/-! ## Losslessness -/

theorem ret0_rule {fpr : Int} (h0 : fpr ≠ 0) {sc sc' : SC} {buf buf' : Bytes} {t : Bytes} {v : TokVal} (hc : Clean t) (hne : t ≠ [])
    (ha : lexAction fpr sc buf (handStep sc t).1 (t.take (handStep sc t).2) = some (.ret sc' buf' 0 v)) :
    (handStep sc t).1 = 188 := by
  have hm := (longest_hand sc hc hne).isMatch
  have hcw : Clean (t.take (handStep sc t).2) := fun b hb => hc b (List.mem_of_mem_take hb)
  have hp := hand_pos sc hc hne
  have hr1 : 1 ≤ (handStep sc t).1 := by obtain ⟨_, _, h, _⟩ := hm; exact h
  generalize (handStep sc t).1 = r at *
  have hkw : ∀ k ∈ keywords, k.2 ≠ 0 := by decide +kernel
  unfold lexAction at ha
  by_cases k : r ≤ 168
  · by_cases k1 : 5 ≤ r
    · rw [if_neg (by omega), if_neg (by omega), if_neg (by omega), if_neg (by omega), if_pos k] at ha
      simp only [Option.map_eq_some_iff, ActRes.ret.injEq] at ha
      obtain ⟨x, hx, _, _, e, _⟩ := ha
      exact absurd (Int.ofNat_eq_zero.1 e) (hkw x (List.mem_of_getElem? hx))
    · have : r = 1 ∨ r = 2 ∨ r = 3 ∨ r = 4 := by omega
      rcases this with rfl | rfl | rfl | rfl
      all_goals cases ha
  · by_cases k2 : 189 ≤ r
    · repeat rw [if_neg (by omega)] at ha
      cases ha
    have : r = 169 ∨ r = 170 ∨ r = 171 ∨ r = 172 ∨ r = 173 ∨ r = 174 ∨ r = 175 ∨ r = 176 ∨ r = 177 ∨ r = 178 ∨ r = 179 ∨ r = 180 ∨ r = 181 ∨ r = 182 ∨ r = 183 ∨ r = 184 ∨ r = 185 ∨ r = 186 ∨ r = 187 ∨ r = 188 := by omega
    rcases this with rfl | rfl | rfl | rfl | rfl | rfl | rfl | rfl | rfl | rfl | rfl | rfl | rfl | rfl | rfl | rfl | rfl | rfl | rfl | rfl
    all_goals try (simp at ha)
    all_goals try rfl
    · obtain ⟨a, hx, _, _, e, _⟩ := ha
      have hx := List.mem_of_mem_head? hx
      have := hcw a hx
      omega
    · split at ha
      · simp at ha
      · simp at ha; exact absurd ha.2.2.1 h0

theorem rule188_initial {sc : SC} {t : Bytes} (hc : Clean t) (hne : t ≠ []) (h : (handStep sc t).1 = 188) :
    sc = .initial ∧ (handStep sc t).2 = 1 := by
  have hl := longest_hand sc hc hne
  have hcw : Clean (t.take (handStep sc t).2) := fun b hb => hc b (List.mem_of_mem_take hb)
  have hm := hl.isMatch
  have hlen : (t.take (handStep sc t).2).length = (handStep sc t).2 := by
    rw [List.length_take]; have := hl.le; omega
  rw [h] at hm
  have h1 : ∀ w : Bytes, Fires 188 w → w.length = 1 := by
    intro w hw
    generalize hr : 188 = r at hw
    cases hw with
    | op h => simp at h; omega
    | any h1 => rfl
    | kw h _ => have := List.getElem?_eq_some_iff.1 h; obtain ⟨h, _⟩ := this; rw [kw_len] at h; omega
    | _ => omega
  cases sc with
  | initial =>
    refine ⟨rfl, ?_⟩
    have := h1 _ ((rm_initial hcw).1 hm)
    omega
  | squote => rcases (rm_squote hcw).1 hm with h | h | h <;> omega
  | comment =>
    exfalso
    rcases (rm_comment hcw).1 hm with hf | h | h
    · -- rule 2 matches as well and is earlier
      have hlen1 := h1 _ hf
      have h2 : RuleMatches .comment 2 (t.take (handStep .comment t).2) := by
        refine (rm_comment hcw).2 (.inr (.inl ⟨rfl, ?_⟩))
        generalize hr : 188 = r at hf
        generalize t.take (handStep .comment t).2 = w at *
        cases hf with
        | op h => simp at h; omega
        | any h1 => intro x hx; simp at hx; subst hx; exact h1
        | kw h _ => have := List.getElem?_eq_some_iff.1 h; obtain ⟨h, _⟩ := this; rw [kw_len] at h; omega
        | _ => omega
      have := hl.first 2 h2
      omega
    · omega
    · omega

/-- All bytes consumed by a list of tokens. -/
def consumed (T : List Tok) : Bytes := (T.map (fun t => t.pieces.flatten)).flatten

theorem lexH_lossless (fpr : Int) (h0 : fpr ≠ 0) : ∀ (k : Nat) (st : LexSt) (acc : List Bytes), Clean st.rest → st.rest.length ≤ k →
    consumed (lexH fpr st acc).1 ++ (lexH fpr st acc).2.rest = acc.reverse.flatten ++ st.rest ∧
    ∃ T t, (lexH fpr st acc).1 = T ++ [t] ∧ t.code = 0 ∧ (∀ x ∈ T, x.code ≠ 0) ∧
      ((lexH fpr st acc).2.rest = [] ∨ ∃ b, t.pieces.getLast? = some [b] ∧ LongestMatch .initial (b :: (lexH fpr st acc).2.rest) 188 1) := by
  intro k
  have base : ∀ sc buf acc, consumed (lexH fpr ⟨sc, buf, []⟩ acc).1 ++ (lexH fpr ⟨sc, buf, []⟩ acc).2.rest = acc.reverse.flatten ++ [] ∧
    ∃ T t, (lexH fpr ⟨sc, buf, []⟩ acc).1 = T ++ [t] ∧ t.code = 0 ∧ (∀ x ∈ T, x.code ≠ 0) ∧
      ((lexH fpr ⟨sc, buf, []⟩ acc).2.rest = [] ∨ ∃ b, t.pieces.getLast? = some [b] ∧ LongestMatch .initial (b :: (lexH fpr ⟨sc, buf, []⟩ acc).2.rest) 188 1) := by
    intro sc buf acc
    rw [lexH_nil]
    refine ⟨by simp [consumed], [], _, rfl, rfl, by simp, .inl rfl⟩
  induction k with
  | zero =>
    rintro ⟨sc, buf, rest⟩ acc hc hk
    have : rest = [] := List.eq_nil_of_length_eq_zero (by simpa using hk)
    subst this
    exact base sc buf acc
  | succ k ih =>
    rintro ⟨sc, buf, rest⟩ acc hc hk
    simp only [] at hc hk
    by_cases hne : rest = []
    · subst hne; exact base sc buf acc
    · obtain ⟨a, ha⟩ := lexAction_total fpr sc buf hc hne
      have hp := hand_pos sc hc hne
      have hr0 := fun sc' buf' v => @ret0_rule fpr h0 sc sc' buf buf' rest v hc hne
      have h188 := @rule188_initial sc rest hc hne
      have hlm := longest_hand sc hc hne
      generalize hrn : handStep sc rest = rn at *
      obtain ⟨r, n⟩ := rn
      simp only [] at ha hp hr0 h188 hlm
      cases a with
      | skip sc' buf' =>
        rw [lexH_skip hc hne hrn ha]
        obtain ⟨h1, h2⟩ := ih ⟨sc', buf', rest.drop n⟩ (rest.take n :: acc) (clean_drop hc n) (by simp; omega)
        refine ⟨?_, h2⟩
        rw [h1]; simp
      | ret sc' buf' c v =>
        by_cases hc0 : c = 0
        · subst hc0
          rw [lexH_ret0 hc hne hrn ha]
          refine ⟨by simp [consumed], [], _, rfl, rfl, by simp, .inr ?_⟩
          have e188 := hr0 _ _ _ ha
          obtain ⟨rfl, rfl⟩ := h188 e188
          subst e188
          cases rest with
          | nil => exact absurd rfl hne
          | cons b rest => exact ⟨b, by simp, by simpa using hlm⟩
        · rw [lexH_ret hc hne hrn ha hc0]
          obtain ⟨h1, T, t, hT, ht, hx, hl⟩ := ih ⟨sc', buf', rest.drop n⟩ [] (clean_drop hc n) (by simp; omega)
          refine ⟨?_, _ :: T, t, by rw [hT]; rfl, ht, ?_, hl⟩
          · simp only [consumed, List.map_cons, List.flatten_cons, List.append_assoc] at h1 ⊢
            rw [h1]; simp
          · intro x hx'
            rcases List.mem_cons.1 hx' with rfl | hx'
            · exact hc0
            · exact hx x hx'

/-! ## Tokens do not depend on the old string buffer -/

theorem lexH_buf (fpr : Int) : ∀ (k : Nat) (sc : SC) (buf buf' rest : Bytes) (acc : List Bytes), Clean rest → rest.length ≤ k → sc ≠ .squote →
    (lexH fpr ⟨sc, buf, rest⟩ acc).1 = (lexH fpr ⟨sc, buf', rest⟩ acc).1 ∧
    (lexH fpr ⟨sc, buf, rest⟩ acc).2.rest = (lexH fpr ⟨sc, buf', rest⟩ acc).2.rest := by
  intro k
  induction k with
  | zero =>
    intro sc buf buf' rest acc hc hk _
    have : rest = [] := List.eq_nil_of_length_eq_zero (by simpa using hk)
    subst this
    rw [lexH_nil, lexH_nil]; exact ⟨rfl, rfl⟩
  | succ k ih =>
    intro sc buf buf' rest acc hc hk hsc
    by_cases hne : rest = []
    · subst hne; rw [lexH_nil, lexH_nil]; exact ⟨rfl, rfl⟩
    · obtain ⟨a, ha⟩ := lexAction_total fpr sc buf hc hne
      have hp := hand_pos sc hc hne
      have hm := (longest_hand sc hc hne).isMatch
      have hcw : Clean (rest.take (handStep sc rest).2) := fun b hb => hc b (List.mem_of_mem_take hb)
      generalize hrn : handStep sc rest = rn at *
      obtain ⟨r, n⟩ := rn
      simp only [] at ha hp hm hcw
      have hns : ¬ (185 ≤ r ∧ r ≤ 187) := by
        intro hr
        have hf : Fires r (rest.take n) := by
          cases sc with
          | initial => exact (rm_initial hcw).1 hm
          | squote => exact absurd rfl hsc
          | comment => rcases (rm_comment hcw).1 hm with h | h | h
                       · exact h
                       · omega
                       · omega
        generalize rest.take n = w at hf
        cases hf with
        | kw h _ => have := List.getElem?_eq_some_iff.1 h; obtain ⟨h, _⟩ := this; rw [kw_len] at h; omega
        | op h => simp at h; omega
        | _ => omega
      have key : (∃ sc' b1 b2, lexAction fpr sc buf r (rest.take n) = some (.skip sc' b1) ∧ lexAction fpr sc buf' r (rest.take n) = some (.skip sc' b2) ∧ (sc' = .squote → b1 = b2)) ∨
          (∃ sc' b1 b2 c v, sc' ≠ .squote ∧ lexAction fpr sc buf r (rest.take n) = some (.ret sc' b1 c v) ∧ lexAction fpr sc buf' r (rest.take n) = some (.ret sc' b2 c v)) := by
        generalize rest.take n = w at *
        unfold lexAction at ha ⊢
        by_cases k : r ≤ 168
        · by_cases k1 : 5 ≤ r
          · rw [if_neg (by omega), if_neg (by omega), if_neg (by omega), if_neg (by omega), if_pos k] at ha ⊢
            rw [if_neg (by omega), if_neg (by omega), if_neg (by omega), if_neg (by omega), if_pos k]
            obtain ⟨x, hx, _⟩ := Option.map_eq_some_iff.1 ha
            rw [hx]
            exact .inr ⟨sc, _, _, _, _, hsc, rfl, rfl⟩
          · have : r = 0 ∨ r = 1 ∨ r = 2 ∨ r = 3 ∨ r = 4 := by omega
            rcases this with rfl | rfl | rfl | rfl | rfl
            · exact .inr ⟨sc, _, _, _, _, hsc, rfl, rfl⟩
            · exact .inl ⟨_, _, _, rfl, rfl, by simp⟩
            · exact .inl ⟨_, _, _, rfl, rfl, fun h => absurd h hsc⟩
            · exact .inl ⟨_, _, _, rfl, rfl, by simp⟩
            · exact .inl ⟨_, _, _, rfl, rfl, fun h => absurd h hsc⟩
        · by_cases k2 : 189 ≤ r
          · repeat rw [if_neg (by omega)] at ha
            cases ha
          have : r = 169 ∨ r = 170 ∨ r = 171 ∨ r = 172 ∨ r = 173 ∨ r = 174 ∨ r = 175 ∨ r = 176 ∨ r = 177 ∨ r = 178 ∨ r = 179 ∨ r = 180 ∨ r = 181 ∨ r = 182 ∨ r = 183 ∨ r = 184 ∨ r = 188 := by omega
          rcases this with rfl | rfl | rfl | rfl | rfl | rfl | rfl | rfl | rfl | rfl | rfl | rfl | rfl | rfl | rfl | rfl | rfl
          all_goals first
            | exact .inr ⟨sc, _, _, _, _, hsc, rfl, rfl⟩
            | exact .inl ⟨_, _, _, rfl, rfl, fun _ => rfl⟩
            | (simp only [] at ha ⊢
               cases hh : w.head? with
               | none => rw [hh] at ha; cases ha
               | some x => exact .inr ⟨sc, _, _, _, _, hsc, rfl, rfl⟩)
            | (simp only [] at ha ⊢
               cases hh : strtoll0 w with
               | none => exact .inr ⟨sc, _, _, _, _, hsc, rfl, rfl⟩
               | some x => exact .inr ⟨sc, _, _, _, _, hsc, rfl, rfl⟩)
      rcases key with ⟨sc', b1, b2, h1, h2, h3⟩ | ⟨sc', b1, b2, c, v, h3, h1, h2⟩
      · rw [lexH_skip hc hne hrn h1, lexH_skip hc hne hrn h2]
        by_cases hq : sc' = .squote
        · rw [h3 hq]; exact ⟨rfl, rfl⟩
        · exact ih _ _ _ _ _ (clean_drop hc n) (by simp; omega) hq
      · by_cases h0 : c = 0
        · subst h0
          rw [lexH_ret0 hc hne hrn h1, lexH_ret0 hc hne hrn h2]; exact ⟨rfl, rfl⟩
        · rw [lexH_ret hc hne hrn h1 h0, lexH_ret hc hne hrn h2 h0]
          have := ih sc' b1 b2 (rest.drop n) [] (clean_drop hc n) (by simp; omega) h3
          simp [this.1, this.2]


/-! ## Evaluating the lexer on concrete texts -/

/-- The lexer with fuel, over the readable scanner: for evaluation by the kernel. -/
def lexE (fpr : Int) : Nat → LexSt → List Bytes → Option (List Tok × LexSt)
  | 0, _, _ => none
  | f + 1, st, acc =>
    match st.rest with
    | [] => some ([⟨0, .none, acc.reverse⟩], st)
    | _ :: _ =>
      match lexAction fpr st.sc st.buf (handStep st.sc st.rest).1 (st.rest.take (handStep st.sc st.rest).2) with
      | none => none
      | some (.skip sc buf) => lexE fpr f ⟨sc, buf, st.rest.drop (handStep st.sc st.rest).2⟩ (st.rest.take (handStep st.sc st.rest).2 :: acc)
      | some (.ret sc buf c v) =>
        if c = 0 then some ([⟨c, v, (st.rest.take (handStep st.sc st.rest).2 :: acc).reverse⟩], ⟨sc, buf, st.rest.drop (handStep st.sc st.rest).2⟩)
        else (lexE fpr f ⟨sc, buf, st.rest.drop (handStep st.sc st.rest).2⟩ []).map
          fun r => (⟨c, v, (st.rest.take (handStep st.sc st.rest).2 :: acc).reverse⟩ :: r.1, r.2)

theorem lexE_spec (fpr : Int) : ∀ (f : Nat) (st : LexSt) (acc : List Bytes) (r : List Tok × LexSt), Clean st.rest →
    lexE fpr f st acc = some r → lexH fpr st acc = r := by
  intro f
  induction f with
  | zero => intro st acc r _ h; cases h
  | succ f ih =>
    rintro ⟨sc, buf, rest⟩ acc r hc h
    cases rest with
    | nil =>
      simp [lexE] at h
      rw [lexH_nil, h]
    | cons b rest =>
      simp only [] at hc
      have hne : b :: rest ≠ [] := by simp
      obtain ⟨a, ha⟩ := lexAction_total fpr sc buf hc hne
      simp only [lexE] at h
      rw [ha] at h
      cases a with
      | skip sc' buf' =>
        simp only [] at h
        rw [lexH_skip hc hne (Prod.eta _).symm ha]
        exact ih _ _ _ (clean_drop hc _) h
      | ret sc' buf' c v =>
        simp only [] at h
        by_cases h0 : c = 0
        · subst h0
          simp at h
          rw [lexH_ret0 hc hne (Prod.eta _).symm ha, ← h]; simp
        · rw [if_neg h0, Option.map_eq_some_iff] at h
          obtain ⟨r', h1, h2⟩ := h
          rw [lexH_ret hc hne (Prod.eta _).symm ha h0, ih _ _ _ (clean_drop hc _) h1, ← h2]

theorem lexAll_of_lexE {fpr : Int} {st : LexSt} {f : Nat} {r : List Tok × LexSt} (hc : Clean st.rest) (h : lexE fpr f st [] = some r) :
    lexAll fpr st = some r := by
  rw [lexAll_eq fpr st hc, lexE_spec fpr f st [] r hc h]

end Verif.Lex

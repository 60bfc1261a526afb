import Verif.Api.TokMem
import Verif.Props.Threads
import Verif.Props.Buffer
import Verif.Sem.Toks
/-!
# C64: the memory of `tokenize`

`tokenize` frees the text of every identifier and string it reads, except that of the first token, which no code ever frees.
-/
namespace Verif.Props
open Verif.Lex Verif.Api Verif.Sem Verif.LR

/-- The tokens that carry a text of their own: IDENTIFIER and STRING. -/
def carriesText (t : Tok) : Bool := decide (t.code = 258 ∨ t.code = 259)

/-! ## Lemmas -/

theorem sym_34 : ((List.range 436).all fun c => !(tokSym (Int.ofNat c) == 3 || tokSym (Int.ofNat c) == 4) || (c == 258 || c == 259)) = true := by decide +kernel

theorem carries_iff {fpr : Int} (hf : fpr = 64 ∨ fpr = -1) {t : Tok} (hs : TokShape t) (hr : (0 ≤ t.code ∧ t.code ≤ 435) ∨ t.code = fpr) :
    carriesText t = true ↔ ∃ s, t.val = .sval s := by
  obtain ⟨c, v, ps⟩ := t
  have e258 : tokSym 258 = 3 := by decide +kernel
  have e259 : tokSym 259 = 4 := by decide +kernel
  simp only [carriesText, decide_eq_true_eq] at hr ⊢
  constructor
  · rintro (rfl | rfl)
    · cases v with
      | none => exact absurd e258 hs.1
      | ival i => have hs : tokSym 258 = 6 ∨ tokSym 258 = 0 ∨ tokSym 258 = 2 := hs; rw [e258] at hs; omega
      | fval i => have hs : tokSym 258 = 5 := hs; rw [e258] at hs; omega
      | sval s => exact ⟨s, rfl⟩
    · cases v with
      | none => exact absurd e259 hs.2.1
      | ival i => have hs : tokSym 259 = 6 ∨ tokSym 259 = 0 ∨ tokSym 259 = 2 := hs; rw [e259] at hs; omega
      | fval i => have hs : tokSym 259 = 5 := hs; rw [e259] at hs; omega
      | sval s => exact ⟨s, rfl⟩
  · rintro ⟨s, rfl⟩
    have hs : tokSym c = 3 ∨ tokSym c = 4 := hs
    rcases hr with hr | hr
    · have h := List.all_eq_true.1 sym_34 c.toNat (by simp; omega)
      have hc : Int.ofNat c.toNat = c := by simp only [Int.ofNat_eq_natCast]; omega
      rw [hc] at h
      rcases hs with hs | hs <;> rw [hs] at h <;> simp at h <;> omega
    · have e64 : tokSym 64 = 2 := by decide +kernel
      have e1 : tokSym (-1) = 0 := by decide +kernel
      rcases hf with rfl | rfl <;> subst hr
      · rw [e64] at hs; omega
      · rw [e1] at hs; omega

/-- The addresses of the blocks `n`, …, `n + k - 1`. -/
def blocksFrom (A : Nat → Nat) (n k : Nat) : List Nat := (List.range' n k).map A

theorem blocksFrom_cons (A : Nat → Nat) (n k : Nat) : blocksFrom A n (k + 1) = A n :: blocksFrom A (n + 1) k := by
  simp [blocksFrom, List.range'_succ]

theorem mem_of_codes {fpr : Int} {st : LexSt} {t : Tok} {st' : LexSt} (hc : Clean st.rest)
    (h5 : lexH fpr st [] = if t.code = 0 then ([t], st') else (t :: (lexH fpr st' []).1, (lexH fpr st' []).2)) : (0 ≤ t.code ∧ t.code ≤ 435) ∨ t.code = fpr := by
  apply lexH_codes fpr st.rest.length st [] hc (Nat.le_refl _)
  rw [h5]; split <;> simp

theorem tokLoopM_zero (fpr : Int) (A : Nat → Nat) (f room : Nat) (st : LexSt) (m : TokMem) (tokens : List Int) : tokLoopM fpr A (f + 1) room st 0 m tokens = some (true, tokens, m) := by
  cases room <;> simp [tokLoopM]

theorem tokLoopM_ok {fpr : Int} (hf : fpr = 64 ∨ fpr = -1) {A : Nat → Nat} (hA : ∀ i j, A i = A j → i = j) :
    ∀ (f room : Nat) (st : LexSt) (token : Int) (m : TokMem) (tokens : List Int) (T : List Tok) (last : Tok), Clean st.rest → (lexH fpr st []).1 = T ++ [last] → last.code = 0 →
      (∀ t ∈ T, t.code ≠ 0) → T.length < f → token ≠ 0 → (∀ a ∈ m.freed, ∃ i, i < m.next ∧ A i = a) →
      ∃ sl, tokLoopM fpr A (f + 1) room st token m tokens =
        some (decide (T.length + 1 ≤ room), tokens ++ (token :: T.map Tok.code).take room,
          ⟨m.next + (T.take room).countP carriesText, m.freed ++ blocksFrom A m.next ((T.take room).countP carriesText), sl⟩)
  | 0, _, _, _, _, _, T, _, _, _, _, _, h, _, _ => by omega
  | f + 1, 0, st, token, m, tokens, T, last, hc, hT, hl, hz, hlen, htk, hm => by
    refine ⟨m.slot, ?_⟩
    rw [tokLoopM]
    simp [htk, blocksFrom]
  | f + 1, room + 1, st, token, m, tokens, T, last, hc, hT, hl, hz, hlen, htk, hm => by
    obtain ⟨t, st', h1, h2, h3, h4, h5⟩ := yylexFuel_eq fpr (st.rest.length + 1) st [] hc (by omega)
    have h1' : yylex fpr st = some (t, st') := h1
    have hr := mem_of_codes hc h5
    have hsh := (yylex_shape (hf.imp id fun h => by omega) _ _ _ _ _ (fun b hb => by have := hc b hb; omega) h1).1
    have hi : toInt16 t.code = t.code := by unfold toInt16; omega
    have hcar := carries_iff hf hsh hr
    rw [tokLoopM]
    simp only [if_neg htk, h1', hi]
    by_cases h0 : t.code = 0
    · -- the last token
      rw [h5, if_pos h0] at hT
      have hT0 : T = [] := by
        cases T with
        | nil => rfl
        | cons x xs => have := congrArg List.length hT; simp at this
      subst hT0
      have hnc : carriesText t = false := by simp [carriesText, h0]
      have hval : ∀ s, t.val ≠ .sval s := fun s hs => by rw [hcar.2 ⟨s, hs⟩] at hnc; cases hnc
      have hlx : ∃ sl, m.lex A t = ⟨m.next, m.freed, sl⟩ := by
        unfold TokMem.lex
        cases hv : t.val with
        | none => exact ⟨m.slot, rfl⟩
        | ival _ => exact ⟨_, rfl⟩
        | fval _ => exact ⟨_, rfl⟩
        | sval s => exact absurd hv (hval s)
      obtain ⟨sl, hlx⟩ := hlx
      refine ⟨sl, ?_⟩
      have hfr : (m.lex A t).freeIf t.code = some ⟨m.next, m.freed, sl⟩ := by rw [hlx, TokMem.freeIf, if_neg (by omega)]
      rw [hfr]
      simp only []
      rw [h0, tokLoopM_zero]
      simp [blocksFrom]
    · rw [h5, if_neg h0] at hT
      cases T with
      | nil =>
        have h := congrArg List.head? hT
        simp at h
        rw [h] at h0
        exact absurd hl h0
      | cons x T =>
        simp only [List.cons_append, List.cons.injEq] at hT
        obtain ⟨rfl, hT⟩ := hT
        simp only [List.length_cons] at hlen
        by_cases hcx : carriesText t = true
        · obtain ⟨s, hs⟩ := hcar.1 hcx
          have hlx : m.lex A t = ⟨m.next + 1, m.freed, .sval (A m.next)⟩ := by unfold TokMem.lex; rw [hs]
          have hnot : A m.next ∉ m.freed := by
            intro h
            obtain ⟨i, hi, e⟩ := hm _ h
            have := hA _ _ e
            omega
          have hfr : (m.lex A t).freeIf t.code = some ⟨m.next + 1, m.freed ++ [A m.next], .sval (A m.next)⟩ := by
            rw [hlx, TokMem.freeIf, if_pos (by simpa [carriesText] using hcx), TokMem.free]
            simp [hnot]
          obtain ⟨sl, ih⟩ := tokLoopM_ok hf hA f room st' t.code ⟨m.next + 1, m.freed ++ [A m.next], .sval (A m.next)⟩ (tokens ++ [token]) T last h2 hT hl
            (fun y hy => hz y (List.mem_cons_of_mem _ hy)) (by omega) h0 (by
              intro a ha
              rcases List.mem_append.1 ha with ha | ha
              · obtain ⟨i, hi, e⟩ := hm a ha
                exact ⟨i, Nat.lt_succ_of_lt hi, e⟩
              · simp only [List.mem_singleton] at ha
                exact ⟨m.next, Nat.lt_succ_self _, ha.symm⟩)
          refine ⟨sl, ?_⟩
          rw [hfr]
          simp only []
          rw [ih]
          simp [hcx, blocksFrom_cons, Nat.add_assoc, Nat.add_comm 1]
        · have hval : ∀ s, t.val ≠ .sval s := fun s hs => hcx (hcar.2 ⟨s, hs⟩)
          have hlx : ∃ sl, m.lex A t = ⟨m.next, m.freed, sl⟩ := by
            unfold TokMem.lex
            cases hv : t.val with
            | none => exact ⟨m.slot, rfl⟩
            | ival _ => exact ⟨_, rfl⟩
            | fval _ => exact ⟨_, rfl⟩
            | sval s => exact absurd hv (hval s)
          obtain ⟨sl, hlx⟩ := hlx
          have hfr : (m.lex A t).freeIf t.code = some ⟨m.next, m.freed, sl⟩ := by rw [hlx, TokMem.freeIf, if_neg (by simpa [carriesText] using hcx)]
          obtain ⟨sl', ih⟩ := tokLoopM_ok hf hA f room st' t.code ⟨m.next, m.freed, sl⟩ (tokens ++ [token]) T last h2 hT hl
            (fun y hy => hz y (List.mem_cons_of_mem _ hy)) (by omega) h0 hm
          refine ⟨sl', ?_⟩
          rw [hfr]
          simp only []
          rw [ih]
          simp [hcx]

theorem tokH_len (fpr : Int) : ∀ (k : Nat) (st : LexSt) (T : List Tok) (last : Tok), Clean st.rest → st.rest.length < k → (lexH fpr st []).1 = T ++ [last] → T.length ≤ st.rest.length
  | 0, _, _, _, _, h, _ => by omega
  | k + 1, st, T, last, hc, hk, hT => by
    obtain ⟨t, st', h1, h2, h3, h4, h5⟩ := yylexFuel_eq fpr (st.rest.length + 1) st [] hc (by omega)
    rw [h5] at hT
    by_cases h0 : t.code = 0
    · rw [if_pos h0] at hT
      have := congrArg List.length hT
      simp at this
      simp [this]
    · rw [if_neg h0] at hT
      cases T with
      | nil => simp
      | cons x T =>
        simp only [List.cons_append, List.cons.injEq] at hT
        have := h4 h0
        have := tokH_len fpr k st' T last h2 (by omega) hT.2
        simp only [List.length_cons]
        omega

/-! ## The theorems -/

/-- C64. For every text, every content `old` of the vector, and every number `room` of elements the vector can take before its growth throws: `tokenize` frees no block
twice and nothing that is not a block. With `T` the tokens of the text, it appends the codes of the first `room` of them; it returns exactly if that is all of
them, and then the scanner is freed; otherwise the exception leaves it and the four blocks of the scanner are lost. Texts are
allocated for the identifiers and strings among the tokens that were read (one more than were appended), and all of them are freed before
`tokenize` is left, except the text of the first token of the input, which is never freed. -/
theorem C64_tokenize_memory (fpr : Int) (hf : fpr = 64 ∨ fpr = -1) (A : Nat → Nat) (hA : ∀ i j, A i = A j → i = j) (room : Nat) (buf : Bytes) (sql : List UInt8)
    (old : List Int) :
    ∃ T last st o, lexAll fpr (lexInit buf (cText sql)) = some (T ++ [last], st) ∧ last.code = 0 ∧ tokenizeM fpr A room buf sql old = some o ∧
      o.returned = decide (T.length ≤ room) ∧ o.tokens = old ++ (T.map Tok.code).take room ∧
      o.scanner = (if T.length ≤ room then [] else [.guts, .chars, .state, .stack]) ∧
      o.allocated = (List.range ((T.take (room + 1)).countP carriesText)).map A ∧ o.allocated.Nodup ∧
      o.freed = (if T.head?.any carriesText then o.allocated.drop 1 else o.allocated) := by
  have hc := cText_clean sql
  obtain ⟨T, last, st, h1, h2, h3, _⟩ := C02_scanning_total_lossless fpr (by omega) buf sql
  have e := h1
  rw [lexAll_eq fpr _ hc] at e
  have e : lexH fpr (lexInit buf (cText sql)) [] = (T ++ [last], st) := Option.some.inj e
  have hlen := tokH_len fpr _ _ T last hc (Nat.lt_succ_self _) (by rw [e])
  have hlen : T.length ≤ (cText sql).length := hlen
  have hnd : ∀ n, ((List.range n).map A).Nodup := by
    intro n
    refine List.Pairwise.map A ?_ List.nodup_range
    intro a b hab h
    exact hab (hA _ _ h)
  obtain ⟨t, st', g1, g2, g3, g4, g5⟩ := yylexFuel_eq fpr ((lexInit buf (cText sql)).rest.length + 1) (lexInit buf (cText sql)) [] hc (by omega)
  have g1' : yylex fpr (lexInit buf (cText sql)) = some (t, st') := g1
  have hr := mem_of_codes hc g5
  have hsh := (yylex_shape (hf.imp id fun h => by omega) _ _ _ _ _ (fun b hb => by have := hc b hb; omega) g1).1
  have hi : toInt16 t.code = t.code := by unfold toInt16; omega
  have hcar := carries_iff hf hsh hr
  have hlx : ∃ sl, (⟨0, [], .junk⟩ : TokMem).lex A t = ⟨if carriesText t then 1 else 0, [], sl⟩ := by
    by_cases hcx : carriesText t = true
    · obtain ⟨s, hs⟩ := hcar.1 hcx
      exact ⟨.sval (A 0), by unfold TokMem.lex; rw [hs, if_pos hcx]⟩
    · have hval : ∀ s, t.val ≠ .sval s := fun s hs => hcx (hcar.2 ⟨s, hs⟩)
      rw [if_neg hcx]
      unfold TokMem.lex
      cases hv : t.val with
      | none => exact ⟨_, rfl⟩
      | ival _ => exact ⟨_, rfl⟩
      | fval _ => exact ⟨_, rfl⟩
      | sval s => exact absurd hv (hval s)
  obtain ⟨sl, hlx⟩ := hlx
  rw [g5] at e
  by_cases h0 : t.code = 0
  · rw [if_pos h0] at e
    have hT0 : T = [] := by
      cases T with
      | nil => rfl
      | cons x xs => have := congrArg (fun p => p.1.length) e; simp at this
    subst hT0
    have hnc : carriesText t = false := by simp [carriesText, h0]
    refine ⟨[], last, st, ⟨true, old, [], [], []⟩, h1, h2, ?_, ?_⟩
    · unfold tokenizeM
      rw [g1']
      have hi0 : toInt16 t.code = 0 := by rw [hi, h0]
      simp only [hi0, hlx, hnc]
      rw [tokLoopM_zero]
      simp [tokEnd, destroyScanner_ok]
    · simp
  · rw [if_neg h0] at e
    cases T with
    | nil =>
      have h := congrArg (fun p => p.1.head?) e
      simp at h
      rw [h] at h0
      exact absurd h2 h0
    | cons x T =>
      simp only [List.cons_append, Prod.mk.injEq, List.cons.injEq] at e
      obtain ⟨⟨rfl, hT⟩, hst⟩ := e
      simp only [List.length_cons] at hlen
      obtain ⟨n, hn⟩ : ∃ n, (cText sql).length = n + 1 := ⟨(cText sql).length - 1, by omega⟩
      obtain ⟨sl', hl⟩ := tokLoopM_ok hf hA (n + 1) room st' t.code ⟨if carriesText t then 1 else 0, [], sl⟩ old T last g2 hT h2
        (fun y hy => h3 y (List.mem_cons_of_mem _ hy)) (by omega) h0 (by simp)
      have key : tokenizeM fpr A room buf sql old = tokEnd A (decide (T.length + 1 ≤ room), old ++ (t.code :: T.map Tok.code).take room,
          ⟨(if carriesText t then 1 else 0) + (T.take room).countP carriesText,
            [] ++ blocksFrom A (if carriesText t then 1 else 0) ((T.take room).countP carriesText), sl'⟩) := by
        unfold tokenizeM
        rw [g1']
        simp only [hi, hlx, hn]
        rw [hl]
      have hcnt : (if carriesText t then 1 else 0) + (T.take room).countP carriesText = ((t :: T).take (room + 1)).countP carriesText := by
        simp only [List.take_succ_cons, List.countP_cons]
        exact Nat.add_comm _ _
      have hfreed : blocksFrom A (if carriesText t then 1 else 0) ((T.take room).countP carriesText) =
          if (t :: T).head?.any carriesText then ((List.range (((t :: T).take (room + 1)).countP carriesText)).map A).drop 1
            else (List.range (((t :: T).take (room + 1)).countP carriesText)).map A := by
        rw [← hcnt]
        simp only [List.head?_cons, Option.any_some]
        by_cases hcx : carriesText t = true
        · simp only [hcx, if_true]
          rw [Nat.add_comm 1, List.range_eq_range', List.range'_succ]
          simp [blocksFrom]
        · simp only [hcx, Bool.false_eq_true, if_false, Nat.zero_add]
          rw [List.range_eq_range']; rfl
      refine ⟨t :: T, last, st, ⟨decide ((t :: T).length ≤ room), old ++ ((t :: T).map Tok.code).take room, (List.range (((t :: T).take (room + 1)).countP carriesText)).map A,
        blocksFrom A (if carriesText t then 1 else 0) ((T.take room).countP carriesText), if (t :: T).length ≤ room then [] else [.guts, .chars, .state, .stack]⟩,
        h1, h2, ?_, rfl, rfl, rfl, rfl, hnd _, hfreed⟩
      rw [key, hcnt]
      simp only [List.nil_append, tokEnd, List.length_cons, List.map_cons]
      by_cases hro : T.length + 1 ≤ room
      · simp [hro, destroyScanner_ok]
      · simp [hro]; rfl

/-- C64, what is lost: if the vector can take all tokens and the text does not begin with an identifier or a string, nothing is lost. -/
theorem C64_nothing_lost (fpr : Int) (hf : fpr = 64 ∨ fpr = -1) (A : Nat → Nat) (hA : ∀ i j, A i = A j → i = j) (room : Nat) (buf : Bytes) (sql : List UInt8)
    (old : List Int) (T : List Tok) (last : Tok) (st : LexSt) (hT : lexAll fpr (lexInit buf (cText sql)) = some (T ++ [last], st)) (hroom : T.length ≤ room)
    (hfirst : ∀ t, T.head? = some t → t.code ≠ 258 ∧ t.code ≠ 259) :
    ∃ o, tokenizeM fpr A room buf sql old = some o ∧ o.returned = true ∧ o.freed = o.allocated ∧ o.scanner = [] := by
  obtain ⟨T', last', st', o, h1, h2, h3, h4, h5, h6, h7, h8, h9⟩ := C64_tokenize_memory fpr hf A hA room buf sql old
  rw [hT] at h1
  have e : T ++ [last] = T' ++ [last'] := congrArg Prod.fst (Option.some.inj h1)
  have e := (List.append_inj' e rfl).1
  subst e
  refine ⟨o, h3, by simp [h4, hroom], ?_, by simp [h6, hroom]⟩
  rw [h9]
  cases T with
  | nil => simp
  | cons t T =>
    have := hfirst t rfl
    simp [carriesText, this]

/-- C64, what is lost: each call of `tokenize` for a text that begins with an identifier or a string loses exactly one block, however long the text. -/
theorem C64_first_text_lost_violation (fpr : Int) (hf : fpr = 64 ∨ fpr = -1) (A : Nat → Nat) (hA : ∀ i j, A i = A j → i = j) (room : Nat) (buf : Bytes) (sql : List UInt8)
    (old : List Int) (t : Tok) (T : List Tok) (st : LexSt) (hT : lexAll fpr (lexInit buf (cText sql)) = some (t :: T, st)) (ht : t.code = 258 ∨ t.code = 259) :
    ∃ o, tokenizeM fpr A room buf sql old = some o ∧ o.allocated = A 0 :: o.freed := by
  obtain ⟨T', last', st', o, h1, h2, h3, h4, h5, h6, h7, h8, h9⟩ := C64_tokenize_memory fpr hf A hA room buf sql old
  rw [hT] at h1
  have e : t :: T = T' ++ [last'] := congrArg Prod.fst (Option.some.inj h1)
  refine ⟨o, h3, ?_⟩
  cases T' with
  | nil =>
    simp only [List.nil_append, List.cons.injEq] at e
    rw [e.1, h2] at ht
    omega
  | cons x T' =>
    simp only [List.cons_append, List.cons.injEq] at e
    obtain ⟨rfl, e⟩ := e
    have hcx : carriesText t = true := by simpa [carriesText] using ht
    rw [h9, h7]
    simp only [List.take_succ_cons, List.countP_cons, hcx, if_true, List.head?_cons, Option.any_some]
    rw [List.range_eq_range', List.range'_succ]
    simp

/-- Concretely: `a 'b'` into an empty vector with room for everything, with room for one token, and `SELECT 'b'`. -/
example : tokenizeM 64 id 10 [] (txt b!"a 'b'") [] = some ⟨true, [258, 259], [0, 1], [1], []⟩ := by decide +kernel
example : tokenizeM 64 id 1 [] (txt b!"a 'b'") [] = some ⟨false, [258], [0, 1], [1], [.guts, .chars, .state, .stack]⟩ := by decide +kernel
example : tokenizeM 64 id 10 [] (txt b!"SELECT 'b'") [7] = some ⟨true, [7, 313, 259], [0], [0], []⟩ := by decide +kernel

end Verif.Props

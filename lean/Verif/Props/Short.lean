import Verif.LR.Height
import Verif.Props.ResultEx
import Verif.Props.RoundTrip
/-!
# C39: only long statements exhaust the stack of the parser
-/
namespace Verif.Props
open Verif.Lex Verif.LR Verif.Sem Verif.Api Verif.Sql

/-- No 97 tokens in a row without a semicolon (code 59) among them. -/
def ShortStatements (toks : List Tok) : Prop :=
  ∀ p q r, toks = p ++ q ++ r → (∀ m ∈ q, m.code ≠ 59) → q.length ≤ 96

theorem semi_code {m : Tok} (h : tsym m ≠ T.SEMI) : m.code ≠ 59 := by
  intro e
  refine h ?_
  unfold tsym
  rw [e]
  decide +kernel

section
variable {A : Alloc} (hA : Distinct A) {fpr : Int} (hf : FprOK fpr) (buf : Bytes) (sql : List UInt8) (l c : Int)
include hA hf

/-- C39. If the parser reports "memory exhausted", there are 97 tokens in a row without a semicolon among them. -/
theorem C39_exhausted_is_long (o : ParseOut) (h : parse A fpr buf sql (newResult l c) = some o) (hm : message o.res = some b!"memory exhausted") :
    ∃ p q r, sentence (tokensOf fpr sql) = p ++ q ++ r ∧ 97 ≤ q.length ∧ ∀ m ∈ q, m.code ≠ 59 := by
  obtain ⟨ret, st, hp, rfl⟩ := parse_some h
  obtain ⟨e, junk, hin, hE⟩ := parse_ends (sql := sql) (ok := Occurs fpr sql) hf (hA.ok (l := l) (c := c)) newResult_ok
  rw [hp] at hE
  rcases ends_msg hin rfl hE hm with ⟨_, _, n, cf, stk, hR, hl⟩ | h | ⟨pre, u, rest, s, q1, _, q2, hs, q3, q4, _⟩
  · obtain ⟨a, b, e1, e2, e3⟩ := height stk _ hR.inv.ok
    have hmax := ble_iff.1 (allN_spec phiMax _ (topState_lt hR.inv.ok))
    rcases hR.rest hin with ⟨_, suf, _, h2⟩ | ⟨h69, _, h3⟩
    · exact ⟨a, b, suf, by rw [h2, e1], by omega, fun m hb => semi_code (e2 m hb)⟩
    · rw [h69] at e3
      have h22 : phi 69 ≤ 26 := by decide +kernel
      rw [e1] at h3
      have hb0 : b ≠ [] := by rintro rfl; simp at e3; omega
      obtain ⟨b', y, rfl⟩ : ∃ b' y, b = b' ++ [y] := ⟨b.dropLast, b.getLast hb0, (List.dropLast_concat_getLast hb0).symm⟩
      rw [← List.append_assoc] at h3
      have h4 := List.append_inj' h3 rfl
      exact ⟨a, b', [], by rw [← h4.1]; simp, by simp at e3; omega, fun m hb => semi_code (e2 m (by simp [hb]))⟩
  · exact absurd rfl (kinds h).1
  · exfalso
    have := syntaxMsg_prefix s (tsym u)
    rw [← q2] at this
    rcases this with ⟨w, hw⟩; cases hw

/-- C39. A text without 97 tokens in a row without a semicolon is never rejected with "memory exhausted", however many statements it has. -/
theorem C39_short_statements (hs : ShortStatements (sentence (tokensOf fpr sql))) (o : ParseOut) (h : parse A fpr buf sql (newResult l c) = some o) :
    message o.res ≠ some b!"memory exhausted" := by
  intro hm
  obtain ⟨p, q, r, e, h1, h2⟩ := C39_exhausted_is_long hA hf buf sql l c o h hm
  have := hs p q r e h2
  omega

/-- C39. If such a text is grammatical, it is accepted, or a semantic check fails (or `sscanf` has undefined behaviour: C33). -/
theorem C39_short_grammatical (hs : ShortStatements (sentence (tokensOf fpr sql))) (t : Tree) (hd : Derives (sentence (tokensOf fpr sql)) t) :
    (∃ o, parse A fpr buf sql (newResult l c) = some o ∧ (o.res.isValid = true ∨ ∃ m, message o.res = some m ∧ SemMsg m)) ∨
    (parse A fpr buf sql (newResult l c) = none ∧ ∃ u ∈ tokensOf fpr sql, ∃ b, u.val = .sval b ∧ Overflow b) := by
  rcases Nat.lt_or_ge (t.need + 1) 200 with hn | hn
  · exact C12_grammatical_is_valid hA hf buf sql l c t hd hn
  · cases hp : parse A fpr buf sql (newResult l c) with
    | none =>
      obtain ⟨e, junk, hin, hE⟩ := parse_ends (sql := sql) (ok := fun _ => True) hf (hA.ok (l := l) (c := c)) newResult_ok
      rw [parse_none hp] at hE
      generalize hx : (none : Option (Int × Sem.St)) = x at hE
      cases hE with
      | ub b u h1 h2 h3 => exact .inr ⟨rfl, u, h1, b, h2, h3⟩
      | _ => cases hx
    | some o =>
      obtain ⟨_, m, hm, h | h⟩ := (C15_memory_exhausted hA hf buf sql l c o hp).2 t hd hn
      · exact absurd (by rw [hm, h]) (C39_short_statements hA hf buf sql l c hs o hp)
      · exact .inl ⟨o, rfl, .inr ⟨m, hm, h⟩⟩

end

/-- There are at most as many tokens as bytes, besides the end of input. -/
theorem lexH_len (fpr : Int) : ∀ (k : Nat) (st : LexSt) (acc : List Bytes), Clean st.rest → st.rest.length ≤ k → (lexH fpr st acc).1.length ≤ st.rest.length + 1 := by
  intro k
  induction k with
  | zero =>
    rintro ⟨sc, buf, rest⟩ acc hc hk
    have : rest = [] := List.eq_nil_of_length_eq_zero (by simpa using hk)
    subst this
    rw [lexH_nil]; simp
  | succ k ih =>
    rintro ⟨sc, buf, rest⟩ acc hc hk
    simp only [] at hc hk
    by_cases hne : rest = []
    · subst hne; rw [lexH_nil]; simp
    · obtain ⟨a, ha⟩ := lexAction_total fpr sc buf hc hne
      have hp := hand_pos sc hc hne
      have hl := List.length_pos_iff.2 hne
      cases a with
      | skip sc' buf' =>
        rw [lexH_skip hc hne (Prod.eta _).symm ha]
        have := ih ⟨sc', buf', rest.drop (handStep sc rest).2⟩ ((rest.take (handStep sc rest).2) :: acc) (clean_drop hc _) (by simp; omega)
        simp only [List.length_drop] at this ⊢
        omega
      | ret sc' buf' c v =>
        by_cases h0 : c = 0
        · subst h0; rw [lexH_ret0 hc hne (Prod.eta _).symm ha]; simp
        · rw [lexH_ret hc hne (Prod.eta _).symm ha h0]
          have := ih ⟨sc', buf', rest.drop (handStep sc rest).2⟩ [] (clean_drop hc _) (by simp; omega)
          simp only [List.length_drop, List.length_cons] at this ⊢
          omega

/-- C39. In particular texts of at most 96 bytes are short. -/
theorem C39_short_texts {fpr : Int} (hf : FprOK fpr) (sql : List UInt8) (h : sql.length ≤ 96) : ShortStatements (sentence (tokensOf fpr sql)) := by
  intro p q r e _
  obtain ⟨st, h1⟩ := tokensOf_spec fpr [] sql
  have h2 := lexH_len fpr _ (lexInit [] (cText sql)) [] (cText_clean sql) (Nat.le_refl _)
  rw [← lexAll_H h1] at h2
  obtain ⟨x, junk, hin⟩ := input_of (tokensOf_shape hf sql).2
  have h3 := congrArg List.length hin.eq
  rw [e] at h3
  have h4 : (cText sql).length ≤ sql.length := by
    unfold cText
    rw [List.length_map]
    exact (List.takeWhile_prefix _).length_le
  simp only [lexInit, List.length_append, List.length_cons] at h2 h3
  omega

theorem semi_only : (List.range 437).all (fun c => !(tokSym (c : Int) == T.SEMI) || c == 59) = true := by decide +kernel

theorem code_semi {m : Tok} (h : tsym m = T.SEMI) : m.code = 59 := by
  unfold tsym at h
  by_cases h0 : m.code ≤ 0
  · unfold tokSym at h; rw [if_pos h0] at h; cases h
  · by_cases h1 : m.code ≤ YYMAXUTOK
    · have := List.all_eq_true.1 semi_only m.code.toNat (by simp; unfold YYMAXUTOK at h1; omega)
      have e : ((m.code.toNat : Nat) : Int) = m.code := by omega
      rw [e, h] at this
      simp at this
      omega
    · unfold tokSym at h
      rw [if_neg h0, if_neg h1] at h
      cases h

/-- Appending a short statement. -/
theorem short_snoc {T T' : List Tok} {m : Tok} (h : ShortStatements T) (hm : m.code = 59) (hl : T'.length ≤ 96) : ShortStatements (T ++ m :: T') := by
  intro p q r e hq
  rcases Nat.lt_or_ge T.length p.length with hp | hp
  · have := congrArg List.length e
    simp at this
    omega
  · rcases Nat.lt_or_ge T.length (p.length + q.length) with hpq | hpq
    · exfalso
      have h1 : (T ++ m :: T')[T.length]? = some m := by simp
      rw [e, List.append_assoc, List.getElem?_append_right hp, List.getElem?_append_left (by omega)] at h1
      exact hq m (List.mem_of_getElem? h1) hm
    · have h1 := congrArg (List.take T.length) e
      rw [List.take_left, List.take_append, List.take_of_length_le (l := p ++ q) (by simp; omega)] at h1
      exact h p q _ h1 hq

theorem spelled_split {T : List Tok} : ∀ {ws us : List Word}, Spelled (ws ++ us) T → ∃ T1 T2, T = T1 ++ T2 ∧ Spelled ws T1 ∧ Spelled us T2 := by
  induction T with
  | nil =>
    intro ws us h
    cases ws with
    | nil => exact ⟨[], [], rfl, trivial, h⟩
    | cons w ws => exact h.elim
  | cons t T ih =>
    intro ws us h
    cases ws with
    | nil => exact ⟨[], t :: T, rfl, trivial, h⟩
    | cons w ws =>
      obtain ⟨h1, h2, h3⟩ := h
      obtain ⟨T1, T2, rfl, h4, h5⟩ := ih h3
      exact ⟨t :: T1, T2, rfl, ⟨h1, h2, h4⟩, h5⟩

theorem short_script {s : Script} (h : ∀ i ∈ s.items, i.words.length ≤ 96) : ∀ {T : List Tok}, Spelled s.words T → ShortStatements T := by
  induction s with
  | one i =>
    intro T hT p q r e _
    have h1 := spelled_length hT
    have h2 := h i (by simp [Script.items])
    simp only [Script.words] at h1
    rw [e] at h1
    simp at h1
    omega
  | snoc l i ih =>
    intro T hT
    simp only [Script.words, cat] at hT
    obtain ⟨T1, T2, rfl, h1, h2⟩ := spelled_split hT
    obtain ⟨T2, T3, rfl, h2, h3⟩ := spelled_split h2
    have h4 := spelled_length h2
    match T2, h2, h4 with
    | [m], h2, _ =>
      refine short_snoc (ih (fun j hj => h j (by simp [Script.items, hj])) h1) (code_semi h2.1) ?_
      show T3.length ≤ 96
      rw [spelled_length h3]
      exact h i (by simp [Script.items])

section
variable {A : Alloc} (hA : Distinct A) {fpr : Int} (hf : FprOK fpr) (buf : Bytes) (sql : List UInt8) (l c : Int)
include hA hf

/-- C39. The round trip (C23) without exception: a script none of whose statements has more than 96 words, whatever the number of its statements, is accepted, and gives its
statements back. -/
theorem C39_round_trip (s : Script) (b : Bool) (hs : Text (s.text b) (cText sql)) (hn : Numbered 0 (s.text b)) (hl : ∀ i ∈ s.items, i.words.length ≤ 96) :
    ∃ o, parse A fpr buf sql (newResult l c) = some o ∧ o.res.isValid = true ∧ astL o.res.stmts = s.items.map fun i => (i.v (.pos 0)).fill := by
  obtain ⟨o, ho, ⟨h1, h2⟩ | ⟨_, h2, _⟩⟩ := C23_round_trip hA hf buf sql l c s b hs hn
  · exact ⟨o, ho, h1, h2⟩
  · exfalso
    refine C39_short_statements hA hf buf sql l c ?_ o ho h2
    have hsp := tokensOf_text (fpr := fpr) hs
    cases b with
    | false => exact short_script hl hsp
    | true =>
      simp only [Script.text, cat] at hsp
      obtain ⟨T1, T2, e, h1, h2⟩ := spelled_split hsp
      have h4 := spelled_length h2
      match T2, h2, h4 with
      | [m], h2, _ =>
        rw [e]
        exact short_snoc (short_script hl h1) (code_semi h2.1) (by simp)
end

/-- The bound is nearly exact: 50 times `SELECT(`, 100 tokens, exhausts the stack. -/
theorem C39_nearly_exact : (run0 ((List.replicate 50 b!"SELECT(").flatten)).map (fun o => message o.res) = some (some b!"memory exhausted") :=
  parse_of_eval (f := 400) (q := Option.map fun (o : ParseOut) => message o.res) (by decide +kernel)

/-- A concrete case: the script `demo` of C23. -/
example : ∀ i ∈ demo.items, i.words.length ≤ 96 := by
  have : demo.items.all (fun i => decide (i.words.length ≤ 96)) = true := by decide +kernel
  intro i hi
  simpa using List.all_eq_true.1 this i hi

end Verif.Props

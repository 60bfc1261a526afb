import Verif.Props.Tokens
import Verif.Lex.Cut
import Verif.Sql.RenderOk
/-!
# C37: what the scanner does not understand ends the text, silently

Four things make `hsql_lex` return 0 or less, which the parser takes for the end of the input: the end of the text, a byte that no rule but the catch-all one
matches, a string literal without closing quote, and an integer literal out of range if its message cannot be written to stderr. (If it can, the text is rejected.)
-/
namespace Verif.Props
open Verif.Lex Verif.LR Verif.Sem Verif.Api

/-- `A` accepts `sql` iff it accepts `sql'`, and then the two results have the same statements (up to their addresses and lengths) and the same number of parameters. -/
def SameResult (A : Alloc) (fpr : Int) (sql sql' : List UInt8) : Prop :=
  ∀ (buf buf' : Bytes) (l c l' c' : Int),
    ((∃ o, parse A fpr buf sql (newResult l c) = some o ∧ o.res.isValid = true) ↔
      ∃ o, parse A fpr buf' sql' (newResult l' c') = some o ∧ o.res.isValid = true) ∧
    ∀ o o', parse A fpr buf sql (newResult l c) = some o → parse A fpr buf' sql' (newResult l' c') = some o' → o.res.isValid = true →
      o'.res.isValid = true → astL o.res.stmts = astL o'.res.stmts ∧ o.res.params.length = o'.res.params.length

/-- After `k` calls of `hsql_lex`, which return the tokens `T`, the scanner of the text `p ++ w ++ x` is between tokens, in front of `w ++ x`, where `w` are blanks. -/
def Before (fpr : Int) (p w x : Bytes) : Prop :=
  (∃ k T b, lexCalls fpr k (lexInit [] (p ++ w ++ x)) = some (T, ⟨.initial, b, w ++ x⟩)) ∧ ∀ c ∈ w, c = 32 ∨ c = 9 ∨ c = 10

/-- The tokens of the text, and those of the part up to `x`. -/
theorem before_tokens {fpr : Int} {p w x : Bytes} {sql sql' : List UInt8} (h : Before fpr p w x) (hs : cText sql = p ++ w ++ x) (hs' : cText sql' = p)
    (hx : ∀ b, x.head? = some b → isBlank b = false) :
    ∃ T b acc acc', tokensOf fpr sql = T ++ (lexH fpr ⟨.initial, b, x⟩ acc).1 ∧ tokensOf fpr sql' = T ++ [⟨0, .none, acc'⟩] ∧ Clean x := by
  obtain ⟨⟨k, T, b, h1⟩, h2⟩ := h
  have hcl : Clean (p ++ w ++ x) := by rw [← hs]; exact cText_clean sql
  have hr := lexCalls_run fpr k _ _ _ hcl h1
  have hcut := hr.cut p hcl (v := w ++ x) (by simp [lexInit]) rfl
  obtain ⟨e1, c1⟩ := hr.lexH hcl
  have hcp : Clean p := fun b hb => hcl b (by simp [hb])
  obtain ⟨e2, _⟩ := hcut.lexH hcp
  obtain ⟨s1, g1⟩ := tokensOf_spec fpr [] sql
  obtain ⟨s2, g2⟩ := tokensOf_spec fpr [] sql'
  have f1 := congrArg Prod.fst (lexAll_H g1)
  have f2 := congrArg Prod.fst (lexAll_H g2)
  simp only [] at f1 f2
  rw [hs, e1] at f1
  rw [hs'] at f2
  have f2' : tokensOf fpr sql' = T ++ (lexH fpr ⟨.initial, b, []⟩ []).1 := by rw [f2]; exact congrArg Prod.fst e2
  rw [lexH_nil] at f2'
  have hcx : Clean x := fun b hb => hcl b (by simp [hb])
  refine ⟨T, b, ?_⟩
  by_cases hw : w = []
  · subst hw
    exact ⟨[], _, f1, f2', hcx⟩
  · have hb : ∀ c ∈ w, isBlank c = true := by
      intro c hc; rcases h2 c hc with rfl | rfl | rfl <;> rfl
    have := lexH_blank fpr (buf := b) (acc := []) c1 hw hb hx
    simp only [] at f1
    rw [this] at f1
    exact ⟨_, _, f1, f2', hcx⟩

theorem tsym_end {t : Tok} (h : t.code ≤ 0) : tsym t = 0 := by
  unfold tsym tokSym
  rw [if_pos h]

/-- If the tokens agree up to a code that is 0 or negative, so do the results. -/
theorem same_of_end {A : Alloc} (hA : Distinct A) {fpr : Int} (hf : FprOK fpr) {sql sql' : List UInt8} {T R : List Tok} {t t' : Tok} (h1 : tokensOf fpr sql = T ++ t :: R)
    (h2 : tokensOf fpr sql' = T ++ [t']) (ht : t.code ≤ 0) (ht' : t'.code ≤ 0) : SameResult A fpr sql sql' := by
  intro buf buf' l c l' c'
  refine parse_map_sentence hA hf buf buf' l c l' c' (strHom_id 0) rfl (g := cvTok) cvTok_val (fun _ => rfl) ?_
  have key : ∀ (T R : List Tok) (t : Tok), tsym t = 0 → sentence (T ++ t :: R) = sentence T := by
    intro T R t h0
    unfold sentence
    induction T with
    | nil => simp [h0]
    | cons a T ih =>
      by_cases ha : tsym a = 0
      · simp [ha]
      · simp [ha]; simpa using ih
  rw [h1, h2, key T R t (tsym_end ht), key T [] t' (tsym_end ht')]

section
variable {A : Alloc} (hA : Distinct A) {fpr : Int} (hf : FprOK fpr) {sql sql' : List UInt8}
include hA hf

/-- C37. A byte `b` that no rule of the scanner but the catch-all one (number 188) matches: it and everything after it might as well not be there. -/
theorem C37_unknown_character (p w v : Bytes) (b : Nat) (hs : cText sql = p ++ w ++ b :: v) (hs' : cText sql' = p)
    (hB : Before fpr p w (b :: v)) (hb : LongestMatch .initial (b :: v) 188 1) : SameResult A fpr sql sql' := by
  have hcl : Clean (b :: v) := by
    intro x hx
    exact cText_clean sql x (by rw [hs]; simp at hx ⊢; rcases hx with h | h <;> simp [h])
  have hh := longest_hand .initial hcl (by simp)
  obtain ⟨e1, e2⟩ := longestMatch_unique hh hb
  have hst : handStep .initial (b :: v) = (188, 1) := Prod.ext e1 e2
  have hnb : isBlank b = false := by
    cases hbl : isBlank b with
    | false => rfl
    | true =>
      have : handStep .initial (b :: v) = (4, ((b :: v).takeWhile isBlank).length) := by
        simp only [handStep, handInitial, hbl, if_true]
      rw [this] at hst
      cases hst
  obtain ⟨T, bu, acc, acc', h1, h2, _⟩ := before_tokens hB hs hs' (by simp [hnb])
  rw [lexH_ret0 hcl (by simp) hst rfl] at h1
  exact same_of_end hA hf h1 h2 (Int.le_refl 0) (Int.le_refl 0)

/-- C37. A string literal that is not closed: it might as well not be there. (Inside it quotes are doubled, see C04.) -/
theorem C37_unterminated_string (p w s : Bytes) (hs : cText sql = p ++ w ++ 39 :: s.flatMap (fun b => if b = 39 then [39, 39] else [b])) (hs' : cText sql' = p)
    (hB : Before fpr p w (39 :: s.flatMap fun b => if b = 39 then [39, 39] else [b])) : SameResult A fpr sql sql' := by
  rw [← escQuote_flatMap] at hs hB
  obtain ⟨T, bu, acc, acc', h1, h2, hcl⟩ := before_tokens hB hs hs' (by simp [isBlank])
  obtain ⟨acc2, hr⟩ := string_open fpr s bu acc
  rw [(hr.lexH hcl).1, lexH_nil] at h1
  exact same_of_end hA hf h1 h2 (Int.le_refl 0) (Int.le_refl 0)

/-- C37. An integer literal out of range (see C05), if the message of the scanner cannot be written: it and everything after it might as well not be there. -/
theorem C37_integer_ends_text (p w v : Bytes) (n : Nat) (hn : 2 ^ 63 ≤ n) (hs : cText sql = p ++ w ++ (dec n ++ v)) (hs' : cText sql' = p)
    (hv : ∀ x, v.head? = some x → ¬ (48 ≤ x ∧ x ≤ 57) ∧ x ≠ 46) (hB : Before fpr p w (dec n ++ v)) (hneg : fpr < 0) : SameResult A fpr sql sql' := by
  have hd := dec_digits n
  obtain ⟨T, bu, acc, acc', h1, h2, hcl⟩ := before_tokens hB hs hs' (by
    intro x hx
    cases he : dec n with
    | nil => exact absurd he hd.1
    | cons y ys =>
      rw [he] at hx
      simp at hx
      subst hx
      have := hd.2 y (by rw [he]; simp)
      unfold Lex.isDigit at this
      unfold isBlank
      simp at this ⊢
      omega)
  have hr := int_run_bad fpr (acc := acc) (buf := bu) hd.1 hd.2 (v := v)
    (fun x hx => ⟨by have := (hv x hx).1; unfold Lex.isDigit; simp; omega, (hv x hx).2⟩)
    (by rw [strtoll0_dec, if_neg (by omega)]) (by omega)
  rw [(hr.lexH hcl).1] at h1
  exact same_of_end hA hf (by simpa using h1) h2 (by show fpr ≤ 0; omega) (Int.le_refl 0)
end

/-- The token number of "any other code" is in no rule. -/
theorem no_undef_rules : (List.range 358).all (fun r => (rhs r).all fun x => !(x == 2)) = true := by decide +kernel

mutual
theorem no_undef : ∀ (t : Tree), t.WF → t.sym ≠ 2 → ∀ m ∈ t.yield, tsym m ≠ 2
  | .leaf t, _, h, m, hm => by
    simp only [Tree.yield, List.mem_singleton] at hm
    subst hm
    exact h
  | .node r cs, hw, _, m, hm => by
    have h2 := hw.2.1
    rw [rules_len] at h2
    have := List.all_eq_true.1 no_undef_rules r (by simpa using h2)
    rw [← hw.2.2.1] at this
    exact no_undefL cs hw.2.2.2 this m hm
theorem no_undefL : ∀ (ts : List Tree), WFL ts → ((ts.map Tree.sym).all fun x => !(x == 2)) = true → ∀ m ∈ yieldL ts, tsym m ≠ 2
  | [], _, _, m, hm => by simp [yieldL] at hm
  | c :: cs, hw, h, m, hm => by
    simp only [List.map_cons, List.all_cons, Bool.and_eq_true, Bool.not_eq_true', beq_eq_false_iff_ne] at h
    simp only [yieldL, List.mem_append] at hm
    rcases hm with hm | hm
    · exact no_undef c hw.1 h.1 m hm
    · exact no_undefL cs hw.2 h.2 m hm
end

/-- If `fprintf` succeeds, only the last token is an end of input. -/
theorem sentence_64 (sql : List UInt8) : ∃ last, tokensOf 64 sql = sentence (tokensOf 64 sql) ++ [last] ∧ last.code = 0 := by
  obtain ⟨T, last, st, h1, h2, h3, _⟩ := C02_scanning_total_lossless 64 (by decide) [] sql
  obtain ⟨st', h1'⟩ := tokensOf_spec 64 [] sql
  have e : tokensOf 64 sql = T ++ [last] := (Prod.mk.inj (Option.some.inj (h1.symm.trans h1'))).1.symm
  have hne : ∀ t ∈ T, tsym t ≠ 0 := by
    intro t ht
    have := lexH_codes 64 (cText sql).length (lexInit [] (cText sql)) [] (cText_clean sql) (Nat.le_refl _)
    rw [← lexAll_H h1] at this
    have hr := this t (List.mem_append_left _ ht)
    have h0 := h3 t ht
    have hm := List.all_eq_true.1 tokSym_pos t.code.toNat (by simp; omega)
    simp only [Bool.or_eq_true, beq_iff_eq, Bool.not_eq_true', beq_eq_false_iff_ne] at hm
    have e2 : ((t.code.toNat : Nat) : Int) = t.code := by omega
    rw [e2] at hm
    rcases hm with hm | hm
    · omega
    · exact hm
  refine ⟨last, ?_, h2⟩
  have : sentence (tokensOf 64 sql) = T := by
    rw [e]
    unfold sentence
    rw [List.takeWhile_append_of_pos (by intro t ht; simp [hne t ht])]
    simp [tsym_end (t := last) (by omega)]
  rw [this, e]

/-- C37. An integer literal out of range, if the message of the scanner is written: the text is rejected. -/
theorem C37_integer_rejected {A : Alloc} (hA : Distinct A) {sql : List UInt8} (p w v : Bytes) (n : Nat) (hn : 2 ^ 63 ≤ n) (hs : cText sql = p ++ w ++ (dec n ++ v))
    (hv : ∀ x, v.head? = some x → ¬ (48 ≤ x ∧ x ≤ 57) ∧ x ≠ 46) (hB : Before 64 p w (dec n ++ v)) (buf : Bytes) (l c : Int) (o : ParseOut)
    (h : parse A 64 buf sql (newResult l c) = some o) : o.res.isValid = false := by
  cases hval : o.res.isValid with
  | false => rfl
  | true =>
    exfalso
    obtain ⟨t, ht, _⟩ := C11_valid_is_grammatical hA (.inl rfl) buf sql l c o h hval
    have hd := dec_digits n
    have hc0 : Clean p := by
      intro x hx
      exact cText_clean sql x (by rw [hs]; simp [hx])
    obtain ⟨sql', hs'⟩ : ∃ sql' : List UInt8, cText sql' = p := ⟨p.map UInt8.ofNat, Sql.cText_ofNat fun z hz => by have := hc0 z hz; omega⟩
    obtain ⟨T, bu, acc, acc', h1, h2, hcl⟩ := before_tokens hB hs hs' (by
      intro x hx
      cases he : dec n with
      | nil => exact absurd he hd.1
      | cons y ys =>
        rw [he] at hx
        simp at hx
        subst hx
        have := hd.2 y (by rw [he]; simp)
        unfold Lex.isDigit at this
        unfold isBlank
        simp at this ⊢
        omega)
    have hr := int_run_bad 64 (acc := acc) (buf := bu) hd.1 hd.2 (v := v)
      (fun x hx => ⟨by have := (hv x hx).1; unfold Lex.isDigit; simp; omega, (hv x hx).2⟩)
      (by rw [strtoll0_dec, if_neg (by omega)]) (by omega)
    rw [(hr.lexH hcl).1] at h1
    obtain ⟨last, e1, e2⟩ := sentence_64 sql
    have hmem : (⟨64, .ival 9223372036854775807, (dec n :: acc).reverse⟩ : Tok) ∈ sentence (tokensOf 64 sql) ++ [last] := by
      rw [← e1, h1]; simp
    rcases List.mem_append.1 hmem with hm | hm
    · rw [← ht.2.2.1] at hm
      refine no_undef t ht.1 (by rw [ht.2.1]; decide) _ hm ?_
      show tokSym 64 = 2
      decide +kernel
    · simp at hm
      rw [← hm] at e2
      cases e2

/-! ### Concrete cases -/

/-- Bytes that match no other rule, wherever they are: control characters, `#`, `$`, `&`, `@`, the backslash, the backquote, bytes above 126, … -/
theorem C37_unknown_bytes {b : Nat} {v : Bytes} (hc : ∀ x ∈ b :: v, 1 ≤ x ∧ x ≤ 255)
    (h : b ∈ [35, 36, 38, 64, 92, 96] ∨ 127 ≤ b ∨ b < 9 ∨ (10 < b ∧ b < 32)) : LongestMatch .initial (b :: v) 188 1 := by
  have hh := longest_hand .initial (t := b :: v) hc (by simp)
  have hb := hc b (by simp)
  have : handStep .initial (b :: v) = (188, 1) := by
    have key : (List.range 256).all (fun b => !([35, 36, 38, 64, 92, 96].contains b || Nat.ble 127 b || Nat.blt b 9 || (Nat.blt 10 b && Nat.blt b 32)) ||
        (!isBlank b && !isLetter b && !Lex.isDigit b && !isSelf b && !([33, 45, 60, 61, 62, 124, 34, 39, 46].contains b))) = true := by decide +kernel
    have k := List.all_eq_true.1 key b (by simp; omega)
    have hpre : ([35, 36, 38, 64, 92, 96].contains b || Nat.ble 127 b || Nat.blt b 9 || (Nat.blt 10 b && Nat.blt b 32)) = true := by
      simp only [List.mem_cons, List.not_mem_nil, or_false] at h
      simp
      omega
    rw [hpre, Bool.not_true, Bool.false_or] at k
    simp only [Bool.and_eq_true, Bool.not_eq_true', List.contains_eq_mem, List.mem_cons, List.not_mem_nil, or_false, decide_eq_false_iff_not, not_or] at k
    obtain ⟨⟨⟨⟨k1, k2⟩, k3⟩, k4⟩, k5, k6, k7, k8, k9, k10, k11, k12, k13⟩ := k
    simp [handStep, handInitial, k1, k2, k3, k13, k11, k12, handOp, k4, k5, k6, k7, k8, k9, k10]
  rw [this] at hh
  exact hh

theorem before_demo : Before 64 b!"SELECT 1" b!" " b!"# junk" := by
  refine ⟨⟨2, [⟨313, .none, [b!"SELECT"]⟩, ⟨261, .ival 1, [b!" ", b!"1"]⟩], [], ?_⟩, by decide⟩
  decide +kernel

/-- `SELECT 1 # junk` and `SELECT 1` have the same result. -/
example {A : Alloc} (hA : Distinct A) : SameResult A 64 (txt b!"SELECT 1 # junk") (txt b!"SELECT 1") :=
  C37_unknown_character hA (.inl rfl) b!"SELECT 1" b!" " b!" junk" 35 (by decide) (by decide) before_demo (C37_unknown_bytes (by decide) (by decide))

end Verif.Props

import Verif.Props.Parens
import Verif.Props.ResultEx
import Verif.Sem.NumDen
/-!
# C69: numbers mean nothing to the parser

`VRL I F vs ws` (`Verif.Sem.NumRel`): the values `vs` and `ws` are equal, except that a number in `vs` may be replaced by one related to it by `I`, and the text of a floating point number by one
related to it by `F`.
-/
namespace Verif.Props
open Verif.Lex Verif.LR Verif.Sem Verif.Api

/-- The tokens are the same, except that integers may have been replaced by integers, and floating point numbers by floating point numbers. -/
def OnlyNumbers (ts us : List Tok) : Prop := us.map tsym = ts.map tsym ∧
  ∀ (i : Nat) (t u : Tok), ts[i]? = some t → us[i]? = some u → u.val = t.val ∨ tsym t = T.INTVAL ∨ tsym t = T.FLOATVAL

/-- The numbers are equal, or those of the integer token at the same place of both lists. -/
def SameInt (ts us : List Tok) (m n : Int) : Prop := m = n ∨ ∃ (i : Nat) (t u : Tok), ts[i]? = some t ∧ us[i]? = some u ∧ t.val = .ival m ∧ u.val = .ival n
/-- Likewise for floating point numbers. -/
def SameFloat (ts us : List Tok) (b c : Bytes) : Prop := b = c ∨ ∃ (i : Nat) (t u : Tok), ts[i]? = some t ∧ us[i]? = some u ∧ t.val = .fval b ∧ u.val = .fval c

theorem OnlyNumbers.symm {ts us : List Tok} (h : OnlyNumbers ts us) : OnlyNumbers us ts := by
  refine ⟨h.1.symm, fun i u t hu ht => ?_⟩
  have hs : tsym u = tsym t := by
    have := congrArg (fun l : List Nat => l[i]?) h.1
    simpa [hu, ht] using this
  rcases h.2 i t u ht hu with h | h | h
  · exact .inl h.symm
  · exact .inr (.inl (hs.trans h))
  · exact .inr (.inr (hs.trans h))

/-- The token with a number that is no enumerator. -/
def starTok (t : Tok) : Tok := match t.val with
  | .ival _ => ⟨t.code, .ival star, []⟩
  | _ => t

theorem starTok_sym (t : Tok) : tsym (starTok t) = tsym t := by unfold starTok; split <;> rfl
theorem starTok_shape {t : Tok} (h : TokShape t) : TokShape (starTok t) := by
  unfold starTok
  split
  · rename_i n hv
    unfold TokShape at h ⊢
    rw [hv] at h
    exact h
  · exact h

/-- Related token by token. -/
inductive Toks3 (I : Int → Int → Prop) (F : Bytes → Bytes → Prop) : List Tok → List Tok → List Tok → Prop where
  | nil : Toks3 I F [] [] []
  | cons {x t u : Tok} {xs ts us : List Tok} : Tok3 I F x t u → Toks3 I F xs ts us → Toks3 I F (x :: xs) (t :: ts) (u :: us)

section
variable {I : Int → Int → Prop} {F : Bytes → Bytes → Prop}

theorem Toks3.split : ∀ {xs ts us xs' ts' us' : List Tok}, xs.length = ts.length → us.length = ts.length → Toks3 I F (xs ++ xs') (ts ++ ts') (us ++ us') → Toks3 I F xs ts us ∧ Toks3 I F xs' ts' us'
  | [], [], [], _, _, _, _, _, h => ⟨.nil, h⟩
  | [], _ :: _, _, _, _, _, h, _, _ => by cases h
  | _ :: _, [], _, _, _, _, h, _, _ => by cases h
  | _, [], _ :: _, _, _, _, _, h, _ => by cases h
  | _, _ :: _, [], _, _, _, _, h, _ => by cases h
  | x :: xs, t :: ts, u :: us, _, _, _, h1, h2, .cons h3 h4 => by
    obtain ⟨g1, g2⟩ := Toks3.split (by simpa using h1) (by simpa using h2) h4
    exact ⟨.cons h3 g1, g2⟩

mutual
theorem tree3_of : ∀ {t x u : Tree}, Same t x → Same t u → Toks3 I F x.yield t.yield u.yield → Tree3 I F x t u
  | _, _, _, .leaf _, .leaf _, h => by
    simp only [Tree.yield] at h
    cases h with
    | cons h _ => exact .leaf h
  | _, _, _, .node h1, .node h2, h => by
    simp only [Tree.yield] at h
    exact .node _ (tree3L_of h1 h2 h)
theorem tree3L_of : ∀ {ts xs us : List Tree}, SameL ts xs → SameL ts us → Toks3 I F (yieldL xs) (yieldL ts) (yieldL us) → Tree3L I F xs ts us
  | _, _, _, .nil, .nil, _ => .nil
  | _, _, _, .cons h1 h2, .cons g1 g2, h => by
    simp only [yieldL] at h
    obtain ⟨k1, k2⟩ := Toks3.split (by have := congrArg List.length h1.yield; simpa using this.symm) (by have := congrArg List.length g1.yield; simpa using this.symm) h
    exact .cons (tree3_of h1 g1 k1) (tree3L_of h2 g2 k2)
end

theorem toks3_of : ∀ {ts us : List Tok}, us.map tsym = ts.map tsym → (∀ t ∈ ts, TokShape t) → (∀ u ∈ us, TokShape u) →
    (∀ (i : Nat) (t u : Tok), ts[i]? = some t → us[i]? = some u → u.val = t.val ∨ tsym t = T.INTVAL ∨ tsym t = T.FLOATVAL) → (∀ n, I n n) → (∀ b, F b b) →
    (∀ (i : Nat) (t u : Tok) (m n : Int), ts[i]? = some t → us[i]? = some u → t.val = .ival m → u.val = .ival n → I m n) →
    (∀ (i : Nat) (t u : Tok) (b c : Bytes), ts[i]? = some t → us[i]? = some u → t.val = .fval b → u.val = .fval c → F b c) → Toks3 I F (ts.map starTok) ts us
  | [], [], _, _, _, _, _, _, _, _ => .nil
  | [], _ :: _, h, _, _, _, _, _, _, _ => by simp at h
  | _ :: _, [], h, _, _, _, _, _, _, _ => by simp at h
  | t :: ts, u :: us, h, ht, hu, hv, hI, hF, h1, h2 => by
    simp only [List.map_cons, List.cons.injEq] at h
    refine .cons ?_ (toks3_of h.2 (fun x hx => ht x (List.mem_cons_of_mem _ hx)) (fun x hx => hu x (List.mem_cons_of_mem _ hx))
      (fun i t u a b => hv (i + 1) t u (by simpa using a) (by simpa using b)) hI hF (fun i t u m n a b => h1 (i + 1) t u m n (by simpa using a) (by simpa using b))
      (fun i t u m n a b => h2 (i + 1) t u m n (by simpa using a) (by simpa using b)))
    have st := ht t List.mem_cons_self
    have su := hu u List.mem_cons_self
    have h1' := h1 0 t u
    have h2' := h2 0 t u
    simp only [List.getElem?_cons_zero, forall_const, true_implies] at h1' h2'
    refine ⟨starTok_sym t, (starTok_sym t).trans h.1.symm, starTok_shape st, ?_, ?_, ?_⟩
    · unfold starTok
      cases hv : t.val with
      | ival n => exact .int (.inr rfl)
      | _ => simp only [hv]; exact VR.refl (fun _ => .inl rfl) (fun _ => trivial) _
    · rcases hv 0 t u rfl rfl with e | e | e
      · rw [e]
        unfold starTok
        cases hv : t.val with
        | ival n => exact .int (.inr rfl)
        | _ => simp only [hv]; exact VR.refl (fun _ => .inl rfl) (fun _ => trivial) _
      · unfold TokShape at st su
        cases hv : t.val <;> rw [hv] at st <;> simp only [e] at st
        · exact absurd rfl st.2.2.2
        · rw [h.1, e] at su
          cases hw : u.val <;> rw [hw] at su <;> simp only [] at su
          · exact absurd rfl su.2.2.2
          · unfold starTok; rw [hv]; exact .int (.inr rfl)
          · exact absurd su (by decide)
          · exact absurd su (by decide)
        · exact absurd st (by decide)
        · exact absurd st (by decide)
      · unfold TokShape at st su
        cases hv : t.val <;> rw [hv] at st <;> simp only [e] at st
        · exact absurd rfl st.2.2.1
        · exact absurd st (by decide)
        · rw [h.1, e] at su
          cases hw : u.val <;> rw [hw] at su <;> simp only [] at su
          · exact absurd rfl su.2.2.1
          · exact absurd su (by decide)
          · unfold starTok; simp only [hv]; exact .raw trivial
          · exact absurd su (by decide)
        · exact absurd st (by decide)
    · rcases hv 0 t u rfl rfl with e | e | e
      · rw [e]
        exact VR.refl hI hF _
      · unfold TokShape at st su
        cases hv : t.val <;> rw [hv] at st <;> simp only [e] at st
        · exact absurd rfl st.2.2.2
        · rw [h.1, e] at su
          cases hw : u.val <;> rw [hw] at su <;> simp only [] at su
          · exact absurd rfl su.2.2.2
          · exact .int (h1' _ _ hv hw)
          · exact absurd su (by decide)
          · exact absurd su (by decide)
        · exact absurd st (by decide)
        · exact absurd st (by decide)
      · unfold TokShape at st su
        cases hv : t.val <;> rw [hv] at st <;> simp only [e] at st
        · exact absurd rfl st.2.2.1
        · exact absurd st (by decide)
        · rw [h.1, e] at su
          cases hw : u.val <;> rw [hw] at su <;> simp only [] at su
          · exact absurd rfl su.2.2.1
          · exact absurd su (by decide)
          · exact .raw (h2' _ _ hv hw)
          · exact absurd su (by decide)
        · exact absurd st (by decide)
end

/-- The values of the derivations of two such token lists. -/
theorem numbers_den {ts us : List Tok} (h : OnlyNumbers ts us) (ht : ∀ t ∈ ts, TokShape t) (hu : ∀ u ∈ us, TokShape u) {t : Tree} (hd : Derives ts t) :
    ∃ u, Derives us u ∧ u.need = t.need ∧ OptR (VRL (SameInt ts us) (SameFloat ts us)) (denInput t) (denInput u) := by
  obtain ⟨u, hdu, su⟩ := hd.same h.1
  obtain ⟨x, hdx, sx⟩ := hd.same (ts' := ts.map starTok) (by rw [List.map_map]; exact List.map_congr_left fun t _ => starTok_sym t)
  refine ⟨u, hdu, su.need.symm, ?_⟩
  have h3 : Toks3 (SameInt ts us) (SameFloat ts us) x.yield t.yield u.yield := by
    rw [hdx.2.2.1, hd.2.2.1, hdu.2.2.1]
    exact toks3_of h.1 ht hu h.2 (fun _ => .inl rfl) (fun _ => .inl rfl) (fun i t u m n a b c d => .inr ⟨i, t, u, a, b, c, d⟩) (fun i t u m n a b c d => .inr ⟨i, t, u, a, b, c, d⟩)
  refine denInput3 (fun _ => .inl rfl) (fun _ => .inl rfl) (tree3_of sx su h3) hdx.1 fun m hm => ?_
  rw [hdx.2.2.1] at hm
  obtain ⟨t, htm, rfl⟩ := List.mem_map.1 hm
  exact starTok_shape (ht t htm)

section
variable {A A' : Alloc} (hA : Distinct A) (hA' : Distinct A') {fpr : Int} (hf : FprOK fpr) (buf buf' : Bytes) (sql sql' : List UInt8) (l c l' c' : Int)
  (hn : OnlyNumbers (sentence (tokensOf fpr sql)) (sentence (tokensOf fpr sql')))
include hf

theorem sentence_shape (sql : List UInt8) : ∀ t ∈ sentence (tokensOf fpr sql), TokShape t :=
  fun m hm => (tokensOf_shape hf sql).1 m ((List.takeWhile_prefix _).subset hm)

include hn hA hA'

/-- C69. Take two texts with the same tokens, except that the numbers in them are different. Then one is valid iff the other is; -/
theorem C69_same_verdict : (∃ o, parse A fpr buf sql (newResult l c) = some o ∧ o.res.isValid = true) ↔ (∃ o, parse A' fpr buf' sql' (newResult l' c') = some o ∧ o.res.isValid = true) := by
  rw [parse_valid_iff hA hf, parse_valid_iff hA' hf]
  constructor
  · rintro ⟨t, h1, h2, h3⟩
    obtain ⟨u, g1, g2, g3⟩ := numbers_den hn (sentence_shape hf sql) (sentence_shape hf sql') h1
    refine ⟨u, g1, by omega, fun e => ?_⟩
    rw [e] at g3
    generalize denInput t = d at g3 h3
    cases g3
    exact h3 rfl
  · rintro ⟨t, h1, h2, h3⟩
    obtain ⟨u, g1, g2, g3⟩ := numbers_den hn.symm (sentence_shape hf sql') (sentence_shape hf sql) h1
    refine ⟨u, g1, by omega, fun e => ?_⟩
    rw [e] at g3
    generalize denInput t = d at g3 h3
    cases g3
    exact h3 rfl

/-- and if they are, their statements are the same, except that numbers in the first are replaced by the numbers of the second at the same place of the text. -/
theorem C69_same_statements {o o' : ParseOut} (h : parse A fpr buf sql (newResult l c) = some o) (hv : o.res.isValid = true) (h' : parse A' fpr buf' sql' (newResult l' c') = some o') (hv' : o'.res.isValid = true) :
    VRL (SameInt (sentence (tokensOf fpr sql)) (sentence (tokensOf fpr sql'))) (SameFloat (sentence (tokensOf fpr sql)) (sentence (tokensOf fpr sql'))) (astL o.res.stmts) (astL o'.res.stmts) := by
  obtain ⟨t, h1, h2, h3⟩ := (parse_valid_iff hA hf buf sql l c).1 ⟨o, h, hv⟩
  obtain ⟨u, g1, g2, g3⟩ := numbers_den hn (sentence_shape hf sql) (sentence_shape hf sql') h1
  rw [parse_value hA hf buf sql l c o h hv h1, parse_value hA' hf buf' sql' l' c' o' h' hv' g1] at g3
  cases g3 with
  | some g => exact g
end

/-! ## Concrete cases -/

/-- `OnlyNumbers`, by evaluation. -/
def numTest : List Tok → List Tok → Bool
  | [], [] => true
  | t :: ts, u :: us => tsym u == tsym t && (u.val == t.val || tsym t == T.INTVAL || tsym t == T.FLOATVAL) && numTest ts us
  | _, _ => false

theorem numTest_spec : ∀ {ts us : List Tok}, numTest ts us = true → OnlyNumbers ts us
  | [], [], _ => ⟨rfl, fun i t u h => by simp at h⟩
  | [], _ :: _, h => by cases h
  | _ :: _, [], h => by cases h
  | t :: ts, u :: us, h => by
    simp only [numTest, Bool.and_eq_true, Bool.or_eq_true, beq_iff_eq] at h
    obtain ⟨⟨h1, h2⟩, h3⟩ := h
    obtain ⟨g1, g2⟩ := numTest_spec h3
    refine ⟨by simp only [List.map_cons, h1, g1], fun i x y hx hy => ?_⟩
    cases i with
    | zero =>
      simp only [List.getElem?_cons_zero, Option.some.injEq] at hx hy
      subst hx; subst hy
      rcases h2 with (h2 | h2) | h2
      · exact .inl h2
      · exact .inr (.inl h2)
      · exact .inr (.inr h2)
    | succ i => exact g2 i x y (by simpa using hx) (by simpa using hy)

theorem numbers_of {f : Nat} {sql sql' : List UInt8} (h : (match tokE f sql, tokE f sql' with | some a, some b => numTest (sentence a) (sentence b) | _, _ => false) = true) :
    OnlyNumbers (sentence (tokensOf 64 sql)) (sentence (tokensOf 64 sql')) := by
  cases h1 : tokE f sql with
  | none => rw [h1] at h; cases h
  | some a =>
    cases h2 : tokE f sql' with
    | none => rw [h1, h2] at h; cases h
    | some b =>
      rw [h1, h2] at h
      rw [tokE_eq h1, tokE_eq h2]
      exact numTest_spec h

example : OnlyNumbers (sentence (tokensOf 64 (txt b!"SELECT a + 1 FROM t WHERE b < 2.5 LIMIT 10 OFFSET 3"))) (sentence (tokensOf 64 (txt b!"SELECT a + 077 FROM t WHERE b < 17.25 LIMIT 0 OFFSET 12"))) :=
  numbers_of (f := 80) (by decide +kernel)
example : OnlyNumbers (sentence (tokensOf 64 (txt b!"CREATE TABLE t (a CHAR(5), b DECIMAL(3, 1))"))) (sentence (tokensOf 64 (txt b!"CREATE TABLE t (a CHAR(0), b DECIMAL(999, 4))"))) :=
  numbers_of (f := 80) (by decide +kernel)
/-- Both are valid: -/
example : (run0 b!"SELECT a + 1 FROM t WHERE b < 2.5 LIMIT 10 OFFSET 3").map (fun o => o.res.isValid) = some true ∧
    (run0 b!"SELECT a + 077 FROM t WHERE b < 17.25 LIMIT 0 OFFSET 12").map (fun o => o.res.isValid) = some true :=
  ⟨parse_of_eval (f := 80) (q := Option.map fun (o : ParseOut) => o.res.isValid) (by decide +kernel),
   parse_of_eval (f := 80) (q := Option.map fun (o : ParseOut) => o.res.isValid) (by decide +kernel)⟩
/-- Numbers that do not fit 64 bits are not integer tokens: the kinds of the tokens differ. -/
example : (run0 b!"SELECT 9223372036854775807").map (fun o => o.res.isValid) = some true ∧ (run0 b!"SELECT 9223372036854775808").map (fun o => o.res.isValid) = some false :=
  ⟨parse_of_eval (f := 80) (q := Option.map fun (o : ParseOut) => o.res.isValid) (by decide +kernel),
   parse_of_eval (f := 80) (q := Option.map fun (o : ParseOut) => o.res.isValid) (by decide +kernel)⟩
/-- The numbers in strings do matter: -/
example : (run0 b!"SELECT DATE '2020-01-31'").map (fun o => o.res.isValid) = some true ∧ (run0 b!"SELECT DATE '20200-01-31'").map (fun o => o.res.isValid) = some false :=
  ⟨parse_of_eval (f := 80) (q := Option.map fun (o : ParseOut) => o.res.isValid) (by decide +kernel),
   parse_of_eval (f := 80) (q := Option.map fun (o : ParseOut) => o.res.isValid) (by decide +kernel)⟩

end Verif.Props

import Verif.Sem.Size
import Verif.Props.Result
import Verif.Props.RoundTrip
/-!
# C46: memory

What a parse allocates is linear in the length of the text; so is the depth of the statements, but it is not bounded by the fixed size of the parser's stack.
-/
set_option linter.all false
set_option maxRecDepth 20000
namespace Verif.Props
open Verif.Lex Verif.LR Verif.Sem Verif.Api Verif.Sql

theorem lexH_few (fpr : Int) : ∀ (k : Nat) (st : LexSt) (acc : List Bytes), Clean st.rest → st.rest.length ≤ k → (lexH fpr st acc).1.length ≤ st.rest.length + 1 := by
  intro k
  induction k with
  | zero =>
    rintro ⟨sc, buf, rest⟩ acc hc hk
    have : rest = [] := List.eq_nil_of_length_eq_zero (by simpa using hk)
    subst this
    rw [lexH_nil]; simp
  | succ k ih =>
    rintro ⟨sc, buf, rest⟩ acc hc hk
    simp only [] at hc hk
    by_cases hne : rest = []
    · subst hne; rw [lexH_nil]; simp
    · obtain ⟨a, ha⟩ := lexAction_total fpr sc buf hc hne
      have hp := hand_pos sc hc hne
      generalize hrn : handStep sc rest = rn at *
      obtain ⟨r, n⟩ := rn
      simp only [] at ha hp
      cases a with
      | skip sc' buf' =>
        rw [lexH_skip hc hne hrn ha]
        have := ih ⟨sc', buf', rest.drop n⟩ (rest.take n :: acc) (clean_drop hc n) (by simp; omega)
        simp only [List.length_drop] at this ⊢
        omega
      | ret sc' buf' c v =>
        by_cases hc0 : c = 0
        · subst hc0
          rw [lexH_ret0 hc hne hrn ha]
          simp
        · rw [lexH_ret hc hne hrn ha hc0]
          have := ih ⟨sc', buf', rest.drop n⟩ [] (clean_drop hc n) (by simp; omega)
          simp only [List.length_drop, List.length_cons] at this ⊢
          have : 0 < rest.length := List.length_pos_iff.2 hne
          omega

theorem cText_len (sql : List UInt8) : (cText sql).length ≤ sql.length := by
  unfold cText
  rw [List.length_map]
  exact (List.takeWhile_prefix _).length_le

/-- There are no more tokens than bytes, but for the one at the end. -/
theorem tokens_few (fpr : Int) (sql : List UInt8) : (tokensOf fpr sql).length ≤ sql.length + 1 := by
  obtain ⟨st, h⟩ := tokensOf_spec fpr [] sql
  have h1 := lexAll_H h
  have h2 := lexH_few fpr _ (lexInit [] (cText sql)) [] (cText_clean sql) (Nat.le_refl _)
  rw [← h1] at h2
  have := cText_len sql
  exact Nat.le_trans h2 (by show (cText sql).length + 1 ≤ _; omega)

theorem sentence_len (toks : List Tok) (h : ∃ t ∈ toks, tsym t = 0) : (sentence toks).length + 1 ≤ toks.length := by
  obtain ⟨e, junk, hin⟩ := input_of h
  have := congrArg List.length hin.1
  simp at this
  omega

/-- The addresses of all blocks the parse allocated: those it freed, those it leaked, the error message and those of the statements. -/
def blocks (o : ParseOut) : List Nat := o.freed ++ o.leaked ++ o.res.errAddr ++ addrsL o.res.stmts

mutual
/-- How deep a value is nested: what a recursive function over it, like its destructor, needs. Every block is a level; a struct held by value is none of its own. -/
def depth : V → Nat
  | .str _ _ => 1
  | .vec _ vs => depthL vs + 1
  | .obj _ _ fs => depthL fs + 1
  | .tup fs => depthL fs
  | _ => 0
def depthL : List V → Nat
  | [] => 0
  | v :: vs => max (depth v) (depthL vs)
end

mutual
theorem depth_le : (v : V) → depth v ≤ v.addrs.length
  | .str _ _ => by simp [depth, V.addrs]
  | .vec _ vs => by have := depthL_le vs; simp [depth, V.addrs]; omega
  | .obj _ _ vs => by have := depthL_le vs; simp [depth, V.addrs]; omega
  | .tup vs => by have := depthL_le vs; simpa [depth, V.addrs] using this
  | .undef => by simp [depth]
  | .null => by simp [depth]
  | .int _ => by simp [depth]
  | .pos _ => by simp [depth]
  | .idx _ => by simp [depth]
  | .raw _ => by simp [depth]
theorem depthL_le : (vs : List V) → depthL vs ≤ (addrsL vs).length
  | [] => by simp [depthL]
  | v :: vs => by
    have := depth_le v
    have := depthL_le vs
    simp [depthL, addrsL]; omega
end

/-- C46. -/
theorem C46_memory {A : Alloc} (hA : Distinct A) {fpr : Int} (hf : FprOK fpr) (buf : Bytes) (sql : List UInt8) (l c : Int) (o : ParseOut)
    (h : parse A fpr buf sql (newResult l c) = some o) :
    (blocks o).length ≤ 31 * sql.length + 6031 ∧ depthL o.res.stmts ≤ 31 * sql.length + 6031 := by
  obtain ⟨e, junk, hin, hE⟩ := parse_ends (sql := sql) (ok := fun _ => True) hf (hA.ok (l := l) (c := c)) newResult_ok
  obtain ⟨ret, st, hp, rfl⟩ := parse_some h
  rw [hp] at hE
  have h1 := hE.blocks hin
  have h2 := tokens_few fpr sql
  have h3 := sentence_len _ (tokensOf_shape hf sql).2
  have h4 := depthL_le st.res.stmts
  have h5 : (newResult l c).errAddr.length + (addrsL (newResult l c).stmts).length = 0 := rfl
  have h6 : (st.freed ++ st.leaked ++ st.res.errAddr ++ addrsL st.res.stmts).length ≤ 31 * sql.length + 6031 := by omega
  refine ⟨h6, Nat.le_trans h4 ?_⟩
  simp only [List.length_append] at h6
  show (addrsL st.res.stmts).length ≤ _
  omega

end Verif.Props

import Verif.Props.Kept
import Verif.Sem.Raws
import Verif.Sql.BlameRules
/-!
# C71: nothing is made up
-/
namespace Verif.Props
open Verif.Lex Verif.LR Verif.Sem Verif.Api Verif.Sql

mutual
theorem leaves_texts (b : Bytes) : ∀ v : V, (leaves v).count (.text b) = tc b v
  | .str _ c => by simp [leaves, tc, V.texts, List.count_cons]
  | .obj _ _ fs => by rw [leaves, tc_obj]; exact leavesL_texts b fs
  | .vec _ fs => by rw [leaves, tc_vec]; exact leavesL_texts b fs
  | .tup fs => by rw [leaves, tc_tup]; exact leavesL_texts b fs
  | .int _ => by simp [leaves, tc, V.texts]
  | .raw _ => by simp [leaves, tc, V.texts]
  | .undef => rfl
  | .null => rfl
  | .pos _ => rfl
  | .idx _ => rfl
theorem leavesL_texts (b : Bytes) : ∀ vs : List V, (leavesL vs).count (.text b) = tcL b vs
  | [] => rfl
  | v :: vs => by rw [leavesL, tcL_cons, List.count_append, leaves_texts b v, leavesL_texts b vs]
end
mutual
theorem leaves_raws {b : Bytes} : ∀ v : V, .float b ∈ leaves v → b ∈ v.raws
  | .raw _, h => by simpa [leaves, V.raws] using h
  | .obj _ _ fs, h => leavesL_raws fs h
  | .vec _ fs, h => leavesL_raws fs h
  | .tup fs, h => leavesL_raws fs h
  | .int _, h => by simp [leaves] at h
  | .str _ _, h => by simp [leaves] at h
  | .undef, h => by simp [leaves] at h
  | .null, h => by simp [leaves] at h
  | .pos _, h => by simp [leaves] at h
  | .idx _, h => by simp [leaves] at h
theorem leavesL_raws {b : Bytes} : ∀ vs : List V, .float b ∈ leavesL vs → b ∈ rawsL vs
  | [], h => by simp [leavesL] at h
  | v :: vs, h => by
    rw [leavesL, List.mem_append] at h
    rw [rawsL, List.mem_append]
    exact h.imp (leaves_raws v) (leavesL_raws vs)
end

/-- What the tokens carry. -/
def written (ts : List Tok) : List Leaf := ts.filterMap fun t => carried t.val

theorem written_append (a b : List Tok) : written (a ++ b) = written a ++ written b := List.filterMap_append
theorem svals_written (b : Bytes) : ∀ ts : List Tok, (svals ts).count b = (written ts).count (.text b)
  | [] => rfl
  | t :: ts => by
    have ih := svals_written b ts
    unfold svals written at *
    cases h : t.val <;> simp [List.filterMap_cons, h, carried, List.count_cons, ih]

theorem newIval_raws {n : Int} {fs : List V} {b : Bytes} (h : b ∈ rawsL (newIval n fs)) : b ∈ rawsL fs := by
  unfold newIval at h
  split at h
  · split at h
    · rw [mem_rawsL] at *
      obtain ⟨v, hv, h⟩ := h
      rcases List.mem_or_eq_of_mem_set hv with hv | rfl
      · exact ⟨v, hv, h⟩
      · simp [V.raws] at h
    · exact h
  · exact h
mutual
theorem fill_raws {b : Bytes} : ∀ v : V, b ∈ v.fill.raws → b ∈ v.raws
  | .obj _ c fs, h => by
    rw [V.fill, V.raws] at h
    rw [V.raws]
    split at h
    · exact fillL_raws fs (newIval_raws h)
    · exact fillL_raws fs h
  | .vec _ vs, h => by rw [V.fill, V.raws] at h; rw [V.raws]; exact fillL_raws vs h
  | .tup vs, h => by rw [V.fill, V.raws] at h; rw [V.raws]; exact fillL_raws vs h
  | .undef, h => by simpa [V.fill] using h
  | .null, h => by simpa [V.fill] using h
  | .int _, h => by simpa [V.fill] using h
  | .pos _, h => by simpa [V.fill] using h
  | .idx _, h => by simpa [V.fill] using h
  | .raw _, h => by simpa [V.fill] using h
  | .str _ _, h => by simpa [V.fill] using h
theorem fillL_raws {b : Bytes} : ∀ vs : List V, b ∈ rawsL (fillL vs) → b ∈ rawsL vs
  | [], h => by simp [fillL, rawsL] at h
  | v :: vs, h => by
    rw [fillL, rawsL, List.mem_append] at h
    rw [rawsL, List.mem_append]
    exact h.imp (fill_raws v) (fillL_raws vs)
end

theorem tok_str {t : Tok} (h : TokShape t) (hs : tsym t = T.STRING) : ∃ b, t.val = .sval b := by
  unfold TokShape at h
  cases hv : t.val <;> rw [hv] at h <;> simp [hs] at h
  · exact absurd h (by decide)
  · exact absurd h (by decide)
  · exact ⟨_, rfl⟩
theorem tok_kw {t : Tok} (h : TokShape t) (hs : tsym t = T.INTERVAL) : t.val = .none := by
  unfold TokShape at h
  cases hv : t.val <;> rw [hv] at h <;> simp [hs] at h
  · exact absurd h (by decide)
  · exact absurd h (by decide)
  · exact absurd h (by decide)

/-- The value of an interval with its unit inside the string: no decimal point. -/
theorem interval_raws {b : Bytes} {cs : List Tree} (hw : WFL cs) (hr : rhs 297 = cs.map Tree.sym) (ht : ∀ t ∈ yieldL cs, TokShape t) {s1 s s' : PS} {vs : List V} {v : V}
    (hc : denL cs s1 = some (vs, s)) (h : evRule 297 vs s = some (v, s')) : b ∉ v.raws := by
  have er : rhs 297 = [T.INTERVAL, T.STRING] := by decide +kernel
  rw [er] at hr
  obtain ⟨c1, c2, rfl⟩ : ∃ c1 c2, cs = [c1, c2] := by
    match cs, hr with
    | [c1, c2], _ => exact ⟨c1, c2, rfl⟩
    | [], h => simp at h
    | [_], h => simp at h
    | _ :: _ :: _ :: _, h => simp at h
  simp only [List.map, List.cons.injEq, and_true] at hr
  obtain ⟨t1, rfl⟩ := leaf_of_sym hw.1 (by rw [← hr.1]; decide)
  obtain ⟨t2, rfl⟩ := leaf_of_sym hw.2.1 (by rw [← hr.2]; decide)
  have k1 := tok_kw (ht t1 (by simp [yieldL, Tree.yield])) hr.1.symm
  obtain ⟨x, k2⟩ := tok_str (ht t2 (by simp [yieldL, Tree.yield])) hr.2.symm
  simp only [denL, den, k1, k2, tokValue] at hc
  cases hc
  obtain ⟨i1, f, i2⟩ := inv297 h
  have e : evRule 297 [.undef, .str 0 x] s1 = _ := ev297' i1 i2 s1.n s1.err
  have h : evRule 297 [.undef, .str 0 x] s1 = some (v, s') := h
  rw [e] at h
  cases h
  simp [ExprV.v, V.raws, rawsL]

mutual
theorem den_raws {b : Bytes} : ∀ (t : Tree) {s s' : PS} {v : V}, t.WF → (∀ u ∈ t.yield, TokShape u) → den t s = some (v, s') → b ∈ v.raws → .float b ∈ written t.yield
  | .leaf t, s, s', v, _, _, h, hx => by
    simp only [den] at h
    cases h
    cases hv : t.val <;> rw [hv] at hx <;> simp [tokValue, V.raws] at hx
    subst hx
    simp [Tree.yield, written, hv, carried]
  | .node r cs, s, s', v, hw, ht, h, hx => by
    simp only [den] at h
    split at h
    · rename_i vs s1 hc
      simp only [Tree.yield] at ht ⊢
      by_cases h297 : r = 297
      · subst h297
        exact absurd hx (interval_raws hw.2.2.2 hw.2.2.1.symm ht hc h)
      · exact denL_raws cs hw.2.2.2 ht hc (evRule_raws h297 h hx)
    · cases h
theorem denL_raws {b : Bytes} : ∀ (cs : List Tree) {s s' : PS} {vs : List V}, WFL cs → (∀ u ∈ yieldL cs, TokShape u) → denL cs s = some (vs, s') → b ∈ rawsL vs → .float b ∈ written (yieldL cs)
  | [], s, s', vs, _, _, h, hx => by simp only [denL] at h; cases h; simp [rawsL] at hx
  | c :: cs, s, s', vs, hw, ht, h, hx => by
    simp only [denL] at h
    split at h
    · rename_i v s1 hc
      split at h
      · rename_i vs1 s2 hcs
        cases h
        rw [rawsL, List.mem_append] at hx
        rw [yieldL, written_append, List.mem_append]
        rw [yieldL] at ht
        rcases hx with hx | hx
        · exact .inl (den_raws c hw.1 (fun u hu => ht u (by simp [hu])) hc hx)
        · exact .inr (denL_raws cs hw.2 (fun u hu => ht u (by simp [hu])) hcs hx)
      · cases h
    · cases h
end

section
variable {A : Alloc} (hA : Distinct A) {fpr : Int} (hf : FprOK fpr) (buf : Bytes) (sql : List UInt8) (l c : Int)
include hA hf

/-- C71. Let a text be accepted. No name and no string constant is in the statements of the result that has not been written: each occurs there at most as often as in the text. -/
theorem C71_no_text_made_up (o : ParseOut) (h : parse A fpr buf sql (newResult l c) = some o) (hv : o.res.isValid = true) (b : Bytes) :
    (leavesL (astL o.res.stmts)).count (.text b) ≤ (written (sentence (tokensOf fpr sql))).count (.text b) := by
  obtain ⟨t, ht, _, _⟩ := (parse_valid_iff hA hf buf sql l c).1 ⟨o, h, hv⟩
  have hd := parse_value hA hf buf sql l c o h hv ht
  have := denInput_tc b hd
  rwa [ht.2.2.1, svals_written, ← leavesL_texts] at this

/-- C71. And no number with a decimal point. -/
theorem C71_no_decimal_made_up (o : ParseOut) (h : parse A fpr buf sql (newResult l c) = some o) (hv : o.res.isValid = true) (b : Bytes)
    (hb : .float b ∈ leavesL (astL o.res.stmts)) : .float b ∈ written (sentence (tokensOf fpr sql)) := by
  obtain ⟨t, ht, _, _⟩ := (parse_valid_iff hA hf buf sql l c).1 ⟨o, h, hv⟩
  have hd := parse_value hA hf buf sql l c o h hv ht
  have hs := fun m hm => (derives_fits hf ht m hm).1
  obtain ⟨h1, h2, h3, _⟩ := ht
  rw [← h3]
  cases t with
  | leaf t => simp [denInput] at hd
  | node r cs =>
    simp only [denInput] at hd
    split at hd
    · rename_i a ws rest s hc
      have hd := Option.some.inj hd
      rw [← hd] at hb
      refine denL_raws cs h1.2.2.2 hs hc ?_
      rw [rawsL, List.mem_append, V.raws]
      exact .inl (fillL_raws ws (leavesL_raws _ hb))
    · cases hd
end

/-- How often things are in the statements. -/
def times (xs : List Leaf) (o : ParseOut) : Bool × List Nat := (o.res.isValid, xs.map fun x => (leavesL (astL o.res.stmts)).count x)

/-- A concrete case for C71: `a` is written twice and is there twice, `i` is written twice and there once. -/
example : (run0 b!"SELECT a, 1.5 FROM t AS a; CREATE INDEX i ON i.t (b)").map (times [.text b!"a", .text b!"i", .float b!"1.5", .text b!"x"]) = some (true, [2, 1, 1, 0]) :=
  parse_of_eval (f := 60) (q := Option.map (times _)) (by decide +kernel)
end Verif.Props

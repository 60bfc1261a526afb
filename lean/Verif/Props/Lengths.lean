import Verif.Props.Result
import Verif.Props.ResultEx
import Verif.Sem.Len
/-!
# C19: statement lengths

`stringLength`, `Special` and `Lengths` are defined in `Verif.Sem.Len`.
-/
namespace Verif.Props
open Verif.Lex Verif.LR Verif.Sem Verif.Api

def posOf : V → Option Int
  | .pos n => some n
  | _ => none
theorem len_obj (a : Nat) (c : Cls) (w : V) (fs : List V) : stringLength (.obj a c (w :: fs)) = posOf w := by cases w <;> rfl
theorem len_tup (w : V) (fs : List V) : stringLength (.tup (w :: fs)) = posOf w := by cases w <;> rfl
theorem posOf_setIval (a : Nat) (n : Int) (v : V) : posOf (v.setIval a n) = posOf v := by
  cases v with
  | obj b c fs => simp only [V.setIval]; split <;> rfl
  | _ => rfl

theorem stringLength_setIval (a : Nat) (n : Int) (v : V) : stringLength (v.setIval a n) = stringLength v := by
  cases v with
  | obj b c fs =>
    simp only [V.setIval]
    cases fs with
    | nil => split <;> rfl
    | cons w fs =>
      split
      · unfold newIval
        split
        · split
          · rw [List.set_cons_succ, len_obj, len_obj]
          · rfl
        · rfl
      · rw [setIvalL, len_obj, len_obj, posOf_setIval]
  | tup fs =>
    cases fs with
    | nil => rfl
    | cons w fs => rw [V.setIval, setIvalL, len_tup, len_tup, posOf_setIval]
  | vec b vs => rfl
  | _ => rfl

theorem lens_setIval (a : Nat) (n : Int) : ∀ vs : List V, (setIvalL a n vs).map stringLength = vs.map stringLength
  | [] => rfl
  | v :: vs => by simp only [setIvalL, List.map_cons, stringLength_setIval, lens_setIval a n vs]

theorem lens_number : ∀ (l : List Nat) (n : Nat) (vs : List V), (numberL l n vs).map stringLength = vs.map stringLength
  | [], _, _ => rfl
  | a :: l, n, vs => by simp only [numberL]; rw [lens_number l, lens_setIval]

theorem sum_lens : ∀ ps : List Bytes, ((ps.map fun p => (p.length : Int)).sum) = (ps.flatten.length : Nat)
  | [] => rfl
  | p :: ps => by rw [List.map_cons, List.sum_cons, sum_lens ps, List.flatten_cons, List.length_append]; omega

/-- The lengths are those of consecutive pieces of the text. -/
theorem lengths_pieces {toks y : List Tok} {ns : List Int} (h : Lengths toks y ns) (hy : y <+: toks) :
    ∃ (ps : List Bytes) (k : Nat), y.length ≤ k ∧ k ≤ y.length + 1 ∧ ps.map (fun p => (p.length : Int)) = ns ∧ ps.flatten = scanned (toks.take k) := by
  have ends : ∀ {y s : List Tok} {n : Int}, y <+: toks → EndsWith toks y s n → ∃ k, y.length ≤ k ∧ k ≤ y.length + 1 ∧ n = (scanned (toks.take k)).length := by
    intro y s n hy h
    rcases h with h | ⟨h, _⟩
    · exact ⟨_, Nat.le_succ _, Nat.le_refl _, h⟩
    · exact ⟨_, Nat.le_refl _, Nat.le_succ _, by rw [h, ← List.prefix_iff_eq_take.1 hy]⟩
  induction h with
  | one s n h1 h2 =>
    obtain ⟨k, k1, k2, k3⟩ := ends hy h2
    exact ⟨[scanned (toks.take k)], k, k1, k2, by simp [k3], by simp⟩
  | snoc y ns semi s n h h1 h2 h3 ih =>
    obtain ⟨ps, j, j1, j2, j3, j4⟩ := ih ((List.prefix_append _ _).trans hy)
    obtain ⟨k, k1, k2, k3⟩ := ends hy h3
    have hjk : j ≤ k := by simp at k1; omega
    have hpre : scanned (toks.take j) <+: scanned (toks.take k) := by
      have : toks.take j <+: toks.take k := by
        have := List.take_prefix j (toks.take k)
        rwa [List.take_take, Nat.min_eq_left hjk] at this
      obtain ⟨w, hw⟩ := this
      rw [← hw]; unfold scanned; simp
    obtain ⟨q, hq⟩ := hpre
    refine ⟨ps ++ [q], k, k1, k2, ?_, by rw [List.flatten_append, j4, ← hq]; simp⟩
    rw [List.map_append, j3]
    congr 1
    have e : (ns.sum : Int) = (scanned (toks.take j)).length := by
      rw [← j3, ← j4]; exact sum_lens ps
    have e2 := congrArg List.length hq
    simp only [List.length_append] at e2
    simp only [List.map_cons, List.map_nil, List.cons.injEq, and_true]
    omega

section
variable {A : Alloc} (hA : Distinct A) {fpr : Int} (hf : FprOK fpr) (buf : Bytes) (sql : List UInt8) (l c : Int)
include hA hf

/-- C19. The statements of a valid result carry their lengths. The tokens of the text are statements separated by semicolons, with or without one at the end; the lengths of the
first `i` statements add up to the end of the `i`-th statement, including the semicolon that follows it (or the blanks at the end of the text) unless the statement is `Special`,
when the semicolon may also be counted for the next statement. -/
theorem C19_lengths (o : ParseOut) (h : parse A fpr buf sql (newResult l c) = some o) (hv : o.res.isValid = true) :
    ∃ y ns, o.res.stmts.map stringLength = ns.map some ∧ Lengths (tokensOf fpr sql) y ns ∧
      (sentence (tokensOf fpr sql) = y ∨ ∃ semi, tsym semi = T.SEMI ∧ sentence (tokensOf fpr sql) = y ++ [semi]) := by
  obtain ⟨ret, st, hp, rfl⟩ := parse_some h
  obtain ⟨e, junk, hin, hE⟩ := parse_ends (sql := sql) (ok := fun _ => True) hf (hA.ok (l := l) (c := c)) newResult_ok
  rw [hp] at hE
  have h0 : ret = 0 := by simpa using hv
  generalize hx : some (ret, st) = x at hE
  cases hE with
  | ub => cases hx
  | exhausted => cases hx; cases h0
  | syntaxError => cases hx; cases h0
  | semError => cases hx; cases h0
  | accept n cf stk s t f l' hR g1 g2 g3 g4 g5 =>
    cases hx
    have hi : ∃ p ∈ stk, p.2.sym = N.input := ⟨(s, t), by rw [g1]; simp, g3.2.1⟩
    obtain ⟨c2, stk2, b, vs, k1, k2, k3, k4, k5, _, _, _, _, s', k6⟩ :=
      fin_rc (ok := fun _ => True) (good := fun _ => True) good66_true (fun _ _ _ _ => trivial) (hA.ok (l := l) (c := c)) (tokensOf_shape hf sql).1 (fun _ _ _ _ => trivial) newResult_ok hR.rc hi (.inl fun _ => trivial)
    obtain ⟨b', vs', q1, _, _, q2, _⟩ := k5.vs
    cases q1
    have hl := len_rc k1
    have hd := k2.input rfl
    rw [rhs2] at hd k3 k6
    have hsy := k2.syms
    rw [rhs2] at hsy
    have hlen := k2.len
    rw [rhs2, hl.len] at hlen
    obtain ⟨s1, t1, s2, t2, rfl⟩ : ∃ s1 t1 s2 t2, stk2 = [(s2, t2), (s1, t1)] := by
      have : stk2.length = 2 := by have := congrArg List.length hd; simp at this hlen; omega
      match stk2, this with
      | [(_, _), (_, _)], _ => exact ⟨_, _, _, _, rfl⟩
    simp only [popTrees, List.length_cons, List.length_nil, List.take_succ_cons, List.take_zero, List.reverse_cons, List.reverse_nil, List.nil_append, List.cons_append, List.map_cons, List.map_nil, List.cons.injEq, and_true] at hsy
    obtain ⟨hs1, hs2⟩ := hsy
    obtain ⟨b'', vs'', ns, m1, m2, m3, m4⟩ := hl.some s1 t1 rfl hs1
    have hvs : vs'' = vs := by
      obtain ⟨p1, p2, e2⟩ : ∃ p1 p2, c2.stk = [p1, p2] := by
        have := hl.len
        match c2.stk, this with
        | [_, _], _ => exact ⟨_, _, rfl⟩
      rw [e2] at k3 m1
      simp only [rhsVals, vals, List.length_cons, List.length_nil, List.take_succ_cons, List.take_zero, List.map_cons, List.map_nil, List.reverse_cons, List.reverse_nil, List.nil_append, List.cons_append, List.cons.injEq] at k3
      simp only [List.getLast?_cons_cons, List.getLast?_singleton, Option.map_some, Option.some.injEq] at m1
      rw [k3.1] at m1
      cases m1; rfl
    subst hvs
    refine ⟨t1.yield, ns, ?_, m3, ?_⟩
    · show cf.st.res.stmts.map stringLength = _
      rw [q2, lens_number]
      rw [show (newResult l c).stmts = [] from rfl, List.nil_append]; exact m2
    · have ht : t = .node 2 [t1, t2] := by
        rw [g1] at k6
        rcases List.mem_cons.1 k6 with h | h
        · simp at h
        · simp only [List.mem_singleton, Prod.mk.injEq] at h
          rw [← h.2]; simp [popTrees]
      have hyl := g3.2.2.1
      rw [ht] at hyl
      simp only [Tree.yield, yieldL, List.append_nil] at hyl
      obtain ⟨r, cs, rfl, r1, r2, r3, r4, r5⟩ := wf_node (hl.wf (s2, t2) (by simp)) (by simp only []; rw [hs2]; decide)
      have hr : r = 354 ∨ r = 355 := by
        have hc : ((List.range 358).all fun r => decide (r < 2) || !(lhs r == 333) || r == 354 || r == 355) = true := by decide +kernel
        have := List.all_eq_true.1 hc r (by simpa using r2)
        have e333 : lhs r = 333 := by rw [r3]; exact hs2
        simp only [e333] at this
        simp at this
        omega
      rcases hr with rfl | rfl
      · have e3 : rhs 354 = [T.SEMI] := by decide +kernel
        rw [e3] at r4
        obtain ⟨d, _, rfl, hd1, r4⟩ := map_cons r4
        have := map_nil r4
        subst this
        simp only [WFL] at r5
        obtain ⟨semi, rfl, hx⟩ := is_leaf r5.1 (by rw [hd1]; decide)
        right
        exact ⟨semi, by rw [hx, hd1], by rw [← hyl]; simp [Tree.yield, yieldL]⟩
      · have e3 : rhs 355 = [] := by decide +kernel
        rw [e3] at r4
        have := map_nil r4
        subst this
        left
        rw [← hyl]; simp [Tree.yield, yieldL]

/-- C19. The lengths partition the text: it is a sequence of pieces, one for each statement and of its length, possibly followed by a rest. -/
theorem C19_partition (o : ParseOut) (h : parse A fpr buf sql (newResult l c) = some o) (hv : o.res.isValid = true) :
    ∃ (ps : List Bytes) (rest : Bytes), cText sql = ps.flatten ++ rest ∧ o.res.stmts.map stringLength = ps.map fun p => some (p.length : Int) := by
  obtain ⟨y, ns, h1, h2, h3⟩ := C19_lengths hA hf buf sql l c o h hv
  have hpre : sentence (tokensOf fpr sql) <+: tokensOf fpr sql := by unfold sentence; exact List.takeWhile_prefix _
  have hy : y <+: tokensOf fpr sql := by
    rcases h3 with h3 | ⟨semi, _, h3⟩
    · rw [← h3]; exact hpre
    · rw [h3] at hpre; exact (List.prefix_append _ _).trans hpre
  obtain ⟨ps, k, _, _, k3, k4⟩ := lengths_pieces h2 hy
  have hne : fpr ≠ 0 := by rcases hf with h | h <;> omega
  have : ps.flatten <+: cText sql := by
    rw [k4]
    refine List.IsPrefix.trans ?_ (cText_scanned fpr hne sql)
    obtain ⟨w, hw⟩ := List.take_prefix k (tokensOf fpr sql)
    conv => rhs; rw [← hw]
    unfold scanned; simp
  obtain ⟨rest, hr⟩ := this
  refine ⟨ps, rest, hr.symm, ?_⟩
  rw [h1, ← k3, List.map_map]; rfl
end

/-! ### Examples -/

def lengths (o : ParseOut) : List Int := o.res.stmts.filterMap stringLength

/-- The first statement includes its semicolon, the blank belongs to the second. -/
example : (run0 b!"SELECT 1; SELECT 2 ").map (fun o => (o.res.isValid, lengths o)) = some (true, [9, 10]) :=
  parse_of_eval (f := 40) (q := Option.map fun (o : ParseOut) => (o.res.isValid, lengths o)) (by decide +kernel)

/-- After `SHOW TABLES` the semicolon is counted for the next statement. -/
theorem C19_semicolon_of_the_next_statement : (run0 b!"SHOW TABLES; SELECT 2").map (fun o => (o.res.isValid, lengths o)) = some (true, [11, 10]) :=
  parse_of_eval (f := 40) (q := Option.map fun (o : ParseOut) => (o.res.isValid, lengths o)) (by decide +kernel)

end Verif.Props

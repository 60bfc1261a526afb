import Verif.Props.Exact
import Verif.Sem.Ints
/-!
# C71, integers: no integer is made up
-/
namespace Verif.Props
open Verif.Lex Verif.LR Verif.Sem Verif.Api Verif.Sql

mutual
theorem leaves_ints {x : Int} : ∀ v : V, .int x ∈ leaves v → x ∈ v.ints
  | .int _, h => by simpa [leaves, V.ints] using h
  | .obj _ _ fs, h => leavesL_ints fs h
  | .vec _ fs, h => leavesL_ints fs h
  | .tup fs, h => leavesL_ints fs h
  | .raw _, h => by simp [leaves] at h
  | .str _ _, h => by simp [leaves] at h
  | .undef, h => by simp [leaves] at h
  | .null, h => by simp [leaves] at h
  | .pos _, h => by simp [leaves] at h
  | .idx _, h => by simp [leaves] at h
theorem leavesL_ints {x : Int} : ∀ vs : List V, .int x ∈ leavesL vs → x ∈ intsL vs
  | [], h => by simp [leavesL] at h
  | v :: vs, h => by
    rw [leavesL, List.mem_append] at h
    rw [intsL, List.mem_append]
    exact h.imp (leaves_ints v) (leavesL_ints vs)
end

mutual
theorem fill_ints {x : Int} [hb : Big x] : ∀ v : V, x ∈ v.fill.ints → x ∈ v.ints
  | .obj _ c fs, h => by
    rw [V.fill, V.ints] at h
    rw [V.ints]
    split at h
    · unfold newIval at h
      split at h
      · split at h
        · rw [mem_intsL] at h
          obtain ⟨w, hw, h⟩ := h
          rcases List.mem_or_eq_of_mem_set hw with hw | rfl
          · exact fillL_ints fs (mem_intsL.2 ⟨w, hw, h⟩)
          · simp only [V.ints, List.mem_singleton, parKey] at h
            have := hb.le
            cases hf : fs[11]? with
            | none => rw [hf] at h; simp only [numOf] at h; omega
            | some u =>
              rw [hf] at h
              cases u <;> simp only [numOf] at h
              case idx i => exact mem_intsL.2 ⟨_, List.mem_of_getElem? hf, by simp [V.ints, h]⟩
              all_goals omega
        · exact fillL_ints fs h
      · exact fillL_ints fs h
    · exact fillL_ints fs h
  | .vec _ vs, h => by rw [V.fill, V.ints] at h; rw [V.ints]; exact fillL_ints vs h
  | .tup vs, h => by rw [V.fill, V.ints] at h; rw [V.ints]; exact fillL_ints vs h
  | .undef, h => by simpa [V.fill] using h
  | .null, h => by simpa [V.fill] using h
  | .int _, h => by simpa [V.fill] using h
  | .pos _, h => by simpa [V.fill] using h
  | .idx _, h => by simpa [V.fill] using h
  | .raw _, h => by simpa [V.fill] using h
  | .str _ _, h => by simpa [V.fill] using h
theorem fillL_ints {x : Int} [hb : Big x] : ∀ vs : List V, x ∈ intsL (fillL vs) → x ∈ intsL vs
  | [], h => by simp [fillL, intsL] at h
  | v :: vs, h => by
    rw [fillL, intsL, List.mem_append] at h
    rw [intsL, List.mem_append]
    exact h.imp (fill_ints v) (fillL_ints vs)
end

/-- One of the string constants behind the word `INTERVAL` begins with the number `x`. -/
def InInterval (x : Int) (ts : List Tok) : Prop :=
  ∃ pre t u post a r, ts = pre ++ t :: u :: post ∧ tsym t = T.INTERVAL ∧ u.val = .sval (a ++ r) ∧ NumberText none x a

theorem InInterval.left {x : Int} {a : List Tok} (h : InInterval x a) (b : List Tok) : InInterval x (a ++ b) := by
  obtain ⟨p, t, u, q, c, r, rfl, h⟩ := h
  exact ⟨p, t, u, q ++ b, c, r, by simp, h⟩
theorem InInterval.right {x : Int} (a : List Tok) {b : List Tok} (h : InInterval x b) : InInterval x (a ++ b) := by
  obtain ⟨p, t, u, q, c, r, rfl, h⟩ := h
  exact ⟨a ++ p, t, u, q, c, r, by simp, h⟩

/-- What an integer may come from. -/
def From (x : Int) (k : Nat) (ts : List Tok) : Prop := .int x ∈ written ts ∨ InInterval x ts ∨ x < (k + qmarks ts : Nat)

theorem From.left {x : Int} {k : Nat} {a : List Tok} (h : From x k a) (b : List Tok) : From x k (a ++ b) := by
  unfold From
  rw [written_append, List.mem_append, qmarks_append]
  rcases h with h | h | h
  · exact .inl (.inl h)
  · exact .inr (.inl (h.left b))
  · exact .inr (.inr (by omega))
theorem From.right {x : Int} {k : Nat} {a b : List Tok} (h : From x (k + qmarks a) b) : From x k (a ++ b) := by
  unfold From
  rw [written_append, List.mem_append, qmarks_append]
  rcases h with h | h | h
  · exact .inl (.inr h)
  · exact .inr (.inl (h.right a))
  · exact .inr (.inr (by omega))

theorem interval_ints {x : Int} [hb : Big x] {r : Nat} (hr : r = 296 ∨ r = 297) {cs : List Tree} (hw : WFL cs) (he : rhs r = cs.map Tree.sym) (ht : ∀ t ∈ yieldL cs, TokShape t)
    {k : Nat} {e e' : Bool} {vs : List V} {v : V} {s : PS} {s' : PS} (hc : denAtL k cs e = some (vs, e')) (h : evRule r vs s = some (v, s')) (hx : x ∈ v.ints) :
    x ∈ intsL vs ∨ InInterval x (yieldL cs) := by
  obtain ⟨q, er⟩ : ∃ q, rhs r = T.INTERVAL :: T.STRING :: q := by
    rcases hr with rfl | rfl
    · exact ⟨_, (by decide +kernel : rhs 296 = T.INTERVAL :: T.STRING :: [N.datetime_field])⟩
    · exact ⟨[], by decide +kernel⟩
  rw [er] at he
  obtain ⟨c1, c2, cs, rfl⟩ : ∃ c1 c2 cs', cs = c1 :: c2 :: cs' := by
    match cs, he with
    | c1 :: c2 :: cs, _ => exact ⟨c1, c2, cs, rfl⟩
    | [], h => simp at h
    | [_], h => simp at h
  simp only [List.map, List.cons.injEq] at he
  obtain ⟨t1, rfl⟩ := leaf_of_sym hw.1 (by rw [← he.1]; decide)
  obtain ⟨t2, rfl⟩ := leaf_of_sym hw.2.1 (by rw [← he.2.1]; decide)
  obtain ⟨b, k2⟩ := tok_str (ht t2 (by simp [yieldL, Tree.yield])) he.2.1.symm
  simp only [denAtL, denAt, k2, tokValue] at hc
  split at hc
  · rename_i vs' e2 hvs
    split at hvs
    · cases hvs
      cases hc
      rcases evRule_dur hr h hx with h | ⟨q, h⟩
      · exact .inl h
      · obtain ⟨a, hs, hn, _⟩ := scanD_sound h
        exact .inr ⟨[], t1, t2, yieldL cs, a, q, by simp [yieldL, Tree.yield], he.1.symm, by rw [k2, hs], hn⟩
    · cases hvs
  · cases hc

mutual
theorem denAt_ints {x : Int} [hb : Big x] : ∀ (t : Tree) {k : Nat} {e e' : Bool} {v : V}, t.WF → (∀ u ∈ t.yield, TokShape u) → denAt k t e = some (v, e') → x ∈ v.ints → From x k t.yield
  | .leaf t, k, e, e', v, _, _, h, hx => by
    simp only [denAt] at h
    cases h
    cases hv : t.val <;> rw [hv] at hx <;> simp [tokValue, V.ints] at hx
    subst hx
    exact .inl (by simp [Tree.yield, written, hv, carried])
  | .node r cs, k, e, e', v, hw, ht, h, hx => by
    simp only [denAt] at h
    split at h
    · rename_i vs e1 hc
      obtain ⟨y, hy, hyv⟩ := Option.map_eq_some_iff.1 h
      obtain ⟨v', s'⟩ := y
      cases hyv
      simp only [Tree.yield] at ht ⊢
      by_cases h298 : r = 298
      · subst h298
        have hr := hw.2.2.1
        rw [rhs298] at hr
        obtain ⟨c, rfl⟩ : ∃ c, cs = [c] := by
          match cs, hr with
          | [c], _ => exact ⟨c, rfl⟩
          | [], h => simp at h
          | _ :: _ :: _, h => simp at h
        simp only [List.map, List.cons.injEq, and_true] at hr
        obtain ⟨m, rfl⟩ := leaf_of_sym hw.2.2.2.1 (by rw [hr]; decide)
        simp only [denAtL, denAt] at hc
        cases hc
        rw [evRule298] at hy
        cases hy
        have hq : qmarks [m] = 1 := by
          have : tsym m = T.QMARK := hr
          simp [qmarks, this]
        refine .inr (.inr ?_)
        have := hb.le
        simp [yieldL, Tree.yield, hq]
        simp [paramV, V.ints, intsL, ExprType.kExprParameter, DatetimeField.kDatetimeNone, OperatorType.kOpNone] at hx
        omega
      · by_cases hi : r = 296 ∨ r = 297
        · rcases interval_ints hi hw.2.2.2 hw.2.2.1.symm ht hc hy hx with h | h
          · exact denAtL_ints cs hw.2.2.2 ht hc h
          · exact .inr (.inl h)
        · exact denAtL_ints cs hw.2.2.2 ht hc (evRule_ints (by omega) hy hx)
    · cases h
theorem denAtL_ints {x : Int} [hb : Big x] : ∀ (cs : List Tree) {k : Nat} {e e' : Bool} {vs : List V}, WFL cs → (∀ u ∈ yieldL cs, TokShape u) → denAtL k cs e = some (vs, e') → x ∈ intsL vs → From x k (yieldL cs)
  | [], k, e, e', vs, _, _, h, hx => by simp only [denAtL] at h; cases h; simp [intsL] at hx
  | c :: cs, k, e, e', vs, hw, ht, h, hx => by
    simp only [denAtL] at h
    split at h
    · rename_i v e1 hc
      split at h
      · rename_i vs1 e2 hcs
        cases h
        rw [intsL, List.mem_append] at hx
        rw [yieldL]
        rw [yieldL] at ht
        rcases hx with hx | hx
        · exact (denAt_ints c hw.1 (fun u hu => ht u (by simp [hu])) hc hx).left _
        · exact (denAtL_ints cs hw.2 (fun u hu => ht u (by simp [hu])) hcs hx).right
      · cases h
    · cases h
end

section
variable {A : Alloc} (hA : Distinct A) {fpr : Int} (hf : FprOK fpr) (buf : Bytes) (sql : List UInt8) (l c : Int)
include hA hf

/-- C71. Let a text be accepted. No integer is in the statements of the result that has not been written, other than enumerators and flags (less than 40), the numbers of intervals, which
are written in a string constant behind `INTERVAL`, and the numbers of parameters. -/
theorem C71_no_integer_made_up (o : ParseOut) (h : parse A fpr buf sql (newResult l c) = some o) (hv : o.res.isValid = true) (x : Int) (hx : 40 ≤ x)
    (hb : .int x ∈ leavesL (astL o.res.stmts)) :
    .int x ∈ written (sentence (tokensOf fpr sql)) ∨ InInterval x (sentence (tokensOf fpr sql)) ∨ x < qmarks (sentence (tokensOf fpr sql)) := by
  have : Big x := ⟨hx⟩
  obtain ⟨t, ht, _, _⟩ := (parse_valid_iff hA hf buf sql l c).1 ⟨o, h, hv⟩
  have hd := parse_value hA hf buf sql l c o h hv ht
  have hs := fun m hm => (derives_fits hf ht m hm).1
  obtain ⟨h1, h2, h3, _⟩ := ht
  rw [← h3]
  have hq : t.sym ≠ T.QMARK := by rw [h2]; decide
  cases t with
  | leaf t => simp [denInput] at hd
  | node r cs =>
    simp only [denInput] at hd
    split at hd
    · rename_i a ws rest s hc
      have hd := Option.some.inj hd
      rw [← hd] at hb
      have hr : r ≠ 298 := by
        intro e
        subst e
        exact absurd (show lhs 298 = N.input from h2) (by decide +kernel)
      have hn : T.QMARK ∉ cs.map Tree.sym := by
        rw [h1.2.2.1]
        refine qmark_rule ?_ hr
        have := h1.2.1
        rwa [rules_len] at this
      rw [denL_denAt h1.2.2.2 hn 0 false] at hc
      obtain ⟨y, hy, hyv⟩ := Option.map_eq_some_iff.1 hc
      obtain ⟨vs, e⟩ := y
      cases hyv
      have := denAtL_ints (x := x) cs h1.2.2.2 hs hy (by
        rw [intsL, List.mem_append, V.ints]
        exact .inl (fillL_ints ws (leavesL_ints _ hb)))
      rw [Tree.yield]
      rcases this with h | h | h
      · exact .inl h
      · exact .inr (.inl h)
      · exact .inr (.inr (by simpa using h))
    · cases hd
end

/-- A concrete case: `77` and `78` are written, `79` is the number of an interval, `80` is not there. -/
example : (run0 b!"SELECT 77, a[78] FROM t WHERE d > INTERVAL '79 days'").map (has [.int 77, .int 78, .int 79, .int 80]) = some (true, [true, true, true, false]) :=
  parse_of_eval (f := 60) (q := Option.map (has _)) (by decide +kernel)
end Verif.Props

import Verif.Sem.DenType
/-! Which rules bring two terminals next to each other. Proof-internal. -/
namespace Verif.LR
open Verif.Lex Verif.Sem

/-- Sets of symbols: those that may derive nothing, those that may begin with a token of interest, those that may end with one. -/
structure AdjSets where
  nul : List Nat
  fst : List Nat
  lst : List Nat

def AdjSets.nulL (S : AdjSets) (l : List Nat) : Bool := l.all S.nul.contains
def AdjSets.fstL (S : AdjSets) : List Nat → Bool
  | [] => false
  | X :: l => S.fst.contains X || (S.nul.contains X && S.fstL l)
def AdjSets.lstL (S : AdjSets) : List Nat → Bool
  | [] => false
  | X :: l => S.lstL l || (S.lst.contains X && S.nulL l)
/-- Some symbol may end, and what follows may begin. -/
def AdjSets.meet (S : AdjSets) : List Nat → Bool
  | [] => false
  | X :: l => (S.lst.contains X && S.fstL l) || S.meet l
/-- The sets are closed under the rules. -/
def AdjSets.closed (S : AdjSets) : Bool := (List.range 358).all fun r => Nat.ble r 1 ||
  ((!S.nulL (rhs r) || S.nul.contains (lhs r)) && (!S.fstL (rhs r) || S.fst.contains (lhs r)) && (!S.lstL (rhs r) || S.lst.contains (lhs r)))
section
variable {S : AdjSets} (hc : S.closed = true)
include hc

theorem AdjSets.rule {r : Nat} {cs : List Tree} (hw : (Tree.node r cs).WF) : (S.nulL (rhs r) = true → S.nul.contains (lhs r) = true) ∧ (S.fstL (rhs r) = true → S.fst.contains (lhs r) = true) ∧
    (S.lstL (rhs r) = true → S.lst.contains (lhs r) = true) := by
  have hr2 : r < 358 := by have := hw.2.1; rwa [rules_len] at this
  have h := List.all_eq_true.1 hc r (List.mem_range.2 hr2)
  have h1 : Nat.ble r 1 = false := by
    cases hb : Nat.ble r 1 with
    | false => rfl
    | true => have := Nat.le_of_ble_eq_true hb; have := hw.1; omega
  rw [h1, Bool.false_or, Bool.and_eq_true, Bool.and_eq_true, Bool.or_eq_true, Bool.or_eq_true, Bool.or_eq_true, Bool.not_eq_true', Bool.not_eq_true', Bool.not_eq_true'] at h
  obtain ⟨⟨h1, h2⟩, h3⟩ := h
  exact ⟨fun h => h1.resolve_left (by simp [h]), fun h => h2.resolve_left (by simp [h]), fun h => h3.resolve_left (by simp [h])⟩

mutual
theorem AdjSets.nul_tree : ∀ (t : Tree), t.WF → t.yield = [] → S.nul.contains t.sym = true
  | .leaf t, _, h => by cases h
  | .node r cs, hw, h => by
    refine (S.rule hc hw).1 ?_
    rw [← hw.2.2.1]
    exact AdjSets.nul_list cs hw.2.2.2 (by rw [Tree.yield] at h; exact h)
theorem AdjSets.nul_list : ∀ (cs : List Tree), WFL cs → yieldL cs = [] → S.nulL (cs.map Tree.sym) = true
  | [], _, _ => rfl
  | c :: cs, hw, h => by
    rw [yieldL, List.append_eq_nil_iff] at h
    have h1 := AdjSets.nul_tree c hw.1 h.1
    have h2 := AdjSets.nul_list cs hw.2 h.2
    unfold AdjSets.nulL at h2 ⊢
    rw [List.map_cons, List.all_cons, h1, h2]; rfl
end

mutual
theorem AdjSets.fst_tree : ∀ (t : Tree), t.WF → ∀ {b : Tok} {w : List Tok}, S.fst.contains (tsym b) = true → t.yield = b :: w → S.fst.contains t.sym = true
  | .leaf t, _, b, w, hb, h => by cases h; exact hb
  | .node r cs, hw, b, w, hb, h => by
    refine (S.rule hc hw).2.1 ?_
    rw [← hw.2.2.1]
    exact AdjSets.fst_list cs hw.2.2.2 hb (by rw [Tree.yield] at h; exact h)
theorem AdjSets.fst_list : ∀ (cs : List Tree), WFL cs → ∀ {b : Tok} {w : List Tok}, S.fst.contains (tsym b) = true → yieldL cs = b :: w → S.fstL (cs.map Tree.sym) = true
  | [], _, b, w, _, h => by cases h
  | c :: cs, hw, b, w, hb, h => by
    rw [yieldL] at h
    rw [List.map_cons, AdjSets.fstL]
    cases hy : c.yield with
    | nil =>
      rw [hy, List.nil_append] at h
      rw [S.nul_tree hc c hw.1 hy, AdjSets.fst_list cs hw.2 hb h]; simp
    | cons x xs =>
      rw [hy] at h
      have : x = b := by simpa using (List.cons.inj h).1
      subst this
      rw [AdjSets.fst_tree c hw.1 hb hy]; rfl
end

mutual
theorem AdjSets.lst_tree : ∀ (t : Tree), t.WF → ∀ {a : Tok} {w : List Tok}, S.lst.contains (tsym a) = true → t.yield = w ++ [a] → S.lst.contains t.sym = true
  | .leaf t, _, a, w, ha, h => by
    rw [Tree.yield] at h
    have := congrArg List.getLast? h
    simp at this
    subst this; exact ha
  | .node r cs, hw, a, w, ha, h => by
    refine (S.rule hc hw).2.2 ?_
    rw [← hw.2.2.1]
    exact AdjSets.lst_list cs hw.2.2.2 ha (by rw [Tree.yield] at h; exact h)
theorem AdjSets.lst_list : ∀ (cs : List Tree), WFL cs → ∀ {a : Tok} {w : List Tok}, S.lst.contains (tsym a) = true → yieldL cs = w ++ [a] → S.lstL (cs.map Tree.sym) = true
  | [], _, a, w, _, h => by simp [yieldL] at h
  | c :: cs, hw, a, w, ha, h => by
    rw [yieldL] at h
    rw [List.map_cons, AdjSets.lstL]
    rcases List.eq_nil_or_concat (yieldL cs) with hy | ⟨u, x, hy⟩
    · rw [hy, List.append_nil] at h
      rw [AdjSets.lst_tree c hw.1 ha h, S.nul_list hc cs hw.2 hy]; simp
    · rw [List.concat_eq_append] at hy
      rw [hy, ← List.append_assoc] at h
      have : x = a := by
        have := congrArg List.getLast? h
        simpa using this
      subst this
      rw [AdjSets.lst_list cs hw.2 ha hy]; rfl
end

end

/-- The tokens `a`, `b`, next to each other with the tokens `p` before and `q` behind them, are brought together by the children of the node `r`, `cs`: one ends with `a`, the following ones begin with `b`. -/
structure Meets (r : Nat) (cs : List Tree) (p : List Tok) (a b : Tok) (q : List Tok) : Prop where
  is : ∃ cs1 c cs2 u w x y, cs = cs1 ++ c :: cs2 ∧ c.yield = u ++ [a] ∧ yieldL cs2 = b :: w ∧ p = x ++ yieldL cs1 ++ u ∧ q = w ++ y

mutual
/-- Two tokens next to each other are brought together by some node. -/
theorem meets_tree : ∀ (t : Tree) {p q : List Tok} {a b : Tok}, t.yield = p ++ a :: b :: q → ∃ r cs, PartOf (.node r cs) t ∧ Meets r cs p a b q
  | .leaf t, p, q, a, b, h => by
    rw [Tree.yield] at h
    have := congrArg List.length h
    simp at this
    omega
  | .node r cs, p, q, a, b, h => by
    rw [Tree.yield] at h
    rcases meets_list cs h with ⟨c, hc, r', cs', h1, h2⟩ | ⟨cs1, c, cs2, u, w, h1, h2, h3, h4, h5⟩
    · exact ⟨r', cs', .step hc h1, h2⟩
    · exact ⟨r, cs, .refl, ⟨cs1, c, cs2, u, w, [], [], h1, h2, h3, by simpa using h4, by simpa using h5⟩⟩
theorem meets_list : ∀ (cs : List Tree) {p q : List Tok} {a b : Tok}, yieldL cs = p ++ a :: b :: q →
    (∃ c ∈ cs, ∃ r' cs', PartOf (.node r' cs') c ∧ Meets r' cs' p a b q) ∨
    (∃ cs1 c cs2 u w, cs = cs1 ++ c :: cs2 ∧ c.yield = u ++ [a] ∧ yieldL cs2 = b :: w ∧ p = yieldL cs1 ++ u ∧ q = w)
  | [], p, q, a, b, h => by simp [yieldL] at h
  | c :: cs, p, q, a, b, h => by
    rw [yieldL] at h
    rcases List.append_eq_append_iff.1 h with ⟨w, e1, e2⟩ | ⟨w, e1, e2⟩
    · -- `p` covers the first child
      rcases meets_list cs e2 with ⟨d, hd, r', cs', h1, h2⟩ | ⟨cs1, d, cs2, u, v, h1, h2, h3, h4, h5⟩
      · obtain ⟨cs1, d', cs2, u, v, x, y, k1, k2, k3, k4, k5⟩ := h2.is
        exact .inl ⟨d, List.mem_cons_of_mem _ hd, r', cs', h1, ⟨cs1, d', cs2, u, v, c.yield ++ x, y, k1, k2, k3, by rw [e1, k4]; simp, k5⟩⟩
      · exact .inr ⟨c :: cs1, d, cs2, u, v, by rw [h1]; rfl, h2, h3, by rw [e1, h4, yieldL]; simp, h5⟩
    · cases w with
      | nil =>
        rw [List.append_nil] at e1
        rw [List.nil_append] at e2
        rcases meets_list cs (p := []) e2.symm with ⟨d, hd, r', cs', h1, h2⟩ | ⟨cs1, d, cs2, u, v, h1, h2, h3, h4, h5⟩
        · obtain ⟨cs1, d', cs2, u, v, x, y, k1, k2, k3, k4, k5⟩ := h2.is
          exact .inl ⟨d, List.mem_cons_of_mem _ hd, r', cs', h1, ⟨cs1, d', cs2, u, v, c.yield ++ x, y, k1, k2, k3, by rw [← e1, List.append_assoc, List.append_assoc, ← List.append_assoc x, ← k4]; simp, k5⟩⟩
        · exact .inr ⟨c :: cs1, d, cs2, u, v, by rw [h1]; rfl, h2, h3, by rw [← e1, yieldL, List.append_assoc, ← h4]; simp, h5⟩
      | cons z w =>
        rw [List.cons_append] at e2
        obtain ⟨rfl, e3⟩ := List.cons.inj e2
        cases w with
        | nil =>
          rw [List.nil_append] at e3
          exact .inr ⟨[], c, cs, p, q, rfl, e1, e3.symm, by simp [yieldL], rfl⟩
        | cons z' w =>
          rw [List.cons_append] at e3
          obtain ⟨rfl, e4⟩ := List.cons.inj e3
          obtain ⟨r', cs', h1, h2⟩ := meets_tree c e1
          obtain ⟨cs1, d', cs2, u, v, x, y, k1, k2, k3, k4, k5⟩ := h2.is
          exact .inl ⟨c, by simp, r', cs', h1, ⟨cs1, d', cs2, u, v, x, y ++ yieldL cs, k1, k2, k3, k4, by rw [e4, k5]; simp⟩⟩
end

theorem AdjSets.meet_list {S : AdjSets} (hc : S.closed = true) : ∀ (cs1 : List Tree) {c : Tree} {cs2 : List Tree}, WFL (cs1 ++ c :: cs2) → ∀ {a b : Tok} {u w : List Tok}, S.lst.contains (tsym a) = true → S.fst.contains (tsym b) = true →
    c.yield = u ++ [a] → yieldL cs2 = b :: w → S.meet ((cs1 ++ c :: cs2).map Tree.sym) = true
  | [], c, cs2, hw, a, b, u, w, ha, hb, h1, h2 => by
    rw [List.nil_append, List.map_cons, AdjSets.meet, S.lst_tree hc c hw.1 ha h1, S.fst_list hc cs2 hw.2 hb h2]; rfl
  | d :: cs1, c, cs2, hw, a, b, u, w, ha, hb, h1, h2 => by
    rw [List.cons_append, List.map_cons, AdjSets.meet, S.meet_list hc cs1 hw.2 ha hb h1 h2, Bool.or_true]

/-- The rule that brings two tokens together is one of those the sets allow. -/
theorem AdjSets.adj {S : AdjSets} (hc : S.closed = true) {rs : List Nat} (hrs : ((List.range 358).all fun r => Nat.ble r 1 || !S.meet (rhs r) || rs.contains r) = true) {t : Tree} (hw : t.WF)
    {p q : List Tok} {a b : Tok} (ha : S.lst.contains (tsym a) = true) (hb : S.fst.contains (tsym b) = true) (h : t.yield = p ++ a :: b :: q) :
    ∃ r cs, r ∈ rs ∧ PartOf (.node r cs) t ∧ (Tree.node r cs).WF ∧ Meets r cs p a b q := by
  obtain ⟨r, cs, h1, h2⟩ := meets_tree t h
  have hw' := h1.wf hw
  obtain ⟨cs1, c, cs2, u, w, x, y, rfl, k2, k3, k4, k5⟩ := h2.is
  have hm := S.meet_list hc cs1 hw'.2.2.2 ha hb k2 k3
  rw [hw'.2.2.1] at hm
  have hr2 : r < 358 := by have := hw'.2.1; rwa [rules_len] at this
  have hr := List.all_eq_true.1 hrs r (List.mem_range.2 hr2)
  have h1' : Nat.ble r 1 = false := by
    cases hb : Nat.ble r 1 with
    | false => rfl
    | true => have := Nat.le_of_ble_eq_true hb; have := hw'.1; omega
  rw [h1', hm] at hr
  exact ⟨r, _, List.contains_iff_mem.1 (by simpa using hr), h1, hw', h2⟩

end Verif.LR

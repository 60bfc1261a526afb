import Verif.LR.Viable
/-! Symbols that are on the stack only together with certain words. Proof-internal. -/
namespace Verif.LR
open Verif.Lex

/-- `words`: some terminals; `must`: symbols all of whose phrases contain one of the words; `behind`: symbols that occur only behind one. -/
structure Marks where
  words : List Nat
  must : List Nat
  behind : List Nat

def Marks.has (m : Marks) (X : Nat) : Bool := m.words.contains X || m.must.contains X

/-- Whenever a symbol of `behind` occurs in `l`, a word does before it. -/
def Marks.covered (m : Marks) : List Nat → Bool
  | [] => true
  | X :: l => !m.behind.contains X && (m.has X || m.covered l)

def Marks.closed (m : Marks) : Bool := !m.behind.contains N.input && m.words.all (fun X => Nat.ble X 198) && m.must.all (fun X => Nat.ble 199 X) &&
  (List.range 358).all fun r => Nat.ble r 1 || ((!m.must.contains (lhs r) || (rhs r).any m.has) && (m.behind.contains (lhs r) || m.covered (rhs r)))

section
variable {m : Marks} (hc : m.closed = true)
include hc

theorem Marks.rule {r : Nat} (h1 : 2 ≤ r) (h2 : r < 358) : (m.must.contains (lhs r) = true → (rhs r).any m.has = true) ∧ (m.behind.contains (lhs r) = false → m.covered (rhs r) = true) := by
  unfold Marks.closed at hc
  simp only [Bool.and_eq_true] at hc
  have := List.all_eq_true.1 hc.2 r (by simp; omega)
  have hb : Nat.ble r 1 = false := by
    cases h : Nat.ble r 1 with
    | false => rfl
    | true => have := Nat.le_of_ble_eq_true h; omega
  rw [hb, Bool.false_or, Bool.and_eq_true] at this
  obtain ⟨a, b⟩ := this
  refine ⟨fun h => ?_, fun h => ?_⟩
  · rw [h] at a; simpa using a
  · rw [h] at b; simpa using b

theorem Marks.word_lt {X : Nat} (h : m.words.contains X = true) : X < 199 := by
  unfold Marks.closed at hc
  simp only [Bool.and_eq_true] at hc
  have := List.all_eq_true.1 hc.1.1.2 X (by simpa using h)
  have := Nat.le_of_ble_eq_true this
  omega
theorem Marks.must_ge {X : Nat} (h : m.must.contains X = true) : 199 ≤ X := by
  unfold Marks.closed at hc
  simp only [Bool.and_eq_true] at hc
  exact Nat.le_of_ble_eq_true (List.all_eq_true.1 hc.1.2 X (by simpa using h))
theorem Marks.input : m.behind.contains N.input = false := by
  unfold Marks.closed at hc
  simp only [Bool.and_eq_true] at hc
  simpa using hc.1.1.1

mutual
theorem Marks.tree : ∀ (t : Tree), t.WF → m.has t.sym = true → ∃ u ∈ t.yield, m.words.contains (tsym u) = true
  | .leaf u, _, h => by
    refine ⟨u, by simp [Tree.yield], ?_⟩
    simp only [Tree.sym, Marks.has, Bool.or_eq_true] at h
    rcases h with h | h
    · exact h
    · have := Marks.must_ge hc h
      have := tsym_lt u
      omega
  | .node r cs, hw, h => by
    simp only [Tree.WF, rules_len] at hw
    obtain ⟨h1, h2, h3, h4⟩ := hw
    simp only [Tree.sym, Marks.has, Bool.or_eq_true] at h
    rcases h with h | h
    · have := Marks.word_lt hc h
      have hc' : allN 358 (fun r => bor (Nat.ble r 1) (Nat.ble 199 (lhsF r))) = true := by decide +kernel
      have := allN_spec hc' r h2
      rw [bor_iff, ble_iff, ble_iff, ← lhs_eq h2] at this
      omega
    · have := (Marks.rule hc h1 h2).1 h
      rw [← h3] at this
      exact Marks.trees cs h4 this
theorem Marks.trees : ∀ (cs : List Tree), WFL cs → (cs.map Tree.sym).any m.has = true → ∃ u ∈ yieldL cs, m.words.contains (tsym u) = true
  | [], _, h => by simp at h
  | c :: cs, hw, h => by
    simp only [WFL] at hw
    rw [List.map_cons, List.any_cons, Bool.or_eq_true] at h
    rcases h with h | h
    · obtain ⟨u, h1, h2⟩ := Marks.tree c hw.1 h
      exact ⟨u, by simp [yieldL, h1], h2⟩
    · obtain ⟨u, h1, h2⟩ := Marks.trees cs hw.2 h
      exact ⟨u, by simp [yieldL, h1], h2⟩
end

theorem Marks.lm {A B : Nat} (h : Lm B A) : m.behind.contains A = true → m.behind.contains B = true := by
  induction h with
  | refl => exact fun h => h
  | @step r A β h1 h2 _ hr ih =>
    intro hA
    refine ih (Classical.byContradiction fun hl => ?_)
    have := (Marks.rule hc h1 h2).2 (by simpa using hl)
    rw [hr, Marks.covered, hA] at this
    simp at this

omit hc in
theorem Marks.covered_at : ∀ {l : List Nat} {k X : Nat}, m.covered l = true → l[k]? = some X → m.behind.contains X = true → (l.take k).any m.has = true
  | [], _, _, _, h, _ => by simp at h
  | Y :: l, 0, X, hl, h, hX => by
    simp at h; subst h
    rw [Marks.covered, hX] at hl; simp at hl
  | Y :: l, k + 1, X, hl, h, hX => by
    rw [Marks.covered, Bool.and_eq_true, Bool.or_eq_true] at hl
    rw [List.take_succ_cons, List.any_cons, Bool.or_eq_true]
    rcases hl.2 with h' | h'
    · exact .inl h'
    · exact .inr (Marks.covered_at h' (by simpa using h) hX)

/-- A symbol of `behind` is predicted only behind a word. -/
theorem Marks.pred {lim : Nat} : ∀ (n : Nat) (stk : TStk) (f : List Tok), stk.length ≤ n → StkOK lim stk f → ∀ A, PM (topState stk) A → m.behind.contains A = true →
    ∃ u ∈ stkYield stk, m.words.contains (tsym u) = true := by
  have base : ∀ {A B : Nat}, (rhs 1)[0]? = some B → Lm B A → m.behind.contains A = true → False := by
    intro A B hB hlm hA
    rw [rhs1] at hB
    cases hB
    have := Marks.lm hc hlm hA
    rw [Marks.input hc] at this
    cases this
  intro n
  induction n with
  | zero =>
    intro stk f hn h A hA hb
    have : stk = [] := List.length_eq_zero_iff.1 (by omega)
    subst this
    obtain ⟨r, k, B, hk, hB, h199, hlm⟩ := pm_justified (by decide) hA
    obtain ⟨rfl, rfl⟩ := km0 hk
    exact (base hB hlm hb).elim
  | succ n ih =>
    intro stk f hn h A hA hb
    obtain ⟨r, k, B, hk, hB, h199, hlm⟩ := pm_justified (topState_lt h) hA
    cases k with
    | zero =>
      have hlt := topState_lt h
      by_cases h69 : topState stk = 69
      · rw [h69] at hk; have := (km69 hk).2; omega
      have hr := kern_r hlt h69 hk
      have h1 : r = 1 := by
        rcases Nat.lt_or_ge 1 r with hlt' | hge
        · exact absurd (pop.kern_zero hlt hk) (by omega)
        · omega
      subst h1
      exact (base hB hlm hb).elim
    | succ k =>
      obtain ⟨p1, p2, p3, _, p5, p6, p7, _⟩ := pop k stk f h hk
      have hr2 := km_lt (topState_lt h) hk
      rcases p5 with p5 | ⟨p5, _⟩
      · have hr1 : 2 ≤ r := by
          have := (pm_range (topState_lt p6) p7 p5).1
          refine Classical.byContradiction fun hlt => ?_
          have : r = 0 ∨ r = 1 := by omega
          rcases this with rfl | rfl
          · have : lhs 0 = 0 := by decide +kernel
            omega
          · have : lhs 1 = 199 := by decide +kernel
            omega
        rw [stkYield_split p1]
        by_cases hl : m.behind.contains (lhs r) = true
        · obtain ⟨u, u1, u2⟩ := ih (stk.drop (k + 1)) _ (by simp; omega) p6 (lhs r) p5 hl
          exact ⟨u, List.mem_append_left _ u1, u2⟩
        · have hcov := Marks.covered_at ((Marks.rule hc hr1 hr2).2 (by simpa using hl)) hB (Marks.lm hc hlm hb)
          rw [← p2] at hcov
          obtain ⟨u, u1, u2⟩ := Marks.trees hc _ p3 hcov
          exact ⟨u, List.mem_append_right _ u1, u2⟩
      · subst p5
        rw [rhs1] at hB
        cases k with
        | zero => cases hB; omega
        | succ k => cases hB

/-- A symbol of `must` or `behind` is on the stack only together with a word. -/
theorem Marks.stack {lim : Nat} : ∀ {stk : TStk} {f : List Tok}, StkOK lim stk f → ∀ p ∈ stk, (m.has p.2.sym = true ∨ (199 ≤ p.2.sym ∧ m.behind.contains p.2.sym = true)) →
    ∃ u ∈ stkYield stk, m.words.contains (tsym u) = true
  | [], _, _, p, hp, _ => by simp at hp
  | (s, t) :: stk, f, h, p, hp, hm => by
    rw [StkOK] at h
    obtain ⟨h1, h2, h3, h4, h5, _⟩ := h
    rw [stkYield_cons]
    rcases List.mem_cons.1 hp with rfl | hp
    · rcases hm with hm | ⟨hm1, hm2⟩
      · obtain ⟨u, u1, u2⟩ := Marks.tree hc t h5 hm
        exact ⟨u, List.mem_append_right _ u1, u2⟩
      · rcases h2 with ⟨h2, _⟩ | ⟨h2, _⟩
        · simp only [] at hm1; omega
        · obtain ⟨u, u1, u2⟩ := Marks.pred hc _ stk _ (Nat.le_refl _) h1 _ h2 hm2
          exact ⟨u, List.mem_append_left _ u1, u2⟩
    · obtain ⟨u, u1, u2⟩ := Marks.stack h1 p hp hm
      exact ⟨u, List.mem_append_left _ u1, u2⟩
end
end Verif.LR

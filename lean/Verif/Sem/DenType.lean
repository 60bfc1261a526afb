import Verif.Sem.Pev
import Verif.Sem.Toks
import Verif.Sem.DenAt
/-! The values of derivations have the shapes of their symbols; parts of derivations. Proof-internal, except for `PartOf`. -/
namespace Verif.Sem
open Verif.Lex Verif.LR

/-- `s` is a part (a subtree) of the derivation. -/
inductive PartOf (s : Tree) : Tree → Prop where
  | refl : PartOf s s
  | step {c : Tree} {r : Nat} {cs : List Tree} : c ∈ cs → PartOf s c → PartOf s (.node r cs)

theorem PartOf.trans {a b c : Tree} (h1 : PartOf a b) (h2 : PartOf b c) : PartOf a c := by
  induction h2 with
  | refl => exact h1
  | step hm _ ih => exact .step hm ih

theorem wfl_mem : ∀ {cs : List Tree}, WFL cs → ∀ c ∈ cs, c.WF
  | _ :: _, h, _, .head _ => h.1
  | _ :: _, h, c, .tail _ hm => wfl_mem h.2 c hm

theorem yieldL_mem {m : Tok} : ∀ {cs : List Tree} {c : Tree}, c ∈ cs → m ∈ c.yield → m ∈ yieldL cs
  | _ :: _, _, .head _, h => by simp [yieldL, h]
  | _ :: _, _, .tail _ hm, h => by simp [yieldL, yieldL_mem hm h]

theorem PartOf.wf {s t : Tree} (h : PartOf s t) (hw : t.WF) : s.WF := by
  induction h with
  | refl => exact hw
  | step hm _ ih => exact ih (wfl_mem hw.2.2.2 _ hm)

theorem PartOf.toks {s t : Tree} (h : PartOf s t) : ∀ m ∈ s.yield, m ∈ t.yield := by
  induction h with
  | refl => exact fun _ h => h
  | step hm _ ih => exact fun m h => yieldL_mem hm (ih m h)

theorem denL_mem : ∀ {cs : List Tree} {s s' : PS} {vs : List V}, denL cs s = some (vs, s') → ∀ c ∈ cs, ∃ s1 v s2, den c s1 = some (v, s2)
  | c :: cs, s, s', vs, h, d, hm => by
    simp only [denL] at h
    cases h1 : den c s with
    | none => rw [h1] at h; cases h
    | some x =>
      obtain ⟨v, s1⟩ := x
      rw [h1] at h
      simp only [] at h
      cases h2 : denL cs s1 with
      | none => rw [h2] at h; cases h
      | some y =>
        cases hm with
        | head => exact ⟨_, _, _, h1⟩
        | tail _ hm => exact denL_mem (s := s1) (s' := y.2) (vs := y.1) h2 d hm

theorem den_node {r : Nat} {cs : List Tree} {s s' : PS} {v : V} (h : den (.node r cs) s = some (v, s')) : ∃ vs s1, denL cs s = some (vs, s1) ∧ evRule r vs s1 = some (v, s') := by
  rw [den] at h
  cases h1 : denL cs s with
  | none => rw [h1] at h; cases h
  | some x => rw [h1] at h; exact ⟨x.1, x.2, rfl, h⟩

/-- If a derivation has a value, so has every part of it. -/
theorem PartOf.den {s t : Tree} (h : PartOf s t) : ∀ {a b : PS} {v : V}, den t a = some (v, b) → ∃ a' v' b', Sem.den s a' = some (v', b') := by
  induction h with
  | refl => exact fun h => ⟨_, _, _, h⟩
  | step hm _ ih =>
    intro a b v h
    obtain ⟨vs, s1, h1, _⟩ := den_node h
    obtain ⟨_, _, _, h2⟩ := denL_mem h1 _ hm
    exact ih h2

theorem evRule_sat {ok : Bytes → Prop} {r : Nat} (h1 : 2 ≤ r) (h2 : r < 358) {vs : List V} (hv : SatL ok (fun _ => True) ((rhs r).map symTy) vs) {a b : PS} {v : V}
    (h : evRule r vs a = some (v, b)) : Sat ok (fun _ => True) (symTy (lhs r)) v := by
  by_cases h3 : r = 2
  · subst h3
    rw [evRule, if_pos rfl] at h
    cases h
    rw [lhs_undef]; exact .undef
  · rw [evRule_act h1 h2 h3] at h
    have := rule_sound (ok := ok) (good := fun _ => True) Z ⟨0, 0, 0, 0⟩ h1 h2 h3 (fun _ _ => trivial) hv (pureSt a)
    split at h
    · rename_i hr
      cases h
      rw [hr] at this
      exact this.1
    · cases h

mutual
/-- The value of a derivation has the shape that belongs to its symbol. -/
theorem den_sat {ok : Bytes → Prop} : ∀ {t : Tree}, t.WF → (∀ m ∈ t.yield, TokShape m ∧ ∀ b, m.val = .sval b → ok b) → ∀ {a b : PS} {v : V}, den t a = some (v, b) →
    Sat ok (fun _ => True) (symTy t.sym) v
  | .leaf m, _, hm, a, b, v, h => by
    rw [den] at h
    cases h
    exact tokValue_sat Z 0 (hm m (by simp [Tree.yield])).1 (hm m (by simp [Tree.yield])).2
  | .node r cs, hw, hm, a, b, v, h => by
    obtain ⟨vs, s1, h1, h2⟩ := den_node h
    have := denL_sat hw.2.2.2 (by simpa only [Tree.yield] using hm) h1
    rw [hw.2.2.1] at this
    exact evRule_sat hw.1 (by have := hw.2.1; rwa [rules_len] at this) this h2
theorem denL_sat {ok : Bytes → Prop} : ∀ {cs : List Tree}, WFL cs → (∀ m ∈ yieldL cs, TokShape m ∧ ∀ b, m.val = .sval b → ok b) → ∀ {a b : PS} {vs : List V}, denL cs a = some (vs, b) →
    SatL ok (fun _ => True) ((cs.map Tree.sym).map symTy) vs
  | [], _, _, a, b, vs, h => by rw [denL] at h; cases h; exact .nil
  | c :: cs, hw, hm, a, b, vs, h => by
    rw [denL] at h
    cases h1 : den c a with
    | none => rw [h1] at h; cases h
    | some x =>
      rw [h1] at h
      simp only [] at h
      cases h2 : denL cs x.2 with
      | none => rw [h2] at h; cases h
      | some y =>
        rw [h2] at h
        cases h
        exact .cons (den_sat hw.1 (fun m h => hm m (by simp [yieldL, h])) h1) (denL_sat hw.2 (fun m h => hm m (by simp [yieldL, h])) h2)
end

end Verif.Sem

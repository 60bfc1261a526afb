import Verif.LR.Final
/-!
# The stack a derivation needs is bounded by its number of tokens. Proof-internal.

`bT`, `mT` are tables with five bits per symbol: `mF X` is a lower bound for the number of tokens derived from `X`; a derivation from `X` with `n` tokens needs at most
`bF X - 10 + 2 n` stack entries. Computed by a script; what is used about them is checked below.
-/
namespace Verif.LR
open Verif.Lex

def bT : Nat := 0x256a5a1083ad694a56b4ad2b4a54b5ad69421294a529498c64a5242252b5ad0849c8842129529494a56a5ad6b5ad6b5ad4b52dab4a9aa6b5c84156b4210832d093252b5ad494a56c41d085a528424cb5252b739ce025294a5294a5294a5294a5294a5294a5294a5294a5294a5294a5294a5294a5294a5294a5294a5294a5294a5294a5294a5294a5294a5294a5294a5294a5294a5294a5294a5294a5294a5294a5294a5294a5294a5294a5294a5294a5294a5294a5294a5294a5294a5294a5294a5294a5294a5294a5294a5294a5294a529
def mT : Nat := 0x401010c63800110800080200842108421108210842109484084263042000063290c518c4108421084010000008400000400804008444108431980510c633006220420000221080611042004241048008420084210042108421084210842108421084210842108421084210842108421084210842108421084210842108421084210842108421084210842108421084210842108421084210842108421084210842108421084210842108421084210842108421084210842108421084210842108421084210842108421084210842108421
def bF (X : Nat) : Nat := (bT >>> (5 * X)) % 32
def mF (X : Nat) : Nat := (mT >>> (5 * X)) % 32
def sumM : List Nat → Nat
  | [] => 0
  | x :: xs => mF x + sumM xs
def chkNeed : List Nat → Nat → Nat → Bool
  | [], _, _ => true
  | x :: xs, i, w => Nat.ble (i + bF x) (w + 2 * sumM xs) && chkNeed xs (i + 1) (w + 2 * mF x)
def chkRule (r : Rule) : Bool := chkNeed r.2 0 (bF r.1) && Nat.ble (mF r.1) (sumM r.2) && Nat.ble 11 (bF r.1 + 2 * mF r.1)
theorem chkRules : (rules.drop 2).all chkRule = true := by decide +kernel
theorem chkToks : (List.range 199).all (fun a => Nat.ble 9 (bF a) && Nat.ble (mF a) 1) = true := by decide +kernel

theorem chkRule_of {r : Nat} (h1 : 2 ≤ r) (h2 : r < rules.length) : chkRule (rules.getD r (0, [])) = true := by
  refine List.all_eq_true.1 chkRules _ ?_
  obtain ⟨k, rfl⟩ : ∃ k, r = 2 + k := ⟨r - 2, by omega⟩
  rw [List.getD, List.getElem?_eq_getElem h2, Option.getD_some, List.mem_iff_getElem]
  exact ⟨k, by rw [List.length_drop]; omega, by rw [List.getElem_drop]⟩

mutual
theorem Tree.need_le : ∀ t : Tree, t.WF → mF t.sym ≤ t.yield.length ∧ t.need + 10 ≤ bF t.sym + 2 * t.yield.length
  | .leaf u, _ => by
    have := List.all_eq_true.1 chkToks (tsym u) (List.mem_range.2 (tsym_lt u))
    simp only [Bool.and_eq_true, Nat.ble_eq] at this
    simp only [Tree.sym, Tree.yield, Tree.need, List.length_cons, List.length_nil]
    omega
  | .node r cs, h => by
    simp only [Tree.WF] at h
    obtain ⟨h1, h2, h3, h4⟩ := h
    have hc := chkRule_of h1 h2
    simp only [chkRule, Bool.and_eq_true, Nat.ble_eq] at hc
    obtain ⟨⟨c1, c2⟩, c3⟩ := hc
    obtain ⟨a1, a2⟩ := needL_le cs h4 0 (bF (rules.getD r (0, [])).1) (by rw [h3]; exact c1)
    rw [h3] at a1
    simp only [Tree.sym, Tree.yield, Tree.need, lhs]
    simp only [rhs] at a1
    by_cases hn : cs = []
    · subst hn
      simp only [needL]
      rw [← h3, List.map_nil] at *
      omega
    · have := a2 hn
      omega
theorem needL_le : ∀ (cs : List Tree), WFL cs → ∀ i w, chkNeed (cs.map Tree.sym) i w = true →
    sumM (cs.map Tree.sym) ≤ (yieldL cs).length ∧ (cs ≠ [] → needL i cs + 10 ≤ w + 2 * (yieldL cs).length)
  | [], _, i, w, _ => ⟨Nat.le_refl _, fun h => absurd rfl h⟩
  | c :: cs, h, i, w, hc => by
    simp only [WFL] at h
    simp only [List.map_cons, chkNeed, Bool.and_eq_true, Nat.ble_eq] at hc
    obtain ⟨a1, a2⟩ := Tree.need_le c h.1
    obtain ⟨b1, b2⟩ := needL_le cs h.2 _ _ hc.2
    have hc1 := hc.1
    simp only [List.map_cons, sumM, yieldL, List.length_append, needL]
    refine ⟨by omega, fun _ => ?_⟩
    by_cases hn : cs = []
    · subst hn
      simp only [needL, yieldL, List.map_nil, sumM, List.length_nil] at *
      omega
    · have := b2 hn
      omega
end

/-- The height of the stack a derivation needs. -/
theorem Derives.need_le {ts : List Tok} {t : Tree} (h : Derives ts t) : t.need ≤ 2 * ts.length + 4 := by
  obtain ⟨_, h2⟩ := Tree.need_le t h.1
  rw [h.2.1, h.2.2.1] at h2
  have : bF N.input = 14 := by decide +kernel
  omega

end Verif.LR

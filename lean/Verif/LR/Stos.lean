import Verif.LR.Top
/-! `yystos`, and the shape of the stack around the start symbol. Proof-internal. -/
namespace Verif.LR
open Verif.Lex

/-- The symbol before the dot of the first kernel item. -/
noncomputable def kHead (l : KL) (f : Nat → Nat → Nat → Bool) : Bool :=
  KL.rec (motive := fun _ => Bool) false (fun r k m _ _ => f r k m) l

theorem kHead_spec {l : KL} {f : Nat → Nat → Nat → Bool} (h : kHead l f = true) : ∃ r k m, f r k m = true ∧ l.find r k = m := by
  cases l with
  | nil => cases h
  | cons r k m tl =>
    refine ⟨r, k, m, h, ?_⟩
    have e : KL.find (.cons r k m tl) r k = ite_ (band (Nat.beq r r) (Nat.beq k k)) m (tl.find r k) := rfl
    rw [e, Nat.beq_refl, Nat.beq_refl]; rfl

theorem stosOk : allFrom 1 655 (fun s => kHead (stF s).kern fun r k m => band (Nat.ble 1 m) (band (Nat.ble r 357)
    (Nat.beq (NL.nth (rhsF r) (Nat.pred k)) (Nat.sub (yystosT.get s) 1000)))) = true := by decide +kernel

/-- Every state is entered by the symbol `yystos` says. -/
theorem stos_edge {s t X : Nat} (hs : s < 656) (h69 : s ≠ 69) (h : Edge s t X) : (yystos.getD t 0).toNat = X := by
  obtain ⟨h1, h2, h3, h4⟩ := edge_spec hs h69 h
  have := allFrom_spec stosOk t (by omega) (by omega)
  obtain ⟨r, k, m, hf, hm⟩ := kHead_spec this
  simp only [band_iff, ble_iff, beq_iff, NL.nth_eq] at hf
  have hk : KM t r k := by show _ ≠ 0; rw [hm]; omega
  obtain ⟨_, e, _⟩ := h4 r k hk
  have ep : Nat.pred k = k - 1 := rfl
  rw [ep, ← rhs_eq (by omega), List.getD_eq_getElem?_getD, e] at hf
  have hg := yystos_get t h1
  rw [List.getD_eq_getElem?_getD, hg]
  have e2 : X = yystosT.get t - 1000 := hf.2.2
  simp only [Option.getD_some]
  omega

theorem predInput : allFrom 1 655 (fun s => Nat.beq ((stF s).pred.find 200) 0) = true := by decide +kernel

/-- `input` is only expected at the start. -/
theorem pm_input {s : Nat} (hs : s < 656) (h : PM s N.input) : s = 0 := by
  rcases Nat.eq_zero_or_pos s with h0 | h0
  · exact h0
  · exact absurd (beq_iff.1 (allFrom_spec predInput s h0 (by omega))) h

theorem predList : allFrom 1 655 (fun s => Nat.beq ((stF s).pred.find 201) 0) = true := by decide +kernel

/-- `statement_list` is only expected at the start. -/
theorem pm_list {s : Nat} (hs : s < 656) (h : PM s N.statement_list) : s = 0 := by
  rcases Nat.eq_zero_or_pos s with h0 | h0
  · exact h0
  · exact absurd (beq_iff.1 (allFrom_spec predList s h0 (by omega))) h

theorem rootActs : allN 199 (fun a => bor (Nat.beq (actF (gotoF 0 N.input) a) 0) (Nat.beq (actF (gotoF 0 N.input) a) 140)) = true := by decide +kernel
theorem rootLt : Nat.ble (gotoF 0 N.input) 655 = true := by decide +kernel
theorem rootNe : Nat.beq (gotoF 0 N.input) 69 = false := by decide +kernel

theorem root_lt : gotoF 0 N.input < 656 := by have := ble_iff.1 rootLt; omega
theorem root_ne : gotoF 0 N.input ≠ 69 := by intro h; have := rootNe; rw [h] at this; exact Bool.noConfusion this

/-- After `input` only the end of input can follow. -/
theorem root_act {a : Nat} (ha : a < 199) {x : Act} (h : actionOn (gotoF 0 N.input) a = some x) : x = .error ∨ x = .shift 69 := by
  have := allN_spec rootActs a ha
  rw [bor_iff, beq_iff, beq_iff, (act_iff root_lt x).1 h] at this
  rcases this with h | h
  · left; exact encAct_inj h
  · right; exact encAct_inj (by rw [h]; rfl)

/-- Only the last two steps of a parse see `input` on the stack. -/
inductive Phase (stk : TStk) : Prop where
  | before : (∀ p ∈ stk, p.2.sym ≠ N.input) → Phase stk
  | done (t : Tree) : stk = [(gotoF 0 N.input, t)] → t.sym = N.input → Phase stk
  | shifted (t : Tree) (e : Tok) : stk = [(69, .leaf e), (gotoF 0 N.input, t)] → t.sym = N.input → Phase stk

section
variable {σ V : Type} {S : Sem σ V} {lim : Nat} {toks : List Tok} {st0 : σ}

/-- Reduction by a rule for `input` leaves nothing else on the stack. -/
theorem reduce_input {n r s : Nat} {c : Cfg σ V} {stk : TStk} {t : Tree}
    (hok : StkOK lim ((s, t) :: stk) (remOf c)) (hs : t.sym = N.input) : stk = [] ∧ s = gotoF 0 N.input := by
  simp only [StkOK] at hok
  obtain ⟨h1, h2, h3, h4, _⟩ := hok
  rw [hs] at h2
  rcases h2 with ⟨h, _⟩ | ⟨h, h'⟩
  · exact absurd h (by decide)
  · have := pm_input h3 h
    rw [this] at h'
    exact ⟨topState_zero h1 this, h'⟩

/-- Reduction by a rule for `statement_list` leaves nothing else on the stack. -/
theorem reduce_list {n r s : Nat} {c : Cfg σ V} {stk : TStk} {t : Tree}
    (hok : StkOK lim ((s, t) :: stk) (remOf c)) (hs : t.sym = N.statement_list) : stk = [] := by
  simp only [StkOK] at hok
  obtain ⟨h1, h2, h3, h4, _⟩ := hok
  rw [hs] at h2
  rcases h2 with ⟨h, _⟩ | ⟨h, h'⟩
  · exact absurd h (by decide)
  · exact topState_zero h1 (pm_list h3 h)

theorem Reach.phase {n : Nat} {c : Cfg σ V} {stk : TStk} (h : Reach S lim toks st0 n c stk) : Phase stk := by
  induction h with
  | init => exact .before (by simp)
  | @shift n c stk t rem s v hR hr hl h69 ha hla htk ih =>
    cases ih with
    | before hb =>
      refine .before ?_
      intro p hp
      rcases List.mem_cons.1 hp with rfl | hp
      · have := tsym_lt t
        simp only [Tree.sym]
        intro h; rw [h] at this; exact absurd this (by decide)
      · exact hb p hp
    | done t' h1 h2 =>
      subst h1
      rcases root_act (tsym_lt t) ha with h | h
      · cases h
      · cases h
        exact .shifted t' t rfl h2
    | shifted t' e h1 h2 => subst h1; exact absurd rfl h69
  | @reduce n c stk t rem r s v st hR hr hl h69 ha hr1 hr2 hlen hg hred ih =>
    have hR' := Reach.reduce hR hr hl h69 ha hr1 hr2 hlen hg hred
    cases ih with
    | before hb =>
      by_cases hi : (Tree.node r (popTrees (rhs r).length stk)).sym = N.input
      · obtain ⟨a, b⟩ := reduce_input (n := n) (r := r) hR'.inv.ok hi
        rw [a, b]
        exact .done _ rfl hi
      · refine .before ?_
        intro p hp
        rcases List.mem_cons.1 hp with rfl | hp
        · exact hi
        · exact hb p (List.mem_of_mem_drop hp)
    | done t' h1 h2 =>
      subst h1
      rcases root_act (tsym_lt t) ha with h | h <;> cases h
    | shifted t' e h1 h2 => subst h1; exact absurd rfl h69

end
end Verif.LR

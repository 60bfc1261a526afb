import Verif.LR.Main
/-! Reachable configurations of the driver, with the derivation trees as ghost state. Proof-internal. -/
namespace Verif.LR
open Verif.Lex

/-- `ts` is what precedes the first end-of-input token `e` in `toks`. -/
structure Input (toks ts : List Tok) (e : Tok) (junk : List Tok) : Prop where
  eq : toks = ts ++ e :: junk
  eof : tsym e = 0
  ne : ∀ t ∈ ts, tsym t ≠ 0

section
variable {σ V : Type} (S : Sem σ V) (lim : Nat) (toks : List Tok) (st0 : σ)

/-- `c` is reachable after `n` steps, the ghost stack of trees being `stk`. -/
inductive Reach : Nat → Cfg σ V → TStk → Prop where
  | init : Reach 0 (initCfg toks st0) []
  | shift {n : Nat} {c : Cfg σ V} {stk : TStk} {t : Tok} {rem : List Tok} {s : Nat} {v : V} : Reach n c stk → remOf c = t :: rem →
      stk.length + 1 < lim → topState stk ≠ 69 →
      actionOn (topState stk) (tsym t) = some (.shift s) → (fetch S c).la = some (t, v) → (fetch S c).toks = rem →
      Reach (n + 1) { fetch S c with stk := (s, v) :: c.stk, la := none } ((s, .leaf t) :: stk)
  | reduce {n : Nat} {c : Cfg σ V} {stk : TStk} {t : Tok} {rem : List Tok} {r s : Nat} {v : V} {st : σ} : Reach n c stk → remOf c = t :: rem →
      stk.length + 1 < lim → topState stk ≠ 69 →
      actionOn (topState stk) (tsym t) = some (.reduce r) → 2 ≤ r → r < 358 → (rhs r).length ≤ c.stk.length →
      gotoState (topState (stk.drop (rhs r).length)) (lhs r) = some s →
      S.reduce r ((c.stk.take (rhs r).length).map Prod.snd).reverse ((c.stk.drop (rhs r).length).head?.map Prod.snd) (prep S c).st = .ok v st →
      Reach (n + 1) { prep S c with stk := (s, v) :: c.stk.drop (rhs r).length, st := st } ((s, .node r (popTrees (rhs r).length stk)) :: stk.drop (rhs r).length)

variable {S lim toks st0}

theorem eof_shift {s t : Nat} (hs : s < 656) (h : actionOn s 0 = some (.shift t)) : t = 69 := by
  have hc : allN 656 (fun s => bor (bnot (isShift (actF s 0))) (Nat.beq (actF s 0) 140)) = true := by decide +kernel
  have := allN_spec hc s hs
  rw [bor_iff, bnot_iff, (isShift_iff hs).2 ⟨t, h⟩, beq_iff, (act_iff hs _).1 h] at this
  have := this.resolve_left (by simp)
  simp [encAct] at this; omega

/-- Invariant of reachable configurations. -/
structure RInv (S : Sem σ V) (lim : Nat) (toks : List Tok) (n : Nat) (c : Cfg σ V) (stk : TStk) : Prop where
  sim : Sim c stk (remOf c)
  ok : StkOK lim stk (remOf c)
  yld : stkYield stk ++ remOf c = toks
  steps : TSteps lim n [] toks stk (remOf c)
  meas : stkW stk + 10 * (remOf c).length + n ≤ 10 * toks.length

theorem TSteps.snoc {n : Nat} {a c e : TStk} {b d f : List Tok} (h : TSteps lim n a b c d) (h' : tstep lim c d = .run e f) :
    TSteps lim (n + 1) a b e f := TSteps.trans h (.one h')

theorem remOf_shift {c : Cfg σ V} {t : Tok} {v : V} {s : Nat} {l : List (Nat × V)} (h : (fetch S c).toks = t') :
    remOf { fetch S c with stk := (s, v) :: l, la := none } = t' := by
  simp [remOf, h]

theorem Reach.inv {n : Nat} {c : Cfg σ V} {stk : TStk} (h : Reach S lim toks st0 n c stk) : RInv S lim toks n c stk := by
  induction h with
  | init =>
    refine ⟨⟨rfl, rfl⟩, trivial, rfl, .refl _ _, ?_⟩
    simp [stkW, remOf, initCfg]
  | @shift n c stk t rem s v hR hr hl h69 ha hla htk ih =>
    have hc := step_cases S (by rw [← hr]; exact ih.sim) (by rw [← hr]; exact ih.ok)
    rcases hc with ⟨h1, _⟩ | ⟨h1, _⟩ | ⟨_, h1, _⟩ | ⟨s', v', _, h1, h2, h3, h4, _, h5, h6, h7⟩ | ⟨r', s', _, _, h1, _⟩
    · omega
    · exact absurd h1 h69
    · rw [ha] at h1; cases h1
    · rw [ha] at h1; cases h1
      have hrem : remOf ({ fetch S c with stk := (s, v) :: c.stk, la := none } : Cfg σ V) = rem := by simp [remOf, htk]
      refine ⟨⟨by simp [ih.sim.1], rfl⟩, by rw [hrem]; exact h6, ?_, ?_, ?_⟩
      · rw [hrem, h7, List.append_assoc]
        have := ih.yld
        rw [hr] at this
        exact this
      · rw [hrem]
        exact TSteps.snoc (by have := ih.steps; rw [hr] at this; exact this) h5
      · rw [hrem]
        have := ih.meas
        rw [hr] at this
        have e : stkW ((s, Tree.leaf t) :: stk) = 9 + stkW stk := by
          simp [stkW, Tree.sym, w_term (tsym_lt t)]
        rw [e]
        simp only [List.length_cons] at this
        omega
    · rw [ha] at h1; cases h1
  | @reduce n c stk t rem r s v st hR hr hl h69 ha hr1 hr2 hlen hg hred ih =>
    have hc := step_cases S (by rw [← hr]; exact ih.sim) (by rw [← hr]; exact ih.ok)
    rcases hc with ⟨h1, _⟩ | ⟨h1, _⟩ | ⟨_, h1, _⟩ | ⟨s', v', _, h1, h2, h3, h4, _, h5, h6, h7⟩ | ⟨r', s', _, _, h1, _, _, _, h2, h3, h4, h5, h6, h7⟩
    · omega
    · exact absurd h1 h69
    · rw [ha] at h1; cases h1
    · rw [ha] at h1; cases h1
    · rw [ha] at h1; cases h1
      rw [hg] at h2; cases h2
      have hrem : remOf ({ prep S c with stk := (s, v) :: c.stk.drop (rhs r).length, st := st } : Cfg σ V) = t :: rem := by
        rw [← hr, ← prep_rem S c]; rfl
      refine ⟨⟨?_, rfl⟩, by rw [hrem]; exact h4, ?_, ?_, ?_⟩
      · simp only [List.map_cons, List.map_drop]
        rw [ih.sim.1]
      · rw [hrem, h5, ← hr]; exact ih.yld
      · rw [hrem]
        exact TSteps.snoc (by have := ih.steps; rw [hr] at this; exact this) h3
      · rw [hrem]
        have := ih.meas
        rw [hr] at this
        omega

/-- A step from a reachable configuration leads to a reachable one. -/
theorem Reach.next {n : Nat} {c c' : Cfg σ V} {stk : TStk} {t : Tok} {rem : List Tok} (h : Reach S lim toks st0 n c stk) (hr : remOf c = t :: rem)
    (hs : step S lim c = .run c') : ∃ stk', Reach S lim toks st0 (n + 1) c' stk' := by
  have ih := h.inv
  have hc := step_cases S (by rw [← hr]; exact ih.sim) (by rw [← hr]; exact ih.ok)
  rcases hc with ⟨_, h1, _⟩ | ⟨_, _, h1, _⟩ | ⟨_, _, h1, _⟩ | ⟨s', v', h69, h1, h2, h3, h4, h5, ht, h6, h7⟩ | ⟨r', s', h69, hl, h1, hr1, hr2, hrl, h2, h3, h4, h5, h6, h7⟩
  · rw [h1] at hs; cases hs
  · rw [h1] at hs; cases hs
  · rw [h1] at hs; cases hs
  · rw [h5] at hs; cases hs
    rw [h2] at h3 h4 ⊢
    have hl : stk.length + 1 < lim := by
      rcases Nat.lt_or_ge (stk.length + 1) lim with h | h
      · exact h
      · unfold tstep at ht; rw [if_pos h] at ht; cases ht
    exact ⟨_, Reach.shift h hr hl h69 h1 h3 h4⟩
  · rw [h7] at hs
    split at hs
    · cases hs
    · cases hs
    · rename_i v st hred
      cases hs
      exact ⟨_, Reach.reduce h hr hl h69 h1 hr1 hr2 hrl h2 hred⟩

theorem append_cons_cases {ts pre suf : List Tok} {e : Tok} {junk : List Tok} (h : pre ++ suf = ts ++ e :: junk) :
    (∃ b, ts = pre ++ b ∧ suf = b ++ e :: junk) ∨ (∃ b, pre = ts ++ e :: b ∧ junk = b ++ suf) := by
  induction pre generalizing ts with
  | nil => exact .inl ⟨ts, rfl, h⟩
  | cons x pre ih =>
    cases ts with
    | nil =>
      simp at h
      exact .inr ⟨pre, by rw [h.1]; rfl, h.2.symm⟩
    | cons y ts =>
      simp at h
      rcases ih h.2 with ⟨b, h1, h2⟩ | ⟨b, h1, h2⟩
      · exact .inl ⟨b, by rw [h1, h.1]; rfl, h2⟩
      · exact .inr ⟨b, by rw [h1, h.1]; rfl, h2⟩

/-- The rest of the input after the first end-of-input token is never read. -/
theorem Reach.rest {ts : List Tok} {e : Tok} {junk : List Tok} (hin : Input toks ts e junk) {n : Nat} {c : Cfg σ V} {stk : TStk} (h : Reach S lim toks st0 n c stk) :
    (topState stk ≠ 69 ∧ ∃ suf, remOf c = suf ++ e :: junk ∧ ts = stkYield stk ++ suf) ∨ (topState stk = 69 ∧ remOf c = junk ∧ stkYield stk = ts ++ [e]) := by
  induction h with
  | init => left; exact ⟨by simp [topState], ts, hin.eq, rfl⟩
  | @shift n c stk t rem s v hR hr hl h69 ha hla htk ih =>
    have hrem : remOf ({ fetch S c with stk := (s, v) :: c.stk, la := none } : Cfg σ V) = rem := by simp [remOf, htk]
    rcases ih with ⟨_, suf, h1, h2⟩ | ⟨h1, _⟩
    · have hs := topState_lt hR.inv.ok
      have e0 : stkYield ((s, Tree.leaf t) :: stk) = stkYield stk ++ [t] := by rw [stkYield_cons]; rfl
      cases suf with
      | nil =>
        rw [hr] at h1
        simp at h1
        right
        rw [h1.1, hin.eof] at ha
        refine ⟨eof_shift hs ha, by rw [hrem]; exact h1.2, ?_⟩
        rw [e0, h2, h1.1]; simp
      | cons x suf =>
        rw [hr] at h1
        simp at h1
        left
        refine ⟨?_, suf, by rw [hrem]; exact h1.2, by rw [e0, h2, h1.1]; simp⟩
        intro h69'
        have h69' : s = 69 := h69'
        subst h69'
        have hk : KM 69 1 2 := by
          have : Nat.beq ((stF 69).kern.find 1 2) 0 = false := by decide +kernel
          intro h0; rw [h0] at this; exact Bool.noConfusion this
        obtain ⟨_, _, _, he⟩ := edge_spec hs h69 (Or.inl ⟨tsym_lt t, ha⟩)
        have := (he 1 2 hk).2.1
        have hr1 : rhs 1 = [N.input, 0] := by decide +kernel
        rw [hr1] at this
        simp at this
        refine hin.ne t ?_ this.symm
        rw [h2, h1.1]; simp
    · exact absurd h1 h69
  | @reduce n c stk t rem r s v st hR hr hl h69 ha hr1 hr2 hlen hg hred ih =>
    have hR' := Reach.reduce hR hr hl h69 ha hr1 hr2 hlen hg hred
    have hrem : remOf ({ prep S c with stk := (s, v) :: c.stk.drop (rhs r).length, st := st } : Cfg σ V) = remOf c := by
      rw [← prep_rem S c]; rfl
    rcases ih with ⟨_, suf, h1, h2⟩ | ⟨h1, _⟩
    · left
      have y1 := hR'.inv.yld
      rw [hrem] at y1
      have y2 := hR.inv.yld
      rw [← y2] at y1
      have y3 := List.append_cancel_right y1
      refine ⟨?_, suf, by rw [hrem]; exact h1, by rw [y3]; exact h2⟩
      intro h69'
      have hk : KM 69 1 2 := by
        have : Nat.beq ((stF 69).kern.find 1 2) 0 = false := by decide +kernel
        intro h0; rw [h0] at this; exact Bool.noConfusion this
      obtain ⟨s2, t2, e2, hh, _⟩ := accept_shape hR'.inv.ok h69'
      injection hh with hh _
      injection hh with _ hh
      cases hh
    · exact absurd h1 h69

/-- If the driver comes to an end, it does so from a reachable configuration. -/
theorem Reach.run {ts : List Tok} {e : Tok} {junk : List Tok} (hin : Input toks ts e junk) : ∀ (m n : Nat) (c : Cfg σ V) (stk : TStk), Reach S lim toks st0 n c stk →
    (runN S lim m c = none ∧ ∃ c' stk', Reach S lim toks st0 (n + m) c' stk') ∨
    (∃ k c' stk', Reach S lim toks st0 k c' stk' ∧
      ((∃ o c'', runN S lim m c = some (some (o, c'')) ∧ step S lim c' = .done o c'') ∨ (runN S lim m c = some none ∧ step S lim c' = .ub)))
  | 0, n, c, stk, h => .inl ⟨rfl, c, stk, h⟩
  | m + 1, n, c, stk, h => by
    cases hst : step S lim c with
    | ub => exact .inr ⟨n, c, stk, h, .inr ⟨by simp [runN, hst], hst⟩⟩
    | done o c'' => exact .inr ⟨n, c, stk, h, .inl ⟨o, c'', by simp [runN, hst], hst⟩⟩
    | run c1 =>
      have hne : ∃ t rem, remOf c = t :: rem := by
        rcases h.rest hin with ⟨_, suf, h1, _⟩ | ⟨h69, _⟩
        · cases suf with
          | nil => exact ⟨e, junk, h1⟩
          | cons x suf => exact ⟨x, suf ++ e :: junk, h1⟩
        · exfalso
          have ht := h.inv.sim.top
          unfold step at hst
          simp only [ht, h69] at hst
          split at hst
          · cases hst
          · rw [if_pos (by decide)] at hst; cases hst
      obtain ⟨t, rem, hr⟩ := hne
      obtain ⟨stk1, h1⟩ := h.next hr hst
      have := Reach.run hin m (n + 1) c1 stk1 h1
      have e : runN S lim (m + 1) c = runN S lim m c1 := by simp [runN, hst]
      rw [e, show n + (m + 1) = n + 1 + m by omega]
      exact this

/-- The number of steps is bounded. -/
theorem Reach.bound {n : Nat} {c : Cfg σ V} {stk : TStk} (h : Reach S lim toks st0 n c stk) : n ≤ 10 * toks.length + 10 * stk.length := by
  have h1 := h.inv.meas
  have h2 := stkW_low h.inv.ok
  omega

theorem Reach.len {n : Nat} {c : Cfg σ V} {stk : TStk} (h : Reach S lim toks st0 n c stk) (hl : 2 ≤ lim) : stk.length < lim := by
  cases h with
  | init => simp; omega
  | shift _ _ hl => simp; omega
  | reduce _ _ hl => simp; omega

end
end Verif.LR

import Verif.LR.Reach
/-! Soundness, completeness, unambiguity and termination of the driver, for arbitrary semantic actions. -/
namespace Verif.LR
open Verif.Lex

theorem tstep_mono {lim lim' : Nat} (h : lim ≤ lim') {stk : TStk} {rem : List Tok} (hl : ¬ lim ≤ stk.length + 1) : tstep lim' stk rem = tstep lim stk rem := by
  unfold tstep
  rw [if_neg (by omega), if_neg hl]

theorem TSteps.mono {lim lim' n : Nat} (h : lim ≤ lim') {a c : TStk} {b d : List Tok} (hs : TSteps lim n a b c d) : TSteps lim' n a b c d := by
  induction hs with
  | refl => exact .refl _ _
  | step h1 _ ih =>
    refine .step ?_ ih
    rw [tstep_mono h]
    · exact h1
    · intro hl; unfold tstep at h1; rw [if_pos hl] at h1; cases h1

/-- Determinism: any run is a prefix of a run that ends. -/
theorem TSteps.prefix {lim n : Nat} {a c : TStk} {b d : List Tok} (h : TSteps lim n a b c d) (hend : ∀ s r, tstep lim c d ≠ .run s r) :
    ∀ {k : Nat} {c' : TStk} {d' : List Tok}, TSteps lim k a b c' d' → ∃ j, TSteps lim j c' d' c d ∧ n = k + j := by
  induction h with
  | refl =>
    intro k c' d' h
    cases h with
    | refl => exact ⟨0, .refl _ _, rfl⟩
    | step h1 _ => exact absurd h1 (hend _ _)
  | @step n' _ _ _ _ _ _ h1 h1' ih =>
    intro k c' d' h
    cases h with
    | refl => exact ⟨n' + 1, .step h1 h1', by omega⟩
    | step h2 h3 =>
      rw [h1] at h2
      cases h2
      obtain ⟨j, hj, e⟩ := ih hend h3
      exact ⟨j, hj, by omega⟩

theorem rules_noeof : allFrom 2 356 (fun r => NL.all (rhsF r) fun X => Nat.ble 1 X) = true := by decide +kernel

mutual
theorem yield_ne : ∀ (t : Tree), t.WF → t.sym ≠ 0 → ∀ u ∈ t.yield, tsym u ≠ 0
  | .leaf t, _, h, u, hu => by
    simp only [Tree.yield, List.mem_singleton] at hu
    rw [hu]; exact h
  | .node r cs, hw, _, u, hu => by
    simp only [Tree.WF, rules_len] at hw
    simp only [Tree.yield] at hu
    refine yieldL_ne cs hw.2.2.2 ?_ u hu
    rw [hw.2.2.1]
    intro X hX
    have := allFrom_spec rules_noeof r hw.1 (by omega)
    rw [rhs_eq hw.2.1] at hX
    have := NL.all_spec this X hX
    rw [ble_iff] at this
    omega
theorem yieldL_ne : ∀ (cs : List Tree), WFL cs → (∀ X ∈ cs.map Tree.sym, X ≠ 0) → ∀ u ∈ yieldL cs, tsym u ≠ 0
  | [], _, _, u, hu => by simp [yieldL] at hu
  | c :: cs, hw, h, u, hu => by
    simp only [yieldL, List.mem_append] at hu
    rcases hu with hu | hu
    · exact yield_ne c hw.1 (h c.sym (by simp)) u hu
    · exact yieldL_ne cs hw.2 (fun X hX => h X (by simp at hX ⊢; exact .inr hX)) u hu
end

theorem Derives.ne {ts : List Tok} {t : Tree} (h : Derives ts t) : ∀ u ∈ ts, tsym u ≠ 0 := by
  rw [← h.2.2.1]
  exact yield_ne t h.1 (by rw [h.2.1]; decide)

theorem root_shift : Nat.beq (actF (gotoF 0 N.input) 0) 140 = true := by decide +kernel

/-- The automaton follows a derivation of the complete input. -/
theorem complete_root {ts : List Tok} {t : Tree} (h : Derives ts t) {e : Tok} (he : tsym e = 0) (junk : List Tok) {lim : Nat} (hl : t.need + 1 < lim) :
    ∃ n s, TSteps lim n [] (ts ++ e :: junk) [(69, .leaf e), (s, t)] junk := by
  obtain ⟨h1, h2, h3, h4⟩ := h
  have hr1 : rhs 1 = [N.input, 0] := by decide +kernel
  have hd : (rhs 1).drop 0 = N.input :: [0] := by rw [hr1]; rfl
  obtain ⟨g1, g2, ⟨L1, g3, g4⟩, g5⟩ := item_goto (by decide) (by decide) item0 hd (by decide)
  have hHS : HShift 0 t := by
    intro X a hX ha hlead
    apply Classical.byContradiction
    intro hns
    obtain ⟨m, hm1, hm2, hm3, hm4⟩ := leads_pm (s := 0) (by decide) (by decide) t h1 (by rw [h2]; exact g1) hlead
    have hk : KM 0 1 0 := by
      obtain ⟨i1, i2, _⟩ := item0
      rcases i2 with i2 | i2
      · unfold KM; rw [i2]; decide
      · exfalso
        have : PM 0 (lhs 1) := by unfold PM; rw [i2.2]; decide
        have := (pm_range (s := 0) (by decide) (by decide) this).1
        have e : lhs 1 = 199 := by decide +kernel
        omega
    have := (fscomp (s := 0) (by decide) (by decide) hm1 hm2 hm3 hm4 hX ha hns 1 0 hk).1
    rw [hr1] at this
    simp at this
  have hn1 : 1 ≤ t.need := by cases t <;> simp only [Tree.need] <;> omega
  obtain ⟨n, hn⟩ := complete_tree lim t [] e junk h1 (by rw [h2]; decide) (by decide)
    (by
      rw [he, h2]
      refine g5 0 ?_
      rw [fseq_cons, Nat.testBit_or, first_term (by decide)]; rfl)
    (by rw [he]; exact h4) hHS (by simpa using hl)
  refine ⟨n + 1, gotoF 0 N.input, ?_⟩
  rw [h3] at hn
  rw [h2] at hn
  refine TSteps.trans hn (TSteps.one ?_)
  have hact : actionOn (gotoF 0 N.input) 0 = some (.shift 69) := by
    rw [act_iff g2, beq_iff.1 root_shift]; rfl
  have h69 : gotoF 0 N.input ≠ 69 := by
    have : Nat.beq (gotoF 0 N.input) 69 = false := by decide +kernel
    intro h; rw [h] at this; exact Bool.noConfusion this
  have hta := tstep_act (lim := lim) (stk := [(gotoF 0 N.input, t)]) (t := e) (rem := junk) (by simp; omega) h69
  show tstep lim [(gotoF 0 N.input, t)] (e :: junk) = _
  rw [hta]
  show tAct (actionOn (gotoF 0 N.input) (tsym e)) _ _ = _
  rw [he, hact]
  rfl

theorem acc_end {lim : Nat} {stk : TStk} {rem : List Tok} (h : topState stk = 69) : ∀ s r, tstep lim stk rem ≠ .run s r := by
  intro s r hh
  unfold tstep at hh
  split at hh
  · cases hh
  · cases hh

/-- At most one derivation respects the precedences. -/
theorem derives_unique {ts : List Tok} {t t' : Tree} (h : Derives ts t) (h' : Derives ts t') : t = t' := by
  let e : Tok := ⟨0, .none, []⟩
  have he : tsym e = 0 := by decide
  obtain ⟨n, s, hn⟩ := complete_root h he [] (lim := t.need + t'.need + 2) (by omega)
  obtain ⟨n', s', hn'⟩ := complete_root h' he [] (lim := t.need + t'.need + 2) (by omega)
  obtain ⟨j, hj, _⟩ := hn.prefix (acc_end rfl) hn'
  cases hj with
  | refl => rfl
  | step h1 _ => exact absurd h1 (acc_end rfl _ _)

section
variable {σ V : Type} {S : Sem σ V} {lim : Nat} {toks : List Tok} {st0 : σ} {ts : List Tok} {e : Tok} {junk : List Tok}

/-- At state 69 the parser is done. -/
theorem step_final {c : Cfg σ V} (h : topState c.stk = 69) : step S lim c = .done (if lim ≤ c.stk.length + 1 then .exhausted else .accept) c := by
  unfold step
  split
  · rfl
  · simp only [h]; rw [if_pos (by decide)]

/-- Every way the driver can stop. -/
inductive Stop (S : Sem σ V) (lim : Nat) (ts : List Tok) (e : Tok) (junk : List Tok) (c : Cfg σ V) (stk : TStk) : SRes σ V → Prop where
  | accept (s : Nat) (t : Tree) : stk = [(69, .leaf e), (s, t)] → remOf c = junk → Derives ts t → t.need + 1 < lim → Stop S lim ts e junk c stk (.done .accept c)
  | exhausted : lim ≤ stk.length + 1 → Stop S lim ts e junk c stk (.done .exhausted c)
  | syntaxError (t : Tok) (rem : List Tok) : remOf c = t :: rem → topState stk ≠ 69 → actionOn (topState stk) (tsym t) = some .error →
      Stop S lim ts e junk c stk (.done .syntaxError (prep S c))
  | semError (r : Nat) (st : σ) : 2 ≤ r → r < 358 → (rhs r).length ≤ c.stk.length → topState stk ≠ 69 →
      (∃ t rem, remOf c = t :: rem ∧ actionOn (topState stk) (tsym t) = some (.reduce r)) →
      (popTrees (rhs r).length stk).map Tree.sym = rhs r →
      S.reduce r ((c.stk.take (rhs r).length).map Prod.snd).reverse ((c.stk.drop (rhs r).length).head?.map Prod.snd) (prep S c).st = .error st →
      Stop S lim ts e junk c stk (.done .semError { prep S c with stk := c.stk.drop (rhs r).length, st := st })
  | ub (r : Nat) : 2 ≤ r → r < 358 → (rhs r).length ≤ c.stk.length →  topState stk ≠ 69 →
      (∃ t rem, remOf c = t :: rem ∧ actionOn (topState stk) (tsym t) = some (.reduce r)) →
      (popTrees (rhs r).length stk).map Tree.sym = rhs r →
      S.reduce r ((c.stk.take (rhs r).length).map Prod.snd).reverse ((c.stk.drop (rhs r).length).head?.map Prod.snd) (prep S c).st = .ub →
      Stop S lim ts e junk c stk .ub

theorem Reach.stop (hin : Input toks ts e junk) {n : Nat} {c : Cfg σ V} {stk : TStk} (h : Reach S lim toks st0 n c stk) {x : SRes σ V}
    (hx : step S lim c = x) (hne : ∀ c', x ≠ .run c') : Stop S lim ts e junk c stk x := by
  have hi := h.inv
  rcases h.rest hin with ⟨h69, suf, h1, h2⟩ | ⟨h69, h1, h2⟩
  · have hne' : ∃ t rem, remOf c = t :: rem := by
      cases suf with
      | nil => exact ⟨e, junk, h1⟩
      | cons x suf => exact ⟨x, suf ++ e :: junk, h1⟩
    obtain ⟨t, rem, hr⟩ := hne'
    have hc := step_cases S (by rw [← hr]; exact hi.sim) (by rw [← hr]; exact hi.ok)
    rcases hc with ⟨k1, k2, _⟩ | ⟨k1, _⟩ | ⟨_, k1, k2, _⟩ | ⟨s', v', _, _, _, _, _, k1, _⟩ | ⟨r', s', _, hl, k1, hr1, hr2, hrl, k2, k3, k4, k5, k6, k7⟩
    · rw [k2] at hx; subst hx; exact .exhausted k1
    · exact absurd k1 h69
    · rw [k2] at hx; subst hx; exact .syntaxError t rem hr h69 k1
    · rw [k1] at hx; exact absurd hx.symm (hne _)
    · rw [k7] at hx
      have hsy : (popTrees (rhs r').length stk).map Tree.sym = rhs r' := by
        simp only [StkOK, Tree.WF] at k4
        exact k4.2.2.2.2.1.2.2.1
      cases hred : S.reduce r' ((c.stk.take (rhs r').length).map Prod.snd).reverse ((c.stk.drop (rhs r').length).head?.map Prod.snd) (prep S c).st with
      | ub => rw [hred] at hx; subst hx; exact .ub r' hr1 hr2 hrl h69 ⟨t, rem, hr, k1⟩ hsy hred
      | error st => rw [hred] at hx; subst hx; exact .semError r' st hr1 hr2 hrl h69 ⟨t, rem, hr, k1⟩ hsy hred
      | ok v st => rw [hred] at hx; exact absurd hx.symm (hne _)
  · obtain ⟨s, t, e', hst, he', hw, hsym, hp, hneed⟩ := accept_shape hi.ok h69
    have hlen := hi.sim.len
    have htop := hi.sim.top
    rw [step_final (by rw [htop]; exact h69)] at hx
    have hee : e' = e ∧ t.yield = ts := by
      have : stkYield stk = t.yield ++ [e'] := by
        rw [hst, stkYield_cons, stkYield_cons]; rfl
      rw [this] at h2
      obtain ⟨a, b⟩ := List.append_inj' h2 rfl
      exact ⟨by injection b, a⟩
    have hl2 : stk.length = 2 := by rw [hst]; rfl
    split at hx
    · subst hx; exact .exhausted (by omega)
    · subst hx
      exact .accept s t (by rw [hst, hee.1]) h1 ⟨hw, hsym, hee.2, hp⟩ (hneed (by omega))

/-- Along a derivation, the driver neither stops with a syntax error, nor for lack of stack space unless the derivation needs it. -/
theorem Derives.stop (hin : Input toks ts e junk) {t : Tree} (hd : Derives ts t) {n : Nat} {c : Cfg σ V} {stk : TStk} (h : Reach S lim toks st0 n c stk) {x : SRes σ V}
    (hs : Stop S lim ts e junk c stk x) :
    (∀ c', x ≠ .done .syntaxError c') ∧ ((∃ c', x = .done .exhausted c') → lim ≤ t.need + 1) := by
  have hi := h.inv
  have hst := hi.steps
  rw [hin.eq] at hst
  constructor
  · intro c' hx
    subst hx
    cases hs with
    | syntaxError u rem hr h69 ha =>
      obtain ⟨m, s, hm⟩ := complete_root hd hin.eof junk (lim := lim + t.need + 2 + stk.length) (by omega)
      obtain ⟨j, hj, _⟩ := hm.prefix (acc_end rfl) (hst.mono (by omega))
      rw [hr] at hj
      have herr : tstep (lim + t.need + 2 + stk.length) stk (u :: rem) = .err := by
        rw [tstep_act (by omega) h69, ha]; rfl
      cases hj with
      | refl => exact absurd rfl h69
      | step h1 _ => rw [herr] at h1; cases h1
  · rintro ⟨c', hx⟩
    subst hx
    cases hs with
    | exhausted hl =>
      apply Classical.byContradiction
      intro hn
      obtain ⟨m, s, hm⟩ := complete_root hd hin.eof junk (lim := lim) (by omega)
      obtain ⟨j, hj, _⟩ := hm.prefix (acc_end rfl) hst
      have hex : ∀ r, tstep lim stk r = .exh := by
        intro r; unfold tstep; rw [if_pos hl]
      cases hj with
      | refl =>
        simp at hl
        have hn1 : 1 ≤ t.need := by cases t <;> simp only [Tree.need] <;> omega
        -- the stack [e, t] has length 2
        have hsym := hd.2.1
        have hn2 : 2 ≤ t.need := by
          exact input_need hd
        omega
      | step h1 _ => rw [hex] at h1; cases h1
where
  input_need {ts : List Tok} {t : Tree} (hd : Derives ts t) : 2 ≤ t.need := by
    cases t with
    | leaf u => exact absurd (tsym_lt u) (by have := hd.2.1; simp only [Tree.sym] at this; rw [this]; decide)
    | node r cs =>
      have hw := hd.1
      have hsym := hd.2.1
      simp only [Tree.WF, rules_len] at hw
      simp only [Tree.sym] at hsym
      have hc : allN 358 (fun r => bor (bnot (Nat.beq (lhsF r) N.input)) (Nat.ble 2 (NL.len (rhsF r)))) = true := by decide +kernel
      have := allN_spec hc r hw.2.1
      rw [bor_iff, bnot_iff, ← lhs_eq hw.2.1, hsym, ble_iff, NL.len_eq, ← rhs_eq hw.2.1, ← hw.2.2.1] at this
      have := this.resolve_left (by decide)
      simp at this
      have h2 := needL_ge 0 cs (by intro h; rw [h] at this; simp at this)
      simp only [Tree.need]
      omega

/-- The driver stops after at most `10 n + 2010` steps, `n` the number of tokens. -/
theorem driver_terminates (hin : Input toks ts e junk) (S : Sem σ V) (st0 : σ) :
    ∃ k c stk x, Reach S 200 toks st0 k c stk ∧ step S 200 c = x ∧ Stop S 200 ts e junk c stk x ∧
      runN S 200 (10 * ts.length + 2010) (initCfg toks st0) = some (match x with | .done o c' => some (o, c') | _ => none) := by
  rcases Reach.run (S := S) (lim := 200) (st0 := st0) hin (10 * ts.length + 2010) 0 (initCfg toks st0) [] .init with ⟨h1, c', stk', h2⟩ | ⟨k, c', stk', h, h1 | h1⟩
  · exfalso
    have hm := h2.inv.meas
    have hlow := stkW_low h2.inv.ok
    have hl := h2.len (by decide)
    have hr : junk.length ≤ (remOf c').length := by
      rcases h2.rest hin with ⟨_, suf, h3, _⟩ | ⟨_, h3, _⟩
      · rw [h3]; simp; omega
      · rw [h3]; exact Nat.le_refl _
    have he : toks.length = ts.length + junk.length + 1 := by rw [hin.eq]; simp; omega
    omega
  · obtain ⟨o, c'', h2, h3⟩ := h1
    exact ⟨k, c', stk', _, h, h3, h.stop hin h3 (by intro _ h; cases h), h2⟩
  · obtain ⟨h2, h3⟩ := h1
    exact ⟨k, c', stk', _, h, h3, h.stop hin h3 (by intro _ h; cases h), h2⟩

end
end Verif.LR

import Verif.LR.Local
import Verif.Sem.Msgs
/-!
# What a parse depends on
-/
namespace Verif.Sem
open Verif.Lex Verif.LR

theorem destruct_res {sym : Nat} {v : V} {st st' : St} (h : destruct sym v st = some st') : st'.res = st.res := by
  unfold destruct at h
  split at h
  · cases h; rfl
  · cases h

theorem popAll_res : ∀ (stk : List (Nat × SV)) {st st' : St}, popAll stk st = some st' → st'.res = st.res
  | [], st, st', h => by cases h; rfl
  | (s, v) :: stk, st, st', h => by
    unfold popAll at h
    split at h
    · rename_i st1 h1
      rw [popAll_res stk h, destruct_res h1]
    · cases h

theorem dropLa_res {la : Option (Tok × SV)} {st st' : St} (h : dropLookahead la st = some st') : st'.res = st.res := by
  unfold dropLookahead at h
  split at h
  · cases h; rfl
  · exact destruct_res h

theorem finish_more (A : Alloc) (o : Outcome) (c : Cfg St SV) (x : List Tok) : finishRun A o (c.more x) = finishRun A o c := by
  cases o <;> rfl

theorem finish_accept {A : Alloc} {c : Cfg St SV} {q : Int × St} (h : finishRun A .accept c = some q) : q.1 = 0 ∧ q.2.res = c.st.res := by
  simp only [finishRun, Option.bind_eq_bind, Option.bind_eq_some_iff] at h
  obtain ⟨s1, h1, s2, h2, h3⟩ := h
  cases h3
  exact ⟨rfl, by rw [popAll_res _ h2, dropLa_res h1]⟩

theorem finish_sem {A : Alloc} {c : Cfg St SV} {q : Int × St} (h : finishRun A .semError c = some q) : q.1 = 1 ∧ q.2.res = c.st.res := by
  simp only [finishRun, Option.bind_eq_bind, Option.bind_eq_some_iff] at h
  obtain ⟨s1, h1, s2, h2, h3⟩ := h
  cases h3
  exact ⟨rfl, by rw [dropLa_res h2, popAll_res _ h1]⟩

theorem finish_exhausted {A : Alloc} {c : Cfg St SV} {q : Int × St} (h : finishRun A .exhausted c = some q) :
    q.1 = 2 ∧ q.2.res = (c.st.yyerror A b!"memory exhausted" c.st.yylloc.loc.fl c.st.yylloc.loc.fc).res := by
  simp only [finishRun, Option.bind_eq_bind, Option.bind_eq_some_iff] at h
  obtain ⟨s1, h1, s2, h2, h3⟩ := h
  cases h3
  exact ⟨rfl, by rw [popAll_res _ h2, dropLa_res h1]⟩

/-- The tokens `P` determine how a run ends; in the case of a syntax error the last of them is the offending one. -/
theorem run_reads {A : Alloc} {toks ts : List Tok} {e : Tok} {junk : List Tok} {r0 : Res} (hin : Input toks ts e junk) {q : Int × St} (h : hsqlParse A toks r0 = some q) :
    ∃ P R, toks = P ++ R ∧
      (∀ toks' ts' e' junk', Input toks' ts' e' junk' → P <+: toks' → hsqlParse A toks' r0 = some q) ∧
      (r0.errMsg = none → ∀ m, q.2.res.errMsg.map Prod.snd = some m →
        (m = b!"memory exhausted" ∨ SemMsg m) ∨ ∃ pre t, P = pre ++ [t] ∧ pre <+: ts ∧
          (∀ ts' tr, Derives ts' tr → ¬ (pre ++ [t]).map tsym <+: ts'.map tsym ++ [0]) ∧
          (∃ T : Tree, Derives T.yield T ∧ pre <+: T.yield) ∧
          ∃ s, m = syntaxMsg s (tsym t)) := by
  obtain ⟨n, c, stk, x, hR, hx, hs, hrun⟩ := run_main hin (sem A) (startSt r0)
  -- locality
  have main : ∀ o (cf : Cfg St SV), runLR (sem A) toks (startSt r0) = some (some (o, cf)) → finishRun A o cf = some q → ∀ P, toks = P ++ cf.toks →
      ∀ toks' ts' e' junk', Input toks' ts' e' junk' → P <+: toks' → hsqlParse A toks' r0 = some q := by
    intro o cf hr hf P hP toks' ts' e' junk' hin' ⟨R', hR'⟩
    unfold runLR at hr
    have e0 : (initCfg toks (startSt r0) : Cfg St SV) = (initCfg P (startSt r0)).more cf.toks := by rw [hP]; rfl
    rw [e0] at hr
    obtain ⟨c1, h1, h2⟩ := runN_less (sem A) stackSize cf.toks _ _ hr rfl
    have h3 := runN_more (sem A) stackSize R' _ _ h1
    have e1 : ((initCfg P (startSt r0)).more R' : Cfg St SV) = initCfg toks' (startSt r0) := by rw [← hR']; rfl
    rw [e1] at h3
    obtain ⟨n', c', stk', x', _, _, _, hrun'⟩ := run_main hin' (sem A) (startSt r0)
    have h4 : runLR (sem A) toks' (startSt r0) = some (some (o, c1.more R')) := by
      unfold runLR at hrun' ⊢
      have g1 := runN_mono (m := (10 * toks.length + 2010) + (10 * toks'.length + 2010)) (by omega) h3
      have g2 := runN_mono (m := (10 * toks.length + 2010) + (10 * toks'.length + 2010)) (by omega) hrun'
      rw [hrun', ← g2, g1]
    unfold hsqlParse
    rw [h4]
    show finishRun A o (c1.more R') = some q
    rw [finish_more, ← hf, h2, finish_more]
  have rdp : ∀ (c : Cfg St SV), RC (sem A) toks (startSt r0) c stk → ∃ P, toks = P ++ c.toks := by
    intro c hc
    obtain ⟨rd, hp⟩ := pos_rc hc
    exact ⟨rd, hp.all.symm⟩
  have hfin : ∀ o cf, x = .done o cf → runLR (sem A) toks (startSt r0) = some (some (o, cf)) ∧ finishRun A o cf = some q := by
    intro o cf he
    subst he
    refine ⟨hrun, ?_⟩
    unfold hsqlParse at h
    rw [hrun] at h
    exact h
  cases hs with
  | accept s t h1 h2 h3 h4 =>
    obtain ⟨k1, k2⟩ := hfin _ _ rfl
    obtain ⟨P, hP⟩ := rdp c hR.rc
    refine ⟨P, c.toks, hP, main _ _ k1 k2 P hP, fun h0 m hm => ?_⟩
    rw [(finish_accept k2).2] at hm
    simp only [Option.map_eq_some_iff] at hm
    obtain ⟨⟨a, m'⟩, hm1, rfl⟩ := hm
    exact .inl (.inr (msg_rc h0 hR.rc a m' hm1))
  | exhausted h1 =>
    obtain ⟨k1, k2⟩ := hfin _ _ rfl
    obtain ⟨P, hP⟩ := rdp c hR.rc
    refine ⟨P, c.toks, hP, main _ _ k1 k2 P hP, fun h0 m hm => ?_⟩
    rw [(finish_exhausted k2).2] at hm
    cases hm
    exact .inl (.inl rfl)
  | syntaxError t rem h1 h2 h3 =>
    obtain ⟨k1, k2⟩ := hfin _ _ rfl
    have hi := hR.inv
    have htop := hi.sim.top
    have hlt : topState stk < 656 := topState_lt hi.ok
    obtain ⟨v, j1, j2⟩ := err_la (S := sem A) h1 (by rw [htop]; exact h2) (by rw [htop]; exact hlt) (by rw [htop]; exact h3)
    have hyl := hi.yld
    rw [h1] at hyl
    have hst := hi.steps
    rw [h1] at hst
    have hP : toks = (stkYield stk ++ [t]) ++ (prep (sem A) c).toks := by rw [j2, ← hyl]; simp
    refine ⟨stkYield stk ++ [t], (prep (sem A) c).toks, hP, main _ _ k1 k2 _ hP, fun h0 m hm => .inr ⟨stkYield stk, t, rfl, ?_, ?_, ?_, ?_⟩⟩
    · rcases hR.rest hin with ⟨_, suf, _, g⟩ | ⟨g, _⟩
      · exact ⟨suf, g.symm⟩
      · exact absurd g h2
    · intro ts' tr hd
      exact first_error hst hyl h2 h3 hd
    · exact viable_prec hst h2
    · simp only [finishRun, Option.bind_eq_bind, j1, Option.bind_some, Option.bind_eq_some_iff] at k2
      obtain ⟨s1, g1, s2, g2, g3⟩ := k2
      cases g3
      rw [dropLa_res g2, popAll_res _ g1] at hm
      cases hm
      exact ⟨_, rfl⟩
  | semError r st h1 h2 h3 h4 h5 h6 h7 =>
    obtain ⟨k1, k2⟩ := hfin _ _ rfl
    obtain ⟨P, hP⟩ := rdp _ hR.rc_prep
    refine ⟨P, (prep (sem A) c).toks, hP, main _ _ k1 k2 P hP, fun h0 m hm => ?_⟩
    rw [(finish_sem k2).2] at hm
    obtain ⟨t, rem, hr, ha⟩ := h5
    have hi := hR.inv
    have hl : ¬ 200 ≤ stk.length + 1 := by
      intro hl
      have hlen := hi.sim.len
      unfold step at hx
      rw [if_pos (by omega)] at hx
      cases hx
    have hat := hR.redAt hr h4 hl ha
    have h7' := h7
    rw [reduce_run A h1 h2] at h7'
    have hrn : run A (redLoc c.stk (rhs r).length) (act r) (mkEnv (rhsVals c.stk (rhs r).length)) (prep (sem A) c).st = .error st := by
      split at h7'
      · cases h7'
      · rename_i e; cases h7'; exact e
      · cases h7'
    simp only [Option.map_eq_some_iff] at hm
    obtain ⟨⟨a, m'⟩, hm1, rfl⟩ := hm
    exact .inl (.inr (chkM_sound (act_err_rr hat.r1 hat.r2 (by rintro rfl; exact run2_not_error hrn) hrn) (rule_chkM hat.r1 hat.r2) (msg_rc h0 hR.rc_prep) a m' hm1))
  | ub r h1 h2 h3 h4 h5 h6 h7 =>
    exfalso
    unfold hsqlParse at h
    rw [hrun] at h
    cases h

end Verif.Sem

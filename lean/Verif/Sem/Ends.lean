import Verif.Sem.Main
import Verif.LR.Top
/-! How `hsql_parse` can end. Proof-internal. -/
namespace Verif.Sem
open Verif.LR Verif.Lex

theorem noTokenErr : allN 656 (fun s => bor (Nat.beq s 69) (bor (bnot (Nat.beq (yypactT.get s) 471)) (Nat.ble 1 (dfltF s)))) = true := by decide +kernel

/-- Where an error is detected, there is a lookahead. -/
theorem err_la {S : LR.Sem St SV} {c : Cfg St SV} {t : Tok} {rem : List Tok} (hr : remOf c = t :: rem) (h69 : topState c.stk ≠ 69) (hs : topState c.stk < 656)
    (h : actionOn (topState c.stk) (tsym t) = some .error) : ∃ v, (prep S c).la = some (t, v) ∧ (prep S c).toks = rem := by
  have hn : noToken (topState c.stk) = some false := by
    have hc := allN_spec noTokenErr _ hs
    rw [bor_iff, bor_iff, bnot_iff, beq_iff, ble_iff] at hc
    have hc := hc.resolve_left h69
    have hno : noToken (topState c.stk) = some (((yypactT.get (topState c.stk) : Int) - 1000) == YYPACT_NINF) := by
      unfold noToken
      rw [at?_nat, yypact_get _ hs]; rfl
    rcases hc with hc | hc
    · rw [hno]
      congr 1
      have : yypactT.get (topState c.stk) ≠ 471 := by
        intro h'; rw [h'] at hc; exact Bool.noConfusion hc
      simp only [beq_eq_false_iff_ne, ne_eq, YYPACT_NINF]
      omega
    · cases hb : (((yypactT.get (topState c.stk) : Int) - 1000) == YYPACT_NINF) with
      | false => rw [hno, hb]
      | true =>
        rw [hb] at hno
        obtain ⟨a, h1, h2⟩ := dflt_spec hs
        unfold actionOn at h
        rw [hno] at h
        simp only at h
        rw [h1] at h
        cases h
        simp [encAct] at h2
        omega
  unfold prep
  rw [hn]
  exact fetch_la S hr

/-- How `hsql_parse` ends. `f` and `l` are the addresses freed and leaked by the clean-up. -/
inductive Ends (A : Alloc) (toks ts : List Tok) (e : Tok) (junk : List Tok) (r0 : Res) : Option (Int × St) → Prop where
  | accept (n : Nat) (c : Cfg St SV) (stk : TStk) (s : Nat) (t : Tree) (f l : List Nat) : Reach (sem A) 200 toks (startSt r0) n c stk →
      stk = [(69, .leaf e), (s, t)] → remOf c = junk → Derives ts t → t.need + 1 < 200 → (∀ a, f.count a + l.count a = laAc a c.la + acL a (vals c.stk)) →
      Ends A toks ts e junk r0 (some (0, c.st.log f l))
  | exhausted (n : Nat) (c : Cfg St SV) (stk : TStk) (f l : List Nat) : Reach (sem A) 200 toks (startSt r0) n c stk →
      200 ≤ stk.length + 1 → (∀ a, f.count a + l.count a = laAc a c.la + acL a (vals c.stk)) →
      Ends A toks ts e junk r0 (some (2, (c.st.yyerror A b!"memory exhausted" c.st.yylloc.loc.fl c.st.yylloc.loc.fc).log f l))
  | syntaxError (n : Nat) (c : Cfg St SV) (stk : TStk) (t : Tok) (rem : List Tok) (v : SV) (f l : List Nat) : Reach (sem A) 200 toks (startSt r0) n c stk →
      remOf c = t :: rem → topState stk ≠ 69 → actionOn (topState stk) (tsym t) = some .error → (prep (sem A) c).la = some (t, v) → (prep (sem A) c).toks = rem →
      (∀ a, f.count a + l.count a = laAc a (prep (sem A) c).la + acL a (vals c.stk)) →
      Ends A toks ts e junk r0 (some (1, ((prep (sem A) c).st.yyerror A (syntaxMsg (topState stk) (tsym t)) (prep (sem A) c).st.yylloc.loc.fl (prep (sem A) c).st.yylloc.loc.fc).log f l))
  | semError (n : Nat) (c : Cfg St SV) (stk : TStk) (r : Nat) (st : St) (f l : List Nat) : Reach (sem A) 200 toks (startSt r0) n c stk → RedAt (prep (sem A) c) stk r →
      r ≠ 2 → run A (redLoc c.stk (rhs r).length) (act r) (mkEnv (rhsVals c.stk (rhs r).length)) (prep (sem A) c).st = .error st →
      (∀ a, f.count a + l.count a = laAc a (prep (sem A) c).la + acL a (vals (c.stk.drop (rhs r).length))) →
      Ends A toks ts e junk r0 (some (1, st.log f l))
  | ub (b : Bytes) (t : Tok) : t ∈ toks → t.val = .sval b → Overflow b → Ends A toks ts e junk r0 none

theorem run2_not_error {A : Alloc} {loc : Loc} {env : List V} {st st' : St} (h : run A loc (act 2) env st = .error st') : False := by
  have e : act 2 = .finish := rfl
  rw [e] at h
  simp only [run] at h
  split at h
  · split at h
    · split at h <;> cases h
    · cases h
  · cases h

theorem ends {A : Alloc} {toks ts : List Tok} {e : Tok} {junk : List Tok} {r0 : Res} (hin : Input toks ts e junk) (ht : ∀ t ∈ toks, TokShape t)
    {ok : Bytes → Prop} (hA : AllocOK A r0) (hr0 : ResOK ok (fun _ => True) r0) : Ends A toks ts e junk r0 (hsqlParse A toks r0) := by
  obtain ⟨n, c, stk, x, hR, hx, hs, hrun⟩ := run_main hin (sem A) (startSt r0)
  -- typing, with `ok` the strings of the tokens, or those of the result
  have hty0 : ∀ c', RC (sem A) toks (startSt r0) c' stk → Typed (fun b => ∃ t ∈ toks, t.val = .sval b) (fun _ => True) c' stk := by
    intro c' h
    exact (typed_rc (A := A) (r0 := r0) good66_true ht (fun t h1 b h2 => ⟨t, h1, h2⟩) h).2 (.inl fun _ => trivial)
  have hty1 : ∀ c', RC (sem A) toks (startSt r0) c' stk → Typed (fun b => (∃ t ∈ toks, t.val = .sval b) ∨ ok b) (fun _ => True) c' stk := by
    intro c' h
    exact (typed_rc (A := A) (r0 := r0) good66_true ht (fun t h1 b h2 => .inl ⟨t, h1, h2⟩) h).2 (.inl fun _ => trivial)
  have hi := hR.inv
  have hsim := hi.sim.1
  have hpst := prep_stk (sem A) c
  have hty := hty0 c hR.rc
  have htyp := hty0 _ hR.rc_prep
  unfold hsqlParse
  rw [hrun]
  cases hs with
  | accept s t h1 h2 h3 h4 =>
    obtain ⟨f, l, e1, g1⟩ := dropLa_ok hty.la c.st
    obtain ⟨f', l', e2, g2⟩ := popAll_reach hi.ok hsim hty.stk (c.st.log f l)
    simp only [finishRun, Option.bind_eq_bind, e1, Option.bind_some, e2, log_log]
    refine .accept n c stk s t _ _ hR h1 h2 h3 h4 ?_
    intro a
    rw [List.count_append, List.count_append, ← g1 a, ← g2 a]; omega
  | exhausted h1 =>
    obtain ⟨f, l, e1, g1⟩ := dropLa_ok hty.la (c.st.yyerror A b!"memory exhausted" c.st.yylloc.loc.fl c.st.yylloc.loc.fc)
    obtain ⟨f', l', e2, g2⟩ := popAll_reach hi.ok hsim hty.stk ((c.st.yyerror A b!"memory exhausted" c.st.yylloc.loc.fl c.st.yylloc.loc.fc).log f l)
    simp only [finishRun, Option.bind_eq_bind, e1, Option.bind_some, e2, log_log]
    refine .exhausted n c stk _ _ hR h1 ?_
    intro a
    rw [List.count_append, List.count_append, ← g1 a, ← g2 a]; omega
  | syntaxError t rem h1 h2 h3 =>
    have htop := hi.sim.top
    have hlt : topState stk < 656 := topState_lt hi.ok
    obtain ⟨v, k1, k2⟩ := err_la (S := sem A) h1 (by rw [htop]; exact h2) (by rw [htop]; exact hlt) (by rw [htop]; exact h3)
    have hts : topState (prep (sem A) c).stk = topState stk := by rw [hpst, htop]
    obtain ⟨f, l, e1, g1⟩ := popAll_reach (c := prep (sem A) c) hi.ok (by rw [hpst]; exact hsim) htyp.stk
      ((prep (sem A) c).st.yyerror A (syntaxMsg (topState stk) (tsym t)) (prep (sem A) c).st.yylloc.loc.fl (prep (sem A) c).st.yylloc.loc.fc)
    obtain ⟨f', l', e2, g2⟩ := dropLa_ok htyp.la (((prep (sem A) c).st.yyerror A (syntaxMsg (topState stk) (tsym t)) (prep (sem A) c).st.yylloc.loc.fl (prep (sem A) c).st.yylloc.loc.fc).log f l)
    have hfin : finishRun A .syntaxError (prep (sem A) c) = some (1, ((prep (sem A) c).st.yyerror A (syntaxMsg (topState stk) (tsym t)) (prep (sem A) c).st.yylloc.loc.fl (prep (sem A) c).st.yylloc.loc.fc).log (f ++ f') (l ++ l')) := by
      rw [k1] at e2
      simp only [finishRun, Option.bind_eq_bind, k1, Option.bind_some, hts, e1, e2, log_log]
    simp only [hfin]
    refine .syntaxError n c stk t rem v _ _ hR h1 h2 h3 k1 k2 ?_
    intro a
    rw [List.count_append, List.count_append, ← g2 a]
    have := g1 a
    rw [hpst] at this
    rw [← this]; omega
  | semError r st h1 h2 h3 h4 h5 h6 h7 =>
    obtain ⟨t, rem, hr, ha⟩ := h5
    have hl : ¬ 200 ≤ stk.length + 1 := by
      intro hl
      have hlen := hi.sim.len
      unfold step at hx
      rw [if_pos (by omega)] at hx
      cases hx
    have hat := hR.redAt hr h4 hl ha
    have h7' := h7
    rw [reduce_run A h1 h2] at h7'
    have hrn : run A (redLoc c.stk (rhs r).length) (act r) (mkEnv (rhsVals c.stk (rhs r).length)) (prep (sem A) c).st = .error st := by
      split at h7'
      · cases h7'
      · rename_i e; cases h7'; exact e
      · cases h7'
    obtain ⟨f, l, e1, g1⟩ := popAll_drop (rhs r).length hi.ok hsim hty.stk st
    obtain ⟨f', l', e2, g2⟩ := dropLa_ok htyp.la (st.log f l)
    simp only [finishRun, Option.bind_eq_bind, e1, Option.bind_some, e2, log_log]
    refine .semError n c stk r st _ _ hR hat ?_ hrn ?_
    · intro h; subst h; exact run2_not_error hrn
    · intro a
      rw [List.count_append, List.count_append, ← g1 a, ← g2 a]; omega
  | ub r h1 h2 h3 h4 h5 h6 h7 =>
    obtain ⟨t, rem, hr, ha⟩ := h5
    have hl : ¬ 200 ≤ stk.length + 1 := by
      intro hl
      have hlen := hi.sim.len
      unfold step at hx
      rw [if_pos (by omega)] at hx
      cases hx
    have hat := hR.redAt hr h4 hl ha
    have h7' := h7
    rw [reduce_run A h1 h2] at h7'
    have hrn : run A (redLoc c.stk (rhs r).length) (act r) (mkEnv (rhsVals c.stk (rhs r).length)) (prep (sem A) c).st = .ub := by
      split at h7'
      · cases h7'
      · cases h7'
      · assumption
    by_cases hr2 : r = 2
    · exfalso
      subst hr2
      have hr1 : ResOK (fun b => (∃ t ∈ toks, t.val = .sval b) ∨ ok b) (fun _ => True) r0 :=
        ⟨fun v hv => Sat.mono (fun b h => .inr h) (fun _ h => h) (hr0.stmts v hv), hr0.params⟩
      obtain ⟨_, _, _, _, _, _, hok⟩ := fin_red hA ht (fun _ _ _ _ => trivial) hR.rc_prep (hty1 _ hR.rc_prep) hat hr1
      rw [hpst] at hok
      rw [hok] at hrn
      cases hrn
    · have := rule_sound A (redLoc c.stk (rhs r).length) h1 h2 hr2 (fun _ _ => trivial) (htyp.rhs hat) (prep (sem A) c).st
      rw [hpst, hrn] at this
      obtain ⟨b, ⟨u, hu1, hu2⟩, hb⟩ := this
      exact .ub b u hu1 hu2 hb

/-- Once `input` is on the stack, the action of `input` was the last one to be executed. -/
theorem fin_rc {ok : Bytes → Prop} {good : List V → Prop} {A : Alloc} {toks : List Tok} {r0 : Res} (h66 : Good66 ok good)
    (hg' : ∀ a n fs, good fs → good (setIvalL a n fs)) (hA : AllocOK A r0) (ht : ∀ t ∈ toks, TokShape t) (hok : ∀ t ∈ toks, ∀ b, t.val = .sval b → ok b)
    (hr0 : ResOK ok good r0) {c : Cfg St SV} {stk : TStk} (h : RC (sem A) toks (startSt r0) c stk) (hi : ∃ p ∈ stk, p.2.sym = N.input) (hgd : Guard good c.st) :
    ∃ c2 stk2 b vs, RC (sem A) toks (startSt r0) c2 stk2 ∧ RedAt c2 stk2 2 ∧ rhsVals c2.stk (rhs 2).length = [.vec b vs, .undef] ∧ Typed ok good c2 stk2 ∧
      Fin ok good r0 (.vec b vs) c2.st.plist c.st.res ∧ c.st.freed = c2.st.freed ++ [b] ∧ c.st.leaked = c2.st.leaked ∧ c.st.plist = c2.st.plist ∧
      c.st.res.errMsg = c2.st.res.errMsg ∧ (∃ s, (s, Tree.node 2 (popTrees (rhs 2).length stk2)) ∈ stk) := by
  obtain ⟨c2, stk2, v, st2, k1, k2, k3, ⟨q1, q2, q3, q4⟩, k5⟩ := h.last hi
    (fun s s' => s'.res = s.res ∧ s'.freed = s.freed ∧ s'.leaked = s.leaked ∧ s'.plist = s.plist) (fun _ => ⟨rfl, rfl, rfl, rfl⟩)
    (fun s s' t q => ⟨q.1, q.2.1, q.2.2.1, q.2.2.2⟩)
  obtain ⟨e1, e2⟩ := reduce_ok k2.r1 k2.r2 k3
  have he := (run2 e2).2.1
  have hgd2 : Guard good c2.st := by
    rcases hgd with hgd | hgd
    · exact .inl hgd
    · right; rw [← he, ← q1]; exact hgd
  have hty := (typed_rc h66 ht hok k1).2 hgd2
  obtain ⟨b, vs, g1, r, g2, g3, g4⟩ := fin_red hA ht hg' k1 hty k2 hr0
  rw [e2] at g4
  injection g4 with g4 g5
  subst g5
  refine ⟨c2, stk2, b, vs, k1, k2, g1, hty, by rw [q1]; exact g3, q2, q3, q4, by rw [q1]; exact he, k5⟩

/-- Before `input` is on the stack, nothing was added to the result. -/
theorem pre_rc {A : Alloc} {toks : List Tok} {r0 : Res} (ht : ∀ t ∈ toks, TokShape t) {c : Cfg St SV} {stk : TStk} (h : RC (sem A) toks (startSt r0) c stk)
    (hi : ¬ ∃ p ∈ stk, p.2.sym = N.input) : c.st.res.stmts = r0.stmts ∧ c.st.res.params = r0.params := by
  have := pending_rc ht h (fun p hp he => hi ⟨p, hp, he⟩)
  exact ⟨this.stmts, this.params⟩

section
variable {A : Alloc} {toks ts : List Tok} {e : Tok} {junk : List Tok} {r0 : Res} {ret : Int} {st : St}

/-- Every address is accounted for at the end. -/
theorem Ends.acc (h : Ends A toks ts e junk r0 (some (ret, st))) :
    ∃ rd rest, rd ++ rest = toks ∧ ∀ a, st.tot a = r0.errAddr.count a + acL a r0.stmts + strs A a 0 rd + allocs A a 0 st.nalloc := by
  generalize hx : some (ret, st) = x at h
  cases h with
  | ub => cases hx
  | accept n c stk s t f l hR _ _ _ _ hfl =>
    cases hx
    obtain ⟨rd, h1, _, h2⟩ := (owned_rc hR.rc).acc
    refine ⟨rd, _, h1, fun a => ?_⟩
    rw [tot_log, show (c.st.log f l).nalloc = c.st.nalloc from rfl, ← h2 a]
    have := hfl a
    omega
  | exhausted n c stk f l hR _ hfl =>
    cases hx
    obtain ⟨rd, h1, _, h2⟩ := (owned_rc hR.rc).acc
    refine ⟨rd, _, h1, fun a => ?_⟩
    rw [tot_log, tot_yyerror, show ((c.st.yyerror A b!"memory exhausted" c.st.yylloc.loc.fl c.st.yylloc.loc.fc).log f l).nalloc = c.st.nalloc + 1 from rfl]
    have := hfl a
    have := h2 a
    have := allocs_trans A a (Nat.zero_le c.st.nalloc) (Nat.le_succ c.st.nalloc)
    rw [Nat.succ_eq_add_one, allocs_one] at this
    omega
  | syntaxError n c stk t rem v f l hR _ _ _ _ _ hfl =>
    cases hx
    obtain ⟨rd, h1, _, h2⟩ := (owned_rc hR.rc_prep).acc
    rw [prep_stk] at h2
    refine ⟨rd, _, h1, fun a => ?_⟩
    rw [tot_log, tot_yyerror]
    show _ = _ + allocs A a 0 ((prep (sem A) c).st.nalloc + 1)
    have := hfl a
    have := h2 a
    have := allocs_trans A a (Nat.zero_le (prep (sem A) c).st.nalloc) (Nat.le_succ (prep (sem A) c).st.nalloc)
    rw [Nat.succ_eq_add_one, allocs_one] at this
    omega
  | semError n c stk r st f l hR _ _ hrun hfl =>
    cases hx
    obtain ⟨rd, h1, _, h2⟩ := (owned_rc hR.rc_prep).acc
    rw [prep_stk] at h2
    refine ⟨rd, _, h1, fun a => ?_⟩
    obtain ⟨g1, g2⟩ := run_ac_err hrun a
    rw [acL_mkEnv] at g2
    rw [tot_log]
    show _ = _ + allocs A a 0 st.nalloc
    have := hfl a
    have h2 := h2 a
    have := allocs_trans A a (Nat.zero_le _) g1
    rw [acL_split a (rhs r).length] at h2
    omega

/-- Nothing is freed twice, nothing freed or leaked is part of the result, and the result contains no address twice. -/
theorem Ends.nodup (hA : AllocOK A r0) (h : Ends A toks ts e junk r0 (some (ret, st))) : (st.freed ++ st.leaked ++ st.res.errAddr ++ addrsL st.res.stmts).Nodup := by
  obtain ⟨rd, rest, _, h2⟩ := h.acc
  refine List.nodup_iff_count.2 fun a => ?_
  have := total_le hA a rd st.nalloc
  rw [← h2 a] at this
  rw [List.count_append, List.count_append, List.count_append]
  exact this

/-- The statements and parameters of the result. -/
theorem Ends.res {ok : Bytes → Prop} (hA : AllocOK A r0) (ht : ∀ t ∈ toks, TokShape t) (hok : ∀ t ∈ toks, ∀ b, t.val = .sval b → ok b) (hr0 : ResOK ok (fun _ => True) r0)
    (h : Ends A toks ts e junk r0 (some (ret, st))) :
    (ret ≠ 0 ∧ st.res.stmts = r0.stmts ∧ st.res.params = r0.params) ∨
      ∃ b vs plist, Fin ok (fun _ => True) r0 (.vec b vs) plist st.res := by
  have key : ∀ {c : Cfg St SV} {stk : TStk}, RC (sem A) toks (startSt r0) c stk → (∃ p ∈ stk, p.2.sym = N.input) → ∃ b vs plist, Fin ok (fun _ => True) r0 (.vec b vs) plist c.st.res := by
    intro c stk hRC hi
    obtain ⟨c2, _, b, vs, _, _, _, _, h, _⟩ := fin_rc good66_true (fun _ _ _ _ => trivial) hA ht hok hr0 hRC hi (.inl fun _ => trivial)
    exact ⟨b, vs, _, h⟩
  have ext : ∀ {r r' : Res}, r'.stmts = r.stmts → r'.params = r.params → (∃ b vs plist, Fin ok (fun _ => True) r0 (.vec b vs) plist r) → ∃ b vs plist, Fin ok (fun _ => True) r0 (.vec b vs) plist r' := by
    rintro r r' e1 e2 ⟨b, vs, pl, ⟨a1, a2, a3, ⟨a4, a5⟩, a6⟩⟩
    refine ⟨b, vs, pl, ⟨by rw [e1]; exact a1, by rw [e2]; exact a2, a3, ⟨by rw [e1]; exact a4, by rw [e1, e2]; exact a5⟩, by rw [e1, e2]; exact a6⟩⟩
  generalize hx : some (ret, st) = x at h
  cases h with
  | ub => cases hx
  | accept n c stk s t f l hR h1 _ h3 _ _ =>
    cases hx
    right
    exact key hR.rc ⟨(s, t), by rw [h1]; simp, h3.2.1⟩
  | exhausted n c stk f l hR _ _ =>
    cases hx
    by_cases hi : ∃ p ∈ stk, p.2.sym = N.input
    · right
      exact ext (r := c.st.res) rfl rfl (key hR.rc hi)
    · left
      exact ⟨by decide, pre_rc ht hR.rc hi⟩
  | syntaxError n c stk t rem v f l hR _ _ _ _ _ _ =>
    cases hx
    by_cases hi : ∃ p ∈ stk, p.2.sym = N.input
    · right
      exact ext (r := (prep (sem A) c).st.res) rfl rfl (key hR.rc_prep hi)
    · left
      exact ⟨by decide, pre_rc ht hR.rc_prep hi⟩
  | semError n c stk r st f l hR hat hr2 hrun _ =>
    cases hx
    left
    refine ⟨by decide, ?_⟩
    have hty := (typed_rc (A := A) (r0 := r0) good66_true ht hok hR.rc_prep).2 (.inl fun _ => trivial)
    have := rule_sound A (redLoc c.stk (rhs r).length) hat.r1 hat.r2 hr2 (fun _ _ => trivial) (hty.rhs hat) (prep (sem A) c).st
    rw [prep_stk, hrun] at this
    have h0 := pre_rc ht hR.rc_prep (fun ⟨p, hp, he⟩ => hat.before p hp he)
    exact ⟨by rw [← h0.1]; exact this.1.stmts, by rw [← h0.2]; exact this.1.params⟩

end
end Verif.Sem

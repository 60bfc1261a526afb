import Verif.Sem.Ends
import Verif.Sem.Err
import Verif.LR.Behind
/-! What `hsql_parse` leaks. Proof-internal. -/
namespace Verif.Sem
open Verif.LR Verif.Lex

/-- The symbols whose destructor does not free all of the value (bison_parser.y:181-207). -/
def leakySyms : List Nat := [228, 229, 243, 244, 321, 322, 323, 326, 327, 328]

theorem destr_clean : ((List.range 335).all fun s => leakySyms.contains s || trA false 16 (destructors.getD s .keep) (symTy s)) = true := by decide +kernel
theorem destr_null : (leakySyms.all fun s => match destructors.getD s .keep with | .del => true | .vec _ => true | _ => false) = true := by decide +kernel

/-- Behind or around these words stands all that can be lost. -/
def leakMarks : Marks where
  words := [T.LBRACKET, T.INDEX, T.TABLE, T.SET, T.FOR, T.WITH]
  must := [N.opt_locking_clause_list, N.locking_clause, N.with_clause]
  behind := [N.opt_column_constraints, N.column_constraints, N.column_def, N.table_elem, N.table_elem_commalist, N.update_clause_commalist, N.update_clause, N.with_description_list]

theorem leakMarks_closed : leakMarks.closed = true := by decide +kernel

/-- The tokens are none of the words. -/
def NoWord (toks : List Tok) : Prop := ∀ t ∈ toks, leakMarks.words.contains (tsym t) = false

section
variable {ok : Bytes → Prop} {good : List V → Prop}

theorem destruct_clean {s : Nat} (hs : s < 335) {v : V} (hv : Sat ok good (symTy s) v) (hl : leakySyms.contains s = false ∨ v = .null) {st st' : St}
    (h : destruct s v st = some st') : st'.leaked = st.leaked := by
  unfold destruct at h
  have key : ∀ f l, treat (destructors.getD s .keep) v = some (f, l) → l = [] := by
    intro f l e
    rcases hl with hl | rfl
    · have hc := List.all_eq_true.1 destr_clean s (by simp [hs])
      rw [hl, Bool.false_or] at hc
      obtain ⟨f', l', e', hl'⟩ := trA_ok hc hv
      rw [e] at e'; cases e'
      exact hl' rfl
    · by_cases hk : leakySyms.contains s = true
      · have hc := List.all_eq_true.1 destr_null s (by simpa using hk)
        split at hc
        · rename_i e'; rw [e'] at e; simp only [treat] at e; cases e; rfl
        · rename_i e'; rw [e'] at e; simp only [treat] at e; cases e; rfl
        · cases hc
      · have hc := List.all_eq_true.1 destr_clean s (by simp [hs])
        rw [show leakySyms.contains s = false by simpa using hk, Bool.false_or] at hc
        obtain ⟨f', l', e', hl'⟩ := trA_ok hc hv
        rw [e] at e'; cases e'
        exact hl' rfl
  split at h
  · rename_i f l e
    cases h
    simp [St.log, key f l e]
  · cases h

/-- Every value on the stack is destroyed completely. -/
def Clean : List (Nat × SV) → TStk → Prop
  | x :: cs, y :: ts => (leakySyms.contains y.2.sym = false ∨ x.2.1 = .null) ∧ Clean cs ts
  | _, _ => True

theorem Clean.drop : ∀ (n : Nat) {cs : List (Nat × SV)} {ts : TStk}, Clean cs ts → Clean (cs.drop n) (ts.drop n)
  | 0, _, _, h => h
  | _ + 1, [], _, _ => by simp [Clean]
  | _ + 1, _ :: _, [], _ => by simp [Clean]
  | n + 1, _ :: _, _ :: _, h => Clean.drop n h.2

theorem popAll_clean : ∀ (cstk : List (Nat × SV)) (stk : TStk), cstk.map (fun x => (yystos.getD x.1 0).toNat) = syms stk → (∀ x ∈ stk, x.2.sym < 335) →
    SatL ok good ((syms stk).map symTy) (vals cstk) → Clean cstk stk → ∀ {st st' : St}, popAll cstk st = some st' → st'.leaked = st.leaked
  | [], _, _, _, _, _, st, st', h => by simp only [popAll] at h; cases h; rfl
  | (s, v) :: cstk, [], he, _, _, _, st, st', h => by simp [syms] at he
  | (s, v) :: cstk, y :: stk, he, hlt, hs, hc, st, st', h => by
    simp only [syms, List.map_cons, List.cons.injEq] at he
    cases hs with
    | cons h1 h2 =>
      simp only [popAll] at h
      split at h
      · rename_i st1 e
        rw [he.1] at e
        have e1 := destruct_clean (hlt _ List.mem_cons_self) h1 hc.1 e
        have e2 := popAll_clean cstk stk he.2 (fun x hx => hlt x (List.mem_cons_of_mem _ hx)) h2 hc.2 h
        rw [e2, e1]
      · cases h

theorem dropLa_clean {la : Option (Tok × SV)} (h : ∀ t v, la = some (t, v) → Sat ok good (symTy (tsym t)) v.1) {st st' : St} (hd : dropLookahead la st = some st') :
    st'.leaked = st.leaked := by
  cases la with
  | none => simp only [dropLookahead] at hd; cases hd; rfl
  | some x =>
    obtain ⟨t, v⟩ := x
    have hlt := tsym_lt t
    refine destruct_clean (by omega) (h t v rfl) (.inl ?_) hd
    have hc : ((List.range 199).all fun s => !leakySyms.contains s) = true := by decide +kernel
    have := List.all_eq_true.1 hc (tsym t) (by simp; omega)
    simpa using this
end

section
variable {A : Alloc} {toks : List Tok} {r0 : Res}

/-- The two symbols that may be empty have the value NULL then. -/
def OptNull : List (Nat × SV) → TStk → Prop
  | x :: cs, y :: ts => (∀ c, y.2 = .node 322 c ∨ y.2 = .node 335 c → x.2.1 = .null) ∧ OptNull cs ts
  | _, _ => True

theorem OptNull.drop : ∀ (n : Nat) {cs : List (Nat × SV)} {ts : TStk}, OptNull cs ts → OptNull (cs.drop n) (ts.drop n)
  | 0, _, _, h => h
  | _ + 1, [], _, _ => by simp [OptNull]
  | _ + 1, _ :: _, [], _ => by simp [OptNull]
  | n + 1, _ :: _, _ :: _, h => OptNull.drop n h.2

theorem run_opt {loc : Loc} {vs : List V} {st st' : St} {v : V} {r : Nat} (hr : r = 322 ∨ r = 335) (h : run A loc (act r) (mkEnv vs) st = .ok v st') : v = .null := by
  have e : ∀ r, r = 322 ∨ r = 335 → act r = .set ⟨0, []⟩ (.atom .null) .ret := by
    intro r hr; rcases hr with rfl | rfl <;> rfl
  rw [e r hr] at h
  simp [run, evalRv, evalAtom, getP, putP, V.get, V.put, mkEnv] at h
  exact h.1.symm

theorem run2_leak {loc : Loc} {b : Nat} {vs : List V} {v : V} {st st' : St} (h : run A loc (act 2) (mkEnv [.vec b vs, .undef]) st = .ok v st') : st'.leaked = st.leaked := by
  have e : act 2 = .finish := rfl
  rw [e] at h
  simp only [run, mkEnv, getP, putP, V.get, V.put] at h
  simp at h
  split at h
  · cases h
    simp [addrsL, V.addrs]
  · cases h

/-- As long as no error was reported, the actions have leaked nothing. -/
theorem leak_rc (hw : NoWord toks) (ht : ∀ t ∈ toks, TokShape t) {c : Cfg St SV} {stk : TStk} (h : RC (sem A) toks (startSt r0) c stk) :
    ((∀ t ∈ c.toks, t ∈ toks) ∧ (∀ t v, c.la = some (t, v) → t ∈ toks) ∧ (∀ p ∈ stk, ∀ u ∈ p.2.yield, u ∈ toks)) ∧ OptNull c.stk stk ∧ (c.st.res.errMsg = none → c.st.leaked = []) := by
  have hty : ∀ c stk, RC (sem A) toks (startSt r0) c stk → Typed (fun b => ∃ t ∈ toks, t.val = .sval b) (fun _ => True) c stk := by
    intro c stk h
    exact (typed_rc (A := A) (r0 := r0) good66_true ht (fun t h1 b h2 => ⟨t, h1, h2⟩) h).2 (.inl fun _ => trivial)
  induction h with
  | init => exact ⟨⟨fun t h => h, fun _ _ h => (by cases h), fun _ h => (by simp at h)⟩, trivial, fun _ => rfl⟩
  | rd c stk t ts h h1 h2 ih =>
    obtain ⟨⟨i1, i2, i3⟩, i4, i5⟩ := ih
    rw [h2] at i1
    refine ⟨⟨fun u hu => i1 u (List.mem_cons_of_mem _ hu), fun u v hu => ?_, i3⟩, i4, i5⟩
    cases hu; exact i1 _ List.mem_cons_self
  | shift c stk t v s h h1 h2 h3 ih =>
    obtain ⟨⟨i1, i2, i3⟩, i4, i5⟩ := ih
    refine ⟨⟨i1, fun _ _ h => (by cases h), fun p hp u hu => ?_⟩, ⟨fun c h => ?_, i4⟩, i5⟩
    · rcases List.mem_cons.1 hp with rfl | hp
      · simp only [Tree.yield, List.mem_singleton] at hu
        subst hu
        exact i2 _ _ h1
      · exact i3 p hp u hu
    · rcases h with h | h <;> cases h
  | reduce c stk r s v st h hat hred ih =>
    obtain ⟨⟨i1, i2, i3⟩, i4, i5⟩ := ih
    obtain ⟨e1, e2⟩ := reduce_ok hat.r1 hat.r2 hred
    have hy : ∀ u ∈ yieldL (popTrees (rhs r).length stk), u ∈ toks := by
      intro u hu
      have : ∀ (l : List Tree), u ∈ yieldL l → ∃ t ∈ l, u ∈ t.yield := by
        intro l
        induction l with
        | nil => simp [yieldL]
        | cons t l ih =>
          intro hu
          rw [yieldL, List.mem_append] at hu
          rcases hu with hu | hu
          · exact ⟨t, List.mem_cons_self, hu⟩
          · obtain ⟨t', h1, h2⟩ := ih hu
            exact ⟨t', List.mem_cons_of_mem _ h1, h2⟩
      obtain ⟨t, ht, hut⟩ := this _ hu
      simp only [popTrees, List.mem_reverse, List.mem_map] at ht
      obtain ⟨p, hp, rfl⟩ := ht
      exact i3 p (List.mem_of_mem_take hp) u hut
    refine ⟨⟨i1, i2, fun p hp u hu => ?_⟩, ⟨fun cs h => ?_, i4.drop _⟩, fun hm => ?_⟩
    · rcases List.mem_cons.1 hp with rfl | hp
      · exact hy u (by simpa [Tree.yield] using hu)
      · exact i3 p (List.mem_of_mem_drop hp) u hu
    · refine run_opt (r := r) ?_ e2
      rcases h with h | h <;> cases h
      · exact .inl rfl
      · exact .inr rfl
    · have hm : st.res.errMsg = none := hm
      have hT := hty c stk h
      have hm' := run_err hat.r1 hat.r2 (rhsVals_len hat) e2 hm
      show st.leaked = []
      rw [← i5 hm']
      by_cases h3 : r = 2
      · subst h3
        have hv := hT.rhs hat
        have er : (rhs 2).map symTy = [symTy N.statement_list, .undef] := by
          have : rhs 2 = [N.statement_list, N.opt_semicolon] := by decide +kernel
          rw [this]; rfl
        rw [er] at hv
        generalize rhsVals c.stk (rhs 2).length = vs at hv e2
        cases hv with
        | @cons _ v1 _ _ hv1 hv2 =>
          cases hv2 with
          | @cons _ v2 _ _ hv3 hv4 =>
            cases hv4; cases hv3
            have : ∃ b l, v1 = .vec b l := by
              have e : act 2 = .finish := rfl
              rw [e] at e2
              cases v1 <;> first | exact ⟨_, _, rfl⟩ | (simp [run, mkEnv, getP, V.get] at e2)
            obtain ⟨b, l, rfl⟩ := this
            exact run2_leak e2
      · have := rule_sound A (redLoc c.stk (rhs r).length) hat.r1 hat.r2 h3 (fun _ _ => trivial) (hT.rhs hat) c.st
        rw [e2] at this
        refine this.2.2.1 ?_ hm
        cases hl : leaky r with
        | false => rfl
        | true =>
          exfalso
          have hany : (rhs r).any leakMarks.has = true := by
            unfold leaky at hl
            rw [Bool.or_eq_true] at hl
            rcases hl with hl | hl <;> (have := eq_of_beq hl; subst this; decide +kernel)
          have hwf := hat.wf
          simp only [Tree.WF] at hwf
          rw [← hat.syms] at hany
          obtain ⟨u, u1, u2⟩ := Marks.trees leakMarks_closed _ hwf.2.2.2 hany
          rw [hw u (hy u u1)] at u2
          cases u2

theorem opt_rules : allN 358 (fun r => bor (bnot (bor (Nat.beq (lhsF r) 321) (Nat.beq (lhsF r) 326))) (bor (bor (Nat.beq r 321) (Nat.beq r 322)) (bor (Nat.beq r 334) (Nat.beq r 335)))) = true := by decide +kernel

theorem leaky_split : (leakySyms.all fun s => leakMarks.has s || leakMarks.behind.contains s || s == 321 || s == 326) = true := by decide +kernel

/-- Without the words, the stack can be destroyed without a leak. -/
theorem stk_clean {lim : Nat} (hw : NoWord toks) : ∀ {cs : List (Nat × SV)} {stk : TStk} {f : List Tok}, StkOK lim stk f → (∀ u ∈ stkYield stk, u ∈ toks) → OptNull cs stk → Clean cs stk
  | [], _, _, _, _, _ => by simp [Clean]
  | _ :: _, [], _, _, _, _ => by simp [Clean]
  | x :: cs, (s, t) :: stk, f, h, hy, ho => by
    have hok := h
    rw [StkOK] at h
    obtain ⟨h1, h2, h3, h4, h5, _⟩ := h
    have hy' := hy
    rw [stkYield_cons] at hy'
    refine ⟨?_, stk_clean hw h1 (fun u hu => hy' u (List.mem_append_left _ hu)) ho.2⟩
    by_cases hl : leakySyms.contains t.sym = true
    · have hge : 199 ≤ t.sym := by
        have hc : (leakySyms.all fun s => Nat.ble 199 s) = true := by decide
        exact Nat.le_of_ble_eq_true (List.all_eq_true.1 hc _ (by simpa using hl))
      have hs := List.all_eq_true.1 leaky_split t.sym (by simpa using hl)
      have none_ : ¬ ∃ u ∈ stkYield ((s, t) :: stk), leakMarks.words.contains (tsym u) = true := by
        rintro ⟨u, u1, u2⟩
        rw [hw u (hy u u1)] at u2; cases u2
      rw [Bool.or_eq_true, Bool.or_eq_true, Bool.or_eq_true, beq_iff_eq, beq_iff_eq, or_assoc] at hs
      rcases hs with (hs | hs) | hs
      · exact absurd (Marks.stack leakMarks_closed hok (s, t) List.mem_cons_self (.inl hs)) none_
      · exact absurd (Marks.stack leakMarks_closed hok (s, t) List.mem_cons_self (.inr ⟨hge, hs⟩)) none_
      · right
        cases t with
        | leaf u => have := tsym_lt u; simp only [Tree.sym] at hge; omega
        | node r ts =>
          simp only [Tree.WF, rules_len] at h5
          obtain ⟨g1, g2, g3, g4⟩ := h5
          have hr := allN_spec opt_rules r g2
          rw [bor_iff, bnot_iff, bor_iff, bor_iff, bor_iff, beq_iff, beq_iff, beq_iff, beq_iff, ← lhs_eq g2] at hr
          have hmust : r = 321 ∨ r = 334 → False := by
            intro hr
            have hany : (rhs r).any leakMarks.has = true := by rcases hr with rfl | rfl <;> decide +kernel
            rw [← g3] at hany
            obtain ⟨u, u1, u2⟩ := Marks.trees leakMarks_closed _ g4 hany
            exact none_ ⟨u, by rw [stkYield_cons]; exact List.mem_append_right _ (by simpa [Tree.yield] using u1), u2⟩
          rcases hr with hr | (rfl | rfl) | rfl | rfl
          · exfalso
            simp only [Tree.sym] at hs
            rcases hs with hs | hs
            · rw [hs] at hr; exact absurd hr (by decide)
            · rw [hs] at hr; exact absurd hr (by decide)
          · exact (hmust (.inl rfl)).elim
          · exact ho.1 _ (.inl rfl)
          · exact (hmust (.inr rfl)).elim
          · exact ho.1 _ (.inr rfl)
    · left; simpa using hl

theorem carriers_behind : (carriers.all fun s => leakMarks.behind.contains s && Nat.ble 199 s) = true := by decide +kernel

/-- `hsql_parse` leaks nothing if none of the words is among the tokens. -/
theorem no_leak {ts : List Tok} {e : Tok} {junk : List Tok} (hin : Input toks ts e junk) (ht : ∀ t ∈ toks, TokShape t) (h0 : r0.errMsg = none)
    (hw : NoWord toks) {ret : Int} {st : St} (hp : hsqlParse A toks r0 = some (ret, st)) : st.leaked = [] := by
  obtain ⟨n, c, stk, x, hR, hx, hs, hrun⟩ := run_main hin (sem A) (startSt r0)
  have hty0 : ∀ c', RC (sem A) toks (startSt r0) c' stk → Typed (fun b => ∃ t ∈ toks, t.val = .sval b) (fun _ => True) c' stk := by
    intro c' h
    exact (typed_rc (A := A) (r0 := r0) good66_true ht (fun t h1 b h2 => ⟨t, h1, h2⟩) h).2 (.inl fun _ => trivial)
  have hi := hR.inv
  have hsim := hi.sim.1
  have hpst := prep_stk (sem A) c
  have hty := hty0 c hR.rc
  have htyp := hty0 _ hR.rc_prep
  have hy : ∀ u ∈ stkYield stk, u ∈ toks := by
    intro u hu; rw [← hi.yld]; exact List.mem_append_left _ hu
  have hl := leak_rc (A := A) (r0 := r0) hw ht hR.rc
  have hlp := leak_rc (A := A) (r0 := r0) hw ht hR.rc_prep
  have hclean : Clean c.stk stk := stk_clean hw hi.ok hy hl.2.1
  have hno : ∀ c', RC (sem A) toks (startSt r0) c' stk → c'.st.res.errMsg = none := by
    intro c' h
    rcases err_rc h0 h with h | ⟨p, hp, hc⟩
    · exact h
    · exfalso
      have hb := List.all_eq_true.1 carriers_behind _ hc
      rw [Bool.and_eq_true] at hb
      obtain ⟨u, u1, u2⟩ := Marks.stack leakMarks_closed hi.ok p hp (.inr ⟨Nat.le_of_ble_eq_true hb.2, hb.1⟩)
      rw [hw u (hy u u1)] at u2; cases u2
  have hm := hno c hR.rc
  have hmp := hno _ hR.rc_prep
  have hleak := hl.2.2 hm
  have hleakp := hlp.2.2 hmp
  have hst : c.stk.map (fun x => (yystos.getD x.1 0).toNat) = syms stk := by
    have h1 : c.stk.map (fun x => (yystos.getD x.1 0).toNat) = (c.stk.map Prod.fst).map (fun s => (yystos.getD s 0).toNat) := by simp [Function.comp_def]
    rw [h1, hsim, List.map_map]
    exact List.map_congr_left (fun x hx => stk_stos hi.ok x hx)
  have hpop : ∀ {st st' : St}, popAll c.stk st = some st' → st'.leaked = st.leaked :=
    fun h => popAll_clean c.stk stk hst (sym_lt hi.ok) hty.stk hclean h
  have hyy : ∀ (s : St) m l k, s.res.errMsg = none → (s.yyerror A m l k).leaked = s.leaked := by
    intro s m l k h; simp [St.yyerror, h]
  unfold hsqlParse at hp
  rw [hrun] at hp
  cases hs with
  | accept s t h1 h2 h3 h4 =>
    simp only [finishRun, Option.bind_eq_bind, Option.bind_eq_some_iff] at hp
    obtain ⟨s1, e1, s2, e2, e3⟩ := hp
    cases e3
    rw [hpop e2, dropLa_clean hty.la e1, hleak]
  | exhausted h1 =>
    simp only [finishRun, Option.bind_eq_bind, Option.bind_eq_some_iff] at hp
    obtain ⟨s1, e1, s2, e2, e3⟩ := hp
    cases e3
    rw [hpop e2, dropLa_clean hty.la e1, hyy _ _ _ _ hm, hleak]
  | syntaxError t rem h1 h2 h3 =>
    simp only [finishRun, Option.bind_eq_bind, Option.bind_eq_some_iff] at hp
    obtain ⟨⟨t', v'⟩, e0, s1, e1, s2, e2, e3⟩ := hp
    cases e3
    rw [hpst] at e1
    rw [dropLa_clean htyp.la e2, hpop e1, hyy _ _ _ _ hmp, hleakp]
  | semError r st h1 h2 h3 h4 h5 h6 h7 =>
    obtain ⟨t, rem, hr, ha⟩ := h5
    have hl : ¬ 200 ≤ stk.length + 1 := by
      intro hl
      have hlen := hi.sim.len
      unfold step at hx
      rw [if_pos (by omega)] at hx
      cases hx
    have hat := hR.redAt hr h4 hl ha
    rw [reduce_run A h1 h2] at h7
    have hrn : run A (redLoc c.stk (rhs r).length) (act r) (mkEnv (rhsVals c.stk (rhs r).length)) (prep (sem A) c).st = .error st := by
      split at h7
      · cases h7
      · rename_i e; cases h7; exact e
      · cases h7
    have hr2 : r ≠ 2 := by intro h; subst h; exact run2_not_error hrn
    have hsd := rule_sound A (redLoc c.stk (rhs r).length) h1 h2 hr2 (fun _ _ => trivial) (htyp.rhs hat) (prep (sem A) c).st
    rw [hpst, hrn] at hsd
    have hfl : failLeaky r = false := by
      cases hf : failLeaky r with
      | false => rfl
      | true =>
        exfalso
        have : r = 55 := eq_of_beq hf
        subst this
        have hany : (rhs 55).any leakMarks.has = true := by decide +kernel
        have hwf := hat.wf
        simp only [Tree.WF] at hwf
        rw [← hat.syms] at hany
        obtain ⟨u, u1, u2⟩ := Marks.trees leakMarks_closed _ hwf.2.2.2 hany
        have hle : (rhs 55).length ≤ stk.length := by have := hi.sim.len; omega
        rw [hw u (hy u (by rw [stkYield_split hle]; exact List.mem_append_right _ u1))] at u2
        cases u2
    have hsl := hsd.2 hfl hmp
    simp only [finishRun, Option.bind_eq_bind, Option.bind_eq_some_iff] at hp
    obtain ⟨s1, e1, s2, e2, e3⟩ := hp
    cases e3
    have hstd : (c.stk.drop (rhs r).length).map (fun x => (yystos.getD x.1 0).toNat) = syms (stk.drop (rhs r).length) := by
      rw [List.map_drop, hst]; simp [syms, List.map_drop]
    have hpd := popAll_clean (c.stk.drop (rhs r).length) (stk.drop (rhs r).length) hstd (fun x hx => sym_lt hi.ok x (List.mem_of_mem_drop hx)) (hty.drop _) (hclean.drop _) e1
    rw [dropLa_clean htyp.la e2, hpd]
    show st.leaked = []
    rw [hsl, hleakp]
  | ub r h1 h2 h3 h4 h5 h6 h7 => simp only [] at hp; cases hp
end
end Verif.Sem

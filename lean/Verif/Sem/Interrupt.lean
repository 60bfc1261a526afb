import Verif.Api.Throw
import Verif.Sem.Ends
import Verif.Sem.Reuse
/-! What is left when the parser is interrupted. Proof-internal. -/
namespace Verif.Sem
open Verif.LR Verif.Lex

theorem mapCut {f : Prog → Prog} (hf : ∀ k, noFin k = true → noFin (f k) = true) {l : List Prog} (hl : ∀ k ∈ l, noFin k = true) : ∀ k ∈ l.map f, noFin k = true := by
  intro k hk
  obtain ⟨x, hx, rfl⟩ := List.mem_map.1 hk
  exact hf x (hl x hx)
theorem consCut {l : List Prog} (hl : ∀ k ∈ l, noFin k = true) : ∀ k ∈ Prog.fail :: l, noFin k = true := by
  intro k hk
  rcases List.mem_cons.1 hk with rfl | hk
  · rfl
  · exact hl k hk

theorem cuts_noFin : ∀ (p : Prog), ∀ k ∈ cuts p, noFin k = true
  | .ret => by intro k hk; cases hk
  | .fail => by intro k hk; cases hk
  | .finish => by intro k hk; cases hk
  | .set p e k => by
    intro x hx
    rcases List.mem_append.1 hx with hx | hx
    · split at hx
      · simp only [List.mem_singleton] at hx; subst hx; rfl
      · cases hx
    · exact mapCut (f := .set p e) (fun _ h => h) (cuts_noFin k) x hx
  | .push p e k => consCut (mapCut (f := .push p e) (fun _ h => h) (cuts_noFin k))
  | .insert p e k => consCut (mapCut (f := .insert p e) (fun _ h => h) (cuts_noFin k))
  | .del p k => mapCut (f := .del p) (fun _ h => h) (cuts_noFin k)
  | .free p k => mapCut (f := .free p) (fun _ h => h) (cuts_noFin k)
  | .ite c t e => by
    intro x hx
    rcases List.mem_append.1 hx with hx | hx
    · exact mapCut (fun _ h => by simp only [noFin, h]; rfl) (cuts_noFin t) x hx
    · exact mapCut (fun _ h => by simp only [noFin, h]; rfl) (cuts_noFin e) x hx
  | .err m k => mapCut (f := .err m) (fun _ h => h) (cuts_noFin k)
  | .errName m p k => consCut (mapCut (f := .errName m p) (fun _ h => h) (cuts_noFin k))
  | .zeroLen k => mapCut (f := .zeroLen) (fun _ h => h) (cuts_noFin k)
  | .regParam p k => consCut (mapCut (f := .regParam p) (fun _ h => h) (cuts_noFin k))
  | .split p q k => consCut (mapCut (f := .split p q) (fun _ h => h) (cuts_noFin k))

/-- The result's statements and parameters are as before, and it is not more valid. -/
structure Quiet (st st' : St) : Prop where
  stmts : st'.res.stmts = st.res.stmts
  params : st'.res.params = st.res.params
  valid : st'.res.isValid = true → st.res.isValid = true
  ntok : st'.ntok = st.ntok
  keep : st'.res.errMsg = none → st.res.errMsg = none ∧ st'.res.isValid = st.res.isValid

theorem Quiet.refl (st : St) : Quiet st st := ⟨rfl, rfl, id, rfl, fun h => ⟨h, rfl⟩⟩
theorem Quiet.trans {a b c : St} (h : Quiet a b) (h' : Quiet b c) : Quiet a c :=
  ⟨h'.stmts.trans h.stmts, h'.params.trans h.params, fun x => h.valid (h'.valid x), h'.ntok.trans h.ntok,
    fun x => ⟨(h.keep (h'.keep x).1).1, (h'.keep x).2.trans (h.keep (h'.keep x).1).2⟩⟩
theorem Quiet.log (st : St) (f l : List Nat) : Quiet st (st.log f l) := ⟨rfl, rfl, id, rfl, fun h => ⟨h, rfl⟩⟩
theorem Quiet.bump (st : St) : Quiet st st.bump := ⟨rfl, rfl, id, rfl, fun h => ⟨h, rfl⟩⟩
theorem Quiet.yyerror (A : Alloc) (st : St) (m : Bytes) (l c : Int) : Quiet st (st.yyerror A m l c) := ⟨rfl, rfl, fun h => by simp [St.yyerror] at h, rfl, fun h => by simp [St.yyerror] at h⟩

theorem evalRv_quiet {A : Alloc} {e : Rv} {env env' : List V} {st st' : St} {v : V} (h : evalRv A e env st = some (v, env', st')) : Quiet st st' := by
  unfold evalRv at h
  split at h <;> split at h <;> cases h
  · exact .refl _
  · exact .bump _
  · exact .bump _
  · exact .refl _

theorem run_quiet (A : Alloc) (loc : Loc) : ∀ (k : Prog) (env : List V) (st st' : St), noFin k = true → (run A loc k env st).st? = some st' → Quiet st st'
  | .ret, env, st, st', _, h => by
    unfold run at h
    split at h
    · cases h
    · cases h; exact .log _ _ _
  | .fail, env, st, st', _, h => by
    cases h; exact .log _ _ _
  | .finish, env, st, st', hp, h => by cases hp
  | .regParam p k, env, st, st', hp, h => by
    unfold run at h
    split at h
    · split at h
      · have q := run_quiet A loc k _ _ st' hp h
        exact ⟨q.stmts, q.params, q.valid, q.ntok, q.keep⟩
      · cases h
    · cases h
  | .set p e k, env, st, st', hp, h => by
    unfold run at h
    split at h
    · rename_i hev
      split at h
      · split at h
        · exact (evalRv_quiet hev).trans ((Quiet.log _ _ _).trans (run_quiet A loc k _ _ st' hp h))
        · cases h
      · cases h
    · cases h
  | .push p e k, env, st, st', hp, h => by
    unfold run at h
    split at h
    · split at h
      · split at h
        · exact run_quiet A loc k _ _ st' hp h
        · cases h
      · cases h
    · cases h
  | .insert p e k, env, st, st', hp, h => by
    unfold run at h
    split at h
    · split at h
      · split at h
        · exact run_quiet A loc k _ _ st' hp h
        · cases h
      · cases h
    · cases h
  | .del p k, env, st, st', hp, h => by
    unfold run at h
    split at h
    · split at h
      · split at h
        · exact (Quiet.log _ _ _).trans (run_quiet A loc k _ _ st' hp h)
        · cases h
      · cases h
    · cases h
  | .free p k, env, st, st', hp, h => by
    unfold run at h
    split at h
    · split at h
      · split at h
        · exact (Quiet.log _ _ _).trans (run_quiet A loc k _ _ st' hp h)
        · cases h
      · cases h
    · cases h
  | .ite c t e, env, st, st', hp, h => by
    simp only [noFin, Bool.and_eq_true] at hp
    unfold run at h
    split at h
    · exact run_quiet A loc t _ _ st' hp.1 h
    · exact run_quiet A loc e _ _ st' hp.2 h
    · cases h
  | .err m k, env, st, st', hp, h => by
    unfold run at h
    exact (Quiet.yyerror _ _ _ _ _).trans (run_quiet A loc k _ _ st' hp h)
  | .errName m p k, env, st, st', hp, h => by
    unfold run at h
    split at h
    · exact (Quiet.yyerror _ _ _ _ _).trans (run_quiet A loc k _ _ st' hp h)
    · cases h
  | .zeroLen k, env, st, st', hp, h => by
    unfold run at h
    have q := run_quiet A loc k _ _ st' hp h
    exact ⟨q.stmts, q.params, q.valid, q.ntok, q.keep⟩
  | .split p q k, env, st, st', hp, h => by
    unfold run at h
    split at h
    · split at h
      · simp only [] at h
        split at h
        · split at h
          · split at h
            · exact (Quiet.bump _).trans ((Quiet.bump _).trans ((Quiet.log _ _ _).trans (run_quiet A loc k _ _ st' hp h)))
            · cases h
          · cases h
        · cases h
      · cases h
    · cases h

theorem acts_noFin : ((List.range 356).all fun i => match actions[i]? with | some .finish => decide (i = 0) | some p => noFin p | none => false) = true := by decide +kernel

/-- Along a run the result does not become valid, and becomes invalid with a message only. -/
theorem run_valid {A : Alloc} {loc : Loc} {r : Nat} (h1 : 2 ≤ r) (h2 : r < 358) {env : List V} {st st' : St} {v : V} (h : run A loc (act r) env st = .ok v st') :
    (st'.res.isValid = true → st.res.isValid = true) ∧ (st'.res.errMsg = none → st.res.errMsg = none ∧ st'.res.isValid = st.res.isValid) := by
  by_cases h3 : r = 2
  · subst h3
    have e : act 2 = .finish := rfl
    rw [e] at h
    unfold run at h
    split at h
    · split at h
      · split at h
        · rename_i hadd
          cases h
          obtain ⟨_, k1, k2, _⟩ := addParams_frame _ _ _ _ hadd
          simp only [] at k1 k2
          exact ⟨fun hv => by rw [← k2]; exact hv, fun hv => ⟨by rw [← k1]; exact hv, k2⟩⟩
        · cases h
      · cases h
    · cases h
  · have hc := List.all_eq_true.1 acts_noFin (r - 2) (by simp; omega)
    have : noFin (act r) = true := by
      unfold act
      rw [List.getD_eq_getElem?_getD]
      revert hc
      cases actions[r - 2]? with
      | none => intro hc; cases hc
      | some p =>
        cases p with
        | finish => intro hc; simp only [decide_eq_true_eq] at hc; omega
        | _ => exact id
    have q := run_quiet A loc (act r) env st st' this (by rw [h]; rfl)
    exact ⟨q.valid, q.keep⟩

theorem valid_rc {A : Alloc} {toks : List Tok} {r0 : Res} {c : Cfg St SV} {stk : TStk} (h : RC (sem A) toks (startSt r0) c stk) :
    (c.st.res.isValid = true → r0.isValid = true) ∧ (c.st.res.errMsg = none → c.st.res.isValid = r0.isValid) := by
  refine RC.ind (I := fun c _ => (c.st.res.isValid = true → r0.isValid = true) ∧ (c.st.res.errMsg = none → c.st.res.isValid = r0.isValid)) ⟨fun h => h, fun _ => rfl⟩ ?_ ?_ ?_ h
  · intro c stk t ts ih _ _; exact ih
  · intro c stk t v s ih _ _ _; exact ih
  · intro c stk r s v st ih hat hred
    have k := run_valid hat.r1 hat.r2 (reduce_ok hat.r1 hat.r2 hred).2
    exact ⟨fun h => ih.1 (k.1 h), fun h => (k.2 h).2.trans (ih.2 (k.2 h).1)⟩

/-! ## Reachability -/

theorem reach_some {σ V : Type} {S : LR.Sem σ V} {lim : Nat} {toks : List Tok} {st0 : σ} {ts : List Tok} {e : Tok} {junk : List Tok} (hin : Input toks ts e junk) {n : Nat} {c : Cfg σ V} {stk : TStk}
    (h : Reach S lim toks st0 n c stk) (h69 : topState c.stk ≠ 69) : ∃ t rem, remOf c = t :: rem := by
  rcases h.rest hin with ⟨_, suf, h1, _⟩ | ⟨hh, _⟩
  · cases suf with
    | nil => exact ⟨e, junk, h1⟩
    | cons x suf => exact ⟨x, suf ++ e :: junk, h1⟩
  · exact absurd (h.inv.sim.top.trans hh) h69

theorem stepsTo_reach {A : Alloc} {toks ts : List Tok} {e : Tok} {junk : List Tok} {r0 : Res} (hin : Input toks ts e junk) : ∀ (m n : Nat) (c c' : Cfg St SV) (stk : TStk),
    Reach (sem A) stackSize toks (startSt r0) n c stk → stepsTo A m c = some c' → ∃ n' stk', Reach (sem A) stackSize toks (startSt r0) n' c' stk'
  | 0, n, c, c', stk, hR, h => by cases h; exact ⟨n, stk, hR⟩
  | m + 1, n, c, c', stk, hR, h => by
    unfold stepsTo at h
    split at h
    · rename_i c1 hst
      have h69 : topState c.stk ≠ 69 := by
        intro h69
        unfold step at hst
        simp only [h69] at hst
        split at hst
        · cases hst
        · rw [if_pos (by decide)] at hst; cases hst
      obtain ⟨t, rem, hr⟩ := reach_some hin hR h69
      obtain ⟨stk1, h1⟩ := hR.next hr hst
      exact stepsTo_reach hin m (n + 1) c1 c' stk1 h1 h
    · cases h

theorem lookAhead_prep (A : Alloc) (c : Cfg St SV) : lookAhead A c = prep (sem A) c := by
  unfold lookAhead prep fetch
  cases noToken (topState c.stk) with
  | none => rfl
  | some b =>
    cases b with
    | true => rfl
    | false =>
      simp only []
      cases hl : c.la with
      | some x => rfl
      | none =>
        cases ht : c.toks with
        | nil => rfl
        | cons t ts => rfl

theorem nextRule_redAt {A : Alloc} {toks ts : List Tok} {e : Tok} {junk : List Tok} {r0 : Res} (hin : Input toks ts e junk) {n : Nat} {c : Cfg St SV} {stk : TStk}
    (hR : Reach (sem A) stackSize toks (startSt r0) n c stk) {r : Nat} (h : nextRule (lookAhead A c) = some r) : RedAt (lookAhead A c) stk r := by
  rw [lookAhead_prep] at h ⊢
  have hst := prep_stk (sem A) c
  unfold nextRule at h
  rw [hst] at h
  split at h
  · cases h
  rename_i hl
  split at h
  · cases h
  rename_i h69
  have h69 : topState c.stk ≠ 69 := by
    intro hh; apply h69; rw [hh]; rfl
  obtain ⟨t, rem, hr⟩ := reach_some hin hR h69
  have htop := hR.inv.sim.top
  refine hR.redAt hr (by rw [← htop]; exact h69) (by rw [← hR.inv.sim.len]; exact hl) ?_
  rw [← htop]
  unfold actionOn
  split at h
  · rename_i hn
    rw [hn]
    simp only []
    split at h
    · rename_i hd; cases h; exact hd
    · cases h
  · rename_i u x hn hla
    rw [hn]
    simp only []
    have hu : u = t := by
      have := prep_rem (sem A) c
      rw [hr] at this
      unfold remOf at this
      rw [hla] at this
      simp at this
      exact this.1
    subst hu
    split at h
    · rename_i hd; cases h; exact hd
    · cases h
  · cases h

/-! ## What is left -/

/-- The result after an interruption. -/
structure LeftOver (ok : Bytes → Prop) (r0 r : Res) : Prop where
  stmts : ∃ new, r.stmts = r0.stmts ++ new ∧ ∀ v ∈ new, Sat ok (fun _ => True) (.ref .stmt) v
  params : ∃ ps, r.params.Perm (r0.params ++ ps)
  valid : r.isValid = true → r0.isValid = true
  ok : ResOK ok (fun _ => True) r

theorem numberL_snoc : ∀ (l : List Nat) (a id : Nat) (vs : List V), numberL (l ++ [a]) id vs = setIvalL a (id + l.length : Nat) (numberL l id vs)
  | [], a, id, vs => rfl
  | b :: l, a, id, vs => by
    rw [List.cons_append, numberL, numberL, numberL_snoc l a (id + 1), List.length_cons, show id + 1 + l.length = id + (l.length + 1) by omega]

theorem paramThrows_mem : ∀ (l : List Nat) (id : Nat) (r : Res), exprOKL r.stmts → (∀ a ∈ l, ∃ w, ivalAtL a r.stmts = some w ∧ w.isNum = true) →
    (∀ a ∈ r.params, ∃ n : Int, ivalAtL a r.stmts = some (.int n)) → ∀ x ∈ paramThrows l id r,
    ∃ l1 a l2 ps, l = l1 ++ a :: l2 ∧ x = { r with stmts := numberL (l1 ++ [a]) id r.stmts, params := ps } ∧ ps.Perm (r.params ++ l1)
  | [], id, r, _, _, _, x, hx => by cases hx
  | a :: l, id, r, hok, hl, hp, x, hx => by
    rw [paramThrows] at hx
    rcases List.mem_cons.1 hx with rfl | hx
    · exact ⟨[], a, l, r.params, rfl, rfl, by simp⟩
    · obtain ⟨ps, e1, e2⟩ := addParams_some [a] id r hok (fun b hb => hl b (by simp at hb; simp [hb])) hp
      obtain ⟨w, f1, f2⟩ := hl a (by simp)
      simp only [addParams, f1, f2, if_true] at e1
      cases hadd : Res.addParameter { r with stmts := setIvalL a id r.stmts } a with
      | none => rw [hadd] at hx; cases hx
      | some r' =>
        rw [hadd] at e1 hx
        simp only [Option.some.injEq] at e1
        subst e1
        have hne : ∀ b, (∃ w, ivalAtL b r.stmts = some w ∧ w.isNum = true) → ∃ w, ivalAtL b (numberL [a] id r.stmts) = some w ∧ w.isNum = true := by
          intro b hb
          show ∃ w, ivalAtL b (setIvalL a id r.stmts) = some w ∧ _
          by_cases hab : b = a
          · subst hab
            exact ⟨.int id, by rw [ivalAtL_setL, f1, Option.map_some, renum, if_pos f2], rfl⟩
          · rw [ivalAtL_set_ne hab id r.stmts hok]; exact hb
        have hint : ∀ b ∈ ps, ∃ n : Int, ivalAtL b (numberL [a] id r.stmts) = some (.int n) := by
          intro b hb
          refine fin_red.numberL_int [a] id r.stmts hok b ?_
          rcases List.mem_append.1 (e2.mem_iff.1 hb) with hb | hb
          · exact .inl (hp b hb)
          · exact .inr ⟨hb, hl b (by simp at hb; simp [hb])⟩
        obtain ⟨l1, c, l2, qs, g1, g2, g3⟩ := paramThrows_mem l (id + 1) _ (setIvalL_exprOK a id r.stmts hok) (fun b hb => hne b (hl b (List.mem_cons_of_mem _ hb))) hint x hx
        refine ⟨a :: l1, c, l2, qs, by rw [g1]; rfl, ?_, ?_⟩
        · rw [g2]; rfl
        · refine g3.trans ?_
          refine (List.Perm.append_right l1 e2).trans ?_
          simp

section
variable {ok : Bytes → Prop} {A : Alloc} {toks : List Tok} {r0 : Res} {c : Cfg St SV} {stk : TStk}

theorem stackAddrs_count (a : Nat) (l : List (Nat × SV)) : (stackAddrs l).count a = acL a (vals l) := rfl
theorem laAddrs_count (a : Nat) (la : Option (Tok × SV)) : (laAddrs la).count a = laAc a la := by
  cases la with
  | none => rfl
  | some x => rfl

/-- The accounting when the parser is abandoned. -/
def AccOf (A : Alloc) (r0 : Res) (o : ParseOut) : Prop :=
  ∃ rd n, ∀ a, o.freed.count a + o.leaked.count a + o.res.errAddr.count a + acL a o.res.stmts = r0.errAddr.count a + acL a r0.stmts + strs A a 0 rd + allocs A a 0 n

theorem abandon_acc (h : RC (sem A) toks (startSt r0) c stk) (n : Nat) (st : St) (hn : c.st.nalloc ≤ st.nalloc)
    (hst : ∀ a, st.tot a = acL a (rhsVals c.stk n) + c.st.tot a + allocs A a c.st.nalloc st.nalloc) : AccOf A r0 (abandon (c.stk.drop n) c.la st) := by
  obtain ⟨rd, _, _, hacc⟩ := (owned_rc h).acc
  refine ⟨rd, st.nalloc, fun a => ?_⟩
  have h1 := hacc a
  have h2 := hst a
  have h3 := allocs_trans A a (Nat.zero_le _) hn
  rw [acL_split a n] at h1
  simp only [abandon, List.count_append, stackAddrs_count, laAddrs_count]
  unfold St.tot at h1 h2
  omega

/-- The values the action of `input` works on. -/
theorem fin_pre (hA : AllocOK A r0) (ht : ∀ t ∈ toks, TokShape t) (h : RC (sem A) toks (startSt r0) c stk) (hty : Typed ok (fun _ => True) c stk) (hat : RedAt c stk 2)
    (hr : ResOK ok (fun _ => True) r0) :
    ∃ b vs, rhsVals c.stk (rhs 2).length = [.vec b vs, .undef] ∧ (∀ v ∈ vs, Sat ok (fun _ => True) (.ref .stmt) v) ∧ c.st.res.stmts = r0.stmts ∧ c.st.res.params = r0.params ∧
      exprOKL r0.stmts ∧ exprOKL vs ∧ (∀ a ∈ c.st.plist, acL a r0.stmts = 0) ∧ (∀ a ∈ c.st.plist, ∃ w, ivalAtL a (r0.stmts ++ vs) = some w ∧ w.isNum = true) := by
  obtain ⟨b, vs, hvals, r, hadd, hfin, _⟩ := fin_red (good := fun _ => True) hA ht (fun _ _ _ _ => trivial) h hty hat hr
  obtain ⟨b', vs', e, _, hvs, _, hperm⟩ := hfin.vs
  cases e
  have hp := pending_rc ht h hat.before
  obtain ⟨rd, _, _, hown⟩ := (owned_rc h).acc
  have hacc : ∀ a, acL a r0.stmts + acL a vs ≤ 1 := by
    intro a
    have h1 := hown a
    have h2 := total_le hA a rd c.st.nalloc
    rw [acL_split a (rhs 2).length, hvals, acL_cons, ac_vec] at h1
    simp only [St.tot, hp.stmts] at h1
    omega
  have hfst : (c.st.plist).Perm ((parsL vs).map Prod.fst) := by
    have := hperm.map Prod.fst
    rw [keyed_fst] at this
    exact this
  have hfc : ∀ a, c.st.plist.count a = fcL a vs := fun a => List.perm_iff_count.1 hfst a
  have hok1 : exprOKL vs := exprOKL_of fun v hv => sat_exprOK (hvs v hv) rfl
  have hok0 : exprOKL r0.stmts := exprOKL_of fun v hv => sat_exprOK (hr.stmts v hv) rfl
  have hone : ∀ a ∈ c.st.plist, 1 ≤ fcL a vs := by
    intro a ha; rw [← hfc a]; exact List.count_pos_iff.2 ha
  refine ⟨b, vs, hvals, hvs, hp.stmts, hp.params, hok0, hok1, ?_, ?_⟩
  · intro a ha
    have := hone a ha
    have := fcL_le_acL a vs
    have := hacc a
    omega
  · intro a ha
    have h1 := hone a ha
    have h2 := fcL_le_acL a vs
    have h3 := hacc a
    rw [ivalAtL_right (by omega)]
    exact ivalAtL_some a vs (by omega) h1 hok1

/-- What the action of `input`, interrupted, leaves. -/
theorem finish_left (hA : AllocOK A r0) (ht : ∀ t ∈ toks, TokShape t) (h : RC (sem A) toks (startSt r0) c stk) (hty : Typed ok (fun _ => True) c stk) (hat : RedAt c stk 2)
    (hr : ResOK ok (fun _ => True) r0) {b : Nat} {vs : List V} (hvals : rhsVals c.stk (rhs 2).length = [.vec b vs, .undef]) {st : St} (hst : st ∈ finishThrows b vs c.st) :
    LeftOver ok r0 st.res ∧ AccOf A r0 (abandon (c.stk.drop (rhs 2).length) c.la st) := by
  obtain ⟨b', vs', hv', hvs, es, ep, hok0, hok1, habs, hfind⟩ := fin_pre hA ht h hty hat hr
  rw [hvals] at hv'
  cases hv'
  have hval := (valid_rc h).1
  have hpars0 : ∀ (ws : List V), ∀ a ∈ r0.params, ∃ n : Int, ivalAtL a (r0.stmts ++ ws) = some (.int n) := by
    intro ws a ha
    obtain ⟨n, hn⟩ := hr.params a ha
    exact ⟨n, ivalAtL_left hn⟩
  rcases List.mem_append.1 hst with hst | hst
  · obtain ⟨i, _, rfl⟩ := List.mem_map.1 hst
    refine ⟨⟨⟨vs.take i, ?_, ?_⟩, ⟨[], ?_⟩, hval, ⟨?_, ?_⟩⟩, abandon_acc h _ _ (Nat.le_refl _) ?_⟩
    · show c.st.res.stmts ++ vs.take i = _; rw [es]
    · exact fun v hv => hvs v (List.mem_of_mem_take hv)
    · show c.st.res.params.Perm _; rw [ep, List.append_nil]
    · intro v hv
      have hv : v ∈ c.st.res.stmts ++ vs.take i := hv
      rw [es] at hv
      rcases List.mem_append.1 hv with hv | hv
      · exact hr.stmts v hv
      · exact hvs v (List.mem_of_mem_take hv)
    · intro a ha
      have ha : a ∈ c.st.res.params := ha
      rw [ep] at ha
      show ∃ n : Int, ivalAtL a (c.st.res.stmts ++ vs.take i) = _
      rw [es]; exact hpars0 _ a ha
    · intro a
      rw [tot_log, hvals, acL_cons, ac_vec, acL_cons, ac_undef, acL_nil]
      show _ = _ + allocs A a c.st.nalloc c.st.nalloc
      rw [allocs_refl]
      have e1 : acL a vs = acL a (vs.take i) + acL a (vs.drop i) := by rw [← acL_append, List.take_append_drop]
      have e2 : (addrsL (vs.drop i)).count a = acL a (vs.drop i) := rfl
      have e3 : (b :: addrsL (vs.drop i)).count a = one a b + acL a (vs.drop i) := by
        rw [← e2, one, ← List.count_append]; rfl
      simp only [St.tot, List.count_nil, e3, acL_append, Res.errAddr]
      omega
  · obtain ⟨r, hr1, rfl⟩ := List.mem_map.1 hst
    obtain ⟨l1, a, l2, ps, g1, g2, g3⟩ := paramThrows_mem c.st.plist 0 _ (by show exprOKL (c.st.res.stmts ++ vs); rw [es]; exact exprOKL_append hok0 hok1)
      (by show ∀ a ∈ c.st.plist, ∃ w, ivalAtL a (c.st.res.stmts ++ vs) = _ ∧ _; rw [es]; exact hfind)
      (by show ∀ a ∈ c.st.res.params, ∃ n : Int, ivalAtL a (c.st.res.stmts ++ vs) = _; rw [es, ep]; exact hpars0 vs) r hr1
    subst g2
    have hmem : ∀ x ∈ l1 ++ [a], x ∈ c.st.plist := by
      intro x hx; rw [g1]
      rcases List.mem_append.1 hx with hx | hx
      · exact List.mem_append_left _ hx
      · simp only [List.mem_singleton] at hx; subst hx; exact List.mem_append_right _ List.mem_cons_self
    have estm : numberL (l1 ++ [a]) 0 (c.st.res.stmts ++ vs) = r0.stmts ++ numberL (l1 ++ [a]) 0 vs := by
      rw [es, numberL_append, numberL_absent _ _ fun x hx => habs x (hmem x hx)]
    have hnew : ∀ v ∈ numberL (l1 ++ [a]) 0 vs, Sat ok (fun _ => True) (.ref .stmt) v := numberL_sat (fun _ _ _ _ => trivial) rfl _ _ _ hvs
    have ep' : ps.Perm (r0.params ++ l1) := by rw [← ep]; exact g3
    refine ⟨⟨⟨numberL (l1 ++ [a]) 0 vs, estm, hnew⟩, ⟨l1, ep'⟩, hval, ⟨?_, ?_⟩⟩, abandon_acc h _ _ (Nat.le_refl _) ?_⟩
    · intro v hv
      have hv : v ∈ numberL (l1 ++ [a]) 0 (c.st.res.stmts ++ vs) := hv
      rw [estm] at hv
      rcases List.mem_append.1 hv with hv | hv
      · exact hr.stmts v hv
      · exact hnew v hv
    · intro x hx
      have hx : x ∈ r0.params ++ l1 := ep'.mem_iff.1 hx
      show ∃ n : Int, ivalAtL x (numberL (l1 ++ [a]) 0 (c.st.res.stmts ++ vs)) = _
      rw [es]
      refine fin_red.numberL_int _ _ _ (exprOKL_append hok0 hok1) x ?_
      rcases List.mem_append.1 hx with hx | hx
      · exact .inl (hpars0 vs x hx)
      · exact .inr ⟨List.mem_append_left _ hx, hfind x (hmem x (List.mem_append_left _ hx))⟩
    · intro x
      rw [tot_log, hvals, acL_cons, ac_vec, acL_cons, ac_undef, acL_nil]
      show _ = _ + allocs A x c.st.nalloc c.st.nalloc
      rw [allocs_refl]
      have e1 : acL x (numberL (l1 ++ [a]) 0 (c.st.res.stmts ++ vs)) = acL x c.st.res.stmts + acL x vs := by
        rw [← acL_append]; unfold acL; rw [numberL_addrs]
      have e3 : [b].count x = one x b := rfl
      simp only [St.tot, List.count_nil, e1, e3, Res.errAddr]
      omega

/-- What is left when the parser is interrupted. -/
theorem throws_left {ts : List Tok} {e : Tok} {junk : List Tok} (hin : Input toks ts e junk) (hA : AllocOK A r0) (ht : ∀ t ∈ toks, TokShape t) (hok : ∀ t ∈ toks, ∀ b, t.val = .sval b → ok b)
    (hr : ResOK ok (fun _ => True) r0) {n : Nat} (hR : Reach (sem A) stackSize toks (startSt r0) n c stk) {o : ParseOut} (h : Throws A c o) :
    LeftOver ok r0 o.res ∧ AccOf A r0 o := by
  have hsame : ∀ {c' : Cfg St SV}, RC (sem A) toks (startSt r0) c' stk → ∀ {st : St}, st.res.stmts = c'.st.res.stmts → st.res.params = c'.st.res.params →
      (st.res.isValid = true → c'.st.res.isValid = true) → LeftOver ok r0 st.res := by
    intro c' hrc st e1 e2 e3
    have hval := (valid_rc hrc).1
    by_cases hi : ∃ p ∈ stk, p.2.sym = N.input
    · obtain ⟨c2, stk2, b, vs, k1, k2, k3, k4, hfin, _⟩ := fin_rc good66_true (fun _ _ _ _ => trivial) hA ht hok hr hrc hi (.inl fun _ => trivial)
      obtain ⟨b', vs', e, _, hvs, hstm, _⟩ := hfin.vs
      cases e
      obtain ⟨b'', vs'', hv', _, _, _, _, _, habs, _⟩ := fin_pre hA ht k1 k4 k2 hr
      refine ⟨⟨numberL c2.st.plist 0 vs, ?_, ?_⟩, ⟨c2.st.plist, by rw [e2]; exact hfin.perm⟩, fun h => hval (e3 h), ⟨?_, ?_⟩⟩
      · rw [e1, hstm, numberL_append, numberL_absent _ _ habs]
      · exact numberL_sat (fun _ _ _ _ => trivial) rfl _ _ _ hvs
      · rw [e1]; exact hfin.res.stmts
      · rw [e1, e2]; exact hfin.res.params
    · have hp := pending_rc ht hrc (fun p hp h => hi ⟨p, hp, h⟩)
      refine ⟨⟨[], ?_, by intro v hv; cases hv⟩, ⟨[], ?_⟩, fun h => hval (e3 h), ⟨?_, ?_⟩⟩
      · rw [e1, hp.stmts, List.append_nil]
      · rw [e2, hp.params, List.append_nil]
      · rw [e1, hp.stmts]; exact hr.stmts
      · rw [e1, e2, hp.stmts, hp.params]; exact hr.params
  cases h with
  | scanner hn hla =>
    refine ⟨hsame hR.rc (st := c.st) rfl rfl id, ?_⟩
    have := abandon_acc hR.rc 0 c.st (Nat.le_refl _) (fun a => by
      rw [allocs_refl]
      show _ = acL a ([] : List V) + _ + 0
      rw [acL_nil]; omega)
    rw [List.drop_zero] at this
    exact this
  | action r m st hr1 hm hst =>
    have hat := nextRule_redAt hin hR hr1
    have hrc : RC (sem A) toks (startSt r0) (lookAhead A c) stk := by rw [lookAhead_prep]; exact hR.rc_prep
    have em : m = (rhs r).length := by
      rw [ruleLen_eq (by have := hat.r1; omega) hat.r2] at hm
      exact (Option.some.inj hm).symm
    subst em
    have hty := (typed_rc (A := A) (r0 := r0) (ok := ok) good66_true ht hok hrc).2 (.inl fun _ => trivial)
    unfold actionThrows at hst
    split at hst
    · cases hst
    · rename_i hfin
      have := finish_only hat.r1 hfin
      subst this
      obtain ⟨b, vs, hvals, _⟩ := fin_pre hA ht hrc hty hat hr
      have hv2 : (((lookAhead A c).stk.take (rhs 2).length).map Prod.snd).reverse.map Prod.fst = [.vec b vs, .undef] := by
        rw [← hvals]; simp [rhsVals, Function.comp_def]
      rw [hv2] at hst
      exact finish_left hA ht hrc hty hat hr hvals hst
    · rename_i p hne hp
      obtain ⟨k, hk, hst⟩ := List.mem_filterMap.1 hst
      split at hst
      · rename_i st' hrun
        cases hst
        have hq := run_quiet A _ k _ _ st (cuts_noFin p k hk) (by rw [hrun]; rfl)
        refine ⟨hsame hrc hq.stmts hq.params hq.valid, abandon_acc hrc _ _ (run_ac_err hrun 0).1 fun a => ?_⟩
        have := (run_ac_err hrun a).2
        rw [acL_mkEnv] at this
        rw [this]
        congr 2
        congr 1
        simp [rhsVals, Function.comp_def]
      · cases hst

/-! ## Every number of statements is possible -/

theorem stepsTo_snoc : ∀ (n : Nat) {c c1 c2 : Cfg St SV}, stepsTo A n c = some c1 → step (sem A) stackSize c1 = .run c2 → stepsTo A (n + 1) c = some c2
  | 0, c, c1, c2, h, h' => by
    cases h
    simp only [stepsTo, h']
  | n + 1, c, c1, c2, h, h' => by
    rw [stepsTo] at h ⊢
    split at h
    · rename_i c' hs
      exact stepsTo_snoc n h h'
    · cases h

theorem reach_stepsTo {n : Nat} (h : Reach (sem A) stackSize toks (startSt r0) n c stk) : stepsTo A n (initCfg toks (startSt r0)) = some c := by
  induction h with
  | init => rfl
  | @shift n c stk t rem s v hR hr hl h69 ha hla htk ih =>
    refine stepsTo_snoc n ih ?_
    have hi := hR.inv
    have hc := step_cases (sem A) (by rw [← hr]; exact hi.sim) (by rw [← hr]; exact hi.ok)
    rcases hc with ⟨h1, _⟩ | ⟨h1, _⟩ | ⟨_, h1, _⟩ | ⟨s', v', _, h1, h2, h3, h4, h5, _⟩ | ⟨r', s', _, _, h1, _⟩
    · omega
    · exact absurd h1 h69
    · rw [ha] at h1; cases h1
    · rw [ha] at h1; cases h1
      rw [h2, hla] at h3
      cases h3
      rw [h5, h2]
    · rw [ha] at h1; cases h1
  | @reduce n c stk t rem r s v st hR hr hl h69 ha hr1 hr2 hlen hg hred ih =>
    refine stepsTo_snoc n ih ?_
    have hi := hR.inv
    have hc := step_cases (sem A) (by rw [← hr]; exact hi.sim) (by rw [← hr]; exact hi.ok)
    rcases hc with ⟨h1, _⟩ | ⟨h1, _⟩ | ⟨_, h1, _⟩ | ⟨s', v', _, h1, h2, h3, h4, h5, _⟩ | ⟨r', s', _, _, h1, _, _, _, h2, h3, h4, h5, h6, h7⟩
    · omega
    · exact absurd h1 h69
    · rw [ha] at h1; cases h1
    · rw [ha] at h1; cases h1
    · rw [ha] at h1; cases h1
      rw [hg] at h2; cases h2
      rw [h7, hred]

/-- When `input` is on the stack, the parser has been where it reduces by the rule of `input`. -/
theorem reach_input {n : Nat} (h : Reach (sem A) stackSize toks (startSt r0) n c stk) (hi : ∃ p ∈ stk, p.2.sym = N.input) :
    ∃ n' c2 stk2 t rem v st, Reach (sem A) stackSize toks (startSt r0) n' c2 stk2 ∧ remOf c2 = t :: rem ∧ stk2.length + 1 < stackSize ∧ topState stk2 ≠ 69 ∧
      actionOn (topState stk2) (tsym t) = some (.reduce 2) ∧ (sem A).reduce 2 ((c2.stk.take (rhs 2).length).map Prod.snd).reverse ((c2.stk.drop (rhs 2).length).head?.map Prod.snd) (prep (sem A) c2).st = .ok v st ∧
      st.res = c.st.res := by
  induction h with
  | init => obtain ⟨p, hp, _⟩ := hi; cases hp
  | @shift n c stk t rem s v hR hr hl h69 ha hla htk ih =>
    obtain ⟨p, hp, hp2⟩ := hi
    have hi' : ∃ p ∈ stk, p.2.sym = N.input := by
      rcases List.mem_cons.1 hp with rfl | hp
      · have := tsym_lt t
        simp only [Tree.sym] at hp2
        rw [hp2] at this; exact absurd this (by decide)
      · exact ⟨p, hp, hp2⟩
    obtain ⟨n', c2, stk2, t', rem', v', st', k1, k2, k3, k4, k5, k6, k7⟩ := ih hi'
    refine ⟨n', c2, stk2, t', rem', v', st', k1, k2, k3, k4, k5, k6, ?_⟩
    rw [k7]
    show _ = (fetch (sem A) c).st.res
    unfold fetch
    split <;> rfl
  | @reduce n c stk t rem r s v st hR hr hl h69 ha hr1 hr2 hlen hg hred ih =>
    obtain ⟨p, hp, hp2⟩ := hi
    rcases List.mem_cons.1 hp with rfl | hp
    · have := input_rule hr2 hp2
      subst this
      exact ⟨n, c, stk, t, rem, v, st, hR, hr, hl, h69, ha, hred, rfl⟩
    · exact absurd hp2 (hR.phase.red h69 ha p (List.mem_of_mem_drop hp))

/-- The parser reduces by the rule of `input` next. -/
theorem nextRule_of {n r : Nat} {t : Tok} {rem : List Tok} (hR : Reach (sem A) stackSize toks (startSt r0) n c stk) (hr : remOf c = t :: rem) (hl : stk.length + 1 < stackSize)
    (h69 : topState stk ≠ 69) (ha : actionOn (topState stk) (tsym t) = some (.reduce r)) : nextRule (lookAhead A c) = some r := by
  rw [lookAhead_prep]
  have hst := prep_stk (sem A) c
  have htop := hR.inv.sim.top
  have hlen := hR.inv.sim.len
  unfold nextRule
  rw [hst, if_neg (by omega), if_neg (by rw [htop]; intro hh; apply h69; simp only [YYFINAL] at hh; omega)]
  unfold actionOn at ha
  rw [htop]
  split at ha
  · cases ha
  · rename_i hn
    rw [hn]
    simp only [ha]
  · rename_i hn
    rw [hn]
    have hla : ∃ v, (prep (sem A) c).la = some (t, v) := by
      have e := prep_rem (sem A) c
      rw [hr] at e
      cases hx : (prep (sem A) c).la with
      | none => exact absurd hn (prep_lazy hR.inv.sim.1 hr hx)
      | some x =>
        obtain ⟨u, v⟩ := x
        unfold remOf at e
        rw [hx] at e
        simp at e
        exact ⟨v, by rw [e.1]⟩
    obtain ⟨v, hv⟩ := hla
    rw [hv]
    simp only [ha]

/-- The parser can be interrupted after any number of `addStatement`. -/
theorem throws_at {n : Nat} (hA : AllocOK A r0) (ht : ∀ t ∈ toks, TokShape t) (hok : ∀ t ∈ toks, ∀ b, t.val = .sval b → ok b)
    (hr : ResOK ok (fun _ => True) r0) (h : Reach (sem A) stackSize toks (startSt r0) n c stk) (hi : ∃ p ∈ stk, p.2.sym = N.input) :
    ∃ m, c.st.res.stmts.length = r0.stmts.length + m ∧ ∀ k, k < m →
      ∃ n' c2 o, stepsTo A n' (initCfg toks (startSt r0)) = some c2 ∧ Throws A c2 o ∧ o.res.stmts.length = r0.stmts.length + k ∧ o.res.isValid = c.st.res.isValid ∧ o.res.errMsg = c.st.res.errMsg := by
  obtain ⟨n', c2, stk2, t, rem, v, st, k1, k2, k3, k4, k5, k6, k7⟩ := reach_input h hi
  have hat := k1.redAt k2 k4 (by omega) k5
  have hrc := k1.rc_prep
  have hty := (typed_rc (A := A) (r0 := r0) (ok := ok) good66_true ht hok hrc).2 (.inl fun _ => trivial)
  obtain ⟨b, vs, hvals, r, hadd, hfin, hrun⟩ := fin_red (good := fun _ => True) hA ht (fun _ _ _ _ => trivial) hrc hty hat hr
  have hp := pending_rc ht hrc hat.before
  have hst := prep_stk (sem A) c2
  have hres : st.res = r := by
    have := (reduce_ok hat.r1 hat.r2 (stk := (prep (sem A) c2).stk) (by rw [hst]; exact k6)).2
    rw [hrun] at this
    injection this with _ this
    rw [← this]
  obtain ⟨f1, f2, f3, f4⟩ := addParams_frame _ _ _ _ hadd
  simp only [] at f2 f3 f4
  refine ⟨vs.length, ?_, fun k hk => ?_⟩
  · rw [← k7, hres, f4, List.length_append, hp.stmts]
  · have hnext := nextRule_of k1 k2 k3 k4 k5
    let st' : St := ({ (prep (sem A) c2).st with res := { (prep (sem A) c2).st.res with stmts := (prep (sem A) c2).st.res.stmts ++ vs.take k } } : St).log [] (b :: addrsL (vs.drop k))
    refine ⟨n', c2, _, reach_stepsTo k1, .action 2 (rhs 2).length st' hnext (ruleLen_eq (by decide) (by decide)) ?_, ?_, ?_, ?_⟩
    · rw [lookAhead_prep]
      unfold actionThrows
      have ea : actions[2 - 2]? = some .finish := rfl
      rw [ea]
      simp only []
      have hv2 : (((prep (sem A) c2).stk.take (rhs 2).length).map Prod.snd).reverse.map Prod.fst = [.vec b vs, .undef] := by
        rw [← hvals]; simp [rhsVals, Function.comp_def]
      rw [hv2]
      exact List.mem_append_left _ (List.mem_map.2 ⟨k, List.mem_range.2 hk, rfl⟩)
    · show ((prep (sem A) c2).st.res.stmts ++ vs.take k).length = _
      rw [List.length_append, hp.stmts, List.length_take]; omega
    · show (prep (sem A) c2).st.res.isValid = _
      rw [← k7, hres, f3]
    · show (prep (sem A) c2).st.res.errMsg = _
      rw [← k7, hres, f2]

end
end Verif.Sem

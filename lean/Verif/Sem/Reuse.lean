import Verif.Sem.Ends
import Verif.Sem.Fill
import Verif.Sem.Pos
import Verif.Sem.Bisim
import Verif.LR.Map
/-! Parsing into a result that already holds statements. Proof-internal. -/
namespace Verif.Sem
open Verif.Lex Verif.LR

/-- Another result object with other statements and parameters. -/
def St.put (S : List V) (P : List Nat) (s : St) : St := { s with res := { s.res with stmts := S, params := P } }
def Out.put (S : List V) (P : List Nat) : Out → Out
  | .ok v s => .ok v (s.put S P)
  | .error s => .error (s.put S P)
  | .ub => .ub

section
variable {S : List V} {P : List Nat}

theorem evalAtom_put (a : Atom) (env : List V) (st : St) : evalAtom a env (st.put S P) = evalAtom a env st := by
  cases a <;> rfl

theorem evalAtoms_put : ∀ (as : List Atom) (env : List V) (st : St), evalAtoms as env (st.put S P) = evalAtoms as env st
  | [], _, _ => rfl
  | a :: as, env, st => by
    simp only [evalAtoms, evalAtom_put]
    cases evalAtom a env st with
    | none => rfl
    | some x => simp only [evalAtoms_put as]

theorem evalRv_put (A : Alloc) (e : Rv) (env : List V) (st : St) : evalRv A e env (st.put S P) = (evalRv A e env st).map fun x => (x.1, x.2.1, x.2.2.put S P) := by
  cases e with
  | atom a =>
    simp only [evalRv, evalAtom_put]
    cases evalAtom a env st <;> rfl
  | obj c fs =>
    simp only [evalRv, evalAtoms_put]
    cases evalAtoms fs env st <;> rfl
  | vec es =>
    simp only [evalRv, evalAtoms_put]
    cases evalAtoms es env st <;> rfl
  | tup fs =>
    simp only [evalRv, evalAtoms_put]
    cases evalAtoms fs env st <;> rfl

theorem evalCond_put (c : Cond) (env : List V) (st : St) : evalCond c env (st.put S P) = evalCond c env st := by
  cases c <;> rfl

theorem run_put (A : Alloc) (loc : Loc) : ∀ (k : Prog) (es : List Path), k.sees es = true → ∀ (env : List V) (st : St),
    run A loc k env (st.put S P) = (run A loc k env st).put S P
  | .ret, _, _, env, st => by cases env <;> rfl
  | .fail, _, _, env, st => rfl
  | .set q e k, es, hk, env, st => by
    simp only [Prog.sees, Bool.and_eq_true] at hk
    simp only [run, evalRv_put]
    cases he : evalRv A e env st with
    | none => rfl
    | some x =>
      obtain ⟨v, env', st'⟩ := x
      simp only [Option.map_some]
      cases getP env' q with
      | none => rfl
      | some old =>
        simp only []
        cases putP env' q v with
        | none => rfl
        | some env'' => exact run_put A loc k _ hk.2 env'' (st'.log [] old.addrs)
  | .push q e k, es, hk, env, st => by
    simp only [Prog.sees, Bool.and_eq_true] at hk
    simp only [run, evalAtom_put]
    cases evalAtom e env st with
    | none => rfl
    | some x =>
      obtain ⟨v, env'⟩ := x
      simp only []
      cases getP env' q with
      | none => rfl
      | some w =>
        cases w with
        | vec a vs =>
          simp only []
          cases putP env' q (.vec a (vs ++ [v])) with
          | none => rfl
          | some env'' => exact run_put A loc k _ (by first | exact hk.2 | exact hk) env'' _
        | _ => rfl
  | .insert q e k, es, hk, env, st => by
    simp only [Prog.sees, Bool.and_eq_true] at hk
    simp only [run, evalAtom_put]
    cases evalAtom e env st with
    | none => rfl
    | some x =>
      obtain ⟨v, env'⟩ := x
      cases v with
      | int n =>
        simp only []
        cases getP env' q with
        | none => rfl
        | some w =>
          cases w with
          | vec a vs =>
            simp only []
            cases putP env' q (.vec a (if hasInt n vs then vs else vs ++ [.int n])) with
            | none => rfl
            | some env'' => exact run_put A loc k _ (by first | exact hk.2 | exact hk) env'' _
          | _ => rfl
      | _ => rfl
  | .del q k, es, hk, env, st => by
    simp only [Prog.sees, Bool.and_eq_true] at hk
    simp only [run]
    cases getP env q with
    | none => rfl
    | some v =>
      simp only []
      cases treat .del v with
      | none => rfl
      | some x =>
        simp only []
        cases putP env q .undef with
        | none => rfl
        | some env' => exact run_put A loc k _ hk env' (st.log x.1 x.2)
  | .free q k, es, hk, env, st => by
    simp only [Prog.sees, Bool.and_eq_true] at hk
    simp only [run]
    cases getP env q with
    | none => rfl
    | some v =>
      simp only []
      cases treat .str v with
      | none => rfl
      | some x =>
        simp only []
        cases putP env q .undef with
        | none => rfl
        | some env' => exact run_put A loc k _ hk env' (st.log x.1 x.2)
  | .ite c t e, es, hk, env, st => by
    simp only [Prog.sees, Bool.and_eq_true] at hk
    simp only [run, evalCond_put]
    cases evalCond c env st with
    | none => rfl
    | some b =>
      cases b with
      | true => exact run_put A loc t _ hk.1.2 env _
      | false => exact run_put A loc e _ hk.2 env _
  | .err m k, es, hk, env, st => by
    simp only [Prog.sees, Bool.and_eq_true] at hk
    simp only [run]
    exact run_put A loc k _ (by first | exact hk.2 | exact hk) env (st.yyerror A m loc.fl loc.fc)
  | .errName m q k, es, hk, env, st => by
    simp only [Prog.sees, Bool.and_eq_true] at hk
    simp only [run]
    cases strAt env q with
    | none => rfl
    | some b => exact run_put A loc k _ (by first | exact hk.2 | exact hk) env (st.yyerror A (m ++ b) loc.fl loc.fc)
  | .zeroLen k, es, hk, env, st => by
    simp only [Prog.sees, Bool.and_eq_true] at hk
    simp only [run]
    exact run_put A loc k _ (by first | exact hk.2 | exact hk) env { st with yylloc := { st.yylloc with len := 0 } }
  | .regParam q k, es, hk, env, st => by
    simp only [Prog.sees, Bool.and_eq_true] at hk
    simp only [run]
    cases getP env q with
    | none => rfl
    | some v =>
      simp only []
      cases v.addr? with
      | none => rfl
      | some a => exact run_put A loc k _ (by first | exact hk.2 | exact hk) env { st with plist := st.plist ++ [a] }
  | .split p q k, es, hk, env, st => by
    simp only [Prog.sees, Bool.and_eq_true] at hk
    simp only [run]
    cases getP env q with
    | none => rfl
    | some w =>
      cases w with
      | vec b vs =>
        simp only []
        cases putP env q (.vec b []) with
        | none => rfl
        | some env1 =>
          simp only []
          show (match getP env1 ⟨p.var, p.sels ++ [.fld 10]⟩, getP env1 ⟨p.var, p.sels ++ [.fld 11]⟩ with
            | some o1, some o2 => _ | _, _ => _) = Out.put S P (match getP env1 ⟨p.var, p.sels ++ [.fld 10]⟩, getP env1 ⟨p.var, p.sels ++ [.fld 11]⟩ with
            | some o1, some o2 => _ | _, _ => _)
          cases getP env1 ⟨p.var, p.sels ++ [.fld 10]⟩ with
          | none => rfl
          | some o1 =>
            cases getP env1 ⟨p.var, p.sels ++ [.fld 11]⟩ with
            | none => rfl
            | some o2 =>
              simp only []
              show (match putP env1 ⟨p.var, p.sels ++ [.fld 10]⟩ (V.vec (A.new st.nalloc) (vs.filter isColumnDef)) with | some env2 => _ | none => _) =
                Out.put S P (match putP env1 ⟨p.var, p.sels ++ [.fld 10]⟩ (V.vec (A.new st.nalloc) (vs.filter isColumnDef)) with | some env2 => _ | none => _)
              cases putP env1 ⟨p.var, p.sels ++ [.fld 10]⟩ (V.vec (A.new st.nalloc) (vs.filter isColumnDef)) with
              | none => rfl
              | some env2 =>
                simp only []
                show (match putP env2 ⟨p.var, p.sels ++ [.fld 11]⟩ (V.vec (A.new (st.nalloc + 1)) (vs.filter isConstraint)) with | some env3 => _ | none => _) =
                  Out.put S P (match putP env2 ⟨p.var, p.sels ++ [.fld 11]⟩ (V.vec (A.new (st.nalloc + 1)) (vs.filter isConstraint)) with | some env3 => _ | none => _)
                cases putP env2 ⟨p.var, p.sels ++ [.fld 11]⟩ (V.vec (A.new (st.nalloc + 1)) (vs.filter isConstraint)) with
                | none => rfl
                | some env3 => exact run_put A loc k _ hk env3 (st.bump.bump.log [] (o1.addrs ++ o2.addrs ++ addrsL (vs.filter fun v => !isColumnDef v && !isConstraint v)))
      | _ => rfl
  | .finish, _, hk, _, _ => by simp [Prog.sees] at hk
end

/-- The state of a run into `r0`, compared to that of a run into an empty result. -/
def Plus (r0 : Res) (s s' : St) : Prop := ∃ P, s' = s.put (r0.stmts ++ s.res.stmts) P ∧ P.Perm (r0.params ++ s.res.params)

theorem put_self (s : St) : s.put s.res.stmts s.res.params = s := rfl

/-- No action but the last touches the statements and parameters of the result. -/
theorem run_keeps {A : Alloc} {loc : Loc} {k : Prog} {es : List Path} (hk : k.sees es = true) (env : List V) (st : St) :
    (∀ v st', run A loc k env st = .ok v st' → st'.res.stmts = st.res.stmts ∧ st'.res.params = st.res.params) ∧
    (∀ st', run A loc k env st = .error st' → st'.res.stmts = st.res.stmts ∧ st'.res.params = st.res.params) := by
  have h := run_put (S := st.res.stmts) (P := st.res.params) A loc k es hk env st
  rw [put_self] at h
  constructor
  · intro v st' e
    rw [e] at h
    simp only [Out.put, Out.ok.injEq, true_and] at h
    rw [h]; exact ⟨rfl, rfl⟩
  · intro st' e
    rw [e] at h
    simp only [Out.put, Out.error.injEq] at h
    rw [h]; exact ⟨rfl, rfl⟩

def Out.Plus (r0 : Res) : Out → Out → Prop
  | .ok v s, .ok v' s' => v = v' ∧ Sem.Plus r0 s s'
  | .error s, .error s' => Sem.Plus r0 s s'
  | .ub, .ub => True
  | _, _ => False

theorem run_plus {A : Alloc} {loc : Loc} {r0 : Res} {k : Prog} {es : List Path} (hk : k.sees es = true) (env : List V) {st st' : St} (h : Plus r0 st st') :
    (run A loc k env st).Plus r0 (run A loc k env st') := by
  obtain ⟨P, rfl, hp⟩ := h
  rw [run_put A loc k es hk]
  have hf := run_keeps (A := A) (loc := loc) hk env st
  cases hr : run A loc k env st with
  | ub => trivial
  | ok v s =>
    obtain ⟨e1, e2⟩ := hf.1 v s hr
    exact ⟨rfl, P, by rw [e1], by rw [e2]; exact hp⟩
  | error s =>
    obtain ⟨e1, e2⟩ := hf.2 s hr
    exact ⟨P, by rw [e1], by rw [e2]; exact hp⟩

theorem plus_log {r0 : Res} {s s' : St} (h : Plus r0 s s') (f l : List Nat) : Plus r0 (s.log f l) (s'.log f l) := by
  obtain ⟨P, rfl, hp⟩ := h
  exact ⟨P, rfl, hp⟩

theorem plus_yyerror {A : Alloc} {r0 : Res} {s s' : St} (h : Plus r0 s s') (m : Bytes) : Plus r0 (s.yyerror A m s.yylloc.loc.fl s.yylloc.loc.fc) (s'.yyerror A m s'.yylloc.loc.fl s'.yylloc.loc.fc) := by
  obtain ⟨P, rfl, hp⟩ := h
  exact ⟨P, rfl, hp⟩

structure CPlus (r0 : Res) (c c' : Cfg St SV) : Prop where
  stk : c.stk = c'.stk
  la : c.la = c'.la
  toks : c.toks = c'.toks
  st : Plus r0 c.st c'.st

section
variable {A : Alloc} {toks ts : List Tok} {e : Tok} {junk : List Tok} {r0 : Res} {c c' : Cfg St SV} {stk : TStk}

theorem readTok_plus (t : Tok) {s s' : St} (h : Plus r0 s s') : (readTok A t s).1 = (readTok A t s').1 ∧ Plus r0 (readTok A t s).2 (readTok A t s').2 := by
  obtain ⟨P, rfl, hp⟩ := h
  exact ⟨rfl, P, rfl, hp⟩

theorem CPlus.fetch (h : CPlus r0 c c') : CPlus r0 (fetch (sem A) c) (fetch (sem A) c') := by
  obtain ⟨stk, la, toks, st⟩ := c
  obtain ⟨stk', la', toks', st'⟩ := c'
  obtain ⟨rfl, rfl, rfl, h4⟩ := h
  cases la with
  | some x => exact ⟨rfl, rfl, rfl, h4⟩
  | none =>
    cases toks with
    | nil => exact ⟨rfl, rfl, rfl, h4⟩
    | cons t toks =>
      obtain ⟨e1, e2⟩ := readTok_plus (A := A) t h4
      refine ⟨rfl, ?_, rfl, e2⟩
      show some (t, (readTok A t st).1) = some (t, (readTok A t st').1)
      rw [e1]

theorem CPlus.prep (h : CPlus r0 c c') : CPlus r0 (prep (sem A) c) (prep (sem A) c') := by
  unfold LR.prep
  rw [← h.stk]
  split
  · exact h.fetch
  · exact h

theorem CPlus.rem (h : CPlus r0 c c') : remOf c = remOf c' := by
  unfold remOf
  rw [h.la, h.toks]

/-- The empty result `r0` is compared with. -/
def emptied (r0 : Res) : Res := { r0 with stmts := [], params := [] }

theorem emptied_ok (hA : AllocOK A r0) : AllocOK A (emptied r0) where
  tok := hA.tok
  new := hA.new
  ne := hA.ne
  old := by
    have := hA.old
    show (r0.errAddr ++ addrsL []).Nodup
    simp only [addrsL, List.append_nil]
    exact (List.nodup_append.1 this).1
  tokOld := by
    intro i h
    have h : A.tok i ∈ r0.errAddr ++ addrsL [] := h
    simp only [addrsL, List.append_nil] at h
    exact hA.tokOld i (List.mem_append_left _ h)
  newOld := by
    intro i h
    have h : A.new i ∈ r0.errAddr ++ addrsL [] := h
    simp only [addrsL, List.append_nil] at h
    exact hA.newOld i (List.mem_append_left _ h)

theorem numberL_absent {vs : List V} : ∀ (l : List Nat) (k : Nat), (∀ a ∈ l, acL a vs = 0) → numberL l k vs = vs
  | [], _, _ => rfl
  | a :: l, k, h => by
    rw [numberL, setIvalL_absent vs (h a (by simp))]
    exact numberL_absent l (k + 1) fun b hb => h b (by simp [hb])

theorem finish_only0 : (actions.zipIdx.all fun x => !isFin x.1 || x.2 == 0) = true := by decide +kernel
theorem finish_only {r : Nat} (h1 : 2 ≤ r) (h : actions[r - 2]? = some .finish) : r = 2 := by
  have hm : (Prog.finish, r - 2) ∈ actions.zipIdx := by
    rw [List.mem_zipIdx_iff_getElem?]; exact h
  have := List.all_eq_true.1 finish_only0 _ hm
  simp only [isFin, Bool.not_true, Bool.false_or, beq_iff_eq] at this
  omega

theorem reduce_plus (hA : AllocOK A r0) (ht : ∀ t ∈ toks, TokShape t) (hr0 : ResOK (fun _ => True) (fun _ => True) r0)
    (h : RC (sem A) toks (startSt (emptied r0)) c stk) {stk' : TStk} (h' : RC (sem A) toks (startSt r0) c' stk') (hc : CPlus r0 c c') {r : Nat} (hat : RedAt c stk r) (hat' : RedAt c' stk' r) :
    (match (sem A).reduce r ((c.stk.take (rhs r).length).map Prod.snd).reverse ((c.stk.drop (rhs r).length).head?.map Prod.snd) c.st,
      (sem A).reduce r ((c'.stk.take (rhs r).length).map Prod.snd).reverse ((c'.stk.drop (rhs r).length).head?.map Prod.snd) c'.st with
      | .ok v s, .ok v' s' => v = v' ∧ Plus r0 s s'
      | .error s, .error s' => Plus r0 s s'
      | .ub, .ub => True
      | _, _ => False) := by
  rw [reduce_run A hat.r1 hat.r2, reduce_run A hat.r1 hat.r2]
  have hst := hc.stk
  rw [← hst]
  by_cases hr2 : r = 2
  · subst hr2
    have hty := (typed_rc good66_true ht (fun _ _ _ _ => trivial) h).2 (Or.inl fun _ => trivial)
    have hty' := (typed_rc good66_true ht (fun _ _ _ _ => trivial) h').2 (Or.inl fun _ => trivial)
    have hre : ResOK (fun _ => True) (fun _ => True) (emptied r0) := ⟨(by intro v hv; cases hv), (by intro a ha; cases ha)⟩
    obtain ⟨b, vs, hv, r, ha, hf, hrun⟩ := fin_red (emptied_ok hA) ht (fun _ _ _ _ => trivial) h hty hat hre
    obtain ⟨b', vs', hv', r', ha', hf', hrun'⟩ := fin_red hA ht (fun _ _ _ _ => trivial) h' hty' hat' hr0
    rw [← hst] at hrun' hv'
    rw [hrun, hrun']
    rw [hv] at hv'
    simp only [List.cons.injEq, V.vec.injEq, and_true] at hv'
    obtain ⟨rfl, rfl⟩ := hv'
    refine ⟨rfl, ?_⟩
    have hp := pending_rc ht h hat.before
    have hp' := pending_rc ht h' hat'.before
    obtain ⟨P, hP, hPp⟩ := hc.st
    have hpl : c'.st.plist = c.st.plist := by rw [hP]; rfl
    obtain ⟨_, _, hb, _, _, hstm, hkp⟩ := hf.vs
    cases hb
    obtain ⟨_, _, hb', _, _, hstm', hkp'⟩ := hf'.vs
    cases hb'
    obtain ⟨rd, _, _, hown⟩ := (owned_rc h').acc
    have habs : ∀ a ∈ c.st.plist, acL a r0.stmts = 0 := by
      intro a hm
      have h1 := hown a
      have h2 := total_le hA a rd c'.st.nalloc
      rw [← hst, acL_split a (rhs 2).length, hv, acL_cons, ac_vec] at h1
      simp only [St.tot] at h1
      rw [hp'.stmts] at h1
      have h3 : 1 ≤ acL a vs := by
        have h4 := fcL_le_acL a vs
        have h5 := List.perm_iff_count.1 (hkp.map Prod.fst) a
        rw [keyed_fst] at h5
        have h6 : 0 < c.st.plist.count a := List.count_pos_iff.2 hm
        have h7 : fcL a vs = ((parsL vs).map Prod.fst).count a := rfl
        omega
      omega
    have e1 := addParams_pos _ _ _ _ ha
    have e2 := addParams_pos _ _ _ _ ha'
    refine ⟨r'.params, ?_, ?_⟩
    · rw [hpl, numberL_append, numberL_absent _ _ habs] at hstm'
      simp only [emptied, List.nil_append] at hstm
      have hr' : r' = { r with stmts := r0.stmts ++ r.stmts, params := r'.params } := by
        obtain ⟨f1, f2, f3, f4⟩ := e1
        obtain ⟨g1, g2, g3, g4⟩ := e2
        rw [hP] at g1 g2 g3 g4
        simp only [St.put] at g1 g2 g3 g4
        rw [← f1] at g1
        rw [← f2] at g2
        rw [← f3] at g3
        rw [← f4] at g4
        rw [hstm]
        obtain ⟨x1, x2, x3, x4, x5, x6⟩ := r'
        simp only [] at g1 g2 g3 g4 hstm'
        rw [g1, g2, g3, g4, hstm']
      rw [hP]
      simp only [St.put]
      rw [← hr']
    · have q1 := hf.fresh rfl
      have q2 := hf'.perm
      rw [hpl] at q2
      simp only []
      rw [q1.1]
      exact q2
  · have hact := act_get hat.r1 hat.r2
    rcases looked_sees hat.r1 hact with hfn | hs
    · exact absurd (finish_only hat.r1 (by rw [hact, hfn])) hr2
    · have key := run_plus (A := A) (loc := redLoc c.stk (rhs r).length) hs (mkEnv (rhsVals c.stk (rhs r).length)) hc.st
      generalize run A (redLoc c.stk (rhs r).length) (act r) (mkEnv (rhsVals c.stk (rhs r).length)) c.st = o at key
      generalize run A (redLoc c.stk (rhs r).length) (act r) (mkEnv (rhsVals c.stk (rhs r).length)) c'.st = o' at key
      cases o <;> cases o' <;> simp only [Out.Plus] at key ⊢
      · exact ⟨by rw [key.1], key.2⟩
      · exact key

/-- Two states still running, or two ends, or both undefined. -/
def SPlus (r0 : Res) : SRes St SV → SRes St SV → Prop
  | .run c, .run c' => CPlus r0 c c'
  | .done o c, .done o' c' => o = o' ∧ c.stk = c'.stk ∧ c.la = c'.la ∧ Plus r0 c.st c'.st
  | .ub, .ub => True
  | _, _ => False

variable {lim : Nat}

theorem step_plus (hA : AllocOK A r0) (ht : ∀ t ∈ toks, TokShape t) (hr0 : ResOK (fun _ => True) (fun _ => True) r0) (hin : Input toks ts e junk) {n n' : Nat} {stk' : TStk}
    (h : Reach (sem A) lim toks (startSt (emptied r0)) n c stk) (h' : Reach (sem A) lim toks (startSt r0) n' c' stk') (hc : CPlus r0 c c') :
    SPlus r0 (step (sem A) lim c) (step (sem A) lim c') := by
  have hst := hc.stk
  by_cases hl : lim ≤ c.stk.length + 1
  · rw [step_exh hl, step_exh (by rw [← hst]; exact hl)]
    exact ⟨rfl, hc.stk, hc.la, hc.st⟩
  by_cases h69 : topState c.stk = 69
  · rw [step_acc hl h69, step_acc (by rw [← hst]; exact hl) (by rw [← hst]; exact h69)]
    exact ⟨rfl, hc.stk, hc.la, hc.st⟩
  have htop := h.inv.sim.top
  have hlen := h.inv.sim.len
  have htop' := h'.inv.sim.top
  have hlen' := h'.inv.sim.len
  have hne : ∃ t rem, remOf c = t :: rem := by
    rcases h.rest hin with ⟨_, suf, h1, _⟩ | ⟨h1, _⟩
    · cases suf with
      | nil => exact ⟨e, junk, h1⟩
      | cons x suf => exact ⟨x, suf ++ e :: junk, h1⟩
    · exact absurd (htop.trans h1) h69
  obtain ⟨t, rem, hr⟩ := hne
  have hr' : remOf c' = t :: rem := by rw [← hc.rem]; exact hr
  have hl' : ¬ lim ≤ c'.stk.length + 1 := by rw [← hst]; exact hl
  have h69' : topState c'.stk ≠ 69 := by rw [← hst]; exact h69
  rw [step_eq (sem A) (by omega) h69 hr, step_eq (sem A) (by omega) h69' hr', ← hst]
  have hp := hc.prep (A := A)
  cases ha : actionOn (topState c.stk) (tsym t) with
  | none => trivial
  | some a =>
    cases a with
    | error => exact ⟨rfl, hp.stk, hp.la, hp.st⟩
    | shift s =>
      simp only [doAct]
      rw [← hp.la]
      cases h1 : (prep (sem A) c).la with
      | none => trivial
      | some x =>
        refine ⟨?_, rfl, hp.toks, hp.st⟩
        show (s, x.2) :: (prep (sem A) c).stk = (s, x.2) :: (prep (sem A) c').stk
        rw [hp.stk]
    | reduce r =>
      have hat := h.redAt hr (by rw [← htop]; exact h69) (by rw [← hlen]; exact hl) (by rw [← htop]; exact ha)
      have hat' := h'.redAt hr' (by rw [← htop']; exact h69') (by rw [← hlen']; exact hl') (by rw [← htop', ← hst]; exact ha)
      have key := reduce_plus hA ht hr0 h.rc_prep h'.rc_prep hp hat hat'
      simp only [doAct, doReduce, ruleLen_eq (show 1 ≤ r by have := hat.r1; omega) hat.r2]
      cases hlh : ruleLhs r with
      | none => trivial
      | some B =>
        simp only []
        have hl1 := hat.len
        have hl2 := hat'.len
        rw [if_neg (by omega), if_neg (by omega)]
        rw [← hp.stk] at key ⊢
        generalize (sem A).reduce r (((prep (sem A) c).stk.take (rhs r).length).map Prod.snd).reverse (((prep (sem A) c).stk.drop (rhs r).length).head?.map Prod.snd) (prep (sem A) c).st = o at key ⊢
        generalize (sem A).reduce r (((prep (sem A) c).stk.take (rhs r).length).map Prod.snd).reverse (((prep (sem A) c).stk.drop (rhs r).length).head?.map Prod.snd) (prep (sem A) c').st = o' at key ⊢
        cases o with
        | ub => cases o' with
          | ub => trivial
          | _ => cases key
        | error st =>
          cases o' with
          | error st' => exact ⟨rfl, rfl, hp.la, key⟩
          | _ => cases key
        | ok v st =>
          cases o' with
          | ok v' st' =>
            obtain ⟨rfl, key⟩ := key
            simp only []
            cases gotoState (topState ((prep (sem A) c).stk.drop (rhs r).length)) B with
            | none => trivial
            | some s => exact ⟨rfl, hp.la, hp.toks, key⟩
          | _ => cases key

/-- Two ends, or both undefined, or both still running. -/
def NPlus (r0 : Res) : Option (Option (Outcome × Cfg St SV)) → Option (Option (Outcome × Cfg St SV)) → Prop
  | some (some x), some (some y) => x.1 = y.1 ∧ x.2.stk = y.2.stk ∧ x.2.la = y.2.la ∧ Plus r0 x.2.st y.2.st
  | some none, some none => True
  | none, none => True
  | _, _ => False

theorem runN_plus (hA : AllocOK A r0) (ht : ∀ t ∈ toks, TokShape t) (hr0 : ResOK (fun _ => True) (fun _ => True) r0) (hin : Input toks ts e junk) : ∀ (m n n' : Nat) (c c' : Cfg St SV) (stk stk' : TStk),
    Reach (sem A) lim toks (startSt (emptied r0)) n c stk → Reach (sem A) lim toks (startSt r0) n' c' stk' → CPlus r0 c c' → NPlus r0 (runN (sem A) lim m c) (runN (sem A) lim m c')
  | 0, _, _, _, _, _, _, _, _, _ => trivial
  | m + 1, n, n', c, c', stk, stk', h, h', hc => by
    have hs := step_plus hA ht hr0 hin h h' hc
    unfold runN
    cases e1 : step (sem A) lim c with
    | ub =>
      cases e2 : step (sem A) lim c' with
      | ub => trivial
      | _ => rw [e1, e2] at hs; cases hs
    | done o d =>
      cases e2 : step (sem A) lim c' with
      | done o' d' => rw [e1, e2] at hs; exact hs
      | _ => rw [e1, e2] at hs; cases hs
    | run d =>
      cases e2 : step (sem A) lim c' with
      | run d' =>
        rw [e1, e2] at hs
        have hne : ∃ t rem, remOf c = t :: rem := by
          rcases h.rest hin with ⟨_, suf, h1, _⟩ | ⟨h1, _⟩
          · cases suf with
            | nil => exact ⟨e, junk, h1⟩
            | cons x suf => exact ⟨x, suf ++ e :: junk, h1⟩
          · exfalso
            have htop := h.inv.sim.top
            by_cases hl : lim ≤ c.stk.length + 1
            · rw [step_exh hl] at e1; cases e1
            · rw [step_acc hl (htop.trans h1)] at e1; cases e1
        obtain ⟨t, rem, hr⟩ := hne
        obtain ⟨_, hn⟩ := h.next hr e1
        obtain ⟨_, hn'⟩ := h'.next (by rw [← hc.rem]; exact hr) e2
        exact runN_plus hA ht hr0 hin m (n + 1) (n' + 1) d d' _ _ hn hn' hs
      | _ => rw [e1, e2] at hs; cases hs

/-- Two results of a destructor. -/
def OPlus (r0 : Res) : Option St → Option St → Prop
  | some s, some s' => Plus r0 s s'
  | none, none => True
  | _, _ => False

theorem destruct_plus {sym : Nat} {v : V} {s s' : St} (h : Plus r0 s s') : OPlus r0 (destruct sym v s) (destruct sym v s') := by
  unfold destruct
  cases treat (destructors.getD sym .keep) v with
  | none => trivial
  | some x => exact plus_log h x.1 x.2

theorem popAll_plus : ∀ (stk : List (Nat × SV)) (s s' : St), Plus r0 s s' → OPlus r0 (popAll stk s) (popAll stk s')
  | [], _, _, h => h
  | (q, v) :: stk, s, s', h => by
    unfold popAll
    have key := destruct_plus (sym := (yystos.getD q 0).toNat) (v := v.1) h
    generalize destruct (yystos.getD q 0).toNat v.1 s = o at key ⊢
    generalize destruct (yystos.getD q 0).toNat v.1 s' = o' at key ⊢
    cases o <;> cases o'
    · trivial
    · cases key
    · cases key
    · exact popAll_plus stk _ _ key

theorem dropLa_plus {la : Option (Tok × SV)} {s s' : St} (h : Plus r0 s s') : OPlus r0 (dropLookahead la s) (dropLookahead la s') := by
  cases la with
  | none => exact h
  | some x => exact destruct_plus h

/-- Two results of `hsql_parse`. -/
def RPlus (r0 : Res) : Option (Int × St) → Option (Int × St) → Prop
  | some x, some y => x.1 = y.1 ∧ Plus r0 x.2 y.2
  | none, none => True
  | _, _ => False

theorem OPlus.bind {x x' : Option St} {f f' : St → Option (Int × St)} (h : OPlus r0 x x') (hf : ∀ s s', Plus r0 s s' → RPlus r0 (f s) (f' s')) : RPlus r0 (x.bind f) (x'.bind f') := by
  cases x <;> cases x'
  · trivial
  · cases h
  · cases h
  · exact hf _ _ h

theorem OPlus.ret {x x' : Option St} (h : OPlus r0 x x') (k : Int) : RPlus r0 (x.bind fun s => some (k, s)) (x'.bind fun s => some (k, s)) :=
  h.bind fun _ _ hs => ⟨rfl, hs⟩

theorem finishRun_plus (o : Outcome) (h1 : c.stk = c'.stk) (h2 : c.la = c'.la) (h3 : Plus r0 c.st c'.st) : RPlus r0 (finishRun A o c) (finishRun A o c') := by
  cases o with
  | accept =>
    simp only [finishRun, Option.bind_eq_bind, ← h1, ← h2]
    exact (dropLa_plus h3).bind fun s s' e => (popAll_plus _ _ _ e).ret 0
  | semError =>
    simp only [finishRun, Option.bind_eq_bind, ← h1, ← h2]
    exact (popAll_plus _ _ _ h3).bind fun s s' e => (dropLa_plus e).ret 1
  | exhausted =>
    simp only [finishRun, Option.bind_eq_bind, ← h1, ← h2]
    exact (dropLa_plus (plus_yyerror h3 _)).bind fun s s' e => (popAll_plus _ _ _ e).ret 2
  | syntaxError =>
    simp only [finishRun, Option.bind_eq_bind, ← h1, ← h2]
    cases c.la with
    | none => trivial
    | some x => exact (popAll_plus _ _ _ (plus_yyerror h3 _)).bind fun s s' e => (dropLa_plus e).ret 1

theorem nplus_fin {x y : Option (Option (Outcome × Cfg St SV))} : NPlus r0 x y →
    RPlus r0 (match x with | some (some (o, c)) => finishRun A o c | _ => none) (match y with | some (some (o, c)) => finishRun A o c | _ => none) := by
  intro h
  cases x with
  | none => cases y with
    | none => trivial
    | some y => cases y <;> cases h
  | some x => cases x with
    | none => cases y with
      | none => cases h
      | some y => cases y with
        | none => trivial
        | some _ => cases h
    | some x => cases y with
      | none => cases h
      | some y => cases y with
        | none => cases h
        | some y =>
          obtain ⟨o, c⟩ := x
          obtain ⟨o', c'⟩ := y
          obtain ⟨h1, h2, h3, h4⟩ := h
          simp only [] at h1
          subst h1
          exact finishRun_plus o h2 h3 h4

theorem hsqlParse_plus (hA : AllocOK A r0) (ht : ∀ t ∈ toks, TokShape t) (hr0 : ResOK (fun _ => True) (fun _ => True) r0) (hin : Input toks ts e junk) :
    RPlus r0 (hsqlParse A toks (emptied r0)) (hsqlParse A toks r0) := by
  have h0 : CPlus r0 (initCfg toks (startSt (emptied r0))) (initCfg toks (startSt r0)) :=
    ⟨rfl, rfl, rfl, r0.params, by show _ = St.put (r0.stmts ++ []) _ _; rw [List.append_nil]; rfl, by show r0.params.Perm (r0.params ++ []); rw [List.append_nil]⟩
  have key := fun m => runN_plus (A := A) (lim := stackSize) hA ht hr0 hin m 0 0 _ _ [] [] .init .init h0
  unfold hsqlParse runLR
  exact nplus_fin (key _)

end
end Verif.Sem

import Verif.Sem.Bisim
import Verif.LR.Map
/-! `isValid` is written by a parse before anything reads it. Proof-internal. -/
namespace Verif.Sem
open Verif.Lex Verif.LR

/-- The same state with `isValid` cleared. -/
def St.dull (s : St) : St := { s with res := { s.res with isValid := false } }
def Out.dull : Out → Out
  | .ok v s => .ok v s.dull
  | .error s => .error s.dull
  | .ub => .ub

section
theorem evalAtom_dull (a : Atom) (env : List V) (st : St) : evalAtom a env (st.dull) = evalAtom a env st := by
  cases a <;> rfl

theorem evalAtoms_dull : ∀ (as : List Atom) (env : List V) (st : St), evalAtoms as env (st.dull) = evalAtoms as env st
  | [], _, _ => rfl
  | a :: as, env, st => by
    simp only [evalAtoms, evalAtom_dull]
    cases evalAtom a env st with
    | none => rfl
    | some x => simp only [evalAtoms_dull as]

theorem evalRv_dull (A : Alloc) (e : Rv) (env : List V) (st : St) : evalRv A e env (st.dull) = (evalRv A e env st).map fun x => (x.1, x.2.1, x.2.2.dull) := by
  cases e with
  | atom a =>
    simp only [evalRv, evalAtom_dull]
    cases evalAtom a env st <;> rfl
  | obj c fs =>
    simp only [evalRv, evalAtoms_dull]
    cases evalAtoms fs env st <;> rfl
  | vec es =>
    simp only [evalRv, evalAtoms_dull]
    cases evalAtoms es env st <;> rfl
  | tup fs =>
    simp only [evalRv, evalAtoms_dull]
    cases evalAtoms fs env st <;> rfl

theorem evalCond_dull (c : Cond) (env : List V) (st : St) : evalCond c env (st.dull) = evalCond c env st := by
  cases c <;> rfl

theorem run_dull (A : Alloc) (loc : Loc) : ∀ (k : Prog) (es : List Path), k.sees es = true → ∀ (env : List V) (st : St),
    run A loc k env (st.dull) = (run A loc k env st).dull
  | .ret, _, _, env, st => by cases env <;> rfl
  | .fail, _, _, env, st => rfl
  | .set q e k, es, hk, env, st => by
    simp only [Prog.sees, Bool.and_eq_true] at hk
    simp only [run, evalRv_dull]
    cases he : evalRv A e env st with
    | none => rfl
    | some x =>
      obtain ⟨v, env', st'⟩ := x
      simp only [Option.map_some]
      cases getP env' q with
      | none => rfl
      | some old =>
        simp only []
        cases putP env' q v with
        | none => rfl
        | some env'' => exact run_dull A loc k _ hk.2 env'' (st'.log [] old.addrs)
  | .push q e k, es, hk, env, st => by
    simp only [Prog.sees, Bool.and_eq_true] at hk
    simp only [run, evalAtom_dull]
    cases evalAtom e env st with
    | none => rfl
    | some x =>
      obtain ⟨v, env'⟩ := x
      simp only []
      cases getP env' q with
      | none => rfl
      | some w =>
        cases w with
        | vec a vs =>
          simp only []
          cases putP env' q (.vec a (vs ++ [v])) with
          | none => rfl
          | some env'' => exact run_dull A loc k _ (by first | exact hk.2 | exact hk) env'' _
        | _ => rfl
  | .insert q e k, es, hk, env, st => by
    simp only [Prog.sees, Bool.and_eq_true] at hk
    simp only [run, evalAtom_dull]
    cases evalAtom e env st with
    | none => rfl
    | some x =>
      obtain ⟨v, env'⟩ := x
      cases v with
      | int n =>
        simp only []
        cases getP env' q with
        | none => rfl
        | some w =>
          cases w with
          | vec a vs =>
            simp only []
            cases putP env' q (.vec a (if hasInt n vs then vs else vs ++ [.int n])) with
            | none => rfl
            | some env'' => exact run_dull A loc k _ (by first | exact hk.2 | exact hk) env'' _
          | _ => rfl
      | _ => rfl
  | .del q k, es, hk, env, st => by
    simp only [Prog.sees, Bool.and_eq_true] at hk
    simp only [run]
    cases getP env q with
    | none => rfl
    | some v =>
      simp only []
      cases treat .del v with
      | none => rfl
      | some x =>
        simp only []
        cases putP env q .undef with
        | none => rfl
        | some env' => exact run_dull A loc k _ hk env' (st.log x.1 x.2)
  | .free q k, es, hk, env, st => by
    simp only [Prog.sees, Bool.and_eq_true] at hk
    simp only [run]
    cases getP env q with
    | none => rfl
    | some v =>
      simp only []
      cases treat .str v with
      | none => rfl
      | some x =>
        simp only []
        cases putP env q .undef with
        | none => rfl
        | some env' => exact run_dull A loc k _ hk env' (st.log x.1 x.2)
  | .ite c t e, es, hk, env, st => by
    simp only [Prog.sees, Bool.and_eq_true] at hk
    simp only [run, evalCond_dull]
    cases evalCond c env st with
    | none => rfl
    | some b =>
      cases b with
      | true => exact run_dull A loc t _ hk.1.2 env _
      | false => exact run_dull A loc e _ hk.2 env _
  | .err m k, es, hk, env, st => by
    simp only [Prog.sees, Bool.and_eq_true] at hk
    simp only [run]
    exact run_dull A loc k _ (by first | exact hk.2 | exact hk) env (st.yyerror A m loc.fl loc.fc)
  | .errName m q k, es, hk, env, st => by
    simp only [Prog.sees, Bool.and_eq_true] at hk
    simp only [run]
    cases strAt env q with
    | none => rfl
    | some b => exact run_dull A loc k _ (by first | exact hk.2 | exact hk) env (st.yyerror A (m ++ b) loc.fl loc.fc)
  | .zeroLen k, es, hk, env, st => by
    simp only [Prog.sees, Bool.and_eq_true] at hk
    simp only [run]
    exact run_dull A loc k _ (by first | exact hk.2 | exact hk) env { st with yylloc := { st.yylloc with len := 0 } }
  | .regParam q k, es, hk, env, st => by
    simp only [Prog.sees, Bool.and_eq_true] at hk
    simp only [run]
    cases getP env q with
    | none => rfl
    | some v =>
      simp only []
      cases v.addr? with
      | none => rfl
      | some a => exact run_dull A loc k _ (by first | exact hk.2 | exact hk) env { st with plist := st.plist ++ [a] }
  | .split p q k, es, hk, env, st => by
    simp only [Prog.sees, Bool.and_eq_true] at hk
    simp only [run]
    cases getP env q with
    | none => rfl
    | some w =>
      cases w with
      | vec b vs =>
        simp only []
        cases putP env q (.vec b []) with
        | none => rfl
        | some env1 =>
          simp only []
          show (match getP env1 ⟨p.var, p.sels ++ [.fld 10]⟩, getP env1 ⟨p.var, p.sels ++ [.fld 11]⟩ with
            | some o1, some o2 => _ | _, _ => _) = Out.dull (match getP env1 ⟨p.var, p.sels ++ [.fld 10]⟩, getP env1 ⟨p.var, p.sels ++ [.fld 11]⟩ with
            | some o1, some o2 => _ | _, _ => _)
          cases getP env1 ⟨p.var, p.sels ++ [.fld 10]⟩ with
          | none => rfl
          | some o1 =>
            cases getP env1 ⟨p.var, p.sels ++ [.fld 11]⟩ with
            | none => rfl
            | some o2 =>
              simp only []
              show (match putP env1 ⟨p.var, p.sels ++ [.fld 10]⟩ (V.vec (A.new st.nalloc) (vs.filter isColumnDef)) with | some env2 => _ | none => _) =
                Out.dull (match putP env1 ⟨p.var, p.sels ++ [.fld 10]⟩ (V.vec (A.new st.nalloc) (vs.filter isColumnDef)) with | some env2 => _ | none => _)
              cases putP env1 ⟨p.var, p.sels ++ [.fld 10]⟩ (V.vec (A.new st.nalloc) (vs.filter isColumnDef)) with
              | none => rfl
              | some env2 =>
                simp only []
                show (match putP env2 ⟨p.var, p.sels ++ [.fld 11]⟩ (V.vec (A.new (st.nalloc + 1)) (vs.filter isConstraint)) with | some env3 => _ | none => _) =
                  Out.dull (match putP env2 ⟨p.var, p.sels ++ [.fld 11]⟩ (V.vec (A.new (st.nalloc + 1)) (vs.filter isConstraint)) with | some env3 => _ | none => _)
                cases putP env2 ⟨p.var, p.sels ++ [.fld 11]⟩ (V.vec (A.new (st.nalloc + 1)) (vs.filter isConstraint)) with
                | none => rfl
                | some env3 => exact run_dull A loc k _ hk env3 (st.bump.bump.log [] (o1.addrs ++ o2.addrs ++ addrsL (vs.filter fun v => !isColumnDef v && !isConstraint v)))
      | _ => rfl
  | .finish, _, hk, _, _ => by simp [Prog.sees] at hk

theorem addParameter_dull (r : Res) (a : Nat) : Res.addParameter { r with isValid := false } a = (Res.addParameter r a).map fun r' => { r' with isValid := false } := by
  unfold Res.addParameter
  repeat' (first | rfl | split)
  all_goals simp_all

theorem addParams_dull : ∀ (l : List Nat) (id : Nat) (r : Res), addParams l id { r with isValid := false } = (addParams l id r).map fun r' => { r' with isValid := false }
  | [], _, _ => rfl
  | a :: l, id, r => by
    simp only [addParams]
    cases ivalAtL a r.stmts with
    | none => rfl
    | some w =>
      simp only []
      split
      · have h := addParameter_dull { r with stmts := setIvalL a id r.stmts } a
        simp only [] at h
        rw [h]
        cases Res.addParameter { r with stmts := setIvalL a id r.stmts } a with
        | none => rfl
        | some r' => exact addParams_dull l (id + 1) r'
      · rfl

theorem run_dull_all (A : Alloc) (loc : Loc) {r : Nat} {p : Prog} (h : actions[r - 2]? = some p) (env : List V) (st : St) :
    run A loc p env st.dull = (run A loc p env st).dull := by
  rcases looked_sees (r := max r 2) (p := p) (by omega) (by rw [show max r 2 - 2 = r - 2 by omega]; exact h) with rfl | hs
  · simp only [run]
    cases getP env ⟨1, []⟩ with
    | none => rfl
    | some w =>
      cases w with
      | vec b vs =>
        simp only []
        cases putP env ⟨1, []⟩ .undef with
        | none => rfl
        | some env' =>
          simp only []
          have h := addParams_dull st.plist 0 { st.res with stmts := st.res.stmts ++ vs }
          show (match addParams st.plist 0 { ({ st.res with stmts := st.res.stmts ++ vs } : Res) with isValid := false } with
            | some r => Out.ok .undef { st.dull with res := r, freed := st.freed ++ [b], leaked := st.leaked ++ addrsL env' } | none => .ub) = _
          rw [h]
          cases addParams st.plist 0 { st.res with stmts := st.res.stmts ++ vs } <;> rfl
      | _ => rfl
  · exact run_dull A loc p _ hs env st

theorem sem_read_dull (A : Alloc) (t : Tok) (s : St) : (sem A).read t s.dull = (id ((sem A).read t s).1, ((sem A).read t s).2.dull) := rfl

theorem sem_reduce_dull (A : Alloc) (r n : Nat) (stk : List (Nat × SV)) (s : St) (hr : True) :
    (sem A).reduce r ((((stk.take n).map Prod.snd).reverse).map id) (((stk.drop n).head?.map Prod.snd).map id) s.dull =
      ((sem A).reduce r (((stk.take n).map Prod.snd).reverse) ((stk.drop n).head?.map Prod.snd) s).mp St.dull id := by
  rw [List.map_id, Option.map_id]
  show reduceRule A r _ _ _ = (reduceRule A r _ _ _).mp St.dull id
  unfold reduceRule
  cases hp : actions[r - 2]? with
  | none => rfl
  | some p =>
    simp only [run_dull_all A _ hp, id]
    cases run A (ruleLoc ((stk.take n).map Prod.snd).reverse ((stk.drop n).head?.map Prod.snd)) p (mkEnv ((((stk.take n).map Prod.snd).reverse).map Prod.fst)) s <;> rfl

theorem destruct_dull (sym : Nat) (v : V) (s : St) : destruct sym v s.dull = (destruct sym v s).map St.dull := by
  unfold destruct
  cases treat (destructors.getD sym .keep) v <;> rfl

theorem popAll_dull : ∀ (stk : List (Nat × SV)) (s : St), popAll stk s.dull = (popAll stk s).map St.dull
  | [], _ => rfl
  | (q, v) :: stk, s => by
    unfold popAll
    rw [destruct_dull]
    cases destruct (yystos.getD q 0).toNat v.1 s with
    | none => rfl
    | some s' => exact popAll_dull stk s'

theorem dropLa_dull (la : Option (Tok × SV)) (s : St) : dropLookahead la s.dull = (dropLookahead la s).map St.dull := by
  cases la with
  | none => rfl
  | some x => exact destruct_dull _ _ _

theorem yyerror_dull (A : Alloc) (s : St) (m : Bytes) (l c : Int) : s.dull.yyerror A m l c = (s.yyerror A m l c).dull := rfl

theorem bind_dull {x : Option St} {f f' : St → Option (Int × St)} (hf : ∀ s, f' s.dull = (f s).map fun y => (y.1, y.2.dull)) : (x.map St.dull).bind f' = (x.bind f).map fun y => (y.1, y.2.dull) := by
  cases x with
  | none => rfl
  | some s => exact hf s

theorem mp_stk (c : Cfg St SV) : (c.mp St.dull id).stk = c.stk := by simp [Cfg.mp]
theorem mp_la (c : Cfg St SV) : (c.mp St.dull id).la = c.la := by simp [Cfg.mp]

theorem finishRun_dull (A : Alloc) (o : Outcome) (c : Cfg St SV) : finishRun A o (c.mp St.dull id) = (finishRun A o c).map fun y => (y.1, y.2.dull) := by
  have hs : (c.mp St.dull id).st = c.st.dull := rfl
  cases o with
  | accept =>
    simp only [finishRun, Option.bind_eq_bind, mp_stk, mp_la, hs, dropLa_dull]
    refine bind_dull fun s => ?_
    rw [popAll_dull]
    exact bind_dull fun _ => rfl
  | semError =>
    simp only [finishRun, Option.bind_eq_bind, mp_stk, mp_la, hs, popAll_dull]
    refine bind_dull fun s => ?_
    rw [dropLa_dull]
    exact bind_dull fun _ => rfl
  | exhausted =>
    simp only [finishRun, Option.bind_eq_bind, mp_stk, mp_la, hs, yyerror_dull, dropLa_dull]
    refine bind_dull fun s => ?_
    rw [popAll_dull]
    exact bind_dull fun _ => rfl
  | syntaxError =>
    simp only [finishRun, Option.bind_eq_bind, mp_stk, mp_la, hs]
    cases c.la with
    | none => rfl
    | some x =>
      simp only [Option.bind_some, yyerror_dull, popAll_dull]
      refine bind_dull fun s => ?_
      rw [dropLa_dull]
      exact bind_dull fun _ => rfl

theorem hsqlParse_dull (A : Alloc) (toks : List Tok) (r : Res) :
    hsqlParse A toks { r with isValid := false } = (hsqlParse A toks r).map fun y => (y.1, y.2.dull) := by
  have key := fun n => runN_mp (f := St.dull) (h := id) (S := sem A) (S' := sem A) (P := fun _ _ => True) (sem_read_dull A) (fun _ _ _ _ => trivial) (fun r n stk s h => sem_reduce_dull A r n stk s h)
    stackSize n (initCfg toks (startSt r)) (fun _ _ _ => trivial)
  unfold hsqlParse runLR
  have e : initCfg toks (startSt { r with isValid := false }) = ((initCfg toks (startSt r)).mp St.dull id : Cfg St SV) := rfl
  rw [e, key]
  cases runN (sem A) stackSize (10 * toks.length + 2010) (initCfg toks (startSt r)) with
  | none => rfl
  | some x =>
    cases x with
    | none => rfl
    | some x => exact finishRun_dull A x.1 x.2

/-- What `isValid` was before a parse does not matter. -/
theorem parse_isValid (A : Alloc) (fpr : Int) (buf : Bytes) (sql : List UInt8) (r : Res) (b : Bool) :
    parse A fpr buf sql { r with isValid := b } = parse A fpr buf sql r := by
  unfold parse
  cases lexAll fpr (lexInit buf (cText sql)) with
  | none => rfl
  | some x =>
    simp only []
    have h1 := hsqlParse_dull A x.1 r
    have h2 := hsqlParse_dull A x.1 { r with isValid := b }
    have h3 : (hsqlParse A x.1 { r with isValid := b }).map (fun y => (y.1, y.2.dull)) = (hsqlParse A x.1 r).map fun y => (y.1, y.2.dull) := by
      rw [← h1, ← h2]
    generalize hsqlParse A x.1 { r with isValid := b } = u at h3 ⊢
    generalize hsqlParse A x.1 r = v at h3 ⊢
    cases u <;> cases v
    · rfl
    · cases h3
    · cases h3
    · rename_i u v
      obtain ⟨u1, u2⟩ := u
      obtain ⟨v1, v2⟩ := v
      simp only [Option.map_some, Option.some.injEq, Prod.mk.injEq] at h3
      obtain ⟨rfl, h3⟩ := h3
      have g1 := congrArg (fun s : St => { s.res with isValid := decide (u1 = 0) }) h3
      have g2 := congrArg St.freed h3
      have g3 := congrArg St.leaked h3
      simp only [St.dull] at g1 g2 g3
      simp only [g1, g2, g3]
end
end Verif.Sem

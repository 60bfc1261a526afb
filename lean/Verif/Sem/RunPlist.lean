import Verif.Sem.DenParse
/-! Only `param_expr` reads or extends the list of parameters. Proof-internal. -/
namespace Verif.Sem
open Verif.Lex Verif.LR

def Atom.noPar : Atom → Bool
  | .nParams => false
  | _ => true

def Rv.noPar : Rv → Bool
  | .atom a => a.noPar
  | .obj _ fs => fs.all Atom.noPar
  | .vec fs => fs.all Atom.noPar
  | .tup fs => fs.all Atom.noPar

/-- The program does not mention the list of parameters. -/
def noPar : Prog → Bool
  | .ret => true
  | .fail => true
  | .set _ e k => e.noPar && noPar k
  | .push _ e k => e.noPar && noPar k
  | .insert _ e k => e.noPar && noPar k
  | .del _ k => noPar k
  | .free _ k => noPar k
  | .ite _ t e => noPar t && noPar e
  | .err _ k => noPar k
  | .errName _ _ k => noPar k
  | .zeroLen k => noPar k
  | .regParam _ _ => false
  | .split _ _ k => noPar k
  | .finish => false

def St.setP (l : List Nat) (st : St) : St := { st with plist := l }

theorem evalAtom_setP {a : Atom} (h : a.noPar = true) (env : List V) (l : List Nat) (st : St) : evalAtom a env (st.setP l) = evalAtom a env st := by
  cases a <;> first | rfl | cases h

theorem evalAtoms_setP : ∀ {as : List Atom}, as.all Atom.noPar = true → ∀ (env : List V) (l : List Nat) (st : St), evalAtoms as env (st.setP l) = evalAtoms as env st
  | [], _, _, _, _ => rfl
  | a :: as, h, env, l, st => by
    rw [List.all_cons, Bool.and_eq_true] at h
    simp only [evalAtoms, evalAtom_setP h.1]
    cases evalAtom a env st with
    | none => rfl
    | some x => simp only [evalAtoms_setP h.2]

theorem evalRv_setP (A : Alloc) {e : Rv} (h : e.noPar = true) (env : List V) (l : List Nat) (st : St) :
    evalRv A e env (st.setP l) = (evalRv A e env st).map fun x => (x.1, x.2.1, x.2.2.setP l) := by
  cases e with
  | atom a =>
    simp only [evalRv, evalAtom_setP h]
    cases evalAtom a env st <;> rfl
  | obj c fs =>
    simp only [evalRv, evalAtoms_setP h]
    cases evalAtoms fs env st <;> rfl
  | vec fs =>
    simp only [evalRv, evalAtoms_setP h]
    cases evalAtoms fs env st <;> rfl
  | tup fs =>
    simp only [evalRv, evalAtoms_setP h]
    cases evalAtoms fs env st <;> rfl

def Out.setP (l : List Nat) : Out → Out
  | .ok v st => .ok v (st.setP l)
  | .error st => .error (st.setP l)
  | .ub => .ub

theorem run_setP (A : Alloc) (loc : Loc) (l : List Nat) : ∀ (p : Prog), noPar p = true → ∀ (env : List V) (st : St), run A loc p env (st.setP l) = (run A loc p env st).setP l
  | .ret, _, env, st => by cases env <;> rfl
  | .fail, _, env, st => rfl
  | .set p e k, h, env, st => by
    simp only [noPar, Bool.and_eq_true] at h
    simp only [run, evalRv_setP A h.1]
    cases evalRv A e env st with
    | none => rfl
    | some x =>
      obtain ⟨v, env', st'⟩ := x
      simp only [Option.map_some]
      cases getP env' p with
      | none => rfl
      | some old =>
        simp only []
        cases putP env' p v with
        | none => rfl
        | some env'' => exact run_setP A loc l k h.2 env'' (st'.log [] old.addrs)
  | .push p e k, h, env, st => by
    simp only [noPar, Bool.and_eq_true] at h
    simp only [run, evalAtom_setP h.1]
    cases evalAtom e env st with
    | none => rfl
    | some x =>
      obtain ⟨v, env'⟩ := x
      simp only []
      cases getP env' p with
      | none => rfl
      | some w =>
        cases w with
        | vec a vs =>
          simp only []
          cases putP env' p (.vec a (vs ++ [v])) with
          | none => rfl
          | some env'' => exact run_setP A loc l k h.2 _ _
        | _ => rfl
  | .insert p e k, h, env, st => by
    simp only [noPar, Bool.and_eq_true] at h
    simp only [run, evalAtom_setP h.1]
    cases evalAtom e env st with
    | none => rfl
    | some x =>
      obtain ⟨v, env'⟩ := x
      cases v with
      | int n =>
        simp only []
        cases getP env' p with
        | none => rfl
        | some w =>
          cases w with
          | vec a vs =>
            simp only []
            cases putP env' p (.vec a (if hasInt n vs then vs else vs ++ [.int n])) with
            | none => rfl
            | some env'' => exact run_setP A loc l k h.2 _ _
          | _ => rfl
      | _ => rfl
  | .del p k, h, env, st => by
    simp only [run]
    cases getP env p with
    | none => rfl
    | some v =>
      simp only []
      cases treat .del v with
      | none => rfl
      | some x =>
        simp only []
        cases putP env p .undef with
        | none => rfl
        | some env'' => exact run_setP A loc l k h env'' (st.log x.1 x.2)
  | .free p k, h, env, st => by
    simp only [run]
    cases getP env p with
    | none => rfl
    | some v =>
      simp only []
      cases treat .str v with
      | none => rfl
      | some x =>
        simp only []
        cases putP env p .undef with
        | none => rfl
        | some env'' => exact run_setP A loc l k h env'' (st.log x.1 x.2)
  | .ite c t e, h, env, st => by
    simp only [noPar, Bool.and_eq_true] at h
    have hc : evalCond c env (st.setP l) = evalCond c env st := by cases c <;> rfl
    simp only [run, hc]
    cases evalCond c env st with
    | none => rfl
    | some b =>
      cases b with
      | true => exact run_setP A loc l t h.1 _ _
      | false => exact run_setP A loc l e h.2 _ _
  | .err msg k, h, env, st => run_setP A loc l k h _ (st.yyerror A msg loc.fl loc.fc)
  | .errName msg p k, h, env, st => by
    simp only [run]
    cases strAt env p with
    | none => rfl
    | some b => exact run_setP A loc l k h _ (st.yyerror A (msg ++ b) loc.fl loc.fc)
  | .zeroLen k, h, env, st => run_setP A loc l k h _ { st with yylloc := { st.yylloc with len := 0 } }
  | .regParam _ _, h, _, _ => by cases h
  | .split p q k, h, env, st => by
    simp only [run]
    cases getP env q with
    | none => rfl
    | some w =>
      cases w with
      | vec b vs =>
        simp only []
        cases putP env q (.vec b []) with
        | none => rfl
        | some env1 =>
          simp only [show (st.setP l).nalloc = st.nalloc from rfl]
          cases getP env1 ⟨p.var, p.sels ++ [.fld 10]⟩ with
          | none => rfl
          | some o1 =>
            cases getP env1 ⟨p.var, p.sels ++ [.fld 11]⟩ with
            | none => rfl
            | some o2 =>
              simp only []
              cases putP env1 ⟨p.var, p.sels ++ [.fld 10]⟩ (.vec (A.new st.nalloc) (vs.filter isColumnDef)) with
              | none => rfl
              | some env2 =>
                simp only []
                cases putP env2 ⟨p.var, p.sels ++ [.fld 11]⟩ (.vec (A.new (st.nalloc + 1)) (vs.filter isConstraint)) with
                | none => rfl
                | some env3 => exact run_setP A loc l k h _ (st.bump.bump.log [] _)
      | _ => rfl
  | .finish, h, _, _ => by cases h

theorem noPar_acts : ((actions.take 296).drop 1 ++ actions.drop 297).all noPar = true := by decide +kernel

theorem noPar_act {r : Nat} (h1 : 2 ≤ r) (h2 : r < 358) (h3 : r ≠ 2) (h4 : r ≠ 298) : noPar (act r) = true := by
  have hg := act_get h1 h2
  refine List.all_eq_true.1 noPar_acts _ ?_
  rw [List.mem_append]
  by_cases hr : r < 298
  · left
    have : ((actions.take 296).drop 1)[r - 3]? = some (act r) := by
      rw [List.getElem?_drop, show 1 + (r - 3) = r - 2 by omega, List.getElem?_take_of_lt (by omega)]; exact hg
    exact List.mem_of_getElem? this
  · right
    have : (actions.drop 297)[r - 299]? = some (act r) := by
      rw [List.getElem?_drop, show 297 + (r - 299) = r - 2 by omega]; exact hg
    exact List.mem_of_getElem? this

/-- The action of another rule than `param_expr` has no use for the number of parameters, and keeps it. -/
theorem evRule_n {r : Nat} (h1 : 2 ≤ r) (h2 : r < 358) (h4 : r ≠ 298) (vs : List V) (n m : Nat) (e : Bool) :
    evRule r vs ⟨n, e⟩ = (evRule r vs ⟨m, e⟩).map fun x => (x.1, ⟨n, x.2.err⟩) := by
  by_cases h3 : r = 2
  · subst h3; rfl
  · rw [evRule_act h1 h2 h3, evRule_act h1 h2 h3]
    have e1 : pureSt ⟨n, e⟩ = (pureSt ⟨m, e⟩).setP (List.replicate n 0) := rfl
    rw [e1, run_setP _ _ _ _ (noPar_act h1 h2 h3 h4)]
    cases run Z ⟨0, 0, 0, 0⟩ (act r) (mkEnv vs) (pureSt ⟨m, e⟩) with
    | ok v st => simp [Out.setP, St.setP, St.ps]
    | error st => rfl
    | ub => rfl

end Verif.Sem

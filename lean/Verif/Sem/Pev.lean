import Verif.Sem.DenoteFacts
import Verif.Sem.Chk
/-! A state-free form of the semantic actions, which evaluates by reduction. Proof-internal. -/
namespace Verif.Sem
open Verif.Lex Verif.LR

/-- The state seen by atoms and conditions. -/
abbrev st0 (e : Bool) : St := pureSt ⟨0, e⟩

/-- Run an action on values without addresses, without a log. -/
def pev : Prog → List V → Bool → Option (V × Bool)
  | .ret, env, e => match env with
    | [] => none
    | v :: _ => some (v, e)
  | .fail, _, _ => none
  | .set p x k, env, e => match evalRv Z x env (st0 e) with
    | some (v, env', _) => match getP env' p with
      | some _ => match putP env' p v with
        | some env'' => pev k env'' e
        | none => none
      | none => none
    | none => none
  | .push p x k, env, e => match evalAtom x env (st0 e) with
    | some (v, env') => match getP env' p with
      | some (.vec a vs) => match putP env' p (.vec a (vs ++ [v])) with
        | some env'' => pev k env'' e
        | none => none
      | _ => none
    | none => none
  | .insert p x k, env, e => match evalAtom x env (st0 e) with
    | some (.int n, env') => match getP env' p with
      | some (.vec a vs) =>
        match putP env' p (.vec a (if hasInt n vs then vs else vs ++ [.int n])) with
        | some env'' => pev k env'' e
        | none => none
      | _ => none
    | _ => none
  | .del p k, env, e => match getP env p with
    | some v => match treat .del v with
      | some _ => match putP env p .undef with
        | some env' => pev k env' e
        | none => none
      | none => none
    | none => none
  | .free p k, env, e => match getP env p with
    | some v => match treat .str v with
      | some _ => match putP env p .undef with
        | some env' => pev k env' e
        | none => none
      | none => none
    | none => none
  | .ite c t f, env, e => match evalCond c env (st0 e) with
    | some true => pev t env e
    | some false => pev f env e
    | none => none
  | .err _ k, env, _ => pev k env true
  | .errName _ p k, env, _ => match strAt env p with
    | some _ => pev k env true
    | none => none
  | .zeroLen k, env, e => pev k env e
  | .regParam _ _, _, _ => none
  | .split p q k, env, e => match getP env q with
    | some (.vec b vs) => match putP env q (.vec b []) with
      | some env1 =>
        match getP env1 ⟨p.var, p.sels ++ [.fld 10]⟩, getP env1 ⟨p.var, p.sels ++ [.fld 11]⟩ with
        | some _, some _ => match putP env1 ⟨p.var, p.sels ++ [.fld 10]⟩ (V.vec 0 (vs.filter isColumnDef)) with
          | some env2 => match putP env2 ⟨p.var, p.sels ++ [.fld 11]⟩ (V.vec 0 (vs.filter isConstraint)) with
            | some env3 => pev k env3 e
            | none => none
          | none => none
        | _, _ => none
      | none => none
    | _ => none
  | .finish, _, _ => none

def nparA : Atom → Bool
  | .nParams => false
  | _ => true
def nparR : Rv → Bool
  | .atom a => nparA a
  | .obj _ fs => fs.all nparA
  | .vec fs => fs.all nparA
  | .tup fs => fs.all nparA
/-- The action does not look at or change the parameter list, and is not `input`'s. -/
def npar : Prog → Bool
  | .ret => true
  | .fail => true
  | .finish => false
  | .set _ x k => nparR x && npar k
  | .push _ x k => nparA x && npar k
  | .insert _ x k => nparA x && npar k
  | .del _ k => npar k
  | .free _ k => npar k
  | .ite _ t e => npar t && npar e
  | .err _ k => npar k
  | .errName _ _ k => npar k
  | .zeroLen k => npar k
  | .regParam _ _ => false
  | .split _ _ k => npar k

/-- The states `evRule` goes through. -/
structure Pure (n : Nat) (e : Bool) (st : St) : Prop where
  n : st.plist.length = n
  e : st.res.errMsg.isSome = e
  len : st.yylloc.len = 0
  total : st.yylloc.total = 0

theorem Pure.ps {n : Nat} {e : Bool} {st : St} (h : Pure n e st) : st.ps = ⟨n, e⟩ := by rw [St.ps, h.n, h.e]
theorem pure_st0 (n : Nat) (e : Bool) : Pure n e (pureSt ⟨n, e⟩) := ⟨by simp [pureSt], by cases e <;> rfl, rfl, rfl⟩
theorem Pure.log {n : Nat} {e : Bool} {st : St} (h : Pure n e st) (f l : List Nat) : Pure n e (st.log f l) := ⟨h.n, h.e, h.len, h.total⟩
theorem Pure.bump {n : Nat} {e : Bool} {st : St} (h : Pure n e st) : Pure n e st.bump := ⟨h.n, h.e, h.len, h.total⟩
theorem Pure.yyerror {n : Nat} {e : Bool} {st : St} (h : Pure n e st) (A : Alloc) (m : Bytes) (l c : Int) : Pure n true (st.yyerror A m l c) := ⟨h.n, rfl, h.len, h.total⟩
theorem Pure.zero {n : Nat} {e : Bool} {st : St} (h : Pure n e st) : Pure n e { st with yylloc := { st.yylloc with len := 0 } } := ⟨h.n, h.e, rfl, h.total⟩

theorem atom_pure {n : Nat} {e : Bool} {st : St} (h : Pure n e st) {a : Atom} (ha : nparA a = true) (env : List V) : evalAtom a env st = evalAtom a env (st0 e) := by
  cases a with
  | strLen => simp only [evalAtom, h.len]; rfl
  | totalCol => simp only [evalAtom, h.total]; rfl
  | nParams => cases ha
  | _ => rfl

theorem atoms_pure {n : Nat} {e : Bool} {st : St} (h : Pure n e st) : ∀ {as : List Atom} (_ : as.all nparA = true) (env : List V), evalAtoms as env st = evalAtoms as env (st0 e)
  | [], _, _ => rfl
  | a :: as, ha, env => by
    simp only [List.all_cons, Bool.and_eq_true] at ha
    simp only [evalAtoms, atom_pure h ha.1]
    split
    · rw [atoms_pure h ha.2]
    · rfl

theorem rv_pure {n : Nat} {e : Bool} {st : St} (h : Pure n e st) {x : Rv} (hx : nparR x = true) (env : List V) :
    (∃ v env' st', evalRv Z x env st = some (v, env', st') ∧ Pure n e st' ∧ (evalRv Z x env (st0 e)).map (fun y => (y.1, y.2.1)) = some (v, env')) ∨
    (evalRv Z x env st = none ∧ evalRv Z x env (st0 e) = none) := by
  cases x with
  | atom a =>
    simp only [evalRv, atom_pure h hx]
    cases evalAtom a env (st0 e) with
    | none => right; exact ⟨rfl, rfl⟩
    | some y => left; exact ⟨_, _, _, rfl, h, rfl⟩
  | obj c fs =>
    simp only [evalRv, atoms_pure h hx]
    cases evalAtoms fs env (st0 e) with
    | none => right; exact ⟨rfl, rfl⟩
    | some y => left; exact ⟨_, _, _, rfl, h.bump, rfl⟩
  | vec fs =>
    simp only [evalRv, atoms_pure h hx]
    cases evalAtoms fs env (st0 e) with
    | none => right; exact ⟨rfl, rfl⟩
    | some y => left; exact ⟨_, _, _, rfl, h.bump, rfl⟩
  | tup fs =>
    simp only [evalRv, atoms_pure h hx]
    cases evalAtoms fs env (st0 e) with
    | none => right; exact ⟨rfl, rfl⟩
    | some y => left; exact ⟨_, _, _, rfl, h, rfl⟩

theorem cond_pure {n : Nat} {e : Bool} {st : St} (h : Pure n e st) (c : Cond) (env : List V) : evalCond c env st = evalCond c env (st0 e) := by
  cases c with
  | err => simp only [evalCond, h.e, (pure_st0 0 e).e]
  | _ => rfl

/-- The outcome of `run` agrees with that of `pev`. -/
def Agree (n : Nat) (o : Out) (x : Option (V × Bool)) : Prop :=
  (∃ v e st, o = .ok v st ∧ x = some (v, e) ∧ Pure n e st) ∨ ((∀ v st, o ≠ .ok v st) ∧ x = none)

theorem agree_ub {n : Nat} : Agree n .ub none := .inr ⟨(fun _ _ h => by cases h), rfl⟩

theorem run_pev (loc : Loc) (n : Nat) : ∀ (k : Prog) (env : List V) (e : Bool) (st : St), npar k = true → Pure n e st → Agree n (run Z loc k env st) (pev k env e)
  | .ret, env, e, st, _, h => by
    cases env with
    | nil => exact agree_ub
    | cons v rest => exact .inl ⟨v, e, _, rfl, rfl, h.log _ _⟩
  | .fail, env, e, st, _, h => .inr ⟨(fun _ _ h => by cases h), rfl⟩
  | .finish, env, e, st, hn, h => by cases hn
  | .regParam _ _, env, e, st, hn, h => by cases hn
  | .set p x k, env, e, st, hn, h => by
    simp only [npar, Bool.and_eq_true] at hn
    simp only [run, pev]
    rcases rv_pure h hn.1 env with ⟨v, env', st', e1, h', e2⟩ | ⟨e1, e2⟩
    · rw [e1]
      cases e3 : evalRv Z x env (st0 e) with
      | none => rw [e3] at e2; cases e2
      | some y =>
        obtain ⟨v2, env2, st2⟩ := y
        rw [e3] at e2
        simp only [Option.map_some, Option.some.injEq, Prod.mk.injEq] at e2
        obtain ⟨rfl, rfl⟩ := e2
        simp only []
        cases getP env2 p with
        | none => exact agree_ub
        | some old =>
          simp only []
          cases putP env2 p v2 with
          | none => exact agree_ub
          | some env3 => exact run_pev loc n k _ e _ hn.2 (h'.log _ _)
    · rw [e1, e2]; exact agree_ub
  | .push p x k, env, e, st, hn, h => by
    simp only [npar, Bool.and_eq_true] at hn
    simp only [run, pev, atom_pure h hn.1]
    cases evalAtom x env (st0 e) with
    | none => exact agree_ub
    | some y =>
      simp only []
      cases getP y.2 p with
      | none => exact agree_ub
      | some w =>
        cases w with
        | vec a vs =>
          simp only []
          cases putP y.2 p (.vec a (vs ++ [y.1])) with
          | none => exact agree_ub
          | some env3 => exact run_pev loc n k _ e _ hn.2 h
        | _ => exact agree_ub
  | .insert p x k, env, e, st, hn, h => by
    simp only [npar, Bool.and_eq_true] at hn
    simp only [run, pev, atom_pure h hn.1]
    cases evalAtom x env (st0 e) with
    | none => exact agree_ub
    | some y =>
      obtain ⟨y1, y2⟩ := y
      cases y1 with
      | int m =>
        simp only []
        cases getP y2 p with
        | none => exact agree_ub
        | some w =>
          cases w with
          | vec a vs =>
            simp only []
            cases putP y2 p (.vec a (if hasInt m vs then vs else vs ++ [.int m])) with
            | none => exact agree_ub
            | some env3 => exact run_pev loc n k _ e _ hn.2 h
          | _ => exact agree_ub
      | _ => exact agree_ub
  | .del p k, env, e, st, hn, h => by
    simp only [run, pev]
    cases getP env p with
    | none => exact agree_ub
    | some w =>
      simp only []
      cases treat .del w with
      | none => exact agree_ub
      | some y =>
        simp only []
        cases putP env p .undef with
        | none => exact agree_ub
        | some env3 => exact run_pev loc n k _ e _ hn (h.log _ _)
  | .free p k, env, e, st, hn, h => by
    simp only [run, pev]
    cases getP env p with
    | none => exact agree_ub
    | some w =>
      simp only []
      cases treat .str w with
      | none => exact agree_ub
      | some y =>
        simp only []
        cases putP env p .undef with
        | none => exact agree_ub
        | some env3 => exact run_pev loc n k _ e _ hn (h.log _ _)
  | .ite c t f, env, e, st, hn, h => by
    simp only [npar, Bool.and_eq_true] at hn
    simp only [run, pev, cond_pure h]
    cases evalCond c env (st0 e) with
    | none => exact agree_ub
    | some b =>
      cases b with
      | true => exact run_pev loc n t env e st hn.1 h
      | false => exact run_pev loc n f env e st hn.2 h
  | .err m k, env, e, st, hn, h => by
    simp only [run, pev]
    exact run_pev loc n k env true _ hn (h.yyerror _ _ _ _)
  | .errName m p k, env, e, st, hn, h => by
    simp only [run, pev]
    cases strAt env p with
    | none => exact agree_ub
    | some b => exact run_pev loc n k env true _ hn (h.yyerror _ _ _ _)
  | .zeroLen k, env, e, st, hn, h => by
    simp only [run, pev]
    exact run_pev loc n k env e _ hn h.zero
  | .split p q k, env, e, st, hn, h => by
    simp only [run, pev]
    cases getP env q with
    | none => exact agree_ub
    | some w =>
      cases w with
      | vec b vs =>
        simp only []
        cases putP env q (.vec b []) with
        | none => exact agree_ub
        | some env1 =>
          simp only []
          cases getP env1 ⟨p.var, p.sels ++ [.fld 10]⟩ with
          | none => exact agree_ub
          | some o1 =>
            cases getP env1 ⟨p.var, p.sels ++ [.fld 11]⟩ with
            | none => exact agree_ub
            | some o2 =>
              simp only []
              have hz : ∀ i, Z.new i = 0 := fun _ => rfl
              rw [hz, hz]
              cases putP env1 ⟨p.var, p.sels ++ [.fld 10]⟩ (V.vec 0 (vs.filter isColumnDef)) with
              | none => exact agree_ub
              | some env2 =>
                simp only []
                cases putP env2 ⟨p.var, p.sels ++ [.fld 11]⟩ (V.vec 0 (vs.filter isConstraint)) with
                | none => exact agree_ub
                | some env3 => exact run_pev loc n k _ e _ hn (h.bump.bump.log _ _)
      | _ => exact agree_ub

theorem npar_acts : (List.range 358).all (fun r => Nat.blt r 3 || Nat.beq r 298 || npar (act r)) = true := by decide +kernel

theorem npar_act {r : Nat} (h1 : 3 ≤ r) (h2 : r < 358) (h3 : r ≠ 298) : npar (act r) = true := by
  have := List.all_eq_true.1 npar_acts r (List.mem_range.2 h2)
  simp only [Bool.or_eq_true, Nat.blt_eq, Nat.beq_eq] at this
  rcases this with (h | h) | h
  · omega
  · exact absurd h h3
  · exact h

/-- The value of a rule by reduction. -/
theorem evRule_pev {r : Nat} (h1 : 3 ≤ r) (h2 : r < 358) (h3 : r ≠ 298) (vs : List V) (n : Nat) (e : Bool) :
    evRule r vs ⟨n, e⟩ = (pev (act r) (mkEnv vs) e).map fun x => (x.1, ⟨n, x.2⟩) := by
  rw [evRule_act (by omega) h2 (by omega)]
  rcases run_pev ⟨0, 0, 0, 0⟩ n (act r) (mkEnv vs) e (pureSt ⟨n, e⟩) (npar_act h1 h2 h3) (pure_st0 n e) with ⟨v, e', st, g1, g2, g3⟩ | ⟨g1, g2⟩
  · rw [g1, g2]; simp only [Option.map_some, g3.ps]
  · rw [g2]
    cases hr : run Z ⟨0, 0, 0, 0⟩ (act r) (mkEnv vs) (pureSt ⟨n, e⟩) with
    | ok v st => exact absurd hr (g1 v st)
    | error _ => rfl
    | ub => rfl

/-- An action without `yyerror` (other than before a failure) keeps the error flag. -/
theorem ev_of {r : Nat} {vs : List V} {v : V} {n : Nat} {e : Bool} (h1 : (Nat.ble 3 r && Nat.blt r 358 && !(Nat.beq r 298)) = true) (h : pev (act r) (mkEnv vs) e = some (v, e)) : evRule r vs ⟨n, e⟩ = some (v, ⟨n, e⟩) := by
  simp only [Bool.and_eq_true, Nat.ble_eq, Nat.blt_eq, Bool.not_eq_true', ← Bool.not_eq_true, Nat.beq_eq] at h1
  rw [evRule_pev h1.1.1 h1.1.2 h1.2, h]; rfl

end Verif.Sem

import Verif.Sem.Pev
/-! Evaluation of actions on unknown values: the checks are collected, not made. Proof-internal. -/
namespace Verif.Sem
open Verif.Lex Verif.LR

def V.isNumber : V → Bool
  | .int _ => true
  | .raw _ => true
  | _ => false

def atomO (a : Atom) (env : List V) (st : St) : Option (V × List V × Bool) :=
  match a with
  | .cp p => match getP env p with
    | some v => some (v, env, v.isNumber)
    | none => none
  | .mv p => match getP env p with
    | some v => match putP env p .undef with
      | some env' => some (v, env', !v.isUndef)
      | none => none
    | none => none
  | a => match evalAtom a env st with
    | some (v, env') => some (v, env', true)
    | none => none

def atomsO : List Atom → List V → St → Option (List V × List V × Bool)
  | [], env, _ => some ([], env, true)
  | a :: as, env, st => match atomO a env st with
    | some (v, env', o) => match atomsO as env' st with
      | some (vs, env'', o') => some (v :: vs, env'', o && o')
      | none => none
    | none => none

def rvO (x : Rv) (env : List V) (st : St) : Option (V × List V × Bool) :=
  match x with
  | .atom a => atomO a env st
  | .obj c fs => match atomsO fs env st with
    | some (vs, env', o) => some (.obj 0 c vs, env', o)
    | none => none
  | .vec es => match atomsO es env st with
    | some (vs, env', o) => some (.vec 0 vs, env', o)
    | none => none
  | .tup fs => match atomsO fs env st with
    | some (vs, env', o) => some (.tup vs, env', o)
    | none => none

/-- Like `pev`; the last component collects the checks on the values. -/
def pevO : Prog → List V → Bool → Bool → Option (V × Bool × Bool)
  | .ret, env, e, o => match env with
    | [] => none
    | v :: _ => some (v, e, o)
  | .set p x k, env, e, o => match rvO x env (st0 e) with
    | some (v, env', o1) => match getP env' p with
      | some _ => match putP env' p v with
        | some env'' => pevO k env'' e (o && o1)
        | none => none
      | none => none
    | none => none
  | .push p x k, env, e, o => match atomO x env (st0 e) with
    | some (v, env', o1) => match getP env' p with
      | some (.vec a vs) => match putP env' p (.vec a (vs ++ [v])) with
        | some env'' => pevO k env'' e (o && o1)
        | none => none
      | _ => none
    | none => none
  | .del p k, env, e, o => match getP env p with
    | some v => match putP env p .undef with
        | some env' => pevO k env' e (o && (treat .del v).isSome)
        | none => none
    | none => none
  | .free p k, env, e, o => match getP env p with
    | some v => match putP env p .undef with
        | some env' => pevO k env' e (o && (treat .str v).isSome)
        | none => none
    | none => none
  | .ite c t f, env, e, o => match evalCond c env (st0 e) with
    | some true => pevO t env e o
    | some false => pevO f env e o
    | none => none
  | .zeroLen k, env, e, o => pevO k env e o
  | _, _, _, _ => none

theorem atomO_eq {a : Atom} {env : List V} {st : St} {v : V} {env' : List V} (h : atomO a env st = some (v, env', true)) : evalAtom a env st = some (v, env') := by
  unfold atomO at h
  split at h
  · rename_i p
    cases hg : getP env p with
    | none => rw [hg] at h; cases h
    | some w =>
      rw [hg] at h
      simp only [Option.some.injEq, Prod.mk.injEq] at h
      obtain ⟨rfl, rfl, h⟩ := h
      cases w <;> simp_all [V.isNumber, evalAtom]
  · rename_i p
    cases hg : getP env p with
    | none => rw [hg] at h; cases h
    | some w =>
      rw [hg] at h
      cases hp : putP env p .undef with
      | none => rw [hp] at h; cases h
      | some env2 =>
        rw [hp] at h
        simp only [Option.some.injEq, Prod.mk.injEq] at h
        obtain ⟨rfl, rfl, h⟩ := h
        simp only [Bool.not_eq_true'] at h
        simp [evalAtom, hg, hp, h]
  · split at h
    · rename_i hh
      cases h
      exact hh
    · cases h

theorem atomsO_eq : ∀ {as : List Atom} {env : List V} {st : St} {vs : List V} {env' : List V}, atomsO as env st = some (vs, env', true) → evalAtoms as env st = some (vs, env')
  | [], _, _, _, _, h => by cases h; rfl
  | a :: as, env, st, vs, env', h => by
    rw [atomsO] at h
    cases h1 : atomO a env st with
    | none => rw [h1] at h; cases h
    | some x =>
      obtain ⟨v, env1, o1⟩ := x
      rw [h1] at h
      simp only [] at h
      cases h2 : atomsO as env1 st with
      | none => rw [h2] at h; cases h
      | some y =>
        obtain ⟨ws, env2, o2⟩ := y
        rw [h2] at h
        simp only [Option.some.injEq, Prod.mk.injEq, Bool.and_eq_true] at h
        obtain ⟨rfl, rfl, rfl, rfl⟩ := h
        rw [evalAtoms, atomO_eq h1]
        simp only []
        rw [atomsO_eq h2]

theorem rvO_eq {x : Rv} {env : List V} {st : St} {v : V} {env' : List V} (h : rvO x env st = some (v, env', true)) : ∃ st', evalRv Z x env st = some (v, env', st') := by
  cases x with
  | atom a => exact ⟨st, by rw [evalRv, atomO_eq h]⟩
  | obj c fs =>
    rw [rvO] at h
    cases h1 : atomsO fs env st with
    | none => rw [h1] at h; cases h
    | some y =>
      obtain ⟨ws, env2, o2⟩ := y
      rw [h1] at h
      simp only [Option.some.injEq, Prod.mk.injEq] at h
      obtain ⟨rfl, rfl, rfl⟩ := h
      exact ⟨_, by rw [evalRv, atomsO_eq h1]; rfl⟩
  | vec fs =>
    rw [rvO] at h
    cases h1 : atomsO fs env st with
    | none => rw [h1] at h; cases h
    | some y =>
      obtain ⟨ws, env2, o2⟩ := y
      rw [h1] at h
      simp only [Option.some.injEq, Prod.mk.injEq] at h
      obtain ⟨rfl, rfl, rfl⟩ := h
      exact ⟨_, by rw [evalRv, atomsO_eq h1]; rfl⟩
  | tup fs =>
    rw [rvO] at h
    cases h1 : atomsO fs env st with
    | none => rw [h1] at h; cases h
    | some y =>
      obtain ⟨ws, env2, o2⟩ := y
      rw [h1] at h
      simp only [Option.some.injEq, Prod.mk.injEq] at h
      obtain ⟨rfl, rfl, rfl⟩ := h
      exact ⟨_, by rw [evalRv, atomsO_eq h1]⟩

theorem pevO_o : ∀ {k : Prog} {env : List V} {e o : Bool} {v : V} {e' : Bool}, pevO k env e o = some (v, e', true) → o = true
  | .ret, env, e, o, v, e', h => by
    cases env with
    | nil => cases h
    | cons w ws => cases h; rfl
  | .set p x k, env, e, o, v, e', h => by
    rw [pevO] at h
    split at h
    · split at h
      · split at h
        · have := pevO_o h
          simp only [Bool.and_eq_true] at this
          exact this.1
        · cases h
      · cases h
    · cases h
  | .push p x k, env, e, o, v, e', h => by
    rw [pevO] at h
    split at h
    · split at h
      · split at h
        · have := pevO_o h
          simp only [Bool.and_eq_true] at this
          exact this.1
        · cases h
      · cases h
    · cases h
  | .del p k, env, e, o, v, e', h => by
    rw [pevO] at h
    split at h
    · split at h
      · have := pevO_o h
        simp only [Bool.and_eq_true] at this
        exact this.1
      · cases h
    · cases h
  | .free p k, env, e, o, v, e', h => by
    rw [pevO] at h
    split at h
    · split at h
      · have := pevO_o h
        simp only [Bool.and_eq_true] at this
        exact this.1
      · cases h
    · cases h
  | .ite c t f, env, e, o, v, e', h => by
    rw [pevO] at h
    split at h
    · exact pevO_o h
    · exact pevO_o h
    · cases h
  | .zeroLen k, env, e, o, v, e', h => by
    rw [pevO] at h
    exact pevO_o h

theorem pevO_eq : ∀ {k : Prog} {env : List V} {e o : Bool} {v : V} {e' : Bool}, pevO k env e o = some (v, e', true) → pev k env e = some (v, e')
  | .ret, env, e, o, v, e', h => by
    cases env with
    | nil => cases h
    | cons w ws => cases h; rfl
  | .set p x k, env, e, o, v, e', h => by
    rw [pevO] at h
    split at h
    · rename_i w env1 o1 h1
      split at h
      · rename_i h2
        split at h
        · rename_i h3
          have := pevO_o h
          simp only [Bool.and_eq_true] at this
          obtain ⟨_, rfl⟩ := this
          obtain ⟨st', h4⟩ := rvO_eq h1
          rw [pev, h4]
          simp only [h2, h3]
          exact pevO_eq h
        · cases h
      · cases h
    · cases h
  | .push p x k, env, e, o, v, e', h => by
    rw [pevO] at h
    split at h
    · rename_i w env1 o1 h1
      split at h
      · rename_i h2
        split at h
        · rename_i h3
          have := pevO_o h
          simp only [Bool.and_eq_true] at this
          obtain ⟨_, rfl⟩ := this
          rw [pev, atomO_eq h1]
          simp only [h2, h3]
          exact pevO_eq h
        · cases h
      · cases h
    · cases h
  | .del p k, env, e, o, v, e', h => by
    rw [pevO] at h
    split at h
    · rename_i w h1
      split at h
      · rename_i h3
        have := pevO_o h
        simp only [Bool.and_eq_true] at this
        obtain ⟨_, h4⟩ := this
        obtain ⟨y, h4⟩ := Option.isSome_iff_exists.1 h4
        rw [pev, h1]
        simp only [h4, h3]
        exact pevO_eq h
      · cases h
    · cases h
  | .free p k, env, e, o, v, e', h => by
    rw [pevO] at h
    split at h
    · rename_i w h1
      split at h
      · rename_i h3
        have := pevO_o h
        simp only [Bool.and_eq_true] at this
        obtain ⟨_, h4⟩ := this
        obtain ⟨y, h4⟩ := Option.isSome_iff_exists.1 h4
        rw [pev, h1]
        simp only [h4, h3]
        exact pevO_eq h
      · cases h
    · cases h
  | .ite c t f, env, e, o, v, e', h => by
    rw [pevO] at h
    rw [pev]
    split at h
    · rename_i h1; rw [h1]; exact pevO_eq h
    · rename_i h1; rw [h1]; exact pevO_eq h
    · cases h
  | .zeroLen k, env, e, o, v, e', h => by
    rw [pevO] at h
    rw [pev]
    exact pevO_eq h

/-- As `ev_of`, with unknown values: `o` is what has to be known about them. -/
theorem ev_op {r : Nat} {vs : List V} {v : V} {n : Nat} {e o : Bool} (h1 : (Nat.ble 3 r && Nat.blt r 358 && !(Nat.beq r 298)) = true)
    (h : pevO (act r) (mkEnv vs) e true = some (v, e, o)) (ho : o = true) : evRule r vs ⟨n, e⟩ = some (v, ⟨n, e⟩) := by
  subst ho; exact ev_of h1 (pevO_eq h)

theorem atomO_det {a : Atom} {env : List V} {st : St} {v w : V} {env' env'' : List V} {o : Bool} (h : atomO a env st = some (v, env', o)) (h' : evalAtom a env st = some (w, env'')) : w = v ∧ env'' = env' := by
  unfold atomO at h
  split at h
  · rename_i p
    cases hg : getP env p with
    | none => rw [hg] at h; cases h
    | some w =>
      rw [hg] at h
      simp only [Option.some.injEq, Prod.mk.injEq] at h
      obtain ⟨rfl, rfl, h⟩ := h
      cases w <;> simp_all [evalAtom]
  · rename_i p
    cases hg : getP env p with
    | none => rw [hg] at h; cases h
    | some w =>
      rw [hg] at h
      cases hp : putP env p .undef with
      | none => rw [hp] at h; cases h
      | some env2 =>
        rw [hp] at h
        simp only [Option.some.injEq, Prod.mk.injEq] at h
        obtain ⟨rfl, rfl, h⟩ := h
        simp only [evalAtom, hg, hp] at h'
        split at h'
        · cases h'
        · cases h'; exact ⟨rfl, rfl⟩
  · rw [h'] at h; cases h; exact ⟨rfl, rfl⟩

theorem atomsO_det : ∀ {as : List Atom} {env : List V} {st : St} {vs ws : List V} {env' env'' : List V} {o : Bool}, atomsO as env st = some (vs, env', o) → evalAtoms as env st = some (ws, env'') → ws = vs ∧ env'' = env'
  | [], _, _, _, _, _, _, _, h, h' => by cases h; cases h'; exact ⟨rfl, rfl⟩
  | a :: as, env, st, vs, ws, env', env'', o, h, h' => by
    rw [atomsO] at h
    rw [evalAtoms] at h'
    cases h1 : atomO a env st with
    | none => rw [h1] at h; cases h
    | some x =>
      obtain ⟨v, env1, o1⟩ := x
      rw [h1] at h
      simp only [] at h
      cases h2 : atomsO as env1 st with
      | none => rw [h2] at h; cases h
      | some y =>
        obtain ⟨us, env2, o2⟩ := y
        rw [h2] at h
        simp only [Option.some.injEq, Prod.mk.injEq] at h
        obtain ⟨rfl, rfl, _⟩ := h
        cases h3 : evalAtom a env st with
        | none => rw [h3] at h'; cases h'
        | some z =>
          obtain ⟨z1, z2⟩ := z
          rw [h3] at h'
          obtain ⟨rfl, rfl⟩ := atomO_det h1 h3
          simp only [] at h'
          cases h4 : evalAtoms as z2 st with
          | none => rw [h4] at h'; cases h'
          | some u =>
            rw [h4] at h'
            cases h'
            obtain ⟨rfl, rfl⟩ := atomsO_det h2 h4
            exact ⟨rfl, rfl⟩

theorem rvO_det {x : Rv} {env : List V} {st : St} {v w : V} {env' env'' : List V} {o : Bool} {st' : St} (h : rvO x env st = some (v, env', o)) (h' : evalRv Z x env st = some (w, env'', st')) : w = v ∧ env'' = env' := by
  cases x with
  | atom a =>
    rw [evalRv] at h'
    cases h3 : evalAtom a env st with
    | none => rw [h3] at h'; cases h'
    | some z => rw [h3] at h'; cases h'; exact atomO_det h h3
  | obj c fs =>
    rw [rvO] at h
    rw [evalRv] at h'
    cases h1 : atomsO fs env st with
    | none => rw [h1] at h; cases h
    | some y =>
      cases h3 : evalAtoms fs env st with
      | none => rw [h3] at h'; cases h'
      | some z =>
        rw [h1] at h; rw [h3] at h'
        cases h; cases h'
        obtain ⟨h5, h6⟩ := atomsO_det h1 h3
        exact ⟨by rw [h5]; rfl, h6⟩
  | vec fs =>
    rw [rvO] at h
    rw [evalRv] at h'
    cases h1 : atomsO fs env st with
    | none => rw [h1] at h; cases h
    | some y =>
      cases h3 : evalAtoms fs env st with
      | none => rw [h3] at h'; cases h'
      | some z =>
        rw [h1] at h; rw [h3] at h'
        cases h; cases h'
        obtain ⟨h5, h6⟩ := atomsO_det h1 h3
        exact ⟨by rw [h5]; rfl, h6⟩
  | tup fs =>
    rw [rvO] at h
    rw [evalRv] at h'
    cases h1 : atomsO fs env st with
    | none => rw [h1] at h; cases h
    | some y =>
      cases h3 : evalAtoms fs env st with
      | none => rw [h3] at h'; cases h'
      | some z =>
        rw [h1] at h; rw [h3] at h'
        cases h; cases h'
        obtain ⟨h5, h6⟩ := atomsO_det h1 h3
        exact ⟨by rw [h5], h6⟩

theorem pevO_det : ∀ {k : Prog} {env : List V} {e o o' : Bool} {v w : V} {e' e'' : Bool}, pevO k env e o = some (v, e', o') → pev k env e = some (w, e'') → w = v ∧ e'' = e'
  | .ret, env, e, o, o', v, w, e', e'', h, h' => by
    cases env with
    | nil => cases h
    | cons w ws => cases h; cases h'; exact ⟨rfl, rfl⟩
  | .set p x k, env, e, o, o', v, w, e', e'', h, h' => by
    rw [pevO] at h
    rw [pev] at h'
    split at h
    · rename_i h1
      split at h
      · rename_i h2
        split at h
        · rename_i h3
          split at h'
          · rename_i h4
            obtain ⟨rfl, rfl⟩ := rvO_det h1 h4
            simp only [h2, h3] at h'
            exact pevO_det h h'
          · cases h'
        · cases h
      · cases h
    · cases h
  | .push p x k, env, e, o, o', v, w, e', e'', h, h' => by
    rw [pevO] at h
    rw [pev] at h'
    split at h
    · rename_i h1
      split at h
      · rename_i h2
        split at h
        · rename_i h3
          split at h'
          · rename_i h4
            obtain ⟨rfl, rfl⟩ := atomO_det h1 h4
            simp only [h2, h3] at h'
            exact pevO_det h h'
          · cases h'
        · cases h
      · cases h
    · cases h
  | .del p k, env, e, o, o', v, w, e', e'', h, h' => by
    rw [pevO] at h
    rw [pev] at h'
    split at h
    · rename_i h1
      split at h
      · rename_i h3
        simp only [h1, h3] at h'
        split at h'
        · exact pevO_det h h'
        · cases h'
      · cases h
    · cases h
  | .free p k, env, e, o, o', v, w, e', e'', h, h' => by
    rw [pevO] at h
    rw [pev] at h'
    split at h
    · rename_i h1
      split at h
      · rename_i h3
        simp only [h1, h3] at h'
        split at h'
        · exact pevO_det h h'
        · cases h'
      · cases h
    · cases h
  | .ite c t f, env, e, o, o', v, w, e', e'', h, h' => by
    rw [pevO] at h
    rw [pev] at h'
    split at h
    · rename_i h1; rw [h1] at h'; exact pevO_det h h'
    · rename_i h1; rw [h1] at h'; exact pevO_det h h'
    · cases h
  | .zeroLen k, env, e, o, o', v, w, e', e'', h, h' => by
    rw [pevO] at h
    rw [pev] at h'
    exact pevO_det h h'

/-- The value of an action that is known to have one. -/
theorem ev_det {r : Nat} {vs : List V} {v w : V} {s s' : PS} {e' o : Bool} (h1 : (Nat.ble 3 r && Nat.blt r 358 && !(Nat.beq r 298)) = true)
    (h : pevO (act r) (mkEnv vs) s.err true = some (v, e', o)) (h' : evRule r vs s = some (w, s')) : w = v ∧ s' = ⟨s.n, e'⟩ := by
  simp only [Bool.and_eq_true, Nat.ble_eq, Nat.blt_eq, Bool.not_eq_true', ← Bool.not_eq_true, Nat.beq_eq] at h1
  have : s = ⟨s.n, s.err⟩ := rfl
  rw [this, evRule_pev h1.1.1 h1.1.2 h1.2] at h'
  cases h2 : pev (act r) (mkEnv vs) s.err with
  | none => rw [h2] at h'; cases h'
  | some x =>
    rw [h2] at h'
    cases h'
    obtain ⟨rfl, rfl⟩ := pevO_det h h2
    exact ⟨rfl, rfl⟩

end Verif.Sem

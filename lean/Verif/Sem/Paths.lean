import Verif.Sem.Err
import Verif.Sem.Pev
/-! Which conditions led to an error. Proof-internal. -/
namespace Verif.Sem
open Verif.LR Verif.Lex

/-- The variable a condition is about. -/
def Cond.on : Cond → Option Nat
  | .null p => some p.var
  | .eq p _ => some p.var
  | .strIs p _ => some p.var
  | .has p _ => some p.var
  | .err => none
  | .dateOk p => some p.var
  | .durOk p => some p.var
  | .durUnitOk p => some p.var

/-- The variable an atom changes. -/
def Atom.on : Atom → List Nat
  | .mv p => [p.var]
  | _ => []
def Rv.on : Rv → List Nat
  | .atom a => a.on
  | .obj _ l => l.flatMap Atom.on
  | .vec l => l.flatMap Atom.on
  | .tup l => l.flatMap Atom.on

/-- The ways to an error: the conditions on the way that are about unchanged variables, and the last message. `t`: the variables changed so far. -/
def errPaths : Prog → List Nat → List (Cond × Bool) → Option Bytes → List (List (Cond × Bool) × Option Bytes)
  | .ret, _, _, _ => []
  | .fail, _, cs, m => [(cs, m)]
  | .set p e k, t, cs, m => errPaths k (p.var :: e.on ++ t) cs m
  | .push p e k, t, cs, m => errPaths k (p.var :: e.on ++ t) cs m
  | .insert p e k, t, cs, m => errPaths k (p.var :: e.on ++ t) cs m
  | .del p k, t, cs, m => errPaths k (p.var :: t) cs m
  | .free p k, t, cs, m => errPaths k (p.var :: t) cs m
  | .ite c a b, t, cs, m =>
    let add (v : Bool) := match c.on with
      | some x => bif t.contains x then cs else cs ++ [(c, v)]
      | none => cs
    errPaths a t (add true) m ++ errPaths b t (add false) m
  | .err msg k, t, cs, _ => errPaths k t cs (some msg)
  | .errName _ _ k, t, cs, m => errPaths k t cs m
  | .zeroLen k, t, cs, m => errPaths k t cs m
  | .regParam _ k, t, cs, m => errPaths k t cs m
  | .split p q k, t, cs, m => errPaths k (p.var :: q.var :: t) cs m
  | .finish, _, _, _ => []

def noName : Prog → Bool
  | .ret => true
  | .fail => true
  | .set _ _ k => noName k
  | .push _ _ k => noName k
  | .insert _ _ k => noName k
  | .del _ k => noName k
  | .free _ k => noName k
  | .ite _ a b => noName a && noName b
  | .err _ k => noName k
  | .errName _ _ _ => false
  | .zeroLen k => noName k
  | .regParam _ k => noName k
  | .split _ _ k => noName k
  | .finish => false

theorem putP_other {env env' : List V} {p : Path} {x : V} (h : putP env p x = some env') {q : Path} (hq : q.var ≠ p.var) : getP env' q = getP env q := by
  unfold putP at h
  split at h
  · split at h
    · cases h
      unfold getP
      rw [List.getElem?_set_ne (Ne.symm hq)]
    · cases h
  · cases h

/-- The variables outside `t` are unchanged. -/
def Unch (t : List Nat) (env0 env : List V) : Prop := ∀ q : Path, q.var ∉ t → getP env q = getP env0 q

theorem Unch.put {t : List Nat} {env0 env env' : List V} (h : Unch t env0 env) {p : Path} {x : V} (hp : putP env p x = some env') : Unch (p.var :: t) env0 env' := by
  intro q hq
  simp only [List.mem_cons, not_or] at hq
  rw [putP_other hp hq.1, h q hq.2]
theorem Unch.mono {t t' : List Nat} {env0 env : List V} (h : Unch t env0 env) (hs : ∀ x ∈ t, x ∈ t') : Unch t' env0 env := fun q hq => h q fun hx => hq (hs _ hx)

theorem Unch.atom {t : List Nat} {env0 env env' : List V} (h : Unch t env0 env) {a : Atom} {st : St} {v : V} (ha : evalAtom a env st = some (v, env')) : Unch (a.on ++ t) env0 env' := by
  unfold evalAtom at ha
  cases a with
  | mv p =>
    simp only [] at ha
    split at ha
    · split at ha
      · cases ha
      · split at ha
        · rename_i hp; cases ha; exact h.put hp
        · cases ha
    · cases ha
  | cp p =>
    simp only [] at ha
    split at ha <;> cases ha <;> exact h
  | dur p =>
    simp only [] at ha
    split at ha
    · split at ha <;> cases ha <;> exact h
    · cases ha
  | unit p =>
    simp only [] at ha
    split at ha
    · split at ha <;> cases ha <;> exact h
    · cases ha
  | _ => simp only [] at ha; cases ha; exact h

theorem Unch.atoms : ∀ (l : List Atom) {t : List Nat} {env0 env env' : List V}, Unch t env0 env → ∀ {st : St} {vs : List V}, evalAtoms l env st = some (vs, env') → Unch (l.flatMap Atom.on ++ t) env0 env'
  | [], t, env0, env, env', h, st, vs, he => by cases he; exact h
  | a :: l, t, env0, env, env', h, st, vs, he => by
    simp only [evalAtoms] at he
    split at he
    · rename_i v e1 h1
      split at he
      · rename_i ws e2 h2
        cases he
        refine (Unch.atoms l (h.atom h1) h2).mono ?_
        simp only [List.flatMap_cons, List.mem_append]
        intro x hx
        rcases hx with hx | hx | hx
        · exact .inl (.inr hx)
        · exact .inl (.inl hx)
        · exact .inr hx
      · cases he
    · cases he

theorem evalRv_facts {A : Alloc} {e : Rv} {env env' : List V} {st st' : St} {v : V} (he : evalRv A e env st = some (v, env', st')) : st'.res = st.res ∧
    ∀ {t : List Nat} {env0 : List V}, Unch t env0 env → Unch (e.on ++ t) env0 env' := by
  unfold evalRv at he
  cases e with
  | atom a =>
    simp only [] at he
    split at he
    · rename_i h1; cases he; exact ⟨rfl, fun h => h.atom h1⟩
    · cases he
  | obj c l =>
    simp only [] at he
    split at he
    · rename_i h1; cases he; exact ⟨rfl, fun h => Unch.atoms _ h h1⟩
    · cases he
  | vec l =>
    simp only [] at he
    split at he
    · rename_i h1; cases he; exact ⟨rfl, fun h => Unch.atoms _ h h1⟩
    · cases he
  | tup l =>
    simp only [] at he
    split at he
    · rename_i h1; cases he; exact ⟨rfl, fun h => Unch.atoms _ h h1⟩
    · cases he

theorem evalCond_unch {c : Cond} {x : Nat} (hx : c.on = some x) {t : List Nat} {env0 env : List V} (h : Unch t env0 env) (hn : x ∉ t) (st st0 : St) :
    evalCond c env st = evalCond c env0 st0 := by
  have hs : ∀ p : Path, p.var ∉ t → strAt env p = strAt env0 p := fun p hp => by unfold strAt; rw [h p hp]
  cases c <;> simp only [Cond.on, Option.some.injEq] at hx <;> (try subst hx) <;> first | (cases hx; done) | (simp only [evalCond, h _ hn, hs _ hn])

/-- What is known of the message. -/
def MsgIs (loc : Loc) (r0 r : Res) : Option Bytes → Prop
  | none => r = r0
  | some m => r.errMsg.map Prod.snd = some m ∧ r.errLine = loc.fl ∧ r.errCol = loc.fc

/-- An error comes from one of the paths. -/
theorem run_error (A : Alloc) (loc : Loc) {r0 : Res} {env0 : List V} {s0 : St} : ∀ (k : Prog) (t : List Nat) (cs : List (Cond × Bool)) (m : Option Bytes) (env : List V) (st st' : St),
    noName k = true → run A loc k env st = .error st' → Unch t env0 env → (∀ x ∈ cs, evalCond x.1 env0 s0 = some x.2) → MsgIs loc r0 st.res m →
    ∃ p ∈ errPaths k t cs m, (∀ x ∈ p.1, evalCond x.1 env0 s0 = some x.2) ∧ MsgIs loc r0 st'.res p.2
  | .ret, t, cs, m, env, st, st', hn, h, hu, hc, hm => by
    simp only [run] at h
    split at h <;> cases h
  | .fail, t, cs, m, env, st, st', hn, h, hu, hc, hm => by
    simp only [run] at h
    cases h
    exact ⟨(cs, m), by simp [errPaths], hc, hm⟩
  | .set p e k, t, cs, m, env, st, st', hn, h, hu, hc, hm => by
    simp only [run] at h
    split at h
    · rename_i v env1 st1 h1
      obtain ⟨e1, e2⟩ := evalRv_facts h1
      split at h
      · split at h
        · rename_i h2
          exact run_error A loc k _ cs m _ _ st' hn h (((e2 hu).put h2).mono (by simp)) hc (by rw [St.log]; simpa only [e1] using hm)
        · cases h
      · cases h
    · cases h
  | .push p e k, t, cs, m, env, st, st', hn, h, hu, hc, hm => by
    simp only [run] at h
    split at h
    · rename_i v env1 h1
      split at h
      · split at h
        · rename_i h2
          have hon : ∀ x, x ∈ (Rv.on (.atom e)) ↔ x ∈ e.on := fun _ => Iff.rfl
          exact run_error A loc k _ cs m _ _ st' hn h (((hu.atom h1).put h2).mono (by simp)) hc hm
        · cases h
      · cases h
    · cases h
  | .insert p e k, t, cs, m, env, st, st', hn, h, hu, hc, hm => by
    simp only [run] at h
    split at h
    · rename_i v env1 h1
      split at h
      · split at h
        · rename_i h2
          exact run_error A loc k _ cs m _ _ st' hn h (((hu.atom h1).put h2).mono (by simp)) hc hm
        · cases h
      · cases h
    · cases h
  | .del p k, t, cs, m, env, st, st', hn, h, hu, hc, hm => by
    simp only [run] at h
    split at h
    · split at h
      · split at h
        · rename_i h2
          exact run_error A loc k _ cs m _ _ st' hn h (hu.put h2) hc hm
        · cases h
      · cases h
    · cases h
  | .free p k, t, cs, m, env, st, st', hn, h, hu, hc, hm => by
    simp only [run] at h
    split at h
    · split at h
      · split at h
        · rename_i h2
          exact run_error A loc k _ cs m _ _ st' hn h (hu.put h2) hc hm
        · cases h
      · cases h
    · cases h
  | .ite c a b, t, cs, m, env, st, st', hn, h, hu, hc, hm => by
    simp only [noName, Bool.and_eq_true] at hn
    simp only [run] at h
    have key : ∀ v, evalCond c env st = some v → ∀ x ∈ (match c.on with
        | some x => bif t.contains x then cs else cs ++ [(c, v)]
        | none => cs), evalCond x.1 env0 s0 = some x.2 := by
      intro v hv
      split
      · rename_i x hx
        cases ht : t.contains x with
        | true => exact hc
        | false =>
          have hnt : x ∉ t := by intro hh; rw [List.contains_iff_mem.2 hh] at ht; cases ht
          intro y hy
          simp only [cond_false, List.mem_append, List.mem_singleton] at hy
          rcases hy with hy | rfl
          · exact hc y hy
          · rw [← evalCond_unch hx hu hnt st s0]; exact hv
      · exact hc
    simp only [errPaths, List.mem_append]
    split at h
    · rename_i h1
      obtain ⟨p, h2, h3⟩ := run_error A loc a t _ m env st st' hn.1 h hu (key true h1) hm
      exact ⟨p, .inl h2, h3⟩
    · rename_i h1
      obtain ⟨p, h2, h3⟩ := run_error A loc b t _ m env st st' hn.2 h hu (key false h1) hm
      exact ⟨p, .inr h2, h3⟩
    · cases h
  | .err msg k, t, cs, m, env, st, st', hn, h, hu, hc, hm => by
    simp only [run] at h
    exact run_error A loc k t cs (some msg) env _ st' hn h hu hc ⟨rfl, rfl, rfl⟩
  | .errName msg p k, t, cs, m, env, st, st', hn, h, hu, hc, hm => by cases hn
  | .zeroLen k, t, cs, m, env, st, st', hn, h, hu, hc, hm => by
    simp only [run] at h
    exact run_error A loc k t cs m env _ st' hn h hu hc hm
  | .regParam p k, t, cs, m, env, st, st', hn, h, hu, hc, hm => by
    simp only [run] at h
    split at h
    · split at h
      · exact run_error A loc k t cs m env _ st' hn h hu hc hm
      · cases h
    · cases h
  | .split p q k, t, cs, m, env, st, st', hn, h, hu, hc, hm => by
    simp only [run] at h
    split at h
    · split at h
      · rename_i h1
        split at h
        · split at h
          · rename_i h2
            split at h
            · rename_i h3
              exact run_error A loc k _ cs m _ _ st' hn h ((((hu.put h1).put h2).put h3).mono (by simp)) hc hm
            · cases h
          · cases h
        · cases h
      · cases h
    · cases h
  | .finish, t, cs, m, env, st, st', hn, h, hu, hc, hm => by cases hn

/-- The actions that may fail. -/
theorem rules_fail : ((List.range 358).filter fun r => Nat.ble 2 r && !noFail (act r)) = [37, 42, 44, 46, 48, 55, 56, 162, 179, 294, 296, 297] := by decide +kernel
theorem rule_fail {r : Nat} (h1 : 2 ≤ r) (h2 : r < 358) (h : noFail (act r) = false) : r ∈ [37, 42, 44, 46, 48, 55, 56, 162, 179, 294, 296, 297] := by
  rw [← rules_fail, List.mem_filter]
  exact ⟨List.mem_range.2 h2, by rw [Nat.ble_eq_true_of_le h1, h]; rfl⟩

end Verif.Sem

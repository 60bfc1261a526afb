import Verif.Sem.Parse
import Verif.Sem.Addrs
/-!
# What the actions look at

Replacing strings the actions do not look at, and forgetting all positions: the actions commute with it. Proof-internal, but for `V.er` and what is built from it.
-/
namespace Verif.Sem
open Verif.Lex Verif.LR
set_option linter.unusedSimpArgs false

mutual
/-- Replace the bytes `b` of every string, which has address `a`, by `g a b`, and every number computed from a position in the text by 0. -/
def V.er (g : Nat → Bytes → Bytes) : V → V
  | .undef => .undef
  | .null => .null
  | .int n => .int n
  | .pos _ => .pos 0
  | .idx n => .idx n
  | .raw b => .raw b
  | .str a b => .str a (g a b)
  | .vec a vs => .vec a (erL g vs)
  | .obj a c fs => .obj a c (erL g fs)
  | .tup fs => .tup (erL g fs)
def erL (g : Nat → Bytes → Bytes) : List V → List V
  | [] => []
  | v :: vs => v.er g :: erL g vs
end

/-- In a result; the position of the error is forgotten, too. -/
def Res.er (g : Nat → Bytes → Bytes) (r : Res) : Res := { r with stmts := r.stmts.map (V.er g), errLine := 0, errCol := 0 }

def loc0 : Loc := ⟨0, 0, 0, 0⟩

/-- In the semantic state. -/
def St.er (g : Nat → Bytes → Bytes) (st : St) : St := { st with yylloc := ⟨loc0, 0, 0⟩, res := st.res.er g }

/-- In what an action gives. -/
def Out.er (g : Nat → Bytes → Bytes) : Out → Out
  | .ok v st => .ok (v.er g) (st.er g)
  | .error st => .error (st.er g)
  | .ub => .ub

/-- What `g` does to a value is nothing, if it is a string. -/
def V.Fix (g : Nat → Bytes → Bytes) (v : V) : Prop := ∀ a b, v = .str a b → g a b = b
/-- Nor to the values at these paths. -/
def Fixed (g : Nat → Bytes → Bytes) (env : List V) (es : List Path) : Prop := ∀ p ∈ es, ∀ v, getP env p = some v → v.Fix g

theorem erL_map (g : Nat → Bytes → Bytes) : ∀ (vs : List V), erL g vs = vs.map (V.er g)
  | [] => rfl
  | v :: vs => by rw [erL, List.map_cons, erL_map g vs]

section
variable {g : Nat → Bytes → Bytes}

theorem get_er : ∀ (p : List Sel) (v : V), (v.er g).get p = (v.get p).map (V.er g)
  | [], v => by simp [V.get]
  | .fld i :: p, v => by
    cases v with
    | obj a c fs =>
      simp only [V.er, V.get, erL_map, List.getElem?_map]
      cases fs[i]? with
      | none => rfl
      | some w => exact get_er p w
    | tup fs =>
      simp only [V.er, V.get, erL_map, List.getElem?_map]
      cases fs[i]? with
      | none => rfl
      | some w => exact get_er p w
    | _ => rfl
  | .back :: p, v => by
    cases v with
    | vec a vs =>
      simp only [V.er, V.get, erL_map, List.getLast?_map]
      cases vs.getLast? with
      | none => rfl
      | some w => exact get_er p w
    | _ => rfl

theorem put_er : ∀ (p : List Sel) (v x : V), (v.er g).put p (x.er g) = (v.put p x).map (V.er g)
  | [], v, x => by simp [V.put]
  | .fld i :: p, v, x => by
    cases v with
    | obj a c fs =>
      simp only [V.er, V.put, erL_map, List.getElem?_map]
      cases fs[i]? with
      | none => rfl
      | some w =>
        simp only [Option.map_some, put_er p w x]
        cases w.put p x with
        | none => rfl
        | some w' => simp [V.er, erL_map, List.map_set]
    | tup fs =>
      simp only [V.er, V.put, erL_map, List.getElem?_map]
      cases fs[i]? with
      | none => rfl
      | some w =>
        simp only [Option.map_some, put_er p w x]
        cases w.put p x with
        | none => rfl
        | some w' => simp [V.er, erL_map, List.map_set]
    | _ => rfl
  | .back :: p, v, x => by
    cases v with
    | vec a vs =>
      simp only [V.er, V.put, erL_map, List.getLast?_map]
      cases vs.getLast? with
      | none => rfl
      | some w =>
        simp only [Option.map_some, put_er p w x]
        cases w.put p x with
        | none => rfl
        | some w' => simp [V.er, erL_map, List.map_dropLast]
    | _ => rfl

theorem getP_er (env : List V) (p : Path) : getP (env.map (V.er g)) p = (getP env p).map (V.er g) := by
  unfold getP
  rw [List.getElem?_map]
  cases env[p.var]? with
  | none => rfl
  | some v => exact get_er _ v

theorem putP_er (env : List V) (p : Path) (x : V) : putP (env.map (V.er g)) p (x.er g) = (putP env p x).map (List.map (V.er g)) := by
  unfold putP
  rw [List.getElem?_map]
  cases env[p.var]? with
  | none => rfl
  | some v =>
    simp only [Option.map_some, put_er]
    cases v.put p.sels x with
    | none => rfl
    | some w => simp [List.map_set]

theorem putP_undef_er (env : List V) (p : Path) : putP (env.map (V.er g)) p .undef = (putP env p .undef).map (List.map (V.er g)) := putP_er env p .undef

theorem strAt_er {env : List V} {p : Path} (h : ∀ v, getP env p = some v → v.Fix g) : strAt (env.map (V.er g)) p = strAt env p := by
  unfold strAt
  rw [getP_er]
  cases hv : getP env p with
  | none => rfl
  | some v =>
    cases v with
    | str a b => simp only [Option.map_some, V.er, h _ hv a b rfl]
    | _ => rfl

theorem isUndef_er (v : V) : (v.er g).isUndef = v.isUndef := by cases v <;> rfl
theorem isInt_er (n : Int) (v : V) : (v.er g).isInt n = v.isInt n := by cases v <;> rfl
theorem isNum_er (v : V) : (v.er g).isNum = v.isNum := by cases v <;> rfl
theorem hasInt_er (n : Int) (vs : List V) : hasInt n (vs.map (V.er g)) = hasInt n vs := by
  unfold hasInt
  rw [List.any_map]
  congr 1
  funext v
  exact isInt_er n v
theorem addr_er (v : V) : (v.er g).addr? = v.addr? := by cases v <;> rfl
theorem isCol_er (v : V) : isColumnDef (v.er g) = isColumnDef v := by cases v <;> first | rfl | (rename_i c _; cases c <;> rfl)
theorem isCons_er (v : V) : isConstraint (v.er g) = isConstraint v := by cases v <;> first | rfl | (rename_i c _; cases c <;> rfl)
theorem filter_er (q : V → Bool) (hq : ∀ v, q (v.er g) = q v) (vs : List V) : (vs.map (V.er g)).filter q = (vs.filter q).map (V.er g) := by
  rw [List.filter_map]
  congr 2
  funext v
  exact hq v

mutual
theorem addrs_er : ∀ (v : V), (v.er g).addrs = v.addrs
  | .undef => by simp [V.er, V.addrs]
  | .null => by simp [V.er, V.addrs]
  | .int _ => by simp [V.er, V.addrs]
  | .pos _ => by simp [V.er, V.addrs]
  | .idx _ => by simp [V.er, V.addrs]
  | .raw _ => by simp [V.er, V.addrs]
  | .str _ _ => by simp [V.er, V.addrs]
  | .vec _ vs => by simp only [V.er, V.addrs, List.map_cons, addrsL_er' vs]
  | .obj _ _ fs => by simp only [V.er, V.addrs, List.map_cons, addrsL_er' fs]
  | .tup fs => by simp only [V.er, V.addrs, addrsL_er' fs]
theorem addrsL_er' : ∀ (vs : List V), addrsL (erL g vs) = addrsL vs
  | [] => rfl
  | v :: vs => by simp only [erL, addrsL, List.map_append, addrs_er v, addrsL_er' vs]
end
theorem addrsL_er (vs : List V) : addrsL (vs.map (V.er g)) = addrsL vs := by rw [← erL_map, addrsL_er']

mutual
theorem treat_er : ∀ (k : How) (v : V), treat k (v.er g) = (treat k v)
  | .keep, .undef => by rw [treat, treat, addrs_er]
  | .keep, .null => by rw [treat, treat, addrs_er]
  | .keep, .int _ => by rw [treat, treat, addrs_er]
  | .keep, .pos _ => by rw [treat, treat, addrs_er]
  | .keep, .idx _ => by rw [treat, treat, addrs_er]
  | .keep, .raw _ => by rw [treat, treat, addrs_er]
  | .keep, .str _ _ => by rw [treat, treat, addrs_er]
  | .keep, .vec _ vs => by rw [treat, treat, addrs_er]
  | .keep, .obj _ c fs => by rw [treat, treat, addrs_er]
  | .keep, .tup fs => by rw [treat, treat, addrs_er]
  | .str, .undef => by simp [V.er, treat]
  | .str, .null => by simp [V.er, treat]
  | .str, .int _ => by simp [V.er, treat]
  | .str, .pos _ => by simp [V.er, treat]
  | .str, .idx _ => by simp [V.er, treat]
  | .str, .raw _ => by simp [V.er, treat]
  | .str, .str _ _ => by simp [V.er, treat]
  | .str, .vec _ _ => by simp [V.er, treat]
  | .str, .obj _ _ _ => by simp [V.er, treat]
  | .str, .tup _ => by simp [V.er, treat]
  | .del, .undef => by simp [V.er, treat]
  | .del, .null => by simp [V.er, treat]
  | .del, .int _ => by simp [V.er, treat]
  | .del, .pos _ => by simp [V.er, treat]
  | .del, .idx _ => by simp [V.er, treat]
  | .del, .raw _ => by simp [V.er, treat]
  | .del, .str _ _ => by simp [V.er, treat]
  | .del, .vec _ vs => by simp only [V.er, treat, addrsL_er' vs]
  | .del, .obj _ c fs => by simp only [V.er, treat, treatFs_er (dtor c) fs]
  | .del, .tup _ => by simp [V.er, treat]
  | .vec _, .undef => by simp [V.er, treat]
  | .vec _, .null => by simp [V.er, treat]
  | .vec _, .int _ => by simp [V.er, treat]
  | .vec _, .pos _ => by simp [V.er, treat]
  | .vec _, .idx _ => by simp [V.er, treat]
  | .vec _, .raw _ => by simp [V.er, treat]
  | .vec _, .str _ _ => by simp [V.er, treat]
  | .vec e, .vec _ vs => by simp only [V.er, treat, treatEl_er e vs]
  | .vec _, .obj _ _ _ => by simp [V.er, treat]
  | .vec _, .tup _ => by simp [V.er, treat]
  | .vecNN _, .undef => by simp [V.er, treat]
  | .vecNN _, .null => by simp [V.er, treat]
  | .vecNN _, .int _ => by simp [V.er, treat]
  | .vecNN _, .pos _ => by simp [V.er, treat]
  | .vecNN _, .idx _ => by simp [V.er, treat]
  | .vecNN _, .raw _ => by simp [V.er, treat]
  | .vecNN _, .str _ _ => by simp [V.er, treat]
  | .vecNN e, .vec _ vs => by simp only [V.er, treat, treatEl_er e vs]
  | .vecNN _, .obj _ _ _ => by simp [V.er, treat]
  | .vecNN _, .tup _ => by simp [V.er, treat]
  | .fields _, .undef => by simp [V.er, treat]
  | .fields _, .null => by simp [V.er, treat]
  | .fields _, .int _ => by simp [V.er, treat]
  | .fields _, .pos _ => by simp [V.er, treat]
  | .fields _, .idx _ => by simp [V.er, treat]
  | .fields _, .raw _ => by simp [V.er, treat]
  | .fields _, .str _ _ => by simp [V.er, treat]
  | .fields _, .vec _ _ => by simp [V.er, treat]
  | .fields hs, .obj _ c fs => by simp only [V.er, treat, treatFs_er hs fs]
  | .fields _, .tup _ => by simp [V.er, treat]
  | .tup _, .undef => by simp [V.er, treat]
  | .tup _, .null => by simp [V.er, treat]
  | .tup _, .int _ => by simp [V.er, treat]
  | .tup _, .pos _ => by simp [V.er, treat]
  | .tup _, .idx _ => by simp [V.er, treat]
  | .tup _, .raw _ => by simp [V.er, treat]
  | .tup _, .str _ _ => by simp [V.er, treat]
  | .tup _, .vec _ _ => by simp [V.er, treat]
  | .tup _, .obj _ _ _ => by simp [V.er, treat]
  | .tup hs, .tup fs => by simp only [V.er, treat, treatFs_er hs fs]
theorem treatFs_er : ∀ (hs : List How) (vs : List V), treatFs hs (erL g vs) = (treatFs hs vs)
  | [], [] => rfl
  | k :: ks, v :: vs => by simp only [erL, treatFs, treat_er k v, treatFs_er ks vs]
  | [], _ :: _ => by simp [erL, treatFs]
  | _ :: _, [] => by simp [erL, treatFs]
theorem treatEl_er : ∀ (e : How) (vs : List V), treatEl e (erL g vs) = (treatEl e vs)
  | _, [] => rfl
  | e, v :: vs => by simp only [erL, treatEl, treat_er e v, treatEl_er e vs]
end


/-! ## Which paths the actions look at -/

def Atom.ok (es : List Path) : Atom → Bool
  | .dur p => es.contains p
  | .unit p => es.contains p
  | _ => true
/-- The paths still known to be fixed after evaluation. -/
def Atom.next (es : List Path) : Atom → List Path
  | .mv q => es.filter fun p => p.var != q.var
  | _ => es
/-- The value is not a string, or one that is fixed. -/
def Atom.fix (es : List Path) : Atom → Bool
  | .mv q => es.contains q
  | _ => true
def atomsOk : List Path → List Atom → Bool
  | _, [] => true
  | es, a :: as => a.ok es && atomsOk (a.next es) as
def atomsNext : List Path → List Atom → List Path
  | es, [] => es
  | es, a :: as => atomsNext (a.next es) as
def atomsFix : List Path → List Atom → List Bool
  | _, [] => []
  | es, a :: as => a.fix es :: atomsFix (a.next es) as
def Rv.ok (es : List Path) : Rv → Bool
  | .atom a => a.ok es
  | .obj _ fs => atomsOk es fs
  | .vec vs => atomsOk es vs
  | .tup fs => atomsOk es fs
def Rv.next (es : List Path) : Rv → List Path
  | .atom a => a.next es
  | .obj _ fs => atomsNext es fs
  | .vec vs => atomsNext es vs
  | .tup fs => atomsNext es fs
def flagged (v : Nat) : Nat → List Bool → List Path
  | _, [] => []
  | i, b :: bs => if b then ⟨v, [.fld i]⟩ :: flagged v (i + 1) bs else flagged v (i + 1) bs
/-- The paths known to be fixed after assigning to the variable `v`. -/
def Rv.adds (v : Nat) (es : List Path) : Rv → List Path
  | .atom a => if a.fix es then [⟨v, []⟩] else []
  | .obj _ fs => flagged v 0 (atomsFix es fs)
  | _ => []
def Cond.ok (es : List Path) : Cond → Bool
  | .strIs p _ => es.contains p
  | .dateOk p => es.contains p
  | .durOk p => es.contains p
  | .durUnitOk p => es.contains p
  | _ => true

/-- The strings the program looks at are, at the beginning, at paths among `es`. -/
def Prog.sees : List Path → Prog → Bool
  | _, .ret => true
  | _, .fail => true
  | es, .set p e k => e.ok es && k.sees ((e.next es).filter (fun q => q.var != p.var) ++ (if p.sels.isEmpty then e.adds p.var es else []))
  | es, .push p e k => e.ok es && k.sees ((e.next es).filter fun q => q.var != p.var)
  | es, .insert p e k => e.ok es && k.sees ((e.next es).filter fun q => q.var != p.var)
  | es, .del p k => k.sees (es.filter fun q => q.var != p.var)
  | es, .free p k => k.sees (es.filter fun q => q.var != p.var)
  | es, .ite c t e => c.ok es && t.sees es && e.sees es
  | es, .err _ k => k.sees es
  | es, .errName _ p k => es.contains p && k.sees es
  | es, .zeroLen k => k.sees es
  | es, .regParam _ k => k.sees es
  | es, .split p q k => k.sees (((es.filter fun x => x.var != q.var).filter fun x => x.var != p.var).filter fun x => x.var != p.var)
  | _, .finish => false

theorem getP_putP_ne {env env' : List V} {p q : Path} {x : V} (h : putP env p x = some env') (hne : q.var ≠ p.var) : getP env' q = getP env q := by
  unfold putP at h
  unfold getP
  cases hv : env[p.var]? with
  | none => rw [hv] at h; cases h
  | some v =>
    rw [hv] at h
    simp only at h
    cases hp : v.put p.sels x with
    | none => rw [hp] at h; cases h
    | some v' =>
      rw [hp] at h
      simp only [Option.some.injEq] at h
      subst h
      rw [List.getElem?_set_ne (Ne.symm hne)]

theorem getP_putP_var {env env' : List V} {v : Nat} {x : V} (h : putP env ⟨v, []⟩ x = some env') (p : List Sel) : getP env' ⟨v, p⟩ = x.get p := by
  unfold putP at h
  unfold getP
  cases hv : env[v]? with
  | none => simp only [hv] at h; cases h
  | some w =>
    simp only [hv, V.put, Option.some.injEq] at h
    subst h
    have hlt : v < env.length := (List.getElem?_eq_some_iff.1 hv).1
    simp [hlt]

theorem Fixed.put {env env' : List V} {es : List Path} (h : Fixed g env es) {p : Path} {x : V} (hp : putP env p x = some env') :
    Fixed g env' (es.filter fun q => q.var != p.var) := by
  intro q hq v hv
  obtain ⟨h1, h2⟩ := List.mem_filter.1 hq
  rw [getP_putP_ne hp (by simpa using h2)] at hv
  exact h q h1 v hv

theorem Fixed.at {env : List V} {es : List Path} (h : Fixed g env es) {p : Path} (hp : es.contains p = true) : ∀ v, getP env p = some v → v.Fix g :=
  h p (by simpa using hp)

theorem evalAtom_fixed {a : Atom} {env env' : List V} {st : St} {v : V} {es : List Path} (hf : Fixed g env es) (h : evalAtom a env st = some (v, env')) :
    Fixed g env' (a.next es) ∧ (a.fix es = true → v.Fix g) := by
  have triv : ∀ {w : V}, (∀ a b, w ≠ .str a b) → w.Fix g := fun hw a b e => absurd e (hw a b)
  cases a with
  | mv p =>
    simp only [evalAtom] at h
    cases hp : getP env p with
    | none => rw [hp] at h; cases h
    | some w =>
      rw [hp] at h
      simp only at h
      split at h
      · cases h
      · cases hq : putP env p .undef with
        | none => rw [hq] at h; cases h
        | some e' =>
          rw [hq] at h
          simp only [Option.some.injEq, Prod.mk.injEq] at h
          obtain ⟨rfl, rfl⟩ := h
          exact ⟨hf.put hq, fun h => hf.at h _ hp⟩
  | cp p =>
    simp only [evalAtom] at h
    split at h
    · cases h; exact ⟨hf, fun _ => triv (by intro _ _ h; cases h)⟩
    · cases h; exact ⟨hf, fun _ => triv (by intro _ _ h; cases h)⟩
    · cases h
  | dur p =>
    simp only [evalAtom] at h
    split at h
    · split at h
      · cases h; exact ⟨hf, fun _ => triv (by intro _ _ h; cases h)⟩
      · cases h
    · cases h
  | unit p =>
    simp only [evalAtom] at h
    split at h
    · split at h
      · cases h; exact ⟨hf, fun _ => triv (by intro _ _ h; cases h)⟩
      · cases h
    · cases h
  | _ =>
    simp only [evalAtom, Option.some.injEq, Prod.mk.injEq] at h
    obtain ⟨rfl, rfl⟩ := h
    exact ⟨hf, fun _ => triv (by intro _ _ h; cases h)⟩

theorem evalAtoms_fixed : ∀ {as : List Atom} {env env' : List V} {st : St} {vs : List V} {es : List Path}, Fixed g env es → evalAtoms as env st = some (vs, env') →
    Fixed g env' (atomsNext es as) ∧ ∀ (i : Nat), (atomsFix es as)[i]? = some true → ∀ (v : V), vs[i]? = some v → v.Fix g
  | [], env, env', st, vs, es, hf, h => by
    simp only [evalAtoms, Option.some.injEq, Prod.mk.injEq] at h
    obtain ⟨rfl, rfl⟩ := h
    exact ⟨hf, fun i h => by simp [atomsFix] at h⟩
  | a :: as, env, env', st, vs, es, hf, h => by
    simp only [evalAtoms] at h
    cases ha : evalAtom a env st with
    | none => rw [ha] at h; cases h
    | some x =>
      obtain ⟨v, e1⟩ := x
      rw [ha] at h
      simp only at h
      cases has : evalAtoms as e1 st with
      | none => rw [has] at h; cases h
      | some y =>
        obtain ⟨ws, e2⟩ := y
        rw [has] at h
        simp only [Option.some.injEq, Prod.mk.injEq] at h
        obtain ⟨rfl, rfl⟩ := h
        obtain ⟨k1, k2⟩ := evalAtom_fixed hf ha
        obtain ⟨k3, k4⟩ := evalAtoms_fixed k1 has
        refine ⟨k3, fun i hi w hw => ?_⟩
        cases i with
        | zero =>
          simp only [atomsFix, List.getElem?_cons_zero, Option.some.injEq] at hi hw
          subst hw
          exact k2 hi
        | succ i =>
          simp only [atomsFix, List.getElem?_cons_succ] at hi hw
          exact k4 i hi w hw

theorem flagged_mem {v : Nat} {p : Path} : ∀ {i : Nat} {bs : List Bool}, p ∈ flagged v i bs → ∃ j, p = ⟨v, [.fld (i + j)]⟩ ∧ bs[j]? = some true
  | i, [], h => by simp [flagged] at h
  | i, b :: bs, h => by
    simp only [flagged] at h
    have rest : p ∈ flagged v (i + 1) bs → ∃ j, p = ⟨v, [.fld (i + j)]⟩ ∧ (b :: bs)[j]? = some true := by
      intro h
      obtain ⟨j, h1, h2⟩ := flagged_mem h
      exact ⟨j + 1, by rw [h1]; congr 3; omega, by simpa using h2⟩
    cases b with
    | false => exact rest (by simpa using h)
    | true =>
      simp only [if_true, List.mem_cons] at h
      rcases h with h | h
      · exact ⟨0, by simpa using h, rfl⟩
      · exact rest h

theorem evalRv_fixed {A : Alloc} {e : Rv} {env env' : List V} {st st' : St} {v : V} {es : List Path} (hf : Fixed g env es) (h : evalRv A e env st = some (v, env', st')) :
    Fixed g env' (e.next es) ∧ ∀ x env'', putP env' ⟨x, []⟩ v = some env'' → Fixed g env'' (e.adds x es) := by
  cases e with
  | atom a =>
    simp only [evalRv] at h
    cases ha : evalAtom a env st with
    | none => rw [ha] at h; cases h
    | some y =>
      rw [ha] at h
      cases h
      obtain ⟨k1, k2⟩ := evalAtom_fixed hf ha
      refine ⟨k1, fun x env'' hp p hpm w hw => ?_⟩
      simp only [Rv.adds] at hpm
      split at hpm
      · rename_i hfix
        simp only [List.mem_cons, List.not_mem_nil, or_false] at hpm
        subst hpm
        rw [getP_putP_var hp] at hw
        simp only [V.get, Option.some.injEq] at hw
        subst hw
        exact k2 hfix
      · cases hpm
  | obj c fs =>
    simp only [evalRv] at h
    cases ha : evalAtoms fs env st with
    | none => rw [ha] at h; cases h
    | some y =>
      rw [ha] at h
      cases h
      obtain ⟨k1, k2⟩ := evalAtoms_fixed hf ha
      refine ⟨k1, fun x env'' hp p hpm w hw => ?_⟩
      obtain ⟨j, rfl, hj⟩ := flagged_mem hpm
      rw [getP_putP_var hp] at hw
      simp only [V.get, Nat.zero_add] at hw
      refine k2 j hj w ?_
      revert hw
      cases y.1[j]? with
      | none => intro hw; cases hw
      | some z => intro hw; simpa using hw
  | vec vs =>
    simp only [evalRv] at h
    cases ha : evalAtoms vs env st with
    | none => rw [ha] at h; cases h
    | some y => rw [ha] at h; cases h; exact ⟨(evalAtoms_fixed hf ha).1, fun x env'' hp p hpm => by cases hpm⟩
  | tup vs =>
    simp only [evalRv] at h
    cases ha : evalAtoms vs env st with
    | none => rw [ha] at h; cases h
    | some y => rw [ha] at h; cases h; exact ⟨(evalAtoms_fixed hf ha).1, fun x env'' hp p hpm => by cases hpm⟩


/-! ## The interpreter -/

def erVE (g : Nat → Bytes → Bytes) (x : V × List V) : V × List V := (x.1.er g, x.2.map (V.er g))
def erVES (g : Nat → Bytes → Bytes) (x : V × List V × St) : V × List V × St := (x.1.er g, x.2.1.map (V.er g), x.2.2.er g)
def erLE (g : Nat → Bytes → Bytes) (x : List V × List V) : List V × List V := (x.1.map (V.er g), x.2.map (V.er g))

theorem evalAtom_er {a : Atom} {env : List V} {es : List Path} (hf : Fixed g env es) (ho : a.ok es = true) (st : St) :
    evalAtom a (env.map (V.er g)) (st.er g) = (evalAtom a env st).map (erVE g) := by
  cases a with
  | null => rfl
  | int n => rfl
  | undef => rfl
  | unknownType => rfl
  | strLen => rfl
  | totalCol => rfl
  | nParams => rfl
  | cp p =>
    simp only [evalAtom, getP_er]
    cases getP env p with
    | none => rfl
    | some v => cases v <;> rfl
  | mv p =>
    simp only [evalAtom, getP_er]
    cases getP env p with
    | none => rfl
    | some v =>
      simp only [Option.map_some, isUndef_er, putP_undef_er]
      cases v.isUndef with
      | true => rfl
      | false => cases putP env p .undef <;> rfl
  | dur p =>
    simp only [evalAtom, strAt_er (hf.at ho)]
    cases strAt env p with
    | none => rfl
    | some b =>
      cases h : scanD none b with
      | none => simp only [h]; rfl
      | some x => simp only [h]; rfl
  | unit p =>
    simp only [evalAtom, strAt_er (hf.at ho)]
    cases strAt env p with
    | none => rfl
    | some b =>
      cases h : scanUnit b with
      | none => simp only [h]; rfl
      | some x => simp only [h]; rfl

theorem evalAtoms_er : ∀ {as : List Atom} {env : List V} {es : List Path}, Fixed g env es → atomsOk es as = true → ∀ (st : St),
    evalAtoms as (env.map (V.er g)) (st.er g) = (evalAtoms as env st).map (erLE g)
  | [], env, es, _, _, st => rfl
  | a :: as, env, es, hf, ho, st => by
    simp only [atomsOk, Bool.and_eq_true] at ho
    simp only [evalAtoms, evalAtom_er hf ho.1]
    cases ha : evalAtom a env st with
    | none => rfl
    | some x =>
      obtain ⟨v, env'⟩ := x
      simp only [Option.map_some, erVE, evalAtoms_er (evalAtom_fixed hf ha).1 ho.2 st]
      cases evalAtoms as env' st with
      | none => rfl
      | some y => rfl

theorem evalRv_er (A : Alloc) {e : Rv} {env : List V} {es : List Path} (hf : Fixed g env es) (ho : e.ok es = true) (st : St) :
    evalRv A e (env.map (V.er g)) (st.er g) = (evalRv A e env st).map (erVES g) := by
  cases e with
  | atom a =>
    simp only [evalRv, evalAtom_er hf (a := a) ho]
    cases evalAtom a env st <;> rfl
  | obj c fs =>
    simp only [evalRv, evalAtoms_er hf (as := fs) ho]
    cases evalAtoms fs env st with
    | none => rfl
    | some x => simp [erLE, erVES, V.er, erL_map, St.er, St.bump]
  | vec vs =>
    simp only [evalRv, evalAtoms_er hf (as := vs) ho]
    cases evalAtoms vs env st with
    | none => rfl
    | some x => simp [erLE, erVES, V.er, erL_map, St.er, St.bump]
  | tup fs =>
    simp only [evalRv, evalAtoms_er hf (as := fs) ho]
    cases evalAtoms fs env st with
    | none => rfl
    | some x => simp [erLE, erVES, V.er, erL_map]

theorem evalCond_er {c : Cond} {env : List V} {es : List Path} (hf : Fixed g env es) (ho : c.ok es = true) (st : St) :
    evalCond c (env.map (V.er g)) (st.er g) = evalCond c env st := by
  cases c with
  | null p =>
    simp only [evalCond, getP_er]
    cases getP env p with
    | none => rfl
    | some v => cases v <;> rfl
  | eq p n =>
    simp only [evalCond, getP_er]
    cases getP env p with
    | none => rfl
    | some v => cases v <;> rfl
  | strIs p s => simp only [evalCond, strAt_er (hf.at ho)]
  | has p n =>
    simp only [evalCond, getP_er]
    cases getP env p with
    | none => rfl
    | some v =>
      cases v <;> try rfl
      simp only [Option.map_some, V.er, erL_map, hasInt_er]
  | err => rfl
  | dateOk p => simp only [evalCond, strAt_er (hf.at ho)]
  | durOk p => simp only [evalCond, strAt_er (hf.at ho)]
  | durUnitOk p => simp only [evalCond, strAt_er (hf.at ho)]

theorem log_er (st : St) (f l : List Nat) : (st.log f l).er g = (st.er g).log f l := rfl
theorem yyerror_er (A : Alloc) (st : St) (m : Bytes) (x y : Int) : (st.yyerror A m x y).er g = (st.er g).yyerror A m 0 0 := rfl
theorem bump_er (st : St) : st.bump.er g = (st.er g).bump := rfl

mutual
theorem ivalAt_er (a : Nat) : ∀ (v : V), (v.er g).ivalAt a = (v.ivalAt a).map (V.er g)
  | .obj b c fs => by
    simp only [V.er, V.ivalAt]
    by_cases h : b = a ∧ c = .Expr
    · rw [if_pos h, if_pos h, erL_map, List.getElem?_map]
    · rw [if_neg h, if_neg h, ivalAtL_er' a fs]
  | .vec _ vs => by simp only [V.er, V.ivalAt]; exact ivalAtL_er' a vs
  | .tup fs => by simp only [V.er, V.ivalAt]; exact ivalAtL_er' a fs
  | .undef => by simp [V.er, V.ivalAt]
  | .null => by simp [V.er, V.ivalAt]
  | .int _ => by simp [V.er, V.ivalAt]
  | .pos _ => by simp [V.er, V.ivalAt]
  | .idx _ => by simp [V.er, V.ivalAt]
  | .raw _ => by simp [V.er, V.ivalAt]
  | .str _ _ => by simp [V.er, V.ivalAt]
theorem ivalAtL_er' (a : Nat) : ∀ (vs : List V), ivalAtL a (erL g vs) = (ivalAtL a vs).map (V.er g)
  | [] => by simp [erL, ivalAtL]
  | v :: vs => by
    simp only [erL, ivalAtL, ivalAt_er a v]
    cases v.ivalAt a with
    | none => exact ivalAtL_er' a vs
    | some x => rfl
end
theorem ivalAtL_er (a : Nat) (vs : List V) : ivalAtL a (vs.map (V.er g)) = (ivalAtL a vs).map (V.er g) := by
  rw [← erL_map, ivalAtL_er' a vs]

theorem newIval_er (n : Int) (fs : List V) : newIval n (erL g fs) = erL g (newIval n fs) := by
  unfold newIval
  rw [erL_map, List.getElem?_map]
  cases fs[10]? with
  | none => simp [erL_map]
  | some w =>
    simp only [Option.map_some, isNum_er]
    cases w.isNum with
    | true => simp [erL_map, List.map_set, V.er]
    | false => simp [erL_map]

mutual
theorem setIval_er (a : Nat) (n : Int) : ∀ (v : V), (v.er g).setIval a n = (v.setIval a n).er g
  | .obj b c fs => by
    simp only [V.er, V.setIval]
    by_cases h : b = a ∧ c = .Expr
    · rw [if_pos h, if_pos h, newIval_er]; rfl
    · rw [if_neg h, if_neg h, setIvalL_er' a n fs]; rfl
  | .vec _ vs => by simp only [V.er, V.setIval, setIvalL_er' a n vs]
  | .tup fs => by simp only [V.er, V.setIval, setIvalL_er' a n fs]
  | .undef => by simp [V.er, V.setIval]
  | .null => by simp [V.er, V.setIval]
  | .int _ => by simp [V.er, V.setIval]
  | .pos _ => by simp [V.er, V.setIval]
  | .idx _ => by simp [V.er, V.setIval]
  | .raw _ => by simp [V.er, V.setIval]
  | .str _ _ => by simp [V.er, V.setIval]
theorem setIvalL_er' (a : Nat) (n : Int) : ∀ (vs : List V), setIvalL a n (erL g vs) = erL g (setIvalL a n vs)
  | [] => by simp [erL, setIvalL]
  | v :: vs => by
    simp only [erL, setIvalL, setIval_er a n v, setIvalL_er' a n vs]
end
theorem setIvalL_er (a : Nat) (n : Int) (vs : List V) : setIvalL a n (vs.map (V.er g)) = (setIvalL a n vs).map (V.er g) := by
  rw [← erL_map, setIvalL_er' a n vs, erL_map]

theorem keysOf_er (stmts : List V) : ∀ (as : List Nat), keysOf (stmts.map (V.er g)) as = keysOf stmts as
  | [] => rfl
  | a :: as => by
    simp only [keysOf, ivalAtL_er a stmts, keysOf_er stmts as]
    cases ivalAtL a stmts with
    | none => rfl
    | some v => cases v <;> rfl

theorem addParameter_er (r : Res) (a : Nat) : (r.er g).addParameter a = (r.addParameter a).map (Res.er g) := by
  unfold Res.addParameter
  show (match keysOf (r.stmts.map (V.er g)) (r.params ++ [a]) with | some ks => _ | none => _) = _
  rw [keysOf_er]
  cases keysOf r.stmts (r.params ++ [a]) with
  | none => rfl
  | some ks => rfl

theorem addParams_er : ∀ (as : List Nat) (id : Nat) (r : Res), addParams as id (r.er g) = (addParams as id r).map (Res.er g)
  | [], _, r => rfl
  | a :: as, id, r => by
    simp only [addParams]
    have e : ivalAtL a (r.er g).stmts = (ivalAtL a r.stmts).map (V.er g) := ivalAtL_er a r.stmts
    rw [e]
    cases ivalAtL a r.stmts with
    | none => rfl
    | some w =>
      simp only [Option.map_some, isNum_er]
      cases w.isNum with
      | false => rfl
      | true =>
        have e2 : ({ r.er g with stmts := setIvalL a id (r.er g).stmts } : Res) = ({ r with stmts := setIvalL a id r.stmts } : Res).er g := by
          simp only [Res.er, setIvalL_er]
        simp only [if_true, e2, addParameter_er]
        cases Res.addParameter { r with stmts := setIvalL a id r.stmts } a with
        | none => rfl
        | some r' => exact addParams_er as (id + 1) r'

/-- The interpreter of the actions commutes with the replacement if the strings it looks at stay as they are. -/
theorem run_er (A : Alloc) (loc : Loc) : ∀ (k : Prog) (es : List Path), k.sees es = true → ∀ (env : List V) (st : St), Fixed g env es →
    run A loc0 k (env.map (V.er g)) (st.er g) = (run A loc k env st).er g
  | .ret, _, _, env, st, _ => by
    cases env with
    | nil => rfl
    | cons v env => simp only [List.map_cons, run, Out.er, log_er, addrsL_er]
  | .fail, _, _, env, st, _ => by simp only [run, Out.er, log_er, addrsL_er]
  | .set q e k, es, hk, env, st, hf => by
    simp only [Prog.sees, Bool.and_eq_true] at hk
    simp only [run, evalRv_er A hf hk.1]
    cases he : evalRv A e env st with
    | none => rfl
    | some x =>
      obtain ⟨v, env', st'⟩ := x
      obtain ⟨f1, f2⟩ := evalRv_fixed hf he
      simp only [Option.map_some, erVES, getP_er]
      cases getP env' q with
      | none => rfl
      | some old =>
        simp only [Option.map_some, putP_er]
        cases hp : putP env' q v with
        | none => rfl
        | some env'' =>
          simp only [Option.map_some]
          rw [← run_er A loc k _ hk.2 env'', log_er, addrs_er]
          intro p hpm w hw
          rcases List.mem_append.1 hpm with h | h
          · exact (f1.put hp) p h w hw
          · split at h
            · rename_i hs
              obtain ⟨x, sels⟩ := q
              cases sels with
              | nil => exact f2 x env'' hp p h w hw
              | cons => cases hs
            · cases h
  | .push q e k, es, hk, env, st, hf => by
    simp only [Prog.sees, Bool.and_eq_true] at hk
    simp only [run, evalAtom_er hf hk.1]
    cases he : evalAtom e env st with
    | none => rfl
    | some x =>
      obtain ⟨v, env'⟩ := x
      have f1 := (evalAtom_fixed hf he).1
      simp only [Option.map_some, erVE, getP_er]
      cases getP env' q with
      | none => rfl
      | some old =>
        cases old with
        | vec a vs =>
          have := putP_er (g := g) env' q (.vec a (vs ++ [v]))
          simp only [V.er, erL_map, List.map_append, List.map_cons, List.map_nil] at this
          simp only [Option.map_some, V.er, erL_map, this]
          cases hp : putP env' q (.vec a (vs ++ [v])) with
          | none => rfl
          | some env'' => exact run_er A loc k _ hk.2 env'' st (f1.put hp)
        | _ => rfl
  | .insert q e k, es, hk, env, st, hf => by
    simp only [Prog.sees, Bool.and_eq_true] at hk
    simp only [run, evalAtom_er hf hk.1]
    cases he : evalAtom e env st with
    | none => rfl
    | some x =>
      obtain ⟨v, env'⟩ := x
      have f1 := (evalAtom_fixed hf he).1
      cases v with
      | int n =>
        simp only [Option.map_some, erVE, V.er, getP_er]
        cases getP env' q with
        | none => rfl
        | some old =>
          cases old with
          | vec a vs =>
            have := putP_er (g := g) env' q (.vec a (if hasInt n vs then vs else vs ++ [.int n]))
            have e : (if hasInt n vs then vs else vs ++ [.int n]).map (V.er g) = if hasInt n vs then vs.map (V.er g) else vs.map (V.er g) ++ [.int n] := by
              split
              · rfl
              · simp [V.er]
            simp only [V.er, erL_map, e] at this
            simp only [Option.map_some, V.er, erL_map, hasInt_er, this]
            cases hp : putP env' q (.vec a (if hasInt n vs then vs else vs ++ [.int n])) with
            | none => rfl
            | some env'' => exact run_er A loc k _ hk.2 env'' st (f1.put hp)
          | _ => rfl
      | _ => rfl
  | .del q k, es, hk, env, st, hf => by
    simp only [Prog.sees] at hk
    simp only [run, getP_er]
    cases getP env q with
    | none => rfl
    | some v =>
      simp only [Option.map_some, treat_er]
      cases treat .del v with
      | none => rfl
      | some x =>
        simp only [Option.map_some, putP_undef_er]
        cases hp : putP env q .undef with
        | none => rfl
        | some env' =>
          simp only [Option.map_some]
          rw [← run_er A loc k _ hk env' _ (hf.put hp), log_er]
  | .free q k, es, hk, env, st, hf => by
    simp only [Prog.sees] at hk
    simp only [run, getP_er]
    cases getP env q with
    | none => rfl
    | some v =>
      simp only [Option.map_some, treat_er]
      cases treat .str v with
      | none => rfl
      | some x =>
        simp only [Option.map_some, putP_undef_er]
        cases hp : putP env q .undef with
        | none => rfl
        | some env' =>
          simp only [Option.map_some]
          rw [← run_er A loc k _ hk env' _ (hf.put hp), log_er]
  | .ite c t e, es, hk, env, st, hf => by
    simp only [Prog.sees, Bool.and_eq_true] at hk
    simp only [run, evalCond_er hf hk.1.1]
    cases evalCond c env st with
    | none => rfl
    | some b => cases b with
      | true => exact run_er A loc t es hk.1.2 env st hf
      | false => exact run_er A loc e es hk.2 env st hf
  | .err msg k, es, hk, env, st, hf => by
    simp only [run]
    exact run_er A loc k es hk env (st.yyerror A msg loc.fl loc.fc) hf
  | .errName msg q k, es, hk, env, st, hf => by
    simp only [Prog.sees, Bool.and_eq_true] at hk
    simp only [run, strAt_er (hf.at hk.1)]
    cases strAt env q with
    | none => rfl
    | some b => exact run_er A loc k es hk.2 env (st.yyerror A (msg ++ b) loc.fl loc.fc) hf
  | .zeroLen k, es, hk, env, st, hf => by
    simp only [run]
    exact run_er A loc k es hk env { st with yylloc := { st.yylloc with len := 0 } } hf
  | .regParam q k, es, hk, env, st, hf => by
    simp only [run, getP_er]
    cases getP env q with
    | none => rfl
    | some v =>
      simp only [Option.map_some, addr_er]
      cases v.addr? with
      | none => rfl
      | some a => exact run_er A loc k es hk env { st with plist := st.plist ++ [a] } hf
  | .split q1 q k, es, hk, env, st, hf => by
    simp only [Prog.sees] at hk
    simp only [run, getP_er]
    cases getP env q with
    | none => rfl
    | some v =>
      cases v with
      | vec b vs =>
        have h0 := putP_er (g := g) env q (.vec b [])
        simp only [V.er, erL] at h0
        simp only [Option.map_some, V.er, h0]
        cases hp1 : putP env q (.vec b []) with
        | none => rfl
        | some env1 =>
          simp only [Option.map_some, getP_er]
          cases getP env1 ⟨q1.var, q1.sels ++ [.fld 10]⟩ with
          | none => rfl
          | some o1 =>
            cases getP env1 ⟨q1.var, q1.sels ++ [.fld 11]⟩ with
            | none => rfl
            | some o2 =>
              have h1 := putP_er (g := g) env1 ⟨q1.var, q1.sels ++ [.fld 10]⟩ (.vec (A.new st.nalloc) (vs.filter isColumnDef))
              simp only [V.er, erL_map, ← filter_er isColumnDef isCol_er] at h1
              have hA1 : A.new (st.er g).nalloc = A.new st.nalloc := rfl
              have hA2 : A.new ((st.er g).nalloc + 1) = A.new (st.nalloc + 1) := rfl
              simp only [Option.map_some, erL_map, hA1, hA2, h1]
              cases hp2 : putP env1 ⟨q1.var, q1.sels ++ [.fld 10]⟩ (.vec (A.new st.nalloc) (vs.filter isColumnDef)) with
              | none => rfl
              | some env2 =>
                have h2 := putP_er (g := g) env2 ⟨q1.var, q1.sels ++ [.fld 11]⟩ (.vec (A.new (st.nalloc + 1)) (vs.filter isConstraint))
                simp only [V.er, erL_map, ← filter_er isConstraint isCons_er] at h2
                simp only [Option.map_some, h2]
                cases hp3 : putP env2 ⟨q1.var, q1.sels ++ [.fld 11]⟩ (.vec (A.new (st.nalloc + 1)) (vs.filter isConstraint)) with
                | none => rfl
                | some env3 =>
                  simp only [Option.map_some]
                  have f3 := (((hf.put hp1).put hp2).put hp3)
                  rw [← run_er A loc k _ hk env3 _ f3, log_er]
                  simp only [bump_er, addrs_er]
                  rw [filter_er (fun v => !isColumnDef v && !isConstraint v) (fun v => by rw [isCol_er, isCons_er]), addrsL_er]
      | _ => rfl
  | .finish, _, hk, _, _, _ => by cases hk

theorem finish_er (A : Alloc) (loc : Loc) (env : List V) (st : St) : run A loc0 .finish (env.map (V.er g)) (st.er g) = (run A loc .finish env st).er g := by
  simp only [run, getP_er]
  cases getP env ⟨1, []⟩ with
  | none => rfl
  | some v =>
    cases v with
    | vec b vs =>
      simp only [Option.map_some, V.er, putP_undef_er]
      cases putP env ⟨1, []⟩ .undef with
      | none => rfl
      | some env' =>
        simp only [Option.map_some]
        have e : ({ (st.er g).res with stmts := (st.er g).res.stmts ++ erL g vs } : Res) = ({ st.res with stmts := st.res.stmts ++ vs } : Res).er g := by
          simp [St.er, Res.er, erL_map]
        rw [e]
        have e2 : (st.er g).plist = st.plist := rfl
        rw [e2, addParams_er]
        cases addParams st.plist 0 { st.res with stmts := st.res.stmts ++ vs } with
        | none => rfl
        | some r => simp [Out.er, V.er, St.er, addrsL_er]
    | _ => rfl

end
end Verif.Sem

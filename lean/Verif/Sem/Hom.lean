import Verif.Sem.Addrs
import Verif.Sem.Rules
/-!
# Values without addresses

`V.h f` forgets the addresses and the scanner positions in a value, and applies `f` to all strings. The actions commute with it.
Proof-internal, except for `V.h`.
-/
namespace Verif.Sem
open Verif.LR Verif.Lex

/-- A function on strings and an offset. -/
structure Hm where
  str : Bytes → Bytes
  k : Nat
instance : CoeFun Hm (fun _ => Bytes → Bytes) := ⟨Hm.str⟩

mutual
/-- Forget addresses and scanner positions, and apply `f` to the strings; add `f.k` to the numbers of parameters. -/
def V.h (f : Hm) : V → V
  | .undef => .undef
  | .null => .null
  | .int n => .int n
  | .pos _ => .pos 0
  | .idx n => .idx (n + f.k)
  | .raw b => .raw (f b)
  | .str _ b => .str 0 (f b)
  | .vec _ vs => .vec 0 (hL f vs)
  | .obj _ c fs => .obj 0 c (hL f fs)
  | .tup fs => .tup (hL f fs)
def hL (f : Hm) : List V → List V
  | [] => []
  | v :: vs => v.h f :: hL f vs
end

theorem hL_map (f : Hm) : ∀ (vs : List V), hL f vs = vs.map (V.h f)
  | [] => rfl
  | v :: vs => by rw [hL, List.map_cons, hL_map f vs]

/-- A function on strings that the tests of the actions do not see. -/
structure StrHom (f : Hm) : Prop where
  eqn : ∀ b s, eqNoCase (f b) s = eqNoCase b s
  date : ∀ b, dateOk (f b) = dateOk b
  dur : ∀ b, durOk (f b) = durOk b
  durU : ∀ b, durUnitOk (f b) = durUnitOk b
  scan : ∀ b, (scanD none (f b)).map Prod.fst = (scanD none b).map Prod.fst
  unit : ∀ b, (scanUnit (f b)).map Prod.fst = (scanUnit b).map fun x => f x.1

theorem strHom_id (k : Nat) : StrHom ⟨id, k⟩ := ⟨fun _ _ => rfl, fun _ => rfl, fun _ => rfl, fun _ => rfl, fun _ => rfl, fun _ => rfl⟩

/-- The allocator that always returns 0. -/
def Z : Alloc := ⟨fun _ => 0, fun _ => 0⟩

section
variable {f : Hm}

theorem get_h : ∀ (p : List Sel) (v : V), (v.h f).get p = (v.get p).map (V.h f)
  | [], v => by simp [V.get]
  | .fld i :: p, v => by
    cases v with
    | obj a c fs =>
      simp only [V.h, V.get, hL_map, List.getElem?_map]
      cases fs[i]? with
      | none => rfl
      | some w => exact get_h p w
    | tup fs =>
      simp only [V.h, V.get, hL_map, List.getElem?_map]
      cases fs[i]? with
      | none => rfl
      | some w => exact get_h p w
    | _ => rfl
  | .back :: p, v => by
    cases v with
    | vec a vs =>
      simp only [V.h, V.get, hL_map, List.getLast?_map]
      cases vs.getLast? with
      | none => rfl
      | some w => exact get_h p w
    | _ => rfl

theorem put_h : ∀ (p : List Sel) (v x : V), (v.h f).put p (x.h f) = (v.put p x).map (V.h f)
  | [], v, x => by simp [V.put]
  | .fld i :: p, v, x => by
    cases v with
    | obj a c fs =>
      simp only [V.h, V.put, hL_map, List.getElem?_map]
      cases fs[i]? with
      | none => rfl
      | some w =>
        simp only [Option.map_some, put_h p w x]
        cases w.put p x with
        | none => rfl
        | some w' => simp [V.h, hL_map, List.map_set]
    | tup fs =>
      simp only [V.h, V.put, hL_map, List.getElem?_map]
      cases fs[i]? with
      | none => rfl
      | some w =>
        simp only [Option.map_some, put_h p w x]
        cases w.put p x with
        | none => rfl
        | some w' => simp [V.h, hL_map, List.map_set]
    | _ => rfl
  | .back :: p, v, x => by
    cases v with
    | vec a vs =>
      simp only [V.h, V.put, hL_map, List.getLast?_map]
      cases vs.getLast? with
      | none => rfl
      | some w =>
        simp only [Option.map_some, put_h p w x]
        cases w.put p x with
        | none => rfl
        | some w' => simp [V.h, hL_map, List.map_dropLast]
    | _ => rfl

theorem getP_h (env : List V) (p : Path) : getP (hL f env) p = (getP env p).map (V.h f) := by
  unfold getP
  rw [hL_map, List.getElem?_map]
  cases env[p.var]? with
  | none => rfl
  | some v => exact get_h _ v

theorem putP_h (env : List V) (p : Path) (x : V) : putP (hL f env) p (x.h f) = (putP env p x).map (hL f) := by
  unfold putP
  rw [hL_map, List.getElem?_map]
  cases env[p.var]? with
  | none => rfl
  | some v =>
    simp only [Option.map_some, put_h]
    cases v.put p.sels x with
    | none => rfl
    | some w => simp [hL_map, List.map_set]

theorem strAt_h (env : List V) (p : Path) : strAt (hL f env) p = (strAt env p).map f := by
  unfold strAt
  rw [getP_h]
  cases getP env p with
  | none => rfl
  | some v => cases v <;> rfl

theorem isUndef_h (v : V) : (v.h f).isUndef = v.isUndef := by cases v <;> rfl
theorem isInt_h (n : Int) (v : V) : (v.h f).isInt n = v.isInt n := by cases v <;> rfl
theorem hasInt_h (n : Int) (vs : List V) : hasInt n (hL f vs) = hasInt n vs := by
  unfold hasInt
  rw [hL_map, List.any_map]
  congr 1
  funext v
  exact isInt_h n v

/-- `p` agrees with `st` on what the actions can see. -/
structure Sim (k : Nat) (st p : St) : Prop where
  plist : p.plist.length = st.plist.length + k
  err : p.res.errMsg.isSome = st.res.errMsg.isSome
  len : p.yylloc.len = 0
  total : p.yylloc.total = 0

theorem Sim.logl {k : Nat} {st p : St} (h : Sim k st p) (a b c d : List Nat) : Sim k (st.log a b) (p.log c d) := ⟨h.plist, h.err, h.len, h.total⟩
theorem Sim.bump {k : Nat} {st p : St} (h : Sim k st p) : Sim k st.bump p.bump := ⟨h.plist, h.err, h.len, h.total⟩
theorem Sim.yyerror {k : Nat} {st p : St} (h : Sim k st p) (A B : Alloc) (m m' : Bytes) (l c l' c' : Int) : Sim k (st.yyerror A m l c) (p.yyerror B m' l' c') :=
  ⟨h.plist, rfl, h.len, h.total⟩

/-- The image of a result of `evalAtom`. -/
def h2 (f : Hm) (x : V × List V) : V × List V := (x.1.h f, hL f x.2)

theorem evalAtom_h (hf : StrHom f) (a : Atom) (env : List V) {st p : St} (hs : Sim f.k st p) : evalAtom a (hL f env) p = (evalAtom a env st).map (h2 f) := by
  cases a with
  | null => rfl
  | int n => rfl
  | undef => rfl
  | unknownType => rfl
  | strLen => simp [evalAtom, h2, V.h, hs.len]
  | totalCol => simp [evalAtom, h2, V.h, hs.total]
  | nParams => simp [evalAtom, h2, V.h, hs.plist]
  | cp q =>
    simp only [evalAtom, getP_h]
    cases getP env q with
    | none => rfl
    | some v => cases v <;> rfl
  | mv q =>
    simp only [evalAtom, getP_h]
    cases getP env q with
    | none => rfl
    | some v =>
      simp only [Option.map_some, isUndef_h]
      split
      · rfl
      · have := putP_h (f := f) env q .undef
        rw [V.h] at this
        rw [this]
        cases putP env q .undef <;> rfl
  | dur q =>
    simp only [evalAtom, strAt_h]
    cases strAt env q with
    | none => rfl
    | some b =>
      simp only [Option.map_some]
      have := hf.scan b
      cases h1 : scanD none (f b) with
      | none =>
        rw [h1] at this
        cases h2 : scanD none b with
        | none => rfl
        | some y => rw [h2] at this; cases this
      | some x =>
        rw [h1] at this
        cases h2 : scanD none b with
        | none => rw [h2] at this; cases this
        | some y =>
          rw [h2] at this
          simp only [Option.map_some, Option.some.injEq] at this
          simp [Verif.Sem.h2, V.h, this]
  | unit q =>
    simp only [evalAtom, strAt_h]
    cases strAt env q with
    | none => rfl
    | some b =>
      simp only [Option.map_some]
      have := hf.unit b
      cases h1 : scanUnit (f b) with
      | none =>
        rw [h1] at this
        cases h2 : scanUnit b with
        | none => rfl
        | some y => rw [h2] at this; cases this
      | some x =>
        rw [h1] at this
        cases h2 : scanUnit b with
        | none => rw [h2] at this; cases this
        | some y =>
          rw [h2] at this
          simp only [Option.map_some, Option.some.injEq] at this
          simp [Verif.Sem.h2, V.h, this]

theorem evalAtoms_h (hf : StrHom f) : ∀ (as : List Atom) (env : List V) {st p : St}, Sim f.k st p →
    evalAtoms as (hL f env) p = (evalAtoms as env st).map fun x => (hL f x.1, hL f x.2)
  | [], env, _, _, _ => rfl
  | a :: as, env, st, p, hs => by
    simp only [evalAtoms, evalAtom_h hf a env hs]
    cases evalAtom a env st with
    | none => rfl
    | some x =>
      obtain ⟨v, env'⟩ := x
      simp only [Option.map_some, h2, evalAtoms_h hf as env' hs]
      cases evalAtoms as env' st with
      | none => rfl
      | some y => simp [hL]

/-- Both undefined, or related. -/
def RvRel (f : Hm) (x : Option (V × List V × St)) (y : Option (V × List V × St)) : Prop :=
  match x, y with
  | none, none => True
  | some (v, env, st), some (w, env', p) => w = v.h f ∧ env' = hL f env ∧ Sim f.k st p
  | _, _ => False

theorem evalRv_h (hf : StrHom f) (A : Alloc) (e : Rv) (env : List V) {st p : St} (hs : Sim f.k st p) : RvRel f (evalRv A e env st) (evalRv Z e (hL f env) p) := by
  cases e with
  | atom a =>
    simp only [evalRv, evalAtom_h hf a env hs]
    cases evalAtom a env st with
    | none => trivial
    | some x => exact ⟨rfl, rfl, hs⟩
  | obj c fs =>
    simp only [evalRv, evalAtoms_h hf fs env hs]
    cases evalAtoms fs env st with
    | none => trivial
    | some x => exact ⟨rfl, rfl, hs.bump⟩
  | vec fs =>
    simp only [evalRv, evalAtoms_h hf fs env hs]
    cases evalAtoms fs env st with
    | none => trivial
    | some x => exact ⟨rfl, rfl, hs.bump⟩
  | tup fs =>
    simp only [evalRv, evalAtoms_h hf fs env hs]
    cases evalAtoms fs env st with
    | none => trivial
    | some x => exact ⟨rfl, rfl, hs⟩

theorem evalCond_h (hf : StrHom f) (c : Cond) (env : List V) {st p : St} (hs : Sim f.k st p) : evalCond c (hL f env) p = evalCond c env st := by
  cases c with
  | null q =>
    simp only [evalCond, getP_h]
    cases getP env q with
    | none => rfl
    | some v => cases v <;> rfl
  | eq q n =>
    simp only [evalCond, getP_h]
    cases getP env q with
    | none => rfl
    | some v => cases v <;> rfl
  | strIs q s =>
    simp only [evalCond, strAt_h]
    cases strAt env q with
    | none => rfl
    | some b => simp [hf.eqn]
  | has q n =>
    simp only [evalCond, getP_h]
    cases getP env q with
    | none => rfl
    | some v => cases v <;> first | rfl | simp [V.h, hasInt_h]
  | err => simp [evalCond, hs.err]
  | dateOk q =>
    simp only [evalCond, strAt_h]
    cases strAt env q with
    | none => rfl
    | some b => simp [hf.date]
  | durOk q =>
    simp only [evalCond, strAt_h]
    cases strAt env q with
    | none => rfl
    | some b => simp [hf.dur]
  | durUnitOk q =>
    simp only [evalCond, strAt_h]
    cases strAt env q with
    | none => rfl
    | some b => simp [hf.durU]

theorem cat2_isSome (x y : Option (List Nat × List Nat)) : (cat2 x y).isSome = (x.isSome && y.isSome) := by
  cases x <;> cases y <;> rfl

mutual
theorem treat_h : ∀ (k : How) (v : V), (treat k (v.h f)).isSome = (treat k v).isSome
  | .keep, .undef => by simp [V.h, treat]
  | .keep, .null => by simp [V.h, treat]
  | .keep, .int _ => by simp [V.h, treat]
  | .keep, .pos _ => by simp [V.h, treat]
  | .keep, .idx _ => by simp [V.h, treat]
  | .keep, .raw _ => by simp [V.h, treat]
  | .keep, .str _ _ => by simp [V.h, treat]
  | .keep, .vec _ _ => by simp [V.h, treat]
  | .keep, .obj _ _ _ => by simp [V.h, treat]
  | .keep, .tup _ => by simp [V.h, treat]
  | .str, .undef => by simp [V.h, treat]
  | .str, .null => by simp [V.h, treat]
  | .str, .int _ => by simp [V.h, treat]
  | .str, .pos _ => by simp [V.h, treat]
  | .str, .idx _ => by simp [V.h, treat]
  | .str, .raw _ => by simp [V.h, treat]
  | .str, .str _ _ => by simp [V.h, treat]
  | .str, .vec _ _ => by simp [V.h, treat]
  | .str, .obj _ _ _ => by simp [V.h, treat]
  | .str, .tup _ => by simp [V.h, treat]
  | .del, .undef => by simp [V.h, treat]
  | .del, .null => by simp [V.h, treat]
  | .del, .int _ => by simp [V.h, treat]
  | .del, .pos _ => by simp [V.h, treat]
  | .del, .idx _ => by simp [V.h, treat]
  | .del, .raw _ => by simp [V.h, treat]
  | .del, .str _ _ => by simp [V.h, treat]
  | .del, .vec _ _ => by simp [V.h, treat]
  | .del, .obj _ c fs => by simp only [V.h, treat, cat2_isSome, treatFs_h (dtor c) fs]; try rfl
  | .del, .tup _ => by simp [V.h, treat]
  | .vec _, .undef => by simp [V.h, treat]
  | .vec _, .null => by simp [V.h, treat]
  | .vec _, .int _ => by simp [V.h, treat]
  | .vec _, .pos _ => by simp [V.h, treat]
  | .vec _, .idx _ => by simp [V.h, treat]
  | .vec _, .raw _ => by simp [V.h, treat]
  | .vec _, .str _ _ => by simp [V.h, treat]
  | .vec e, .vec _ vs => by simp only [V.h, treat, cat2_isSome, treatEl_h e vs]; try rfl
  | .vec _, .obj _ _ _ => by simp [V.h, treat]
  | .vec _, .tup _ => by simp [V.h, treat]
  | .vecNN _, .undef => by simp [V.h, treat]
  | .vecNN _, .null => by simp [V.h, treat]
  | .vecNN _, .int _ => by simp [V.h, treat]
  | .vecNN _, .pos _ => by simp [V.h, treat]
  | .vecNN _, .idx _ => by simp [V.h, treat]
  | .vecNN _, .raw _ => by simp [V.h, treat]
  | .vecNN _, .str _ _ => by simp [V.h, treat]
  | .vecNN e, .vec _ vs => by simp only [V.h, treat, cat2_isSome, treatEl_h e vs]; try rfl
  | .vecNN _, .obj _ _ _ => by simp [V.h, treat]
  | .vecNN _, .tup _ => by simp [V.h, treat]
  | .fields _, .undef => by simp [V.h, treat]
  | .fields _, .null => by simp [V.h, treat]
  | .fields _, .int _ => by simp [V.h, treat]
  | .fields _, .pos _ => by simp [V.h, treat]
  | .fields _, .idx _ => by simp [V.h, treat]
  | .fields _, .raw _ => by simp [V.h, treat]
  | .fields _, .str _ _ => by simp [V.h, treat]
  | .fields _, .vec _ _ => by simp [V.h, treat]
  | .fields hs, .obj _ c fs => by simp only [V.h, treat, cat2_isSome, treatFs_h hs fs]; try rfl
  | .fields _, .tup _ => by simp [V.h, treat]
  | .tup _, .undef => by simp [V.h, treat]
  | .tup _, .null => by simp [V.h, treat]
  | .tup _, .int _ => by simp [V.h, treat]
  | .tup _, .pos _ => by simp [V.h, treat]
  | .tup _, .idx _ => by simp [V.h, treat]
  | .tup _, .raw _ => by simp [V.h, treat]
  | .tup _, .str _ _ => by simp [V.h, treat]
  | .tup _, .vec _ _ => by simp [V.h, treat]
  | .tup _, .obj _ _ _ => by simp [V.h, treat]
  | .tup hs, .tup fs => by simp only [V.h, treat, cat2_isSome, treatFs_h hs fs]; try rfl
theorem treatFs_h : ∀ (hs : List How) (vs : List V), (treatFs hs (hL f vs)).isSome = (treatFs hs vs).isSome
  | [], [] => rfl
  | k :: ks, v :: vs => by simp only [hL, treatFs, cat2_isSome, treat_h k v, treatFs_h ks vs]
  | [], _ :: _ => by simp [hL, treatFs]
  | _ :: _, [] => by simp [hL, treatFs]
theorem treatEl_h : ∀ (e : How) (vs : List V), (treatEl e (hL f vs)).isSome = (treatEl e vs).isSome
  | _, [] => rfl
  | e, v :: vs => by simp only [hL, treatEl, cat2_isSome, treat_h e v, treatEl_h e vs]
end

/-- The same outcome, the values and states being related. -/
def OutRel (f : Hm) : Out → Out → Prop
  | .ok v st, .ok w p => w = v.h f ∧ Sim f.k st p
  | .error st,   .error p => Sim f.k st p
  | .ub, .ub => True
  | _, _ => False

/-- The program does not contain the action of `input`. -/
def noFin : Prog → Bool
  | .finish => false
  | .ret => true
  | .fail => true
  | .set _ _ k => noFin k
  | .push _ _ k => noFin k
  | .insert _ _ k => noFin k
  | .del _ k => noFin k
  | .free _ k => noFin k
  | .regParam _ k => noFin k
  | .split _ _ k => noFin k
  | .zeroLen k => noFin k
  | .err _ k => noFin k
  | .errName _ _ k => noFin k
  | .ite _ t e => noFin t && noFin e

theorem isCol_h (v : V) : isColumnDef (v.h f) = isColumnDef v := by cases v <;> first | rfl | (rename_i c _; cases c <;> rfl)
theorem isCons_h (v : V) : isConstraint (v.h f) = isConstraint v := by cases v <;> first | rfl | (rename_i c _; cases c <;> rfl)
theorem filter_h (q : V → Bool) (hq : ∀ v, q (v.h f) = q v) (vs : List V) : (hL f vs).filter q = hL f (vs.filter q) := by
  rw [hL_map, hL_map, List.filter_map]
  congr 2
  funext v
  exact hq v

theorem run_h (hf : StrHom f) (A : Alloc) (loc loc' : Loc) : ∀ (k : Prog) (env : List V) {st p : St}, noFin k = true → Sim f.k st p →
    OutRel f (run A loc k env st) (run Z loc' k (hL f env) p)
  | .ret, env, st, p, _, hs => by
    cases env with
    | nil => simp only [hL, run]; trivial
    | cons v env => simp only [hL, run]; exact ⟨rfl, hs.logl _ _ _ _⟩
  | .fail, env, st, p, _, hs => by simp only [run]; exact hs.logl _ _ _ _
  | .finish, _, _, _, h, _ => by cases h
  | .set q e k, env, st, p, hn, hs => by
    have := evalRv_h hf A e env hs
    simp only [run]
    cases h1 : evalRv A e env st with
    | none =>
      rw [h1] at this
      cases h2 : evalRv Z e (hL f env) p with
      | none => trivial
      | some y => rw [h2] at this; exact this.elim
    | some x =>
      obtain ⟨v, env', st'⟩ := x
      rw [h1] at this
      cases h2 : evalRv Z e (hL f env) p with
      | none => rw [h2] at this; exact this.elim
      | some y =>
        obtain ⟨w, envp, p'⟩ := y
        rw [h2] at this
        obtain ⟨rfl, rfl, hs'⟩ := this
        simp only [getP_h]
        cases getP env' q with
        | none => trivial
        | some old =>
          simp only [Option.map_some, putP_h]
          cases putP env' q v with
          | none => trivial
          | some env'' => exact run_h hf A loc loc' k env'' hn (hs'.logl _ _ _ _)
  | .push q e k, env, st, p, hn, hs => by
    simp only [run, evalAtom_h hf e env hs]
    cases evalAtom e env st with
    | none => trivial
    | some x =>
      obtain ⟨v, env'⟩ := x
      simp only [Option.map_some, h2, getP_h]
      cases getP env' q with
      | none => trivial
      | some old =>
        cases old with
        | vec a vs =>
          simp only [Option.map_some, V.h]
          have := putP_h (f := f) env' q (.vec a (vs ++ [v]))
          simp only [V.h, hL_map, List.map_append, List.map_cons, List.map_nil] at this
          simp only [hL_map, this]
          cases putP env' q (.vec a (vs ++ [v])) with
          | none => trivial
          | some env'' =>
            exact run_h hf A loc loc' k env'' hn hs
        | _ => trivial
  | .insert q e k, env, st, p, hn, hs => by
    simp only [run, evalAtom_h hf e env hs]
    cases evalAtom e env st with
    | none => trivial
    | some x =>
      obtain ⟨v, env'⟩ := x
      cases v with
      | int n =>
        simp only [Option.map_some, h2, V.h, getP_h]
        cases getP env' q with
        | none => trivial
        | some old =>
          cases old with
          | vec a vs =>
            simp only [Option.map_some, V.h, hasInt_h]
            have := putP_h (f := f) env' q (.vec a (if hasInt n vs then vs else vs ++ [.int n]))
            have e : hL f (if hasInt n vs then vs else vs ++ [.int n]) = if hasInt n vs then hL f vs else hL f vs ++ [.int n] := by
              split
              · rfl
              · simp [hL_map, V.h]
            simp only [V.h, e] at this
            simp only [this]
            cases putP env' q (.vec a (if hasInt n vs then vs else vs ++ [.int n])) with
            | none => trivial
            | some env'' => exact run_h hf A loc loc' k env'' hn hs
          | _ => trivial
      | _ => trivial
  | .del q k, env, st, p, hn, hs => by
    simp only [run, getP_h]
    cases getP env q with
    | none => trivial
    | some v =>
      simp only [Option.map_some]
      have ht := treat_h (f := f) .del v
      cases h1 : treat .del v with
      | none =>
        rw [h1] at ht
        cases h2 : treat .del (v.h f) with
        | none => trivial
        | some y => rw [h2] at ht; cases ht
      | some x =>
        rw [h1] at ht
        cases h2 : treat .del (v.h f) with
        | none => rw [h2] at ht; cases ht
        | some y =>
          have := putP_h (f := f) env q .undef
          rw [V.h] at this
          simp only [this]
          cases putP env q .undef with
          | none => trivial
          | some env' => exact run_h hf A loc loc' k env' hn (hs.logl _ _ _ _)
  | .free q k, env, st, p, hn, hs => by
    simp only [run, getP_h]
    cases getP env q with
    | none => trivial
    | some v =>
      simp only [Option.map_some]
      have ht := treat_h (f := f) .str v
      cases h1 : treat .str v with
      | none =>
        rw [h1] at ht
        cases h2 : treat .str (v.h f) with
        | none => trivial
        | some y => rw [h2] at ht; cases ht
      | some x =>
        rw [h1] at ht
        cases h2 : treat .str (v.h f) with
        | none => rw [h2] at ht; cases ht
        | some y =>
          have := putP_h (f := f) env q .undef
          rw [V.h] at this
          simp only [this]
          cases putP env q .undef with
          | none => trivial
          | some env' => exact run_h hf A loc loc' k env' hn (hs.logl _ _ _ _)
  | .ite c t e, env, st, p, hn, hs => by
    simp only [noFin, Bool.and_eq_true] at hn
    simp only [run, evalCond_h hf c env hs]
    cases evalCond c env st with
    | none => trivial
    | some b =>
      cases b with
      | true => exact run_h hf A loc loc' t env hn.1 hs
      | false => exact run_h hf A loc loc' e env hn.2 hs
  | .err m k, env, st, p, hn, hs => by
    simp only [run]
    exact run_h hf A loc loc' k env hn (hs.yyerror A Z _ _ _ _ _ _)
  | .errName m q k, env, st, p, hn, hs => by
    simp only [run, strAt_h]
    cases strAt env q with
    | none => trivial
    | some b => exact run_h hf A loc loc' k env hn (hs.yyerror A Z _ _ _ _ _ _)
  | .zeroLen k, env, st, p, hn, hs => by
    simp only [run]
    exact run_h hf A loc loc' k env hn ⟨hs.plist, hs.err, rfl, hs.total⟩
  | .regParam q k, env, st, p, hn, hs => by
    simp only [run, getP_h]
    cases getP env q with
    | none => trivial
    | some v =>
      cases v with
      | obj a c fs => exact run_h hf A loc loc' k env hn ⟨by simp [hs.plist]; omega, hs.err, hs.len, hs.total⟩
      | _ => trivial
  | .split q r k, env, st, p, hn, hs => by
    simp only [run, getP_h]
    cases getP env r with
    | none => trivial
    | some v =>
      cases v with
      | vec b vs =>
        simp only [Option.map_some, V.h]
        have e1 := putP_h (f := f) env r (.vec b [])
        simp only [V.h, hL] at e1
        have e1' : putP (hL f env) r (.vec 0 []) = (putP env r (.vec b [])).map (hL f) := e1
        simp only [e1']
        cases putP env r (.vec b []) with
        | none => trivial
        | some env1 =>
          simp only [Option.map_some, getP_h]
          cases getP env1 ⟨q.var, q.sels ++ [.fld 10]⟩ with
          | none => trivial
          | some o1 =>
            cases getP env1 ⟨q.var, q.sels ++ [.fld 11]⟩ with
            | none => trivial
            | some o2 =>
              simp only [Option.map_some, filter_h _ isCol_h, filter_h _ isCons_h]
              have e2 := putP_h (f := f) env1 ⟨q.var, q.sels ++ [.fld 10]⟩ (.vec (A.new st.nalloc) (vs.filter isColumnDef))
              simp only [V.h] at e2
              simp only [Z, e2]
              cases putP env1 ⟨q.var, q.sels ++ [.fld 10]⟩ (.vec (A.new st.nalloc) (vs.filter isColumnDef)) with
              | none => trivial
              | some env2 =>
                have e3 := putP_h (f := f) env2 ⟨q.var, q.sels ++ [.fld 11]⟩ (.vec (A.new (st.nalloc + 1)) (vs.filter isConstraint))
                simp only [V.h] at e3
                simp only [Option.map_some, e3]
                cases putP env2 ⟨q.var, q.sels ++ [.fld 11]⟩ (.vec (A.new (st.nalloc + 1)) (vs.filter isConstraint)) with
                | none => trivial
                | some env3 => exact run_h hf A loc loc' k env3 hn (hs.bump.bump.logl _ _ _ _)
      | _ => trivial

end
end Verif.Sem

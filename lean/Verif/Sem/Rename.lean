import Verif.Sem.Parse
import Verif.LR.Map
import Verif.Sem.Addrs
import Verif.Sem.Sat
/-!
# Addresses are only names

Renaming the addresses in everything the parser works on: its actions commute with it.
-/
namespace Verif.Sem
open Verif.Lex Verif.LR
set_option linter.unusedSimpArgs false

mutual
/-- Rename the addresses in a value. -/
def V.ren (g : Nat → Nat) : V → V
  | .undef => .undef
  | .null => .null
  | .int n => .int n
  | .pos n => .pos n
  | .idx n => .idx n
  | .raw b => .raw b
  | .str a b => .str (g a) b
  | .vec a vs => .vec (g a) (renL g vs)
  | .obj a c fs => .obj (g a) c (renL g fs)
  | .tup fs => .tup (renL g fs)
def renL (g : Nat → Nat) : List V → List V
  | [] => []
  | v :: vs => v.ren g :: renL g vs
end

/-- In a result. -/
def Res.ren (g : Nat → Nat) (r : Res) : Res :=
  { r with stmts := r.stmts.map (V.ren g), errMsg := r.errMsg.map fun (a, m) => (g a, m), params := r.params.map g }

/-- In the semantic state. -/
def St.ren (g : Nat → Nat) (st : St) : St :=
  { st with freed := st.freed.map g, leaked := st.leaked.map g, plist := st.plist.map g, res := st.res.ren g }

/-- In what an action gives. -/
def Out.ren (g : Nat → Nat) : Out → Out
  | .ok v st => .ok (v.ren g) (st.ren g)
  | .error st => .error (st.ren g)
  | .ub => .ub

/-- In the addresses freed and lost. -/
def ren2 (g : Nat → Nat) (x : List Nat × List Nat) : List Nat × List Nat := (x.1.map g, x.2.map g)

/-- The allocator that returns the renamed addresses. -/
def Alloc.ren (A : Alloc) (g : Nat → Nat) : Alloc := ⟨fun k => g (A.tok k), fun k => g (A.new k)⟩

theorem renL_map (g : Nat → Nat) : ∀ (vs : List V), renL g vs = vs.map (V.ren g)
  | [] => rfl
  | v :: vs => by rw [renL, List.map_cons, renL_map g vs]

section
variable {g : Nat → Nat}

theorem get_ren : ∀ (p : List Sel) (v : V), (v.ren g).get p = (v.get p).map (V.ren g)
  | [], v => by simp [V.get]
  | .fld i :: p, v => by
    cases v with
    | obj a c fs =>
      simp only [V.ren, V.get, renL_map, List.getElem?_map]
      cases fs[i]? with
      | none => rfl
      | some w => exact get_ren p w
    | tup fs =>
      simp only [V.ren, V.get, renL_map, List.getElem?_map]
      cases fs[i]? with
      | none => rfl
      | some w => exact get_ren p w
    | _ => rfl
  | .back :: p, v => by
    cases v with
    | vec a vs =>
      simp only [V.ren, V.get, renL_map, List.getLast?_map]
      cases vs.getLast? with
      | none => rfl
      | some w => exact get_ren p w
    | _ => rfl

theorem put_ren : ∀ (p : List Sel) (v x : V), (v.ren g).put p (x.ren g) = (v.put p x).map (V.ren g)
  | [], v, x => by simp [V.put]
  | .fld i :: p, v, x => by
    cases v with
    | obj a c fs =>
      simp only [V.ren, V.put, renL_map, List.getElem?_map]
      cases fs[i]? with
      | none => rfl
      | some w =>
        simp only [Option.map_some, put_ren p w x]
        cases w.put p x with
        | none => rfl
        | some w' => simp [V.ren, renL_map, List.map_set]
    | tup fs =>
      simp only [V.ren, V.put, renL_map, List.getElem?_map]
      cases fs[i]? with
      | none => rfl
      | some w =>
        simp only [Option.map_some, put_ren p w x]
        cases w.put p x with
        | none => rfl
        | some w' => simp [V.ren, renL_map, List.map_set]
    | _ => rfl
  | .back :: p, v, x => by
    cases v with
    | vec a vs =>
      simp only [V.ren, V.put, renL_map, List.getLast?_map]
      cases vs.getLast? with
      | none => rfl
      | some w =>
        simp only [Option.map_some, put_ren p w x]
        cases w.put p x with
        | none => rfl
        | some w' => simp [V.ren, renL_map, List.map_dropLast]
    | _ => rfl

theorem getP_ren (env : List V) (p : Path) : getP (env.map (V.ren g)) p = (getP env p).map (V.ren g) := by
  unfold getP
  rw [List.getElem?_map]
  cases env[p.var]? with
  | none => rfl
  | some v => exact get_ren _ v

theorem putP_ren (env : List V) (p : Path) (x : V) : putP (env.map (V.ren g)) p (x.ren g) = (putP env p x).map (List.map (V.ren g)) := by
  unfold putP
  rw [List.getElem?_map]
  cases env[p.var]? with
  | none => rfl
  | some v =>
    simp only [Option.map_some, put_ren]
    cases v.put p.sels x with
    | none => rfl
    | some w => simp [List.map_set]

theorem putP_undef_ren (env : List V) (p : Path) : putP (env.map (V.ren g)) p .undef = (putP env p .undef).map (List.map (V.ren g)) := putP_ren env p .undef

theorem strAt_ren (env : List V) (p : Path) : strAt (env.map (V.ren g)) p = strAt env p := by
  unfold strAt
  rw [getP_ren]
  cases getP env p with
  | none => rfl
  | some v => cases v <;> rfl

theorem isUndef_ren (v : V) : (v.ren g).isUndef = v.isUndef := by cases v <;> rfl
theorem isInt_ren (n : Int) (v : V) : (v.ren g).isInt n = v.isInt n := by cases v <;> rfl
theorem isNum_ren (v : V) : (v.ren g).isNum = v.isNum := by cases v <;> rfl
theorem hasInt_ren (n : Int) (vs : List V) : hasInt n (vs.map (V.ren g)) = hasInt n vs := by
  unfold hasInt
  rw [List.any_map]
  congr 1
  funext v
  exact isInt_ren n v
theorem addr_ren (v : V) : (v.ren g).addr? = v.addr?.map g := by cases v <;> rfl
theorem isCol_ren (v : V) : isColumnDef (v.ren g) = isColumnDef v := by cases v <;> first | rfl | (rename_i c _; cases c <;> rfl)
theorem isCons_ren (v : V) : isConstraint (v.ren g) = isConstraint v := by cases v <;> first | rfl | (rename_i c _; cases c <;> rfl)
theorem filter_ren (q : V → Bool) (hq : ∀ v, q (v.ren g) = q v) (vs : List V) : (vs.map (V.ren g)).filter q = (vs.filter q).map (V.ren g) := by
  rw [List.filter_map]
  congr 2
  funext v
  exact hq v

mutual
theorem addrs_ren : ∀ (v : V), (v.ren g).addrs = v.addrs.map g
  | .undef => by simp [V.ren, V.addrs]
  | .null => by simp [V.ren, V.addrs]
  | .int _ => by simp [V.ren, V.addrs]
  | .pos _ => by simp [V.ren, V.addrs]
  | .idx _ => by simp [V.ren, V.addrs]
  | .raw _ => by simp [V.ren, V.addrs]
  | .str _ _ => by simp [V.ren, V.addrs]
  | .vec _ vs => by simp only [V.ren, V.addrs, List.map_cons, addrsL_ren' vs]
  | .obj _ _ fs => by simp only [V.ren, V.addrs, List.map_cons, addrsL_ren' fs]
  | .tup fs => by simp only [V.ren, V.addrs, addrsL_ren' fs]
theorem addrsL_ren' : ∀ (vs : List V), addrsL (renL g vs) = (addrsL vs).map g
  | [] => rfl
  | v :: vs => by simp only [renL, addrsL, List.map_append, addrs_ren v, addrsL_ren' vs]
end
theorem addrsL_ren (vs : List V) : addrsL (vs.map (V.ren g)) = (addrsL vs).map g := by rw [← renL_map, addrsL_ren']

theorem cat2_ren (x y : Option (List Nat × List Nat)) : cat2 (x.map (ren2 g)) (y.map (ren2 g)) = (cat2 x y).map (ren2 g) := by
  cases x <;> cases y <;> simp [cat2, ren2]
theorem one_ren (a : Nat) : (some ([g a], []) : Option (List Nat × List Nat)) = (some ([a], [])).map (ren2 g) := rfl

mutual
theorem treat_ren : ∀ (k : How) (v : V), treat k (v.ren g) = (treat k v).map (ren2 g)
  | .keep, .undef => by rw [treat, treat, addrs_ren]; rfl
  | .keep, .null => by rw [treat, treat, addrs_ren]; rfl
  | .keep, .int _ => by rw [treat, treat, addrs_ren]; rfl
  | .keep, .pos _ => by rw [treat, treat, addrs_ren]; rfl
  | .keep, .idx _ => by rw [treat, treat, addrs_ren]; rfl
  | .keep, .raw _ => by rw [treat, treat, addrs_ren]; rfl
  | .keep, .str _ _ => by rw [treat, treat, addrs_ren]; rfl
  | .keep, .vec _ vs => by rw [treat, treat, addrs_ren]; rfl
  | .keep, .obj _ c fs => by rw [treat, treat, addrs_ren]; rfl
  | .keep, .tup fs => by rw [treat, treat, addrs_ren]; rfl
  | .str, .undef => by simp [V.ren, treat, ren2]
  | .str, .null => by simp [V.ren, treat, ren2]
  | .str, .int _ => by simp [V.ren, treat, ren2]
  | .str, .pos _ => by simp [V.ren, treat, ren2]
  | .str, .idx _ => by simp [V.ren, treat, ren2]
  | .str, .raw _ => by simp [V.ren, treat, ren2]
  | .str, .str _ _ => by simp [V.ren, treat, ren2]
  | .str, .vec _ _ => by simp [V.ren, treat, ren2]
  | .str, .obj _ _ _ => by simp [V.ren, treat, ren2]
  | .str, .tup _ => by simp [V.ren, treat, ren2]
  | .del, .undef => by simp [V.ren, treat, ren2]
  | .del, .null => by simp [V.ren, treat, ren2]
  | .del, .int _ => by simp [V.ren, treat, ren2]
  | .del, .pos _ => by simp [V.ren, treat, ren2]
  | .del, .idx _ => by simp [V.ren, treat, ren2]
  | .del, .raw _ => by simp [V.ren, treat, ren2]
  | .del, .str _ _ => by simp [V.ren, treat, ren2]
  | .del, .vec _ vs => by simp only [V.ren, treat, addrsL_ren' vs]; rfl
  | .del, .obj _ c fs => by simp only [V.ren, treat, treatFs_ren (dtor c) fs]; rw [one_ren, cat2_ren]
  | .del, .tup _ => by simp [V.ren, treat, ren2]
  | .vec _, .undef => by simp [V.ren, treat, ren2]
  | .vec _, .null => by simp [V.ren, treat, ren2]
  | .vec _, .int _ => by simp [V.ren, treat, ren2]
  | .vec _, .pos _ => by simp [V.ren, treat, ren2]
  | .vec _, .idx _ => by simp [V.ren, treat, ren2]
  | .vec _, .raw _ => by simp [V.ren, treat, ren2]
  | .vec _, .str _ _ => by simp [V.ren, treat, ren2]
  | .vec e, .vec _ vs => by simp only [V.ren, treat, treatEl_ren e vs]; rw [one_ren, cat2_ren]
  | .vec _, .obj _ _ _ => by simp [V.ren, treat, ren2]
  | .vec _, .tup _ => by simp [V.ren, treat, ren2]
  | .vecNN _, .undef => by simp [V.ren, treat, ren2]
  | .vecNN _, .null => by simp [V.ren, treat, ren2]
  | .vecNN _, .int _ => by simp [V.ren, treat, ren2]
  | .vecNN _, .pos _ => by simp [V.ren, treat, ren2]
  | .vecNN _, .idx _ => by simp [V.ren, treat, ren2]
  | .vecNN _, .raw _ => by simp [V.ren, treat, ren2]
  | .vecNN _, .str _ _ => by simp [V.ren, treat, ren2]
  | .vecNN e, .vec _ vs => by simp only [V.ren, treat, treatEl_ren e vs]; rw [one_ren, cat2_ren]
  | .vecNN _, .obj _ _ _ => by simp [V.ren, treat, ren2]
  | .vecNN _, .tup _ => by simp [V.ren, treat, ren2]
  | .fields _, .undef => by simp [V.ren, treat, ren2]
  | .fields _, .null => by simp [V.ren, treat, ren2]
  | .fields _, .int _ => by simp [V.ren, treat, ren2]
  | .fields _, .pos _ => by simp [V.ren, treat, ren2]
  | .fields _, .idx _ => by simp [V.ren, treat, ren2]
  | .fields _, .raw _ => by simp [V.ren, treat, ren2]
  | .fields _, .str _ _ => by simp [V.ren, treat, ren2]
  | .fields _, .vec _ _ => by simp [V.ren, treat, ren2]
  | .fields hs, .obj _ c fs => by simp only [V.ren, treat, treatFs_ren hs fs]; rw [one_ren, cat2_ren]
  | .fields _, .tup _ => by simp [V.ren, treat, ren2]
  | .tup _, .undef => by simp [V.ren, treat, ren2]
  | .tup _, .null => by simp [V.ren, treat, ren2]
  | .tup _, .int _ => by simp [V.ren, treat, ren2]
  | .tup _, .pos _ => by simp [V.ren, treat, ren2]
  | .tup _, .idx _ => by simp [V.ren, treat, ren2]
  | .tup _, .raw _ => by simp [V.ren, treat, ren2]
  | .tup _, .str _ _ => by simp [V.ren, treat, ren2]
  | .tup _, .vec _ _ => by simp [V.ren, treat, ren2]
  | .tup _, .obj _ _ _ => by simp [V.ren, treat, ren2]
  | .tup hs, .tup fs => by simp only [V.ren, treat, treatFs_ren hs fs]
theorem treatFs_ren : ∀ (hs : List How) (vs : List V), treatFs hs (renL g vs) = (treatFs hs vs).map (ren2 g)
  | [], [] => rfl
  | k :: ks, v :: vs => by simp only [renL, treatFs, treat_ren k v, treatFs_ren ks vs, cat2_ren]
  | [], _ :: _ => by simp [renL, treatFs]
  | _ :: _, [] => by simp [renL, treatFs]
theorem treatEl_ren : ∀ (e : How) (vs : List V), treatEl e (renL g vs) = (treatEl e vs).map (ren2 g)
  | _, [] => rfl
  | e, v :: vs => by simp only [renL, treatEl, treat_ren e v, treatEl_ren e vs, cat2_ren]
end

/-! ## The interpreter -/

/-- In a value and an environment. -/
def renVE (g : Nat → Nat) (x : V × List V) : V × List V := (x.1.ren g, x.2.map (V.ren g))
def renVES (g : Nat → Nat) (x : V × List V × St) : V × List V × St := (x.1.ren g, x.2.1.map (V.ren g), x.2.2.ren g)
def renLE (g : Nat → Nat) (x : List V × List V) : List V × List V := (x.1.map (V.ren g), x.2.map (V.ren g))

theorem evalAtom_ren (a : Atom) (env : List V) (st : St) : evalAtom a (env.map (V.ren g)) (st.ren g) = (evalAtom a env st).map (renVE g) := by
  cases a with
  | null => rfl
  | int n => rfl
  | undef => rfl
  | unknownType => rfl
  | strLen => rfl
  | totalCol => rfl
  | nParams => simp [evalAtom, renVE, V.ren, St.ren]
  | cp p =>
    simp only [evalAtom, getP_ren]
    cases getP env p with
    | none => rfl
    | some v => cases v <;> rfl
  | mv p =>
    simp only [evalAtom, getP_ren]
    cases getP env p with
    | none => rfl
    | some v =>
      simp only [Option.map_some, isUndef_ren, putP_undef_ren]
      cases v.isUndef with
      | true => rfl
      | false => cases putP env p .undef <;> rfl
  | dur p =>
    simp only [evalAtom, strAt_ren]
    cases strAt env p with
    | none => rfl
    | some b =>
      cases h : scanD none b with
      | none => simp only [h]; rfl
      | some x => simp only [h]; rfl
  | unit p =>
    simp only [evalAtom, strAt_ren]
    cases strAt env p with
    | none => rfl
    | some b =>
      cases h : scanUnit b with
      | none => simp only [h]; rfl
      | some x => simp only [h]; rfl

theorem evalAtoms_ren : ∀ (as : List Atom) (env : List V) (st : St), evalAtoms as (env.map (V.ren g)) (st.ren g) = (evalAtoms as env st).map (renLE g)
  | [], env, st => rfl
  | a :: as, env, st => by
    simp only [evalAtoms, evalAtom_ren]
    cases evalAtom a env st with
    | none => rfl
    | some x =>
      obtain ⟨v, env'⟩ := x
      simp only [Option.map_some, renVE, evalAtoms_ren as env' st]
      cases evalAtoms as env' st with
      | none => rfl
      | some y => rfl

theorem evalRv_ren (A : Alloc) (e : Rv) (env : List V) (st : St) :
    evalRv (A.ren g) e (env.map (V.ren g)) (st.ren g) = (evalRv A e env st).map (renVES g) := by
  cases e with
  | atom a =>
    simp only [evalRv, evalAtom_ren]
    cases evalAtom a env st <;> rfl
  | obj c fs =>
    simp only [evalRv, evalAtoms_ren]
    cases evalAtoms fs env st with
    | none => rfl
    | some x => simp [renLE, renVES, V.ren, renL_map, Alloc.ren, St.ren, St.bump]
  | vec es =>
    simp only [evalRv, evalAtoms_ren]
    cases evalAtoms es env st with
    | none => rfl
    | some x => simp [renLE, renVES, V.ren, renL_map, Alloc.ren, St.ren, St.bump]
  | tup fs =>
    simp only [evalRv, evalAtoms_ren]
    cases evalAtoms fs env st with
    | none => rfl
    | some x => simp [renLE, renVES, V.ren, renL_map]

theorem evalCond_ren (c : Cond) (env : List V) (st : St) : evalCond c (env.map (V.ren g)) (st.ren g) = evalCond c env st := by
  cases c with
  | null p =>
    simp only [evalCond, getP_ren]
    cases getP env p with
    | none => rfl
    | some v => cases v <;> rfl
  | eq p n =>
    simp only [evalCond, getP_ren]
    cases getP env p with
    | none => rfl
    | some v => cases v <;> rfl
  | strIs p s => simp only [evalCond, strAt_ren]
  | has p n =>
    simp only [evalCond, getP_ren]
    cases getP env p with
    | none => rfl
    | some v =>
      cases v <;> try rfl
      simp only [Option.map_some, V.ren, renL_map, hasInt_ren]
  | err =>
    show some (st.res.errMsg.map _).isSome = some st.res.errMsg.isSome
    cases st.res.errMsg <;> rfl
  | dateOk p => simp only [evalCond, strAt_ren]
  | durOk p => simp only [evalCond, strAt_ren]
  | durUnitOk p => simp only [evalCond, strAt_ren]

theorem log_ren (st : St) (f l : List Nat) : (st.log f l).ren g = (st.ren g).log (f.map g) (l.map g) := by
  simp [St.log, St.ren]
theorem yyerror_ren (A : Alloc) (st : St) (m : Bytes) (x y : Int) : (st.yyerror A m x y).ren g = (st.ren g).yyerror (A.ren g) m x y := by
  unfold St.yyerror St.ren Res.ren
  cases h : st.res.errMsg <;> simp [Alloc.ren]
theorem bump_ren (st : St) : st.bump.ren g = (st.ren g).bump := rfl

/-! ### The parameters: here addresses are compared -/


mutual
theorem ivalAt_ren (a : Nat) : ∀ (v : V), (∀ x ∈ v.addrs, g x = g a → x = a) → (v.ren g).ivalAt (g a) = (v.ivalAt a).map (V.ren g)
  | .obj b c fs, hg => by
    simp only [V.ren, V.ivalAt]
    by_cases h : b = a ∧ c = .Expr
    · rw [if_pos h, if_pos ⟨by rw [h.1], h.2⟩, renL_map, List.getElem?_map]
    · rw [if_neg h, if_neg (fun h' => h ⟨hg b (by simp [V.addrs]) h'.1, h'.2⟩), ivalAtL_ren' a fs (fun x hx => hg x (by simp [V.addrs, hx]))]
  | .vec _ vs, hg => by simp only [V.ren, V.ivalAt]; exact ivalAtL_ren' a vs (fun x hx => hg x (by simp [V.addrs, hx]))
  | .tup fs, hg => by simp only [V.ren, V.ivalAt]; exact ivalAtL_ren' a fs (fun x hx => hg x (by simpa [V.addrs] using hx))
  | .undef, _ => by simp [V.ren, V.ivalAt]
  | .null, _ => by simp [V.ren, V.ivalAt]
  | .int _, _ => by simp [V.ren, V.ivalAt]
  | .pos _, _ => by simp [V.ren, V.ivalAt]
  | .idx _, _ => by simp [V.ren, V.ivalAt]
  | .raw _, _ => by simp [V.ren, V.ivalAt]
  | .str _ _, _ => by simp [V.ren, V.ivalAt]
theorem ivalAtL_ren' (a : Nat) : ∀ (vs : List V), (∀ x ∈ addrsL vs, g x = g a → x = a) → ivalAtL (g a) (renL g vs) = (ivalAtL a vs).map (V.ren g)
  | [], _ => by simp [renL, ivalAtL]
  | v :: vs, hg => by
    simp only [renL, ivalAtL, ivalAt_ren a v (fun x hx => hg x (by simp [addrsL, hx]))]
    cases v.ivalAt a with
    | none => exact ivalAtL_ren' a vs (fun x hx => hg x (by simp [addrsL, hx]))
    | some x => rfl
end
theorem ivalAtL_ren (a : Nat) (vs : List V) (hg : ∀ x ∈ addrsL vs, g x = g a → x = a) : ivalAtL (g a) (vs.map (V.ren g)) = (ivalAtL a vs).map (V.ren g) := by
  rw [← renL_map, ivalAtL_ren' a vs hg]

theorem newIval_ren (n : Int) (fs : List V) : newIval n (renL g fs) = renL g (newIval n fs) := by
  unfold newIval
  rw [renL_map, List.getElem?_map]
  cases fs[10]? with
  | none => simp [renL_map]
  | some w =>
    simp only [Option.map_some, isNum_ren]
    cases w.isNum with
    | true => simp [renL_map, List.map_set, V.ren]
    | false => simp [renL_map]

mutual
theorem setIval_ren (a : Nat) (n : Int) : ∀ (v : V), (∀ x ∈ v.addrs, g x = g a → x = a) → (v.ren g).setIval (g a) n = (v.setIval a n).ren g
  | .obj b c fs, hg => by
    simp only [V.ren, V.setIval]
    by_cases h : b = a ∧ c = .Expr
    · rw [if_pos h, if_pos ⟨by rw [h.1], h.2⟩, newIval_ren]; rfl
    · rw [if_neg h, if_neg (fun h' => h ⟨hg b (by simp [V.addrs]) h'.1, h'.2⟩), setIvalL_ren' a n fs (fun x hx => hg x (by simp [V.addrs, hx]))]; rfl
  | .vec _ vs, hg => by simp only [V.ren, V.setIval, setIvalL_ren' a n vs (fun x hx => hg x (by simp [V.addrs, hx]))]
  | .tup fs, hg => by simp only [V.ren, V.setIval, setIvalL_ren' a n fs (fun x hx => hg x (by simpa [V.addrs] using hx))]
  | .undef, _ => by simp [V.ren, V.setIval]
  | .null, _ => by simp [V.ren, V.setIval]
  | .int _, _ => by simp [V.ren, V.setIval]
  | .pos _, _ => by simp [V.ren, V.setIval]
  | .idx _, _ => by simp [V.ren, V.setIval]
  | .raw _, _ => by simp [V.ren, V.setIval]
  | .str _ _, _ => by simp [V.ren, V.setIval]
theorem setIvalL_ren' (a : Nat) (n : Int) : ∀ (vs : List V), (∀ x ∈ addrsL vs, g x = g a → x = a) → setIvalL (g a) n (renL g vs) = renL g (setIvalL a n vs)
  | [], _ => by simp [renL, setIvalL]
  | v :: vs, hg => by
    simp only [renL, setIvalL, setIval_ren a n v (fun x hx => hg x (by simp [addrsL, hx])), setIvalL_ren' a n vs (fun x hx => hg x (by simp [addrsL, hx]))]
end
theorem setIvalL_ren (a : Nat) (n : Int) (vs : List V) (hg : ∀ x ∈ addrsL vs, g x = g a → x = a) : setIvalL (g a) n (vs.map (V.ren g)) = (setIvalL a n vs).map (V.ren g) := by
  rw [← renL_map, setIvalL_ren' a n vs hg, renL_map]

theorem insertKey_ren (k : Int) (a : Nat) : ∀ (l : List (Int × Nat)), insertKey k (g a) (l.map fun x => (x.1, g x.2)) = (insertKey k a l).map fun x => (x.1, g x.2)
  | [] => rfl
  | (k', b) :: l => by
    simp only [List.map_cons, insertKey]
    split
    · rfl
    · rw [insertKey_ren k a l]; rfl

theorem keysOf_ren (stmts : List V) : ∀ (as : List Nat), (∀ a ∈ as, ∀ x ∈ addrsL stmts, g x = g a → x = a) → keysOf (stmts.map (V.ren g)) (as.map g) = (keysOf stmts as).map (List.map fun x => (x.1, g x.2))
  | [], _ => rfl
  | a :: as, hg => by
    simp only [List.map_cons, keysOf, ivalAtL_ren a stmts (hg a (by simp)), keysOf_ren stmts as (fun b hb => hg b (by simp [hb]))]
    cases ivalAtL a stmts with
    | none => rfl
    | some v => cases v <;> first | rfl | (cases keysOf stmts as <;> rfl)

theorem sort_ren : ∀ (ks acc : List (Int × Nat)), (ks.map fun x => (x.1, g x.2)).foldl (fun acc (k, b) => insertKey k b acc) (acc.map fun x => (x.1, g x.2)) =
    (ks.foldl (fun acc (k, b) => insertKey k b acc) acc).map fun x => (x.1, g x.2)
  | [], acc => rfl
  | (k, a) :: ks, acc => by
    simp only [List.map_cons, List.foldl_cons]
    rw [insertKey_ren, sort_ren ks]

theorem addParameter_ren (r : Res) (a : Nat) (hg : ∀ b ∈ r.params ++ [a], ∀ x ∈ addrsL r.stmts, g x = g b → x = b) : (r.ren g).addParameter (g a) = (r.addParameter a).map (Res.ren g) := by
  unfold Res.addParameter
  have e : (r.ren g).params ++ [g a] = (r.params ++ [a]).map g := by simp [Res.ren]
  rw [e]
  show (match keysOf (r.stmts.map (V.ren g)) _ with | some ks => _ | none => _) = _
  rw [keysOf_ren _ _ hg]
  cases keysOf r.stmts (r.params ++ [a]) with
  | none => rfl
  | some ks =>
    have := sort_ren (g := g) ks []
    simp only [List.map_nil] at this
    simp only [Option.map_some, this]
    simp [Res.ren]

theorem insertKey_mem (k : Int) (a : Nat) : ∀ (l : List (Int × Nat)) (x : Int × Nat), x ∈ insertKey k a l → x = (k, a) ∨ x ∈ l
  | [], x, h => by simp [insertKey] at h; exact .inl h
  | (k', b) :: l, x, h => by
    simp only [insertKey] at h
    split at h
    · simpa using h
    · rcases List.mem_cons.1 h with rfl | h
      · simp
      · rcases insertKey_mem k a l x h with h | h
        · exact .inl h
        · exact .inr (by simp [h])

theorem sort_mem : ∀ (ks acc : List (Int × Nat)) (x : Int × Nat), x ∈ ks.foldl (fun acc (k, b) => insertKey k b acc) acc → x ∈ ks ∨ x ∈ acc
  | [], acc, x, h => .inr h
  | (k, a) :: ks, acc, x, h => by
    rcases sort_mem ks _ x h with h | h
    · exact .inl (by simp [h])
    · rcases insertKey_mem k a acc x h with h | h
      · exact .inl (by simp [h])
      · exact .inr h

theorem keysOf_mem (stmts : List V) : ∀ (as : List Nat) (ks : List (Int × Nat)), keysOf stmts as = some ks → ∀ x ∈ ks, x.2 ∈ as
  | [], ks, h, x, hx => by simp [keysOf] at h; subst h; cases hx
  | a :: as, ks, h, x, hx => by
    simp only [keysOf] at h
    split at h
    · rename_i l _ e
      simp only [Option.some.injEq] at h
      subst h
      rcases List.mem_cons.1 hx with rfl | hx
      · simp
      · exact List.mem_cons_of_mem _ (keysOf_mem stmts as _ e x hx)
    · cases h

theorem addParameter_params {r r' : Res} {a : Nat} (h : r.addParameter a = some r') : r'.stmts = r.stmts ∧ ∀ b ∈ r'.params, b ∈ r.params ++ [a] := by
  unfold Res.addParameter at h
  cases e : keysOf r.stmts (r.params ++ [a]) with
  | none => rw [e] at h; cases h
  | some ks =>
    rw [e] at h
    simp only [Option.some.injEq] at h
    subst h
    refine ⟨rfl, fun b hb => ?_⟩
    obtain ⟨x, hx, rfl⟩ := List.mem_map.1 hb
    rcases sort_mem ks [] x hx with h | h
    · exact keysOf_mem _ _ _ e x h
    · cases h

theorem addParams_ren : ∀ (as : List Nat) (id : Nat) (r : Res), (∀ b ∈ as ++ r.params, ∀ x ∈ addrsL r.stmts, g x = g b → x = b) → addParams (as.map g) id (r.ren g) = (addParams as id r).map (Res.ren g)
  | [], _, r, _ => rfl
  | a :: as, id, r, hg => by
    simp only [List.map_cons, addParams]
    have e : ivalAtL (g a) (r.ren g).stmts = (ivalAtL a r.stmts).map (V.ren g) := ivalAtL_ren a r.stmts (hg a (by simp))
    rw [e]
    cases ivalAtL a r.stmts with
    | none => rfl
    | some w =>
      simp only [Option.map_some, isNum_ren]
      cases w.isNum with
      | false => rfl
      | true =>
        have e2 : ({ r.ren g with stmts := setIvalL (g a) id (r.ren g).stmts } : Res) = ({ r with stmts := setIvalL a id r.stmts } : Res).ren g := by
          simp only [Res.ren, setIvalL_ren _ _ _ (hg a (by simp))]
        have hg' : ∀ b ∈ ({ r with stmts := setIvalL a id r.stmts } : Res).params ++ [a], ∀ x ∈ addrsL ({ r with stmts := setIvalL a id r.stmts } : Res).stmts, g x = g b → x = b := by
          intro b hb x hx
          simp only [setIvalL_addrs] at hx
          refine hg b ?_ x hx
          simp only [List.mem_append, List.mem_cons, List.not_mem_nil, or_false] at hb ⊢
          rcases hb with hb | hb
          · exact .inr hb
          · exact .inl (.inl hb)
        simp only [if_true, e2, addParameter_ren _ _ hg']
        cases e3 : Res.addParameter { r with stmts := setIvalL a id r.stmts } a with
        | none => rfl
        | some r' =>
          obtain ⟨e4, e5⟩ := addParameter_params e3
          refine addParams_ren as (id + 1) r' ?_
          intro b hb x hx
          rw [e4] at hx
          simp only [setIvalL_addrs] at hx
          refine hg b ?_ x hx
          simp only [List.mem_append] at hb
          rcases hb with hb | hb
          · simp [hb]
          · have := e5 b hb
            simp only [List.mem_append, List.mem_cons, List.not_mem_nil, or_false] at this ⊢
            rcases this with h | h
            · exact .inr h
            · exact .inl (.inl h)

/-- Programs that do not end with the action of `input`. -/
def Prog.noFinish : Prog → Bool
  | .ret | .fail => true
  | .set _ _ k | .push _ _ k | .insert _ _ k | .del _ k | .free _ k | .err _ k | .errName _ _ k | .zeroLen k | .regParam _ k | .split _ _ k => k.noFinish
  | .ite _ t e => t.noFinish && e.noFinish
  | .finish => false

/-- The interpreter of the actions commutes with the renaming. -/
theorem run_ren (A : Alloc) (loc : Loc) : ∀ (k : Prog), k.noFinish = true → ∀ (env : List V) (st : St), run (A.ren g) loc k (env.map (V.ren g)) (st.ren g) = (run A loc k env st).ren g
  | .ret, _, env, st => by
    cases env with
    | nil => rfl
    | cons v env => simp only [List.map_cons, run, Out.ren, log_ren, addrsL_ren, List.map_nil]
  | .fail, _, env, st => by simp only [run, Out.ren, log_ren, addrsL_ren, List.map_nil]
  | .set q e k, hk, env, st => by
    simp only [run, evalRv_ren]
    cases evalRv A e env st with
    | none => rfl
    | some x =>
      obtain ⟨v, env', st'⟩ := x
      simp only [Option.map_some, renVES, getP_ren]
      cases getP env' q with
      | none => rfl
      | some old =>
        simp only [Option.map_some, putP_ren]
        cases putP env' q v with
        | none => rfl
        | some env'' =>
          simp only [Option.map_some]
          rw [← run_ren A loc k hk env'', log_ren, addrs_ren]; rfl
  | .push q e k, hk, env, st => by
    simp only [run, evalAtom_ren]
    cases evalAtom e env st with
    | none => rfl
    | some x =>
      obtain ⟨v, env'⟩ := x
      simp only [Option.map_some, renVE, getP_ren]
      cases getP env' q with
      | none => rfl
      | some old =>
        cases old with
        | vec a vs =>
          have := putP_ren (g := g) env' q (.vec a (vs ++ [v]))
          simp only [V.ren, renL_map, List.map_append, List.map_cons, List.map_nil] at this
          simp only [Option.map_some, V.ren, renL_map, this]
          cases putP env' q (.vec a (vs ++ [v])) with
          | none => rfl
          | some env'' => exact run_ren A loc k hk env'' st
        | _ => rfl
  | .insert q e k, hk, env, st => by
    simp only [run, evalAtom_ren]
    cases evalAtom e env st with
    | none => rfl
    | some x =>
      obtain ⟨v, env'⟩ := x
      cases v with
      | int n =>
        simp only [Option.map_some, renVE, V.ren, getP_ren]
        cases getP env' q with
        | none => rfl
        | some old =>
          cases old with
          | vec a vs =>
            have := putP_ren (g := g) env' q (.vec a (if hasInt n vs then vs else vs ++ [.int n]))
            have e : (if hasInt n vs then vs else vs ++ [.int n]).map (V.ren g) = if hasInt n vs then vs.map (V.ren g) else vs.map (V.ren g) ++ [.int n] := by
              split
              · rfl
              · simp [V.ren]
            simp only [V.ren, renL_map, e] at this
            simp only [Option.map_some, V.ren, renL_map, hasInt_ren, this]
            cases putP env' q (.vec a (if hasInt n vs then vs else vs ++ [.int n])) with
            | none => rfl
            | some env'' => exact run_ren A loc k hk env'' st
          | _ => rfl
      | _ => rfl
  | .del q k, hk, env, st => by
    simp only [run, getP_ren]
    cases getP env q with
    | none => rfl
    | some v =>
      simp only [Option.map_some, treat_ren]
      cases treat .del v with
      | none => rfl
      | some x =>
        simp only [Option.map_some, putP_undef_ren]
        cases putP env q .undef with
        | none => rfl
        | some env' =>
          simp only [Option.map_some]
          rw [← run_ren A loc k hk env', log_ren]; rfl
  | .free q k, hk, env, st => by
    simp only [run, getP_ren]
    cases getP env q with
    | none => rfl
    | some v =>
      simp only [Option.map_some, treat_ren]
      cases treat .str v with
      | none => rfl
      | some x =>
        simp only [Option.map_some, putP_undef_ren]
        cases putP env q .undef with
        | none => rfl
        | some env' =>
          simp only [Option.map_some]
          rw [← run_ren A loc k hk env', log_ren]; rfl
  | .ite c t e, hk, env, st => by
    simp only [run, evalCond_ren]
    cases evalCond c env st with
    | none => rfl
    | some b => cases b with
      | true => exact run_ren A loc t (Bool.and_eq_true_iff.1 hk).1 env st
      | false => exact run_ren A loc e (Bool.and_eq_true_iff.1 hk).2 env st
  | .err msg k, hk, env, st => by
    simp only [run]
    rw [← yyerror_ren]
    exact run_ren A loc k hk env _
  | .errName msg q k, hk, env, st => by
    simp only [run, strAt_ren]
    cases strAt env q with
    | none => rfl
    | some b =>
      simp only
      rw [← yyerror_ren]
      exact run_ren A loc k hk env _
  | .zeroLen k, hk, env, st => by
    simp only [run]
    exact run_ren A loc k hk env { st with yylloc := { st.yylloc with len := 0 } }
  | .regParam q k, hk, env, st => by
    simp only [run, getP_ren]
    cases getP env q with
    | none => rfl
    | some v =>
      simp only [Option.map_some, addr_ren]
      cases v.addr? with
      | none => rfl
      | some a =>
        simp only [Option.map_some]
        rw [← run_ren A loc k hk env]
        simp [St.ren]
  | .split q1 q k, hk, env, st => by
    simp only [run, getP_ren]
    cases getP env q with
    | none => rfl
    | some v =>
      cases v with
      | vec b vs =>
        have h0 := putP_ren (g := g) env q (.vec b [])
        simp only [V.ren, renL] at h0
        simp only [Option.map_some, V.ren, h0]
        cases putP env q (.vec b []) with
        | none => rfl
        | some env1 =>
          simp only [Option.map_some, getP_ren]
          cases getP env1 ⟨q1.var, q1.sels ++ [.fld 10]⟩ with
          | none => rfl
          | some o1 =>
            cases getP env1 ⟨q1.var, q1.sels ++ [.fld 11]⟩ with
            | none => rfl
            | some o2 =>
              have h1 := putP_ren (g := g) env1 ⟨q1.var, q1.sels ++ [.fld 10]⟩ (.vec (A.new st.nalloc) (vs.filter isColumnDef))
              simp only [V.ren, renL_map, ← filter_ren isColumnDef isCol_ren] at h1
              have hA1 : (A.ren g).new (st.ren g).nalloc = g (A.new st.nalloc) := rfl
              have hA2 : (A.ren g).new ((st.ren g).nalloc + 1) = g (A.new (st.nalloc + 1)) := rfl
              simp only [Option.map_some, renL_map, hA1, hA2, h1]
              cases putP env1 ⟨q1.var, q1.sels ++ [.fld 10]⟩ (.vec (A.new st.nalloc) (vs.filter isColumnDef)) with
              | none => rfl
              | some env2 =>
                have h2 := putP_ren (g := g) env2 ⟨q1.var, q1.sels ++ [.fld 11]⟩ (.vec (A.new (st.nalloc + 1)) (vs.filter isConstraint))
                simp only [V.ren, renL_map, ← filter_ren isConstraint isCons_ren] at h2
                simp only [Option.map_some, h2]
                cases putP env2 ⟨q1.var, q1.sels ++ [.fld 11]⟩ (.vec (A.new (st.nalloc + 1)) (vs.filter isConstraint)) with
                | none => rfl
                | some env3 =>
                  simp only [Option.map_some]
                  rw [← run_ren A loc k hk env3, log_ren]
                  simp only [bump_ren, List.map_append, List.map_nil, addrs_ren, ← addrsL_ren]
                  rw [filter_ren _ (fun v => by rw [isCol_ren, isCons_ren])]
      | _ => rfl
theorem mem_addrsL {x : Nat} : ∀ {vs : List V}, x ∈ addrsL vs ↔ ∃ v ∈ vs, x ∈ v.addrs
  | [] => by simp [addrsL]
  | v :: vs => by simp [addrsL, mem_addrsL (vs := vs)]

theorem finish_ren (A : Alloc) (loc : Loc) (env : List V) (st : St) (hg : ∀ b ∈ st.plist ++ st.res.params, ∀ x ∈ addrsL st.res.stmts ++ addrsL env, g x = g b → x = b) :
    run (A.ren g) loc .finish (env.map (V.ren g)) (st.ren g) = (run A loc .finish env st).ren g := by
  simp only [run, getP_ren]
  cases hgp : getP env ⟨1, []⟩ with
  | none => rfl
  | some v =>
    cases v with
    | vec b0 vs =>
      simp only [Option.map_some, V.ren, putP_undef_ren]
      cases putP env ⟨1, []⟩ .undef with
      | none => rfl
      | some env' =>
        have e : ({ (st.ren g).res with stmts := (st.ren g).res.stmts ++ renL g vs } : Res) = ({ st.res with stmts := st.res.stmts ++ vs } : Res).ren g := by
          simp [St.ren, Res.ren, renL_map]
        simp only [Option.map_some, e]
        have e2 : (st.ren g).plist = st.plist.map g := rfl
        have hg' : ∀ b ∈ st.plist ++ ({ st.res with stmts := st.res.stmts ++ vs } : Res).params, ∀ x ∈ addrsL ({ st.res with stmts := st.res.stmts ++ vs } : Res).stmts, g x = g b → x = b := by
          intro b hb x hx
          refine hg b hb x ?_
          simp only [addrsL_append, List.mem_append] at hx ⊢
          rcases hx with hx | hx
          · exact .inl hx
          · right
            refine mem_addrsL.2 ⟨.vec b0 vs, ?_, by simp [V.addrs, hx]⟩
            unfold getP at hgp
            split at hgp
            · rename_i w hw
              have : w = .vec b0 vs := by simpa [V.get] using hgp
              rw [← this]
              exact List.mem_of_getElem? hw
            · cases hgp
        rw [e2, addParams_ren _ _ _ hg']
        cases addParams st.plist 0 { st.res with stmts := st.res.stmts ++ vs } with
        | none => rfl
        | some r => simp [Out.ren, St.ren, V.ren, addrsL_ren]
    | _ => rfl

/-! ## The parser -/

theorem destruct_ren (sym : Nat) (v : V) (st : St) : destruct sym (v.ren g) (st.ren g) = (destruct sym v st).map (St.ren g) := by
  unfold destruct
  rw [treat_ren]
  cases treat (destructors.getD sym .keep) v with
  | none => rfl
  | some x => simp only [Option.map_some, ren2, log_ren]

theorem popAll_ren : ∀ (stk : List (Nat × SV)) (st : St), popAll (stk.map fun x => (x.1, (x.2.1.ren g, x.2.2))) (st.ren g) = (popAll stk st).map (St.ren g)
  | [], st => rfl
  | (s, v) :: stk, st => by
    simp only [List.map_cons, popAll, destruct_ren]
    cases destruct ((yystos.getD s 0).toNat) v.1 st with
    | none => rfl
    | some st' => exact popAll_ren stk st'

theorem dropLa_ren (la : Option (Tok × SV)) (st : St) : dropLookahead (la.map fun x => (x.1, (x.2.1.ren g, x.2.2))) (st.ren g) = (dropLookahead la st).map (St.ren g) := by
  cases la with
  | none => rfl
  | some x => exact destruct_ren _ _ st

theorem finishRun_ren (A : Alloc) (o : Outcome) (c : Cfg St SV) :
    finishRun (A.ren g) o (c.mp (St.ren g) fun x => (x.1.ren g, x.2)) = (finishRun A o c).map fun x => (x.1, x.2.ren g) := by
  have e1 : (c.mp (St.ren g) fun x => (x.1.ren g, x.2)).la = c.la.map fun x => (x.1, (x.2.1.ren g, x.2.2)) := rfl
  have e2 : (c.mp (St.ren g) fun x => (x.1.ren g, x.2)).stk = c.stk.map fun x => (x.1, (x.2.1.ren g, x.2.2)) := rfl
  have e3 : (c.mp (St.ren g) fun x => (x.1.ren g, x.2)).st = c.st.ren g := rfl
  have e4 : topState (c.stk.map fun x => (x.1, ((x.2.1.ren g, x.2.2) : SV))) = topState c.stk := topState_mp (h := fun x : SV => (x.1.ren g, x.2)) c.stk
  have e5 : (c.st.ren g).yylloc = c.st.yylloc := rfl
  cases o with
  | accept =>
    simp only [finishRun, Option.bind_eq_bind, e1, e2, e3, dropLa_ren]
    cases dropLookahead c.la c.st with
    | none => rfl
    | some s1 =>
      simp only [Option.map_some, Option.bind_some, popAll_ren]
      cases popAll c.stk s1 <;> rfl
  | syntaxError =>
    simp only [finishRun, Option.bind_eq_bind, e1, e2, e3, e4, e5]
    cases hla : c.la with
    | none => rfl
    | some x =>
      simp only [Option.map_some, Option.bind_some, ← yyerror_ren, popAll_ren]
      generalize popAll c.stk _ = y
      cases y with
      | none => rfl
      | some s1 =>
        have := dropLa_ren (g := g) (some x) s1
        simp only [Option.map_some] at this
        simp only [Option.map_some, Option.bind_some, this]
        cases dropLookahead (some x) s1 <;> rfl
  | semError =>
    simp only [finishRun, Option.bind_eq_bind, e1, e2, e3, popAll_ren]
    cases popAll c.stk c.st with
    | none => rfl
    | some s1 =>
      simp only [Option.map_some, Option.bind_some, dropLa_ren]
      cases dropLookahead c.la s1 <;> rfl
  | exhausted =>
    simp only [finishRun, Option.bind_eq_bind, e1, e2, e3, e5, ← yyerror_ren, dropLa_ren]
    generalize dropLookahead c.la _ = y
    cases y with
    | none => rfl
    | some s1 =>
      simp only [Option.map_some, Option.bind_some, popAll_ren]
      cases popAll c.stk s1 <;> rfl

theorem ruleLoc_ren (vs : List SV) (b : Option SV) : ruleLoc (vs.map fun x => ((x.1.ren g, x.2) : SV)) (b.map fun x => ((x.1.ren g, x.2) : SV)) = ruleLoc vs b := by
  unfold ruleLoc
  rw [List.head?_map, List.getLast?_map]
  cases vs.head? with
  | none => cases b <;> rfl
  | some x => cases vs.getLast? <;> first | rfl | (cases b <;> rfl)

theorem mkEnv_ren (vs : List V) : mkEnv (vs.map (V.ren g)) = (mkEnv vs).map (V.ren g) := by
  simp [mkEnv, V.ren]

/-- Is it the action of `input`? -/
def Prog.isFinish : Prog → Bool
  | .finish => true
  | _ => false

theorem actions_finish : (actions.all fun p => p.isFinish || p.noFinish) = true := by decide +kernel

/-- No block of the stack or of the statements has the new address of a parameter, other than the parameter. -/
def ApartP (g : Nat → Nat) (stk : List (Nat × SV)) (st : St) : Prop :=
  ∀ b ∈ st.plist ++ st.res.params, ∀ x ∈ addrsL st.res.stmts ++ addrsL (stk.map fun e => e.2.1), g x = g b → x = b

theorem hsqlParse_ren (A : Alloc) (toks : List Tok) (r : Res)
    (hg : ∀ k c, after (sem A) stackSize k (initCfg toks (startSt r)) = some c → ApartP g c.stk c.st) :
    hsqlParse (A.ren g) toks (r.ren g) = (hsqlParse A toks r).map fun x => (x.1, x.2.ren g) := by
  have key := runN_mp (f := St.ren g) (h := fun x : SV => ((x.1.ren g, x.2) : SV)) (S := sem A) (S' := sem (A.ren g)) (by
      intro t s
      cases hv : t.val <;> simp [sem, readTok, St.ren, Alloc.ren, tokValue, V.ren, hv]) (P := ApartP g) (fun stk s t h => h) (by
      intro n m stk s hP
      show reduceRule (A.ren g) n _ _ _ = (reduceRule A n _ _ s).mp _ _
      unfold reduceRule
      cases ha : actions[n - 2]? with
      | none => rfl
      | some p =>
        simp only [ruleLoc_ren]
        generalize hvs : ((stk.take m).map Prod.snd).reverse = vs
        generalize (stk.drop m).head?.map Prod.snd = b
        have e : (vs.map fun x => ((x.1.ren g, x.2) : SV)).map Prod.fst = (vs.map Prod.fst).map (V.ren g) := by simp [Function.comp_def]
        have hr : run (A.ren g) (ruleLoc vs b) p ((mkEnv (vs.map Prod.fst)).map (V.ren g)) (s.ren g) = (run A (ruleLoc vs b) p (mkEnv (vs.map Prod.fst)) s).ren g := by
          have hp := List.all_eq_true.1 actions_finish p (List.mem_of_getElem? ha)
          rcases Bool.or_eq_true_iff.1 hp with hp | hp
          · cases p <;> first | cases hp | skip
            refine finish_ren A _ _ s fun a hpa x hx => hP a hpa x ?_
            simp only [List.mem_append] at hx ⊢
            rcases hx with hx | hx
            · exact .inl hx
            · right
              obtain ⟨v, hv, hx⟩ := mem_addrsL.1 hx
              refine mem_addrsL.2 ?_
              simp only [mkEnv, List.cons_append, List.mem_cons, List.mem_append, List.mem_map, List.mem_replicate] at hv
              rcases hv with rfl | ⟨w, hw, rfl⟩ | ⟨_, rfl⟩
              · simp [V.addrs] at hx
              · rw [← hvs] at hw
                simp only [List.mem_reverse, List.mem_map] at hw
                obtain ⟨y, hy, rfl⟩ := hw
                exact ⟨_, List.mem_map.2 ⟨y, List.mem_of_mem_take hy, rfl⟩, hx⟩
              · simp [V.addrs] at hx
          · exact run_ren A _ p hp _ s
        rw [e, mkEnv_ren, hr]
        cases run A (ruleLoc vs b) p (mkEnv (vs.map Prod.fst)) s <;> rfl) stackSize (10 * toks.length + 2010) (initCfg toks (startSt r)) hg
  have e : ((initCfg toks (startSt r) : Cfg St SV).mp (St.ren g) fun x => (x.1.ren g, x.2)) = initCfg toks (startSt (r.ren g)) := rfl
  rw [e] at key
  unfold hsqlParse runLR
  rw [key]
  cases runN (sem A) stackSize (10 * toks.length + 2010) (initCfg toks (startSt r)) with
  | none => rfl
  | some x =>
    cases x with
    | none => rfl
    | some y => exact finishRun_ren A y.1 y.2

/-- In the outcome of a parse. -/
def ParseOut.ren (g : Nat → Nat) (o : ParseOut) : ParseOut := ⟨o.res.ren g, o.freed.map g, o.leaked.map g⟩

theorem parse_ren' (A : Alloc) (fpr : Int) (buf : Bytes) (sql : List UInt8) (r : Res)
    (hg : ∀ toks st, lexAll fpr (lexInit buf (cText sql)) = some (toks, st) → ∀ k c, after (sem A) stackSize k (initCfg toks (startSt r)) = some c → ApartP g c.stk c.st) :
    parse (A.ren g) fpr buf sql (r.ren g) = (parse A fpr buf sql r).map (ParseOut.ren g) := by
  unfold parse
  cases h : lexAll fpr (lexInit buf (cText sql)) with
  | none => rfl
  | some x =>
    simp only [hsqlParse_ren A x.1 r (hg x.1 x.2 h)]
    cases hsqlParse A x.1 r with
    | none => rfl
    | some y => rfl

theorem parse_ren (hg : ∀ i j, g i = g j → i = j) (A : Alloc) (fpr : Int) (buf : Bytes) (sql : List UInt8) (r : Res) : parse (A.ren g) fpr buf sql (r.ren g) = (parse A fpr buf sql r).map (ParseOut.ren g) :=
  parse_ren' A fpr buf sql r fun _ _ _ _ _ _ b _ x _ h => hg x b h

end

end Verif.Sem

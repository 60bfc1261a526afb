import Verif.Sem.Types
import Verif.Sem.Actions
/-! The abstract interpreter that computes the shapes of the values of the semantic actions. Proof-internal. -/
namespace Verif.Sem

/-- Replace names by their alternatives. -/
def unf : Nat → P → List P
  | n + 1, .ref t => (alts t).flatMap (unf n)
  | _, p => [p]

def expOne (rc : P → List P) (s : Sel) (q : P) : List P := match s, q with
  | .fld i, .obj c fs => match fs[i]? with
    | some f => (rc f).map fun f' => .obj c (fs.set i f')
    | none => [q]
  | .fld i, .tup fs => match fs[i]? with
    | some f => (rc f).map fun f' => .tup (fs.set i f')
    | none => [q]
  | .back, .vec e ne suf => match suf.getLast? with
    | some f => (rc f).map fun f' => .vec e ne (suf.dropLast ++ [f'])
    | none => [q]
  | _, _ => [q]

/-- Make the names along a path explicit, also at its end if `deep`. -/
def expP (deep : Bool) : List Sel → P → List P
  | [], p => match deep with
    | true => unf 4 p
    | false => [p]
  | s :: ss, p => (unf 4 p).flatMap (expOne (expP deep ss) s)

def getA : P → List Sel → Option P
  | p, [] => some p
  | .obj _ fs, .fld i :: ss => match fs[i]? with
    | some f => getA f ss
    | none => none
  | .tup fs, .fld i :: ss => match fs[i]? with
    | some f => getA f ss
    | none => none
  | .vec _ _ suf, .back :: ss => match suf.getLast? with
    | some f => getA f ss
    | none => none
  | _, _ :: _ => none
termination_by structural _ ss => ss

/-- The type and the number (`ival2`) of an expression may not be changed, and column definitions only if `g`. -/
def okFld (g : Bool) (c : Cls) (i : Nat) : Bool := match c, i with
  | .Expr, 0 => false
  | .Expr, 11 => false
  | .ColumnDefinition, _ => g
  | _, _ => true

def okNew (g : Bool) : Cls → Bool
  | .ColumnDefinition => g
  | _ => true

section
variable (g : Bool)

def putA : P → List Sel → P → Option P
  | _, [], x => some x
  | .obj c fs, .fld i :: ss, x => match okFld g c i, fs[i]? with
    | true, some f => match putA f ss x with
      | some f' => some (.obj c (fs.set i f'))
      | none => none
    | _, _ => none
  | .tup fs, .fld i :: ss, x => match fs[i]? with
    | some f => match putA f ss x with
      | some f' => some (.tup (fs.set i f'))
      | none => none
    | none => none
  | .vec e ne suf, .back :: ss, x => match suf.getLast? with
    | some f => match putA f ss x with
      | some f' => some (.vec e ne (suf.dropLast ++ [f']))
      | none => none
    | none => none
  | _, _ :: _, _ => none
termination_by structural _ ss => ss

abbrev AEnv := List P

def getE (env : AEnv) (p : Path) : Option P := match env[p.var]? with
  | some q => getA q p.sels
  | none => none

def putE (env : AEnv) (p : Path) (x : P) : Option AEnv := match env[p.var]? with
  | some q => match putA g q p.sels x with
    | some q' => some (env.set p.var q')
    | none => none
  | none => none

def expE (deep : Bool) (p : Path) (env : AEnv) : List AEnv := match env[p.var]? with
  | some q => (expP deep p.sels q).map fun q' => env.set p.var q'
  | none => [env]

def expAll : List (Bool × Path) → AEnv → List AEnv
  | [], env => [env]
  | (d, p) :: ps, env => (expE d p env).flatMap (expAll ps)

def atomPaths : Atom → List (Bool × Path)
  | .mv p => [(false, p)]
  | .cp p => [(true, p)]
  | .dur p => [(true, p)]
  | .unit p => [(true, p)]
  | _ => []

def rvPaths : Rv → List (Bool × Path)
  | .atom a => atomPaths a
  | .obj _ fs => fs.flatMap atomPaths
  | .vec fs => fs.flatMap atomPaths
  | .tup fs => fs.flatMap atomPaths

def condPaths : Cond → List (Bool × Path)
  | .null p => [(true, p)]
  | .eq p _ => [(true, p)]
  | .strIs p _ => [(true, p)]
  | .has p _ => [(true, p)]
  | .err => []
  | .dateOk p => [(true, p)]
  | .durOk p => [(true, p)]
  | .durUnitOk p => [(true, p)]

def defd1 : P → Bool
  | .undef => false
  | .ref _ => false
  | _ => true
/-- Not indeterminate. -/
def defd (p : P) : Bool := (unf 4 p).all defd1

def noAddr0 : P → Bool
  | .never => true
  | .undef => true
  | .null => true
  | .num => true
  | .pos => true
  | .idx => true
  | .posnum => true
  | .raw => true
  | .ints _ => true
  | _ => false
def noAddr1 : P → Bool
  | .tup fs => fs.all noAddr0
  | p => noAddr0 p
/-- Owns nothing. -/
def noAddr (p : P) : Bool := (unf 4 p).all noAddr1

/-- `2`-element zip with equal length. -/
def all2 {α β : Type} (f : α → β → Bool) : List α → List β → Bool
  | [], [] => true
  | a :: as, b :: bs => f a b && all2 f as bs
  | _, _ => false

/-- Every value of the first shape has the second. -/
def sub : Nat → P → P → Bool
  | 0, _, _ => false
  | n + 1, p, q => match p, q with
    | .never, _ => true
    | .ref t, .ref u => decide (t = u) || ((alts u).any fun q' => sub n (.ref t) q') || (alts t).all fun p' => sub n p' (.ref u)
    | .ref t, q => (alts t).all fun p' => sub n p' q
    | p, .ref u => (alts u).any fun q' => sub n p q'
    | .undef, .undef => true
    | .null, .null => true
    | .num, .num => true
    | .pos, .pos => true
    | .idx, .idx => true
    | .raw, .raw => true
    | .str, .str => true
    | .strQ _, .str => true
    | .posnum, .posnum => true
    | .pos, .posnum => true
    | .num, .posnum => true
    | .ints l, .ints m => l.all fun x => m.any fun y => decide (x = y)
    | .ints _, .num => true
    | .ints _, .posnum => true
    | .vec e ne suf, .vec e' ne' [] => sub n e e' && suf.all (fun s => sub n s e') && (!ne' || ne || !suf.isEmpty)
    | .vec e ne suf, .vec e' ne' suf' => sub n e e' && all2 (sub n) suf suf' && (!ne' || ne)
    | .obj c fs, .obj c' fs' => decide (c = c') && all2 (sub n) fs fs'
    | .tup fs, .tup fs' => all2 (sub n) fs fs'
    | _, _ => false

/-- The shapes whose `delete` is defined and leaks nothing. -/
def delTable : List Ty := [.expr, .exprA, .lit, .numLit, .extLit, .castLit, .window, .limit, .top, .group, .sel, .selStmt,
  .table, .alias, .tableAlias, .tableConstraint, .tableElem, .csvOptions, .ioOptions, .prepStmt, .stmtU, .stmt]

def inDel : Ty → Bool
  | .opt t => delTable.any fun u => decide (t = u)
  | t => delTable.any fun u => decide (t = u)

/-- The destructor treatment `h` is defined for all values of shape `p`, and, unless `lk`, leaks nothing. -/
def trA (lk : Bool) : Nat → How → P → Bool
  | 0, _, _ => false
  | n + 1, h, p => match h, p with
    | .del, .ref t => inDel t || (alts t).all (trA lk n .del)
    | .keep, p => lk || noAddr p
    | h, .ref t => (alts t).all (trA lk n h)
    | _, .never => true
    | .str, .null => true
    | .str, .str => true
    | .str, .strQ _ => true
    | .del, .null => true
    | .del, .obj c fs => all2 (trA lk n) (dtor c) fs
    | .del, .vec e _ suf => lk || (noAddr e && suf.all noAddr)
    | .vec _, .null => true
    | .vec h, .vec e _ suf => trA lk n h e && suf.all (trA lk n h)
    | .vecNN h, .vec e _ suf => trA lk n h e && suf.all (trA lk n h)
    | .fields hs, .obj _ fs => all2 (trA lk n) hs fs
    | .tup hs, .tup fs => all2 (trA lk n) hs fs
    | _, _ => false

/-- The shapes that contain no parameter. -/
def pfTable : List Ty := [.str, .strs, .colType, .numLit, .extLit, .extLits, .castLit, .hints, .top, .locks, .alias, .tableAlias, .tableConstraint,
  .tableElem, .ioOptions, .csvOptions]
def inPf : Ty → Bool
  | .opt t => pfTable.any fun u => decide (t = u)
  | t => pfTable.any fun u => decide (t = u)

def notParam : Cls → List P → Bool
  | .Expr, .ints l :: _ => l.all fun n => decide (n ≠ ExprType.kExprParameter)
  | .Expr, _ => false
  | _, _ => true

/-- Values of shape `p` contain no parameter. -/
def pf : Nat → P → Bool
  | 0, _ => false
  | n + 1, p => match p with
    | .ref t => inPf t
    | .vec e _ suf => pf n e && suf.all (pf n)
    | .obj c fs => notParam c fs && fs.all (pf n)
    | .tup fs => fs.all (pf n)
    | _ => true

def evalAtomA (a : Atom) (env : AEnv) : Option (P × AEnv) := match a with
  | .null => some (.null, env)
  | .int n => some (.ints [n], env)
  | .undef => some (.undef, env)
  | .unknownType => some (.tup [.ints [0], .ints [0], .ints [0], .ints [0]], env)
  | .strLen => some (.pos, env)
  | .totalCol => some (.pos, env)
  | .nParams => some (.idx, env)
  | .cp p => match getE env p with
    | some .num => some (.num, env)
    | some (.ints l) => some (.ints l, env)
    | some .raw => some (.raw, env)
    | _ => none
  | .mv p => match getE env p with
    | some q => match defd q, putE g env p .undef with
      | true, some env' => some (q, env')
      | _, _ => none
    | none => none
  | .dur p => match getE env p with
    | some (.strQ _) => some (.num, env)
    | _ => none
  | .unit p => match getE env p with
    | some (.strQ .unit) => some (.raw, env)
    | _ => none

def evalAtomsA : List Atom → AEnv → Option (List P × AEnv)
  | [], env => some ([], env)
  | a :: as, env => match evalAtomA g a env with
    | some (q, env') => match evalAtomsA as env' with
      | some (qs, env'') => some (q :: qs, env'')
      | none => none
    | none => none

def evalRvA (e : Rv) (env : AEnv) : Option (P × AEnv) := match e with
  | .atom a => evalAtomA g a env
  | .obj c fs => match evalAtomsA g fs env with
    | some (qs, env') => match notParam c qs && okNew g c with
      | true => some (.obj c qs, env')
      | false => none
    | none => none
  | .vec es => match evalAtomsA g es env with
    | some (qs, env') => some (.vec .never false qs, env')
    | none => none
  | .tup fs => match evalAtomsA g fs env with
    | some (qs, env') => some (.tup qs, env')
    | none => none

/-- The possible outcomes of a condition, with what is then known. -/
def evalCondA (c : Cond) (env : AEnv) : Option (List (Bool × AEnv)) := match c with
  | .null p => match getE env p with
    | some .null => some [(true, env)]
    | some .str => some [(false, env)]
    | some (.strQ _) => some [(false, env)]
    | some (.vec _ _ _) => some [(false, env)]
    | some (.obj _ _) => some [(false, env)]
    | _ => none
  | .eq p n => match getE env p with
    | some .num => some [(true, env), (false, env)]
    | some (.ints l) =>
      match l.all fun m => decide (m = n) with
      | true => some [(true, env)]
      | false => match l.any fun m => decide (m = n) with
        | false => some [(false, env)]
        | true => match putE g env p (.ints [n]), putE g env p (.ints (l.filter fun m => !decide (m = n))) with
          | some e1, some e2 => some [(true, e1), (false, e2)]
          | _, _ => none
    | _ => none
  | .strIs p _ => match getE env p with
    | some .str => some [(true, env), (false, env)]
    | some (.strQ _) => some [(true, env), (false, env)]
    | some .raw => some [(true, env), (false, env)]
    | _ => none
  | .has p _ => match getE env p with
    | some (.vec _ _ _) => some [(true, env), (false, env)]
    | _ => none
  | .err => some [(true, env), (false, env)]
  | .dateOk p => match getE env p with
    | some .str => some [(true, env), (false, env)]
    | _ => none
  | .durOk p => match getE env p with
    | some .str => match putE g env p (.strQ .dur) with
      | some e1 => some [(true, e1), (false, env)]
      | none => none
    | _ => none
  | .durUnitOk p => match getE env p with
    | some .str => match putE g env p (.strQ .unit) with
      | some e1 => some [(true, e1), (false, env)]
      | none => none
    | _ => none

end

/-- The program does not end regularly. -/
def neverRet : Prog → Bool
  | .ret => false
  | .fail => true
  | .finish => false
  | .set _ _ k => neverRet k
  | .push _ _ k => neverRet k
  | .insert _ _ k => neverRet k
  | .del _ k => neverRet k
  | .free _ k => neverRet k
  | .ite _ t e => neverRet t && neverRet e
  | .err _ k => neverRet k
  | .errName _ _ k => neverRet k
  | .zeroLen k => neverRet k
  | .regParam _ k => neverRet k
  | .split _ _ k => neverRet k

def insP (l : List Int) (el : P) (ne : Bool) : P := match el with
  | .never => .vec (.ints l) false []
  | el => .vec el ne []
def insOk (l : List Int) (el : P) : Bool := match el with
  | .never => true
  | el => sub 16 (.ints l) el

/-- No error is reported. -/
def noErr : Prog → Bool
  | .ret => true
  | .fail => true
  | .finish => true
  | .set _ _ k => noErr k
  | .push _ _ k => noErr k
  | .insert _ _ k => noErr k
  | .del _ k => noErr k
  | .free _ k => noErr k
  | .ite _ t e => noErr t && noErr e
  | .err _ _ => false
  | .errName _ _ _ => false
  | .zeroLen k => noErr k
  | .regParam _ k => noErr k
  | .split _ _ k => noErr k

/-- At most one error is reported. -/
def oneErr : Prog → Bool
  | .ret => true
  | .fail => true
  | .finish => true
  | .set _ _ k => oneErr k
  | .push _ _ k => oneErr k
  | .insert _ _ k => oneErr k
  | .del _ k => oneErr k
  | .free _ k => oneErr k
  | .ite _ t e => oneErr t && oneErr e
  | .err _ k => noErr k
  | .errName _ _ k => noErr k
  | .zeroLen k => oneErr k
  | .regParam _ k => oneErr k
  | .split _ _ k => oneErr k

/-- The program, run on values of the shapes `env`, has no undefined behaviour, and if it ends regularly, `$$` has shape
`ty`; unless `lk`, it then leaks nothing; unless `lf`, it leaks nothing if it fails. -/
def chk (ty : P) (lk lf g : Bool) : Prog → AEnv → Bool
  | .ret, env => match env with
    | [] => false
    | q :: rest => sub 16 q ty && rest.all (fun p => lk || noAddr p) && rest.all (pf 16)
  | .fail, env => env.all (fun p => lf || noAddr p)
  | .set p e k, env => (expAll (rvPaths e ++ [(false, p)]) env).all fun env => match evalRvA g e env with
    | some (q, env') => match getE env' p, putE g env' p q with
      | some old, some env'' => noAddr old && chk ty lk lf g k env''
      | _, _ => false
    | none => false
  | .push p e k, env => (expAll (atomPaths e ++ [(true, p)]) env).all fun env => match evalAtomA g e env with
    | some (q, env') => match getE env' p with
      | some (.vec el ne suf) => match putE g env' p (.vec el ne (suf ++ [q])) with
        | some env'' => chk ty lk lf g k env''
        | none => false
      | _ => false
    | none => false
  | .insert p e k, env => (expAll (atomPaths e ++ [(true, p)]) env).all fun env => match evalAtomA g e env with
    | some (.ints l, env') => match getE env' p with
      | some (.vec el ne []) => match putE g env' p (insP l el ne) with
        | some env'' => insOk l el && chk ty lk lf g k env''
        | none => false
      | _ => false
    | _ => false
  | .del p k, env => (expAll [(false, p)] env).all fun env => match getE env p, putE g env p .undef with
    | some old, some env' => trA false 16 .del old && (neverRet k || pf 16 old) && chk ty lk lf g k env'
    | _, _ => false
  | .free p k, env => (expAll [(true, p)] env).all fun env => match getE env p, putE g env p .undef with
    | some old, some env' => trA false 16 .str old && chk ty lk lf g k env'
    | _, _ => false
  | .ite c t e, env => (expAll (condPaths c) env).all fun env => match evalCondA g c env with
    | some l => l.all fun (b, env') => match b with
      | true => chk ty lk lf g t env'
      | false => chk ty lk lf g e env'
    | none => false
  | .err _ k, env => chk ty lk lf g k env
  | .errName _ p k, env => match getE env p with
    | some .str => chk ty lk lf g k env
    | _ => false
  | .zeroLen k, env => chk ty lk lf g k env
  | .regParam _ _, _ => false
  | .split p q k, env => match getE env q with
    | some (.vec (.ref .tableElem) _ []) => match putE g env q (.vec .never false []) with
      | some env1 => match getE env1 ⟨p.var, p.sels ++ [.fld 10]⟩, getE env1 ⟨p.var, p.sels ++ [.fld 11]⟩, putE g env1 ⟨p.var, p.sels ++ [.fld 10]⟩ (.vec columnDefP false []) with
        | some o1, some o2, some env2 => match getE env2 ⟨p.var, p.sels ++ [.fld 11]⟩, putE g env2 ⟨p.var, p.sels ++ [.fld 11]⟩ (.vec (.ref .tableConstraint) false []) with
          | some o3, some env3 => noAddr o1 && noAddr o2 && noAddr o3 && chk ty lk lf g k env3
          | _, _ => false
        | _, _, _ => false
      | none => false
    | _ => false
  | .finish, _ => false

open Verif.LR

/-- The rules whose action leaks on success: `operand [ int_literal ]` and CREATE INDEX. -/
def leaky (r : Nat) : Bool := r == 274 || r == 58

/-- The rule whose action leaks when it fails: an unknown file type. -/
def failLeaky (r : Nat) : Bool := r == 55

/-- The shapes `$$`, `$1`, ... have when the action starts. -/
def startEnv (r : Nat) : AEnv :=
  let qs := ((rules.getD r (0, [])).2).map symTy
  .undef :: qs ++ List.replicate (11 - qs.length) .undef

def chkRule (r : Nat) : Bool := match actions[r - 2]? with
  | some k => chk (symTy (rules.getD r (0, [])).1) (leaky r) (failLeaky r) (r == 66) k (startEnv r)
  | none => false

end Verif.Sem

import Verif.Sem.Value
/-!
# The language of the semantic actions, and its interpreter

The actions of bison_parser.y are modelled as data: programs over `$$`, `$1`, ..., `$8` and a few temporaries.
-/
namespace Verif.Sem

/-- A location: `first_line`, `first_column`, `last_line`, `last_column` (src/parser/parser_typedef.h:14-18). -/
structure Loc where
  fl : Int
  fc : Int
  ll : Int
  lc : Int
deriving DecidableEq, Repr

/-- `yylloc`: the location with `total_column` and `string_length` (src/parser/parser_typedef.h:20-23). `int`
overflow (texts of 2 GiB and more) is not modelled. -/
structure YYLoc where
  loc : Loc
  total : Int
  len : Int
deriving DecidableEq, Repr

/-- `SQLParserResult` (src/SQLParserResult.h): the statements, the flag, the message with its address, the error
position, and the parameters (addresses of expressions inside the statements). -/
structure Res where
  stmts : List V
  isValid : Bool
  errMsg : Option (Nat × Bytes)
  errLine : Int
  errCol : Int
  params : List Nat

/-- The address of the error message. -/
def Res.errAddr (r : Res) : List Nat := match r.errMsg with
  | some (a, _) => [a]
  | none => []

/-- Everything the semantic actions read and write: the number of tokens read, of allocations made, the
addresses freed, the addresses that became unreachable without being freed, `yyloc.param_list` (which survives
reductions, since `YYLLOC_DEFAULT`, bison_parser.cpp:1489-1507, does not touch it), `yylloc`, and `*result`. -/
structure St where
  ntok : Nat
  nalloc : Nat
  freed : List Nat
  leaked : List Nat
  plist : List Nat
  yylloc : YYLoc
  res : Res

/-- The allocator: the address of the string of the `k`-th token, and of the `k`-th allocation by an action. -/
structure Alloc where
  tok : Nat → Nat
  new : Nat → Nat

/-- An allocator never returns the same address twice. (It may also not return one that a caller already uses;
addresses that are freed are not reused, which only makes freeing twice easier to recognise.) -/
def heap : Alloc := ⟨fun k => 2 * k, fun k => 2 * k + 1⟩

/-- A variable (0 is `$$`, `i` is `$i`, from 9 on temporaries), followed by selectors. -/
structure Path where
  var : Nat
  sels : List Sel
deriving DecidableEq, Repr

/-- Atomic right-hand sides. -/
inductive Atom where
  /-- the pointer (or struct) at the path; its ownership moves, the path becomes indeterminate -/
  | mv (p : Path)
  /-- the number at the path -/
  | cp (p : Path)
  | null
  | int (n : Int)
  | undef
  /-- `ColumnType(DataType::UNKNOWN, 0)` (src/sql/Expr.cpp:58, src/sql/statements.cpp:10-11) -/
  | unknownType
  /-- `yylloc.string_length` -/
  | strLen
  /-- `yylloc.total_column` -/
  | totalCol
  /-- `yyloc.param_list.size()` -/
  | nParams
  /-- the integer `sscanf` reads from the string at the path -/
  | dur (p : Path)
  /-- the word `sscanf` reads from the string at the path -/
  | unit (p : Path)
deriving Repr

/-- Right-hand sides. -/
inductive Rv where
  | atom (a : Atom)
  /-- `new C(...)`, with the fields as the constructor leaves them -/
  | obj (c : Cls) (fs : List Atom)
  /-- `new std::vector`, after `push_back`s -/
  | vec (es : List Atom)
  /-- a struct held by value -/
  | tup (fs : List Atom)
deriving Repr

/-- Conditions. -/
inductive Cond where
  /-- `p == nullptr` -/
  | null (p : Path)
  /-- `p == n` -/
  | eq (p : Path) (n : Int)
  /-- `strcasecmp(p, s) == 0` -/
  | strIs (p : Path) (s : Bytes)
  /-- the set `p` contains `n` -/
  | has (p : Path) (n : Int)
  /-- `result->errorMsg()` -/
  | err
  /-- the formats of src/parser/bison_parser.y:1250-1303 match the whole string -/
  | dateOk (p : Path)
  | durOk (p : Path)
  | durUnitOk (p : Path)
deriving Repr

/-- Programs. -/
inductive Prog where
  /-- end of the action -/
  | ret
  /-- `YYERROR` -/
  | fail
  /-- `p = e` -/
  | set (p : Path) (e : Rv) (k : Prog)
  /-- `p->push_back(e)` -/
  | push (p : Path) (e : Atom) (k : Prog)
  /-- `p->insert(n)` for a set -/
  | insert (p : Path) (e : Atom) (k : Prog)
  /-- `delete p` -/
  | del (p : Path) (k : Prog)
  /-- `free(p)` -/
  | free (p : Path) (k : Prog)
  | ite (c : Cond) (t e : Prog)
  /-- `yyerror(&yyloc, ..., msg)` -/
  | err (msg : Bytes) (k : Prog)
  /-- `yyerror(&yyloc, ..., msg + std::string{p})` -/
  | errName (msg : Bytes) (p : Path) (k : Prog)
  /-- `yylloc.string_length = 0` -/
  | zeroLen (k : Prog)
  /-- `yyloc.param_list.push_back(p)` -/
  | regParam (p : Path) (k : Prog)
  /-- `p->setColumnDefsAndConstraints(q)` (src/sql/CreateStatement.cpp:139-150) -/
  | split (p q : Path) (k : Prog)
  /-- the body of `input` (src/parser/bison_parser.y:343-358) -/
  | finish
deriving Repr

/-! ## sscanf -/

/-- `isspace` in the C locale. -/
def isSpace (b : Nat) : Bool := b == 32 || (9 ≤ b && b ≤ 13)
def isDigit (b : Nat) : Bool := 48 ≤ b && b ≤ 57
def skipWs (s : Bytes) : Bytes := s.dropWhile isSpace
def decVal (ds : Bytes) : Nat := ds.foldl (fun n d => 10 * n + (d - 48)) 0

/-- The directive `%d` with maximal field width `w`, or without a limit: skip white space; an optional
sign; digits. The number and the rest; `none`: matching failure. -/
def scanD (w : Option Nat) (s : Bytes) : Option (Int × Bytes) :=
  let s := skipWs s
  let (neg, u, w) := match s with
    | 45 :: u => (true, u, w.map (· - 1))
    | 43 :: u => (false, u, w.map (· - 1))
    | _ => (false, s, w)
  let all := u.takeWhile isDigit
  let ds := match w with
    | some k => all.take k
    | none => all
  if ds.isEmpty then none
  else some (if neg then -(decVal ds : Int) else decVal ds, u.drop ds.length)

/-- Does the value fit an `int`? If not, the behaviour of `sscanf` is undefined (C11 7.21.6.2p10). -/
def fitsInt (n : Int) : Bool := decide (-2147483648 ≤ n) && decide (n ≤ 2147483647)

/-- `sscanf(s, "%4d-%2d-%2d%n", ...) == 3 && s[chars_parsed] == 0` (src/parser/bison_parser.y:1253). -/
def dateOk (s : Bytes) : Bool :=
  match scanD (some 4) s with
  | some (_, 45 :: s) => match scanD (some 2) s with
    | some (_, 45 :: s) => match scanD (some 2) s with
      | some (_, []) => true
      | _ => false
    | _ => false
  | _ => false

/-- `sscanf(s, "%d%n", ...) == 1 && s[chars_parsed] == 0` (src/parser/bison_parser.y:1265). -/
def durOk (s : Bytes) : Option Bool :=
  match scanD none s with
  | some (n, r) => if fitsInt n then some r.isEmpty else none
  | none => some false

/-- The word of `"%d %7s%n"` and the rest. -/
def scanUnit (s : Bytes) : Option (Bytes × Bytes) :=
  match scanD none s with
  | some (_, r) =>
    let r := skipWs r
    let w := (r.takeWhile (fun b => !isSpace b)).take 7
    if w.isEmpty then none else some (w, r.drop w.length)
  | none => none

/-- `sscanf(s, "%d %7s%n", ...) == 2 && s[chars_parsed] == 0` (src/parser/bison_parser.y:1278). -/
def durUnitOk (s : Bytes) : Option Bool :=
  match scanD none s with
  | some (n, _) => if fitsInt n then match scanUnit s with
      | some (_, r) => some r.isEmpty
      | none => some false
    else none
  | none => some false

/-- ASCII lower case. -/
def lowerB (b : Nat) : Nat := if 65 ≤ b ∧ b ≤ 90 then b + 32 else b
/-- `strcasecmp(s, t) == 0` in the C locale. -/
def eqNoCase (s t : Bytes) : Bool := s.map lowerB == t.map lowerB

/-! ## The interpreter -/

/-- The value at a path. -/
def getP (env : List V) (p : Path) : Option V :=
  match env[p.var]? with
  | some v => v.get p.sels
  | none => none

/-- Replace the value at a path. -/
def putP (env : List V) (p : Path) (x : V) : Option (List V) :=
  match env[p.var]? with
  | some v => match v.put p.sels x with
    | some v' => some (env.set p.var v')
    | none => none
  | none => none

/-- The bytes of the string at a path. -/
def strAt (env : List V) (p : Path) : Option Bytes :=
  match getP env p with
  | some (.str _ b) => some b
  | some (.raw b) => some b
  | _ => none

/-- Equal to the number `n`. -/
def V.isInt (n : Int) : V → Bool
  | .int m => decide (m = n)
  | _ => false
/-- The set contains `n`. -/
def hasInt (n : Int) (vs : List V) : Bool := vs.any (V.isInt n)

def V.isUndef : V → Bool
  | .undef => true
  | _ => false

/-- Evaluate an atomic right-hand side: value and new environment. `none` is undefined behaviour. -/
def evalAtom (a : Atom) (env : List V) (st : St) : Option (V × List V) :=
  match a with
  | .null => some (.null, env)
  | .int n => some (.int n, env)
  | .undef => some (.undef, env)
  | .unknownType => some (.tup [.int 0, .int 0, .int 0, .int 0], env)
  | .strLen => some (.pos st.yylloc.len, env)
  | .totalCol => some (.pos st.yylloc.total, env)
  | .nParams => some (.idx st.plist.length, env)
  | .cp p => match getP env p with
    | some (.int n) => some (.int n, env)
    | some (.raw b) => some (.raw b, env)
    | _ => none
  | .mv p => match getP env p with
    | some v => if v.isUndef then none else match putP env p .undef with
      | some env' => some (v, env')
      | none => none
    | none => none
  | .dur p => match strAt env p with
    | some b => match scanD none b with
      | some (n, _) => some (.int n, env)
      | none => none
    | none => none
  | .unit p => match strAt env p with
    | some b => match scanUnit b with
      | some (w, _) => some (.raw w, env)
      | none => none
    | none => none

def evalAtoms : List Atom → List V → St → Option (List V × List V)
  | [], env, _ => some ([], env)
  | a :: as, env, st => match evalAtom a env st with
    | some (v, env') => match evalAtoms as env' st with
      | some (vs, env'') => some (v :: vs, env'')
      | none => none
    | none => none

/-- One allocation. -/
def St.bump (st : St) : St := { st with nalloc := st.nalloc + 1 }

def evalRv (A : Alloc) (e : Rv) (env : List V) (st : St) : Option (V × List V × St) :=
  match e with
  | .atom a => match evalAtom a env st with
    | some (v, env') => some (v, env', st)
    | none => none
  | .obj c fs => match evalAtoms fs env st with
    | some (vs, env') => some (.obj (A.new st.nalloc) c vs, env', st.bump)
    | none => none
  | .vec es => match evalAtoms es env st with
    | some (vs, env') => some (.vec (A.new st.nalloc) vs, env', st.bump)
    | none => none
  | .tup fs => match evalAtoms fs env st with
    | some (vs, env') => some (.tup vs, env', st)
    | none => none

def evalCond (c : Cond) (env : List V) (st : St) : Option Bool :=
  match c with
  | .null p => match getP env p with
    | some .null => some true
    | some (.str _ _) => some false
    | some (.vec _ _) => some false
    | some (.obj _ _ _) => some false
    | _ => none
  | .eq p n => match getP env p with
    | some (.int m) => some (decide (m = n))
    | _ => none
  | .strIs p s => (strAt env p).map fun b => eqNoCase b s
  | .has p n => match getP env p with
    | some (.vec _ vs) => some (hasInt n vs)
    | _ => none
  | .err => some st.res.errMsg.isSome
  | .dateOk p => (strAt env p).map dateOk
  | .durOk p => match strAt env p with
    | some b => durOk b
    | none => none
  | .durUnitOk p => match strAt env p with
    | some b => durUnitOk b
    | none => none

/-- Append to the log of freed and of leaked addresses. -/
def St.log (st : St) (f l : List Nat) : St := { st with freed := st.freed ++ f, leaked := st.leaked ++ l }

/-- `yyerror` (src/parser/bison_parser.y:25-29): `setIsValid(false)`, `setErrorDetails(strdup(msg), line, column)`
(src/SQLParserResult.cpp:44-48); an earlier message is not freed. -/
def St.yyerror (A : Alloc) (st : St) (msg : Bytes) (line col : Int) : St :=
  { st with
    nalloc := st.nalloc + 1
    leaked := st.leaked ++ (match st.res.errMsg with | some (a, _) => [a] | none => [])
    res := { st.res with isValid := false, errMsg := some (A.new st.nalloc, msg), errLine := line, errCol := col } }

/-- `ColumnDefinition*` or `TableConstraint*`: the `dynamic_cast`s of src/sql/CreateStatement.cpp:144-149. -/
def isColumnDef : V → Bool
  | .obj _ .ColumnDefinition _ => true
  | _ => false
def isConstraint : V → Bool
  | .obj _ .TableConstraint _ => true
  | .obj _ .ForeignKeyConstraint _ => true
  | _ => false

mutual
/-- The `ival` field of the expression with address `a`, if it is part of the value. -/
def V.ivalAt (a : Nat) : V → Option V
  | .obj b c fs => if b = a ∧ c = .Expr then fs[10]? else ivalAtL a fs
  | .vec _ vs => ivalAtL a vs
  | .tup fs => ivalAtL a fs
  | _ => none
def ivalAtL (a : Nat) : List V → Option V
  | [] => none
  | v :: vs => match v.ivalAt a with
    | some x => some x
    | none => ivalAtL a vs
end

/-- A number (not a pointer). -/
def V.isNum : V → Bool
  | .int _ => true
  | .pos _ => true
  | _ => false

/-- The fields of an expression with `ival` set to `n`. -/
def newIval (n : Int) (fs : List V) : List V :=
  match fs[10]? with
  | some w => if w.isNum then fs.set 10 (.int n) else fs
  | none => fs

mutual
/-- Set the `ival` field of the expression with address `a`. -/
def V.setIval (a : Nat) (n : Int) : V → V
  | .obj b c fs => if b = a ∧ c = .Expr then .obj b c (newIval n fs) else .obj b c (setIvalL a n fs)
  | .vec b vs => .vec b (setIvalL a n vs)
  | .tup fs => .tup (setIvalL a n fs)
  | v => v
def setIvalL (a : Nat) (n : Int) : List V → List V
  | [] => []
  | v :: vs => v.setIval a n :: setIvalL a n vs
end

/-- Insert `(k, a)` behind all entries with a key not greater. -/
def insertKey (k : Int) (a : Nat) : List (Int × Nat) → List (Int × Nat)
  | [] => [(k, a)]
  | (k', b) :: l => if k < k' then (k, a) :: (k', b) :: l else (k', b) :: insertKey k a l

/-- The keys by which `addParameter` sorts. `none`: a parameter is not part of any statement of the result, so
that its pointer dangles. -/
def keysOf (stmts : List V) : List Nat → Option (List (Int × Nat))
  | [] => some []
  | a :: as => match ivalAtL a stmts, keysOf stmts as with
    | some (.int n), some l => some ((n, a) :: l)
    | _, _ => none

/-- `addParameter` (src/SQLParserResult.cpp:75-78): append, then `std::sort` by `ival`.  For equal keys `std::sort`
leaves the order open; here it is taken to be stable. -/
def Res.addParameter (r : Res) (a : Nat) : Option Res :=
  match keysOf r.stmts (r.params ++ [a]) with
  | some ks => some { r with params := (ks.foldl (fun acc (k, b) => insertKey k b acc) []).map Prod.snd }
  | none => none

/-- The loop over `yyloc.param_list` (src/parser/bison_parser.y:349-357). -/
def addParams : List Nat → Nat → Res → Option Res
  | [], _, r => some r
  | a :: as, id, r =>
    match ivalAtL a r.stmts with
    | none => none
    | some w =>
      if w.isNum then
        match Res.addParameter { r with stmts := setIvalL a id r.stmts } a with
        | some r' => addParams as (id + 1) r'
        | none => none
      else none

/-- What an action does: produce the value of `$$`, execute `YYERROR`, or undefined behaviour. -/
inductive Out where
  | ok (v : V) (st : St)
  | error (st : St)
  | ub

/-- The address of an object. -/
def V.addr? : V → Option Nat
  | .obj a _ _ => some a
  | _ => none

/-- Run a program. `loc` is `@$` (`yyloc`). What is still owned by a variable when the action ends becomes
unreachable: bison does not destroy the values of a right-hand side (bison_parser.cpp:5646, 5742). -/
def run (A : Alloc) (loc : Loc) : Prog → List V → St → Out
  | .ret, env, st => match env with
    | [] => .ub
    | v :: rest => .ok v (st.log [] (addrsL rest))
  | .fail, env, st => .error (st.log [] (addrsL env))
  | .set p e k, env, st => match evalRv A e env st with
    | some (v, env', st') => match getP env' p with
      | some old => match putP env' p v with
        | some env'' => run A loc k env'' (st'.log [] old.addrs)
        | none => .ub
      | none => .ub
    | none => .ub
  | .push p e k, env, st => match evalAtom e env st with
    | some (v, env') => match getP env' p with
      | some (.vec a vs) => match putP env' p (.vec a (vs ++ [v])) with
        | some env'' => run A loc k env'' st
        | none => .ub
      | _ => .ub
    | none => .ub
  | .insert p e k, env, st => match evalAtom e env st with
    | some (.int n, env') => match getP env' p with
      | some (.vec a vs) =>
        match putP env' p (.vec a (if hasInt n vs then vs else vs ++ [.int n])) with
        | some env'' => run A loc k env'' st
        | none => .ub
      | _ => .ub
    | _ => .ub
  | .del p k, env, st => match getP env p with
    | some v => match treat .del v with
      | some (f, l) => match putP env p .undef with
        | some env' => run A loc k env' (st.log f l)
        | none => .ub
      | none => .ub
    | none => .ub
  | .free p k, env, st => match getP env p with
    | some v => match treat .str v with
      | some (f, l) => match putP env p .undef with
        | some env' => run A loc k env' (st.log f l)
        | none => .ub
      | none => .ub
    | none => .ub
  | .ite c t e, env, st => match evalCond c env st with
    | some true => run A loc t env st
    | some false => run A loc e env st
    | none => .ub
  | .err msg k, env, st => run A loc k env (st.yyerror A msg loc.fl loc.fc)
  | .errName msg p k, env, st => match strAt env p with
    | some b => run A loc k env (st.yyerror A (msg ++ b) loc.fl loc.fc)
    | none => .ub
  | .zeroLen k, env, st => run A loc k env { st with yylloc := { st.yylloc with len := 0 } }
  | .regParam p k, env, st => match getP env p with
    | some v => match v.addr? with
      | some a => run A loc k env { st with plist := st.plist ++ [a] }
      | none => .ub
    | none => .ub
  | .split p q k, env, st => match getP env q with
    | some (.vec b vs) => match putP env q (.vec b []) with
      | some env1 =>
        let cols := V.vec (A.new st.nalloc) (vs.filter isColumnDef)
        let cons := V.vec (A.new (st.nalloc + 1)) (vs.filter isConstraint)
        match getP env1 ⟨p.var, p.sels ++ [.fld 10]⟩, getP env1 ⟨p.var, p.sels ++ [.fld 11]⟩ with
        | some o1, some o2 => match putP env1 ⟨p.var, p.sels ++ [.fld 10]⟩ cols with
          | some env2 => match putP env2 ⟨p.var, p.sels ++ [.fld 11]⟩ cons with
            | some env3 => run A loc k env3 (st.bump.bump.log [] (o1.addrs ++ o2.addrs ++ addrsL (vs.filter fun v => !isColumnDef v && !isConstraint v)))
            | none => .ub
          | none => .ub
        | _, _ => .ub
      | none => .ub
    | _ => .ub
  | .finish, env, st => match getP env ⟨1, []⟩ with
    | some (.vec b vs) => match putP env ⟨1, []⟩ .undef with
      | some env' => match addParams st.plist 0 { st.res with stmts := st.res.stmts ++ vs } with
        | some r => .ok .undef { st with res := r, freed := st.freed ++ [b], leaked := st.leaked ++ addrsL env' }
        | none => .ub
      | none => .ub
    | _ => .ub

/-- The environment of an action: `$$`, the values of the right-hand side, the temporaries. -/
def mkEnv (vs : List V) : List V := .undef :: vs ++ List.replicate (11 - vs.length) .undef

end Verif.Sem

import Verif.Sem.Makers
/-!
# A client that builds its own trees

The headers of src/sql are public: a client can call the static functions of `Expr` (src/sql/Expr.h:151-215) and the
constructors of the other classes, assign public members, and `delete` what it built.  A client is a sequence of
operations on its own variables.  The bodies of the library functions are the programs of `Sem/Makers`,
`Sem/Layout`, the destructors those of `Sem/Value`.
-/
namespace Verif.Build
open Verif.Sem

/-- How the owner of a single thing disposes of it: `free(s)` for a C string; `delete p`; a `LockingClause` has no
destructor, so that its strings and their vector come first (as in src/sql/statements.cpp:338-347), nor has an
`UpdateClause` (src/sql/statements.cpp:357-361). -/
inductive Elt where
  | str | obj | lock | update
deriving DecidableEq, Repr

def Elt.how : Elt → How
  | .str => .str
  | .obj => .del
  | .lock => .fields [.keep, .keep, .strs]
  | .update => .fields [.str, .del]

/-- How the owner disposes of one thing, or of a vector of them: a loop over the elements, then `delete`. -/
inductive Disp where
  | one (e : Elt)
  | all (e : Elt)
deriving DecidableEq, Repr

def Disp.how : Disp → How
  | .one e => e.how
  | .all e => .vec e.how

/-- A pointer passed to a function: `nullptr` or what a variable points to. -/
inductive Ptr where
  | nil
  | var (x : Nat)
deriving DecidableEq, Repr

/-- An argument that is not a pointer. -/
inductive Val where
  | num (n : Int)
  /-- a `double`, given by its text -/
  | float (b : Bytes)
  /-- a `ColumnType` -/
  | type (data length precision scale : Int)
deriving DecidableEq, Repr

def Val.v : Val → V
  | .num n => .int n
  | .float b => .raw b
  | .type a b c d => .tup [.int a, .int b, .int c, .int d]

/-- An argument: a pointer that is taken over; one that must point to an expression; one that must not be null; a value. -/
inductive Arg where
  | ptr (p : Ptr) (d : Disp)
  | expr (x : Nat)
  | list (x : Nat) (e : Elt)
  | val (v : Val)
deriving DecidableEq, Repr

/-- The library functions that allocate. -/
inductive Make where
  /- src/sql/Expr.cpp:83-296 -/
  | make (t : Int)
  | opUnary (op : Int) (e : Ptr)
  | opBinary (a : Ptr) (op : Int) (b : Ptr)
  | between (e l r : Ptr)
  | caseList (el : Ptr)
  | caseListElement (w t : Ptr)
  | case (e : Ptr) (list : Nat) (els : Ptr)
  | literalInt (n : Int)
  | literalFloat (b : Bytes)
  | literalString (s : Ptr)
  | literalBool (b : Bool)
  | nullLiteral
  | dateLiteral (s : Ptr)
  | intervalLiteral (n unit : Int)
  | columnRef (name : Ptr)
  | columnRefTable (table name : Ptr)
  | star
  | starTable (table : Ptr)
  | functionRef (name es : Ptr) (distinct : Bool) (window : Ptr)
  | functionRefSchema (name schema es : Ptr) (distinct : Bool) (window : Ptr)
  | array (es : Ptr)
  | arrayIndex (e : Ptr) (i : Int)
  | parameter (id : Int)
  | select (s : Ptr)
  | exists_ (s : Ptr)
  | inList (e es : Ptr)
  | inSelect (e s : Ptr)
  | extract (field : Int) (e : Ptr)
  | cast (e : Ptr) (data length precision scale : Int)
  /- constructors -/
  | frameBound (offset type : Int) (unbounded : Bool)
  | frame (type : Int) (start end_ : Ptr)
  | window (partitions orders frame : Ptr)
  | order (type : Int) (e : Ptr) (nulls : Int)
  | limit (limit offset : Ptr)
  | groupBy
  | withDescription
  | setOperation
  | locking
  | selectStatement
  | alias (name columns : Ptr)
  | tableRef (type : Int)
  | join
  | tableConstraint (type : Int) (columns : Nat)
  | references (schema table columns : Ptr)
  | foreignKey (columns : Nat) (references : Ptr)
  | columnDefinition (name : Ptr) (data length precision scale : Int) (constraints references : Ptr)
  | createStatement (type : Int)
  | csvOptions
  | importExportOptions
  | importStatement (type : Int)
  | exportStatement (type : Int)
  | insertStatement (type : Int)
  | deleteStatement
  | updateClause
  | updateStatement
  | dropStatement (type : Int)
  | dropColumn (name : Ptr)
  | alterStatement (name action : Ptr)
  | executeStatement
  | prepareStatement
  | showStatement (type : Int)
  | transactionStatement (command : Int)
deriving DecidableEq, Repr

private abbrev S (p : Ptr) : Arg := .ptr p (.one .str)
private abbrev O (p : Ptr) : Arg := .ptr p (.one .obj)
private abbrev L (p : Ptr) : Arg := .ptr p (.all .obj)
private abbrev SL (p : Ptr) : Arg := .ptr p (.all .str)
private abbrev N (n : Int) : Arg := .val (.num n)
/-- A `bool`. -/
def bit (b : Bool) : Int := if b then 1 else 0

/-- The arguments, in the order of the declarations (src/sql/Expr.h:151-215 and the constructors). -/
def Make.args : Make → List Arg
  | .make t => [N t]
  | .opUnary op e => [N op, O e]
  | .opBinary a op b => [O a, N op, O b]
  | .between e l r => [O e, O l, O r]
  | .caseList el => [O el]
  | .caseListElement w t => [O w, O t]
  | .case e l els => [O e, .expr l, O els]
  | .literalInt n => [N n]
  | .literalFloat b => [.val (.float b)]
  | .literalString s => [S s]
  | .literalBool b => [N (bit b)]
  | .nullLiteral => []
  | .dateLiteral s => [S s]
  | .intervalLiteral n u => [N n, N u]
  | .columnRef n => [S n]
  | .columnRefTable t n => [S t, S n]
  | .star => []
  | .starTable t => [S t]
  | .functionRef n es d w => [S n, L es, N (bit d), O w]
  | .functionRefSchema n s es d w => [S n, S s, L es, N (bit d), O w]
  | .array es => [L es]
  | .arrayIndex e i => [O e, N i]
  | .parameter id => [N id]
  | .select s => [O s]
  | .exists_ s => [O s]
  | .inList e es => [O e, L es]
  | .inSelect e s => [O e, O s]
  | .extract f e => [N f, O e]
  | .cast e a b c d => [O e, .val (.type a b c d)]
  | .frameBound o t u => [N o, N t, N (bit u)]
  | .frame t s e => [N t, O s, O e]
  | .window p o f => [L p, L o, O f]
  | .order t e n => [N t, O e, N n]
  | .limit l o => [O l, O o]
  | .groupBy | .withDescription | .setOperation | .locking | .selectStatement | .join | .csvOptions | .importExportOptions
  | .deleteStatement | .updateClause | .updateStatement | .executeStatement | .prepareStatement => []
  | .alias n cs => [S n, SL cs]
  | .tableRef t => [N t]
  | .tableConstraint t cs => [N t, .list cs .str]
  | .references s t cs => [S s, S t, SL cs]
  | .foreignKey cs r => [.list cs .str, O r]
  | .columnDefinition n a b c d k r => [S n, .val (.type a b c d), O k, L r]
  | .createStatement t | .importStatement t | .exportStatement t | .insertStatement t | .dropStatement t | .showStatement t
  | .transactionStatement t => [N t]
  | .dropColumn n => [S n]
  | .alterStatement n a => [S n, O a]

private abbrev A (i : Nat) : Atom := .mv ⟨i, []⟩
private abbrev new (rv : Rv) : Prog := .set ⟨0, []⟩ rv .ret

/-- The body of the function; the arguments are the variables 1, 2, .... -/
def Make.prog : Make → Prog
  | .make _ => Sem.make 0 (A 1) .ret
  | .opUnary .. => makeOpUnary 0 (A 1) (A 2) .ret
  | .opBinary .. => makeOpBinary 0 (A 1) (A 2) (A 3) .ret
  | .between .. => makeBetween 0 (A 1) (A 2) (A 3) .ret
  | .caseList _ => makeCaseList 0 (A 1) .ret
  | .caseListElement .. => makeCaseListElement 0 (A 1) (A 2) .ret
  | .case .. => makeCase 0 (A 1) 2 (A 3) .ret
  | .literalInt _ => makeLiteralInt 0 (A 1) .ret
  | .literalFloat _ => makeLiteralFloat 0 (A 1) .ret
  | .literalString _ => makeLiteralString 0 (A 1) .ret
  | .literalBool _ => makeLiteralBool 0 (A 1) .ret
  | .nullLiteral => makeNullLiteral 0 .ret
  | .dateLiteral _ => makeDateLiteral 0 (A 1) .ret
  | .intervalLiteral .. => makeIntervalLiteral 0 (A 1) (A 2) .ret
  | .columnRef _ => makeColumnRef 0 (A 1) .ret
  | .columnRefTable .. => makeColumnRefTable 0 (A 1) (A 2) .ret
  | .star => makeStar 0 .ret
  | .starTable _ => makeStarTable 0 (A 1) .ret
  | .functionRef .. => makeFunctionRef 0 (A 1) (A 2) (A 3) (A 4) .ret
  | .functionRefSchema .. => makeFunctionRefSchema 0 (A 1) (A 2) (A 3) (A 4) (A 5) .ret
  | .array _ => makeArray 0 (A 1) .ret
  | .arrayIndex .. => makeArrayIndex 0 (A 1) (A 2) .ret
  | .parameter _ => makeParameter 0 (A 1) .ret
  | .select _ => makeSelect 0 (A 1) .ret
  | .exists_ _ => makeExists 0 (A 1) .ret
  | .inList .. => makeInOperatorList 0 (A 1) (A 2) .ret
  | .inSelect .. => makeInOperatorSelect 0 (A 1) (A 2) .ret
  | .extract .. => makeExtract 0 (A 1) (A 2) .ret
  | .cast .. => makeCast 0 (A 1) (A 2) .ret
  | .frameBound .. => new (newFrameBound (A 1) (A 2) (A 3))
  | .frame .. => new (newFrameDescription (A 1) (A 2) (A 3))
  | .window .. => new (newWindowDescription (A 1) (A 2) (A 3))
  | .order .. => new (newOrderDescription (A 1) (A 2) (A 3))
  | .limit .. => new (newLimitDescription (A 1) (A 2))
  | .groupBy => new newGroupByDescription
  | .withDescription => new newWithDescription
  | .setOperation => new newSetOperation
  | .locking => new newLockingClause
  | .selectStatement => new newSelectStatement
  | .alias .. => new (newAlias (A 1) (A 2))
  | .tableRef _ => new (newTableRef (A 1))
  | .join => new newJoinDefinition
  | .tableConstraint .. => new (newTableConstraint (A 1) (A 2))
  | .references .. => new (newReferencesSpecification (A 1) (A 2) (A 3))
  | .foreignKey .. => new (newForeignKeyConstraint (A 1) (A 2))
  | .columnDefinition .. => new (newColumnDefinition (A 1) (A 2) (A 3) (A 4))
  | .createStatement _ => new (newCreateStatement (A 1))
  | .csvOptions => new newCsvOptions
  | .importExportOptions => new newImportExportOptions
  | .importStatement _ => new (newImportStatement (A 1))
  | .exportStatement _ => new (newExportStatement (A 1))
  | .insertStatement _ => new (newInsertStatement (A 1))
  | .deleteStatement => new newDeleteStatement
  | .updateClause => new newUpdateClause
  | .updateStatement => new newUpdateStatement
  | .dropStatement _ => new (newDropStatement (A 1))
  | .dropColumn _ => new (newDropColumnAction (A 1))
  | .alterStatement .. => new (newAlterStatement (A 1) (A 2))
  | .executeStatement => new newExecuteStatement
  | .prepareStatement => new newPrepareStatement
  | .showStatement _ => new (newShowStatement (A 1))
  | .transactionStatement _ => new (newTransactionStatement (A 1))

/-! ## The client -/

/-- The client: what its variables point to (`undef`: nothing it may use), the number of allocations so far, and
the blocks freed and lost so far. -/
structure Client where
  vars : List V
  next : Nat
  freed : List Nat
  lost : List Nat

/-- One operation of the client. -/
inductive Op where
  /-- `x = strdup("...")` -/
  | strdup (x : Nat) (b : Bytes)
  /-- `x = new std::vector<...>()` -/
  | newVec (x : Nat) (e : Elt)
  /-- `x = new std::unordered_set<ConstraintType>()` (src/sql/CreateStatement.h:66) -/
  | newSet (x : Nat)
  /-- `x->insert(n)` -/
  | insert (x : Nat) (n : Int)
  /-- `x = f(...)`, `x = new C(...)` -/
  | call (x : Nat) (m : Make)
  /-- `x->f = y`, for a pointer -/
  | setPtr (x : Nat) (f : Nat) (y : Nat)
  /-- `x->f = n`, for a number or enumerator -/
  | setNum (x : Nat) (f : Nat) (n : Int)
  /-- `x->push_back(y)` -/
  | push (x : Nat) (y : Ptr)
  /-- `x->f->push_back(y)`; with `f = exprList`: `Expr::caseListAppend(x, y)` (src/sql/Expr.cpp:132-135) -/
  | pushIn (x : Nat) (f : Nat) (y : Ptr)
  /-- dispose of `x` -/
  | dispose (x : Nat) (d : Disp)
deriving DecidableEq, Repr

/-- The client reads a variable to give the pointer away. -/
def takeVar (x : Nat) (vars : List V) : Option (V × List V) :=
  match vars[x]? with
  | some v => if v.isUndef then none else some (v, vars.set x .undef)
  | none => none

def Ptr.take : Ptr → List V → Option (V × List V)
  | .nil, vars => some (.null, vars)
  | .var x, vars => takeVar x vars

def Arg.take : Arg → List V → Option (V × List V)
  | .ptr p _, vars => p.take vars
  | .expr x, vars => takeVar x vars
  | .list x _, vars => takeVar x vars
  | .val v, vars => some (v.v, vars)

def takeAll : List Arg → List V → Option (List V × List V)
  | [], vars => some ([], vars)
  | a :: as, vars => match a.take vars with
    | some (v, vars) => match takeAll as vars with
      | some (vs, vars) => some (v :: vs, vars)
      | none => none
    | none => none

/-- The client's memory as the state the interpreter of the library's functions works on. -/
def Client.st (c : Client) : St :=
  { ntok := 0, nalloc := c.next, freed := c.freed, leaked := c.lost, plist := []
    yylloc := ⟨⟨0, 0, 0, 0⟩, 0, 0⟩, res := ⟨[], true, none, 0, 0, []⟩ }

/-- Assign to a variable: what it pointed to is lost, unless it was given away. -/
def assign (x : Nat) (v : V) (c : Client) : Option Client :=
  match c.vars[x]? with
  | some old => some { c with vars := c.vars.set x v, lost := c.lost ++ old.addrs }
  | none => none

/-- Execute one operation; `none` is undefined behaviour. -/
def exec : Op → Client → Option Client
  | .strdup x b, c => assign x (.str (heap.new c.next) b) { c with next := c.next + 1 }
  | .newVec x _, c => assign x (.vec (heap.new c.next) []) { c with next := c.next + 1 }
  | .newSet x, c => assign x (.vec (heap.new c.next) []) { c with next := c.next + 1 }
  | .insert x n, c => match c.vars[x]? with
    | some (.vec a vs) => some { c with vars := c.vars.set x (.vec a (if hasInt n vs then vs else vs ++ [.int n])) }
    | _ => none
  | .call x m, c => match takeAll m.args c.vars with
    | some (vs, vars) => match run heap ⟨0, 0, 0, 0⟩ m.prog (mkEnv vs) c.st with
      | .ok v st => assign x v ⟨vars, st.nalloc, st.freed, st.leaked⟩
      | _ => none
    | none => none
  | .setPtr x f y, c => match takeVar y c.vars with
    | some (v, vars) => match getP vars ⟨x, [.fld f]⟩ with
      | some old => match putP vars ⟨x, [.fld f]⟩ v with
        | some vars => some { c with vars := vars, lost := c.lost ++ old.addrs }
        | none => none
      | none => none
    | none => none
  | .setNum x f n, c => match getP c.vars ⟨x, [.fld f]⟩ with
    | some old => match putP c.vars ⟨x, [.fld f]⟩ (.int n) with
      | some vars => some { c with vars := vars, lost := c.lost ++ old.addrs }
      | none => none
    | none => none
  | .push x y, c => match y.take c.vars with
    | some (v, vars) => match vars[x]? with
      | some (.vec a vs) => some { c with vars := vars.set x (.vec a (vs ++ [v])) }
      | _ => none
    | none => none
  | .pushIn x f y, c => match y.take c.vars with
    | some (v, vars) => match getP vars ⟨x, [.fld f]⟩ with
      | some (.vec a vs) => match putP vars ⟨x, [.fld f]⟩ (.vec a (vs ++ [v])) with
        | some vars => some { c with vars := vars }
        | none => none
      | _ => none
    | none => none
  | .dispose x d, c => match takeVar x c.vars with
    | some (v, vars) => match treat d.how v with
      | some (f, l) => some { c with vars := vars, freed := c.freed ++ f, lost := c.lost ++ l }
      | none => none
    | none => none

def execAll : List Op → Client → Option Client
  | [], c => some c
  | o :: os, c => match exec o c with
    | some c => execAll os c
    | none => none

/-- A client with `n` variables that has done nothing yet. -/
def Client.fresh (n : Nat) : Client := ⟨List.replicate n .undef, 0, [], []⟩

end Verif.Build

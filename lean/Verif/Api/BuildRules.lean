import Verif.Api.Build
/-!
# The rules a client has to follow (specification)

What a variable owns is a fact the client can see in its own text: `check` follows an operation on these facts.  A
pointer is used only while the variable owns it, it is given away at most once, and only to something that disposes
of it in the way it has to be disposed of; a variable or a pointer member is assigned only while it owns nothing.
(The C++ compiler checks the static types on top of that; nothing here relies on it.)
-/
namespace Verif.Build
open Verif.Sem

/-- What a variable owns. -/
inductive Kind where
  | str
  | vec (e : Elt)
  | set
  /-- an object, with members known to be null and members known to be vectors -/
  | obj (c : Cls) (nulls : List Nat) (lists : List (Nat × Elt))
deriving DecidableEq, Repr

/-- Classes without a destructor that own something. -/
def eltOf : Cls → Elt
  | .LockingClause => .lock
  | .UpdateClause => .update
  | _ => .obj

/-- How the thing has to be disposed of. -/
def Kind.disp : Kind → Disp
  | .str => .one .str
  | .vec e => .all e
  | .set => .one .obj
  | .obj c _ _ => .one (eltOf c)

/-- What disposing of an object does to its members. -/
def hows (c : Cls) : List How :=
  match eltOf c with
  | .lock => [.keep, .keep, .strs]
  | .update => [.str, .del]
  | _ => dtor c

/-- How the class disposes of a member, if it owns it. -/
def memberDisp (c : Cls) (f : Nat) : Option Disp :=
  match (hows c)[f]? with
  | some .str => some (.one .str)
  | some .del => some (.one .obj)
  | some (.vec .str) => some (.all .str)
  | some (.vec .del) => some (.all .obj)
  | some (.vec (.fields [.keep, .keep, .vec .str])) => some (.all .lock)
  | some (.vec (.fields [.str, .del])) => some (.all .update)
  | _ => none

/-- The member is a number, an enumerator, a `double` or a struct. -/
def isScalar (c : Cls) (f : Nat) : Bool :=
  match (hows c)[f]? with
  | some .keep => true
  | _ => false

/-- A new expression: the pointer members that the function does not set are null. -/
def exprKind (sets : List Nat) (lists : List (Nat × Elt) := []) : Kind :=
  .obj .Expr ([1, 2, 3, 4, 5, 6, 7, 8, 17].filter fun f => !sets.contains f) lists

/-- What a library function returns. -/
def Make.kind : Make → Kind
  | .make _ => exprKind []
  | .opUnary .. => exprKind [1]
  | .opBinary .. => exprKind [1, 2]
  | .between .. => exprKind [1, 3] [(3, .obj)]
  | .caseList _ => exprKind [3] [(3, .obj)]
  | .caseListElement .. => exprKind [1, 2]
  | .case .. => exprKind [1, 2, 3]
  | .literalInt _ | .literalFloat _ | .literalBool _ | .nullLiteral | .intervalLiteral .. | .star | .parameter _ => exprKind []
  | .literalString _ | .dateLiteral _ | .columnRef _ => exprKind [5]
  | .columnRefTable .. => exprKind [5, 6]
  | .starTable _ => exprKind [6]
  | .functionRef .. => exprKind [3, 5, 17]
  | .functionRefSchema .. => exprKind [3, 5, 7, 17]
  | .array _ => exprKind [3]
  | .arrayIndex .. => exprKind [1]
  | .select _ | .exists_ _ => exprKind [4]
  | .inList .. => exprKind [1, 3]
  | .inSelect .. => exprKind [1, 4]
  | .extract .. | .cast .. => exprKind [1]
  | .frameBound .. => .obj .FrameBound [] []
  | .frame .. => .obj .FrameDescription [] []
  | .window .. => .obj .WindowDescription [] []
  | .order .. => .obj .OrderDescription [] []
  | .limit .. => .obj .LimitDescription [] []
  | .groupBy => .obj .GroupByDescription [0, 1] []
  | .withDescription => .obj .WithDescription [0, 1] []
  | .setOperation => .obj .SetOperation [2, 3, 4] []
  | .locking => .obj .LockingClause [2] []
  | .selectStatement => .obj .SelectStatement [1, 3, 5, 6, 7, 8, 9, 10, 11, 12] []
  | .alias .. => .obj .Alias [] []
  | .tableRef _ => .obj .TableRef [1, 2, 3, 4, 5, 6] []
  | .join => .obj .JoinDefinition [0, 1, 2, 3] []
  | .tableConstraint .. => .obj .TableConstraint [] []
  | .references .. => .obj .ReferencesSpecification [] []
  | .foreignKey .. => .obj .ForeignKeyConstraint [] []
  | .columnDefinition .. => .obj .ColumnDefinition [] []
  | .createStatement _ => .obj .CreateStatement [1, 5, 6, 7, 8, 9, 10, 11, 12, 13] []
  | .csvOptions => .obj .CsvOptions [0, 1, 2] []
  | .importExportOptions => .obj .ImportExportOptions [1, 2] []
  | .importStatement _ => .obj .ImportStatement [1, 4, 5, 6, 7, 8, 9] []
  | .exportStatement _ => .obj .ExportStatement [1, 4, 5, 6, 7, 8, 9] []
  | .insertStatement _ => .obj .InsertStatement [1, 4, 5, 6, 7, 8] []
  | .deleteStatement => .obj .DeleteStatement [1, 3, 4, 5] []
  | .updateClause => .obj .UpdateClause [0, 1] []
  | .updateStatement => .obj .UpdateStatement [1, 3, 4, 5] []
  | .dropStatement _ => .obj .DropStatement [1, 5, 6, 7] []
  | .dropColumn _ => .obj .DropColumnAction [] []
  | .alterStatement .. => .obj .AlterStatement [1, 3] []
  | .executeStatement => .obj .ExecuteStatement [1, 3, 4] []
  | .prepareStatement => .obj .PrepareStatement [1, 3, 4] []
  | .showStatement _ => .obj .ShowStatement [1, 4, 5] []
  | .transactionStatement _ => .obj .TransactionStatement [1] []

/-- What the variables own. -/
abbrev Ctx := List (Option Kind)

/-- Give away what `x` owns, provided it is of the right kind. -/
def Ctx.take (Γ : Ctx) (x : Nat) (ok : Kind → Bool) : Option Ctx :=
  match Γ[x]? with
  | some (some k) => if ok k then some (Γ.set x none) else none
  | _ => none

/-- `x` becomes the owner; it must own nothing. -/
def Ctx.give (Γ : Ctx) (x : Nat) (k : Kind) : Option Ctx :=
  match Γ[x]? with
  | some none => some (Γ.set x (some k))
  | _ => none

/-- A null pointer is fine wherever `delete` or `free` is what disposes of it; the members of a clause without a
destructor are looked at. -/
def Ptr.check (d : Disp) : Ptr → Ctx → Option Ctx
  | .nil, Γ => if d ≠ .one .lock ∧ d ≠ .one .update then some Γ else none
  | .var x, Γ => Γ.take x fun k => k.disp = d

def Kind.isExpr : Kind → Bool
  | .obj .Expr _ _ => true
  | _ => false

def Arg.check : Arg → Ctx → Option Ctx
  | .ptr p d, Γ => p.check d Γ
  | .expr x, Γ => Γ.take x Kind.isExpr
  | .list x e, Γ => Γ.take x fun k => k = .vec e
  | .val _, Γ => some Γ

def checkArgs : List Arg → Ctx → Option Ctx
  | [], Γ => some Γ
  | a :: as, Γ => match a.check Γ with
    | some Γ => checkArgs as Γ
    | none => none

/-- A member that was given a vector is known to be one. -/
def Kind.asList (f : Nat) : Kind → List (Nat × Elt)
  | .vec e => [(f, e)]
  | _ => []

/-- Follow an operation; `none`: the client breaks the rules. -/
def check : Op → Ctx → Option Ctx
  | .strdup x _, Γ => Γ.give x .str
  | .newVec x e, Γ => Γ.give x (.vec e)
  | .newSet x, Γ => Γ.give x .set
  | .insert x _, Γ => if Γ[x]? = some (some .set) then some Γ else none
  | .call x m, Γ => match checkArgs m.args Γ with
    | some Γ => Γ.give x m.kind
    | none => none
  | .setPtr x f y, Γ => match Γ[y]? with
    | some (some k) => match (Γ.set y none)[x]? with
      | some (some (.obj c nulls lists)) =>
        if nulls.contains f ∧ memberDisp c f = some k.disp then
          some ((Γ.set y none).set x (some (.obj c (nulls.filter (· != f)) (k.asList f ++ lists))))
        else none
      | _ => none
    | _ => none
  | .setNum x f _, Γ => match Γ[x]? with
    | some (some (.obj c _ _)) => if isScalar c f then some Γ else none
    | _ => none
  | .push x y, Γ => match Γ[x]? with
    | some (some (.vec e)) => y.check (.one e) Γ
    | _ => none
  | .pushIn x f y, Γ => match Γ[x]? with
    | some (some (.obj _ _ lists)) => match lists.lookup f with
      | some e => if y = .var x then none else y.check (.one e) Γ
      | none => none
    | _ => none
  | .dispose x d, Γ => Γ.take x fun k => k.disp = d

def checkAll : List Op → Ctx → Option Ctx
  | [], Γ => some Γ
  | o :: os, Γ => match check o Γ with
    | some Γ => checkAll os Γ
    | none => none

/-- A client with `n` variables that owns nothing. -/
def Ctx.fresh (n : Nat) : Ctx := List.replicate n none

/-- A sequence of operations that follows the rules, at the end of which the variables own what `Γ` says. -/
def Follows (n : Nat) (os : List Op) (Γ : Ctx) : Prop := checkAll os (Ctx.fresh n) = some Γ

end Verif.Build

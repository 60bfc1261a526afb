import Verif.Sem.Parse
/-!
# `SQLParserResult` (src/SQLParserResult.h, src/SQLParserResult.cpp)

A result owns its statements and its message; `parameters_` are pointers into the statements.  The model of a
result is `Verif.Sem.Res`.
-/
namespace Verif.Api
open Verif.Sem

/-- The constructor (src/SQLParserResult.cpp:7). `errorLine_` and `errorColumn_` are not initialised: `l` and `c` are arbitrary. -/
def newResult (l c : Int) : Res := ⟨[], false, none, l, c, []⟩

/-- The heap blocks owned by a result: its message and its statements with all they own. -/
def owned (r : Res) : List Nat := r.errAddr ++ addrsL r.stmts

/-- An operation's effect on the heap: the addresses freed, and those that became unreachable without being freed. -/
structure Log where
  freed : List Nat
  leaked : List Nat

/-- `reset` (src/SQLParserResult.cpp:60-72): delete every statement, then free the message. `parameters_` is kept. `none` is
undefined behaviour. -/
def reset (r : Res) : Option (Res × Log) :=
  match treatEl .del r.stmts with
  | some (f, l) => some (⟨[], false, none, -1, -1, r.params⟩, ⟨f ++ r.errAddr, l⟩)
  | none => none

/-- The constructor from a statement (src/SQLParserResult.cpp:9). -/
def newWith (l c : Int) (v : V) : Res := ⟨[v], false, none, l, c, []⟩

/-- `addStatement` (src/SQLParserResult.cpp:26). -/
def addStatement (r : Res) (v : V) : Res := { r with stmts := r.stmts ++ [v] }

/-- The destructor (src/SQLParserResult.cpp:24). -/
def destroy (r : Res) : Option Log := (reset r).map Prod.snd

/-- `releaseStatements` (src/SQLParserResult.cpp:52-58): the vector returned, and the result afterwards. -/
def release (r : Res) : List V × Res := (r.stmts, { r with stmts := [] })

/-- `dst = std::move(src)` for two different results (src/SQLParserResult.cpp:14-22): the new `dst`, the new `src`. The old message and
statements of `dst` are overwritten. `std::move` of a `std::vector` leaves the source empty. -/
def moveAssign (dst src : Res) : Option (Res × Res × Log) :=
  match reset { src with errMsg := none, stmts := [] } with
  | some (src', l) => some ({ dst with isValid := src.isValid, errMsg := src.errMsg, stmts := src.stmts }, src', ⟨l.freed, l.leaked ++ owned dst⟩)
  | none => none

/-- The move constructor (src/SQLParserResult.cpp:12): as the assignment to a result whose pointers are all indeterminate but not
owned; `l` and `c` are the uninitialised position. -/
def moveNew (l c : Int) (src : Res) : Option (Res × Res × Log) := moveAssign (newResult l c) src

/-- `size`, `isValid`, `errorMsg`, `errorLine`, `errorColumn` (src/SQLParserResult.cpp:32-40). -/
def size (r : Res) : Nat := r.stmts.length
def message (r : Res) : Option Bytes := r.errMsg.map Prod.snd

/-- `getStatement(i)` (src/SQLParserResult.cpp:28); `none` is undefined behaviour. -/
def getStatement (r : Res) (i : Nat) : Option V := r.stmts[i]?

/-! ## Client programs -/

/-- A client: the results it holds, the statements it took out by `releaseStatements`, and what happened on the heap. -/
structure World where
  results : List Res
  released : List V
  freed : List Nat
  leaked : List Nat

/-- All heap blocks in use. -/
def World.live (w : World) : List Nat := addrsL w.released ++ w.results.flatMap owned
/-- All heap blocks ever handed out that the client or the library knows about. -/
def World.known (w : World) : List Nat := w.freed ++ w.leaked ++ w.live

def World.log (w : World) (l : Log) : World := { w with freed := w.freed ++ l.freed, leaked := w.leaked ++ l.leaked }

/-- What a client may do. `fpr`: see `Verif.Lex.lexAction`. -/
inductive Op where
  | new (l c : Int)
  | parse (i : Nat) (A : Alloc) (fpr : Int) (buf : Bytes) (sql : List UInt8)
  | reset (i : Nat)
  | release (i : Nat)
  /-- `dst = std::move(src)` -/
  | move (dst src : Nat)
  /-- `SQLParserResult r(std::move(src))` -/
  | moveNew (l c : Int) (src : Nat)
  /-- `SQLParserResult r(stmt)` for a statement obtained from `releaseStatements` -/
  | newWith (l c : Int) (stmt : Nat)
  /-- `r.addStatement(stmt)` for a statement obtained from `releaseStatements` -/
  | add (i stmt : Nat)
  | destroy (i : Nat)
  /-- `delete` a statement obtained from `releaseStatements` -/
  | delete (i : Nat)

/-- Execute an operation. `none` is undefined behaviour. (A move of a result to itself is counted as such: the standard leaves the value
of `statements_ = std::move(statements_)` open.) -/
def World.exec (w : World) : Op → Option World
  | .new l c => some { w with results := w.results ++ [newResult l c] }
  | .parse i A fpr buf sql => match w.results[i]? with
    | some r => match Sem.parse A fpr buf sql r with
      | some o => some (({ w with results := w.results.set i o.res } : World).log ⟨o.freed, o.leaked⟩)
      | none => none
    | none => none
  | .reset i => match w.results[i]? with
    | some r => match Api.reset r with
      | some (r', l) => some (({ w with results := w.results.set i r' } : World).log l)
      | none => none
    | none => none
  | .release i => match w.results[i]? with
    | some r => some { w with results := w.results.set i (Api.release r).2, released := w.released ++ (Api.release r).1 }
    | none => none
  | .move i j => if i = j then none else match w.results[i]?, w.results[j]? with
    | some d, some s => match moveAssign d s with
      | some (d', s', l) => some (({ w with results := (w.results.set i d').set j s' } : World).log l)
      | none => none
    | _, _ => none
  | .moveNew l c j => match w.results[j]? with
    | some s => match Api.moveNew l c s with
      | some (d', s', l) => some (({ w with results := w.results.set j s' ++ [d'] } : World).log l)
      | none => none
    | none => none
  | .newWith l c k => match w.released[k]? with
    | some v => some { w with results := w.results ++ [Api.newWith l c v], released := w.released.eraseIdx k }
    | none => none
  | .add i k => match w.results[i]?, w.released[k]? with
    | some r, some v => some { w with results := w.results.set i (addStatement r v), released := w.released.eraseIdx k }
    | _, _ => none
  | .destroy i => match w.results[i]? with
    | some r => match Api.destroy r with
      | some l => some (({ w with results := w.results.eraseIdx i } : World).log l)
      | none => none
    | none => none
  | .delete i => match w.released[i]? with
    | some v => match treat .del v with
      | some (f, l) => some (({ w with released := w.released.eraseIdx i } : World).log ⟨f, l⟩)
      | none => none
    | none => none

/-- A client program: a sequence of operations. -/
def World.execs (w : World) : List Op → Option World
  | [] => some w
  | o :: os => match w.exec o with
    | some w' => w'.execs os
    | none => none

/-- The start: nothing is there. -/
def World.init : World := ⟨[], [], [], []⟩

end Verif.Api

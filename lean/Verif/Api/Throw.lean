import Verif.Api.Result
/-!
# `SQLParser::parse` interrupted by an exception

`operator new` and the containers of the standard library throw `std::bad_alloc` when memory is exhausted.  The library
catches nothing (there is no `try` in src/), so the exception leaves `SQLParser::parse`; the frames of `hsql_parse` are
unwound, whose local variables have no destructors that release AST nodes (bison_parser.cpp:2896-2953: arrays of unions,
of states, of locations), and the lines of src/SQLParser.cpp behind the call are not executed.  What the parser held is lost.

An allocation by `malloc` or `strdup` does not throw; its failure is not modelled.  (An object whose constructor throws is
released by the compiler; the model counts its block as lost.)
-/
namespace Verif.Sem
open Verif.Lex Verif.LR

/-- Does the right-hand side call `operator new`? -/
def Rv.allocates : Rv → Bool
  | .atom _ => false
  | .obj _ _ => true
  | .vec _ => true
  | .tup _ => false

/-- The action up to a call that may throw, in all ways: before `new`, in `push_back` or `emplace_back` of a vector, in `insert`
of a set, in the construction of a `std::string`.  The rest of the action is replaced by `fail`, which leaves the action with the values of all its variables
lost.  In the other branch of an `if` nothing is thrown.  (`finish` is treated below.) -/
def cuts : Prog → List Prog
  | .ret => []
  | .fail => []
  | .set p e k => (if e.allocates then [.fail] else []) ++ (cuts k).map (.set p e)
  | .push p e k => .fail :: (cuts k).map (.push p e)
  | .insert p e k => .fail :: (cuts k).map (.insert p e)
  | .del p k => (cuts k).map (.del p)
  | .free p k => (cuts k).map (.free p)
  | .ite c t e => (cuts t).map (fun t => .ite c t .ret) ++ (cuts e).map (fun e => .ite c .ret e)
  | .err m k => (cuts k).map (.err m)
  | .errName m p k => .fail :: (cuts k).map (.errName m p)
  | .zeroLen k => (cuts k).map .zeroLen
  | .regParam p k => .fail :: (cuts k).map (.regParam p)
  | .split p q k => .fail :: (cuts k).map (.split p q)
  | .finish => []

/-- The result when `push_back` throws in the loop over `yyloc.param_list` (src/parser/bison_parser.y:349-357, src/SQLParserResult.cpp:75-78): the
number of the parameter is already set. -/
def paramThrows : List Nat → Nat → Res → List Res
  | [], _, _ => []
  | a :: as, id, r =>
    { r with stmts := setIvalL a id r.stmts } ::
    match Res.addParameter { r with stmts := setIvalL a id r.stmts } a with
    | some r' => paramThrows as (id + 1) r'
    | none => []

/-- The states when the body of `input` throws (src/parser/bison_parser.y:343-358), `b` and `vs` being the vector of statements: in the
`i`-th `addStatement`, or in an `addParameter`.  The vector and the statements not yet added are lost. -/
def finishThrows (b : Nat) (vs : List V) (st : St) : List St :=
  (List.range vs.length).map (fun i => ({ st with res := { st.res with stmts := st.res.stmts ++ vs.take i } } : St).log [] (b :: addrsL (vs.drop i))) ++
  (paramThrows st.plist 0 { st.res with stmts := st.res.stmts ++ vs }).map fun r => ({ st with res := r } : St).log [] [b]

/-- The states in which the action of rule `r` can be left by an exception. -/
def actionThrows (A : Alloc) (r : Nat) (vs : List SV) (below : Option SV) (st : St) : List St :=
  match actions[r - 2]? with
  | none => []
  | some .finish => match vs.map Prod.fst with
    | .vec b ws :: _ => finishThrows b ws st
    | _ => []
  | some p => (cuts p).filterMap fun k => match run A (ruleLoc vs below) k (mkEnv (vs.map Prod.fst)) st with
    | .error st' => some st'
    | _ => none

/-- The next `n` steps of the parser. -/
def stepsTo (A : Alloc) : Nat → Cfg St SV → Option (Cfg St SV)
  | 0, c => some c
  | n + 1, c => match step (sem A) stackSize c with
    | .run c' => stepsTo A n c'
    | _ => none

/-- Read the lookahead if there is none and the state needs one (bison_parser.cpp:3083-3096). -/
def lookAhead (A : Alloc) (c : Cfg St SV) : Cfg St SV :=
  match noToken (topState c.stk), c.la, c.toks with
  | some false, none, t :: toks => { c with la := some (t, (readTok A t c.st).1), toks := toks, st := (readTok A t c.st).2 }
  | _, _, _ => c

/-- The rule by which the parser reduces next, the lookahead being read (bison_parser.cpp:2998-3153, as `LR.step`). -/
def nextRule (c : Cfg St SV) : Option Nat :=
  if stackSize ≤ c.stk.length + 1 then none
  else if (topState c.stk : Int) = YYFINAL then none
  else match noToken (topState c.stk), c.la with
    | some true, _ => match defaultAct (topState c.stk) with
      | some (.reduce r) => some r
      | _ => none
    | some false, some (t, _) => match tokenAct (topState c.stk) (tsym t) with
      | some (.reduce r) => some r
      | _ => none
    | _, _ => none

/-- The values on a stack. -/
def stackAddrs (stk : List (Nat × SV)) : List Nat := addrsL (stk.map fun x => x.2.1)
/-- The value of the lookahead. -/
def laAddrs : Option (Tok × SV) → List Nat
  | none => []
  | some (_, v) => v.1.addrs

/-- What is left when the parser is abandoned: `stk` and `la` are lost. -/
def abandon (stk : List (Nat × SV)) (la : Option (Tok × SV)) (st : St) : ParseOut :=
  ⟨st.res, st.freed, st.leaked ++ stackAddrs stk ++ laAddrs la⟩

/-- An exception is thrown from configuration `c`: by the scanner (`strbuf.str()`, src/parser/flex_lexer.l:284-287), or in the action of
the next reduction. -/
inductive Throws (A : Alloc) (c : Cfg St SV) : ParseOut → Prop where
  | scanner : noToken (topState c.stk) = some false → c.la = none → Throws A c (abandon c.stk c.la c.st)
  | action (r n : Nat) (st : St) : nextRule (lookAhead A c) = some r → ruleLen r = some n →
      st ∈ actionThrows A r (((lookAhead A c).stk.take n).map Prod.snd).reverse (((lookAhead A c).stk.drop n).head?.map Prod.snd) (lookAhead A c).st →
      Throws A c (abandon ((lookAhead A c).stk.drop n) (lookAhead A c).la st)

/-- `SQLParser::parse(sql, result)` may be left by an exception, with this effect. -/
def Interrupted (A : Alloc) (fpr : Int) (buf : Bytes) (sql : List UInt8) (r : Res) (o : ParseOut) : Prop :=
  ∃ toks s n c, lexAll fpr (lexInit buf (cText sql)) = some (toks, s) ∧ stepsTo A n (initCfg toks (startSt r)) = some c ∧ Throws A c o

end Verif.Sem

namespace Verif.Api
open Verif.Sem

/-- What can happen when a client executes an operation: it is executed; or `parse` is left by an exception; or an operation that
allocates a vector element or copies a vector (src/SQLParserResult.cpp:9, 26, 53) throws before it changed anything. -/
inductive Happens (w : World) : Op → World → Prop where
  | done {o : Op} {w' : World} : w.exec o = some w' → Happens w o w'
  | thrown {i : Nat} {A : Alloc} {fpr : Int} {buf : Bytes} {sql : List UInt8} {r : Res} {o : ParseOut} :
      w.results[i]? = some r → Interrupted A fpr buf sql r o →
      Happens w (.parse i A fpr buf sql) (({ w with results := w.results.set i o.res } : World).log ⟨o.freed, o.leaked⟩)
  | refused {o : Op} : (match o with | .release _ | .add _ _ | .newWith _ _ _ => True | _ => False) → Happens w o w

end Verif.Api

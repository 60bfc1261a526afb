import Verif.Api.Tokenize
import Verif.Api.Result
/-!
# Calls from several threads

`SQLParser::parse` and `SQLParser::tokenize` in small steps, the way they are executed: the parser calls the scanner when it needs a token
(bison_parser.cpp:3083-3096), and the scanner makes one match after the other. The only data with static storage duration that is written is
`strbuf` (src/parser/flex_lexer.l:21), one per thread; everything else (scanner, parser stacks, result) belongs to the call. `yydebug` is not used
(`YYDEBUG` is 0). The heap is shared: where its blocks are depends on the other threads, therefore the allocator is a parameter of each call.
-/
namespace Verif.Threads
open Verif.Lex Verif.LR Verif.Sem Verif.Api

/-- What one match of the scanner leads to. -/
inductive Match where
  /-- on with the loop -/
  | more (st : LexSt) (acc : List Bytes)
  /-- `hsql_lex` returns a token -/
  | tok (t : Tok) (st : LexSt)
  /-- undefined behaviour -/
  | ub

/-- One round of the `while (1)` loop of `hsql_lex` (flex_lexer.cpp:3195-4350), see `Lex.yylexFuel`. -/
def oneMatch (fpr : Int) (st : LexSt) (acc : List Bytes) : Match :=
  match scan st.sc st.rest with
  | none => .ub
  | some .eof => .tok ⟨0, .none, acc.reverse⟩ st
  | some (.rule r n) =>
    match lexAction fpr st.sc st.buf r (st.rest.take n) with
    | none => .ub
    | some (.skip sc buf) => .more ⟨sc, buf, st.rest.drop n⟩ (st.rest.take n :: acc)
    | some (.ret sc buf c v) => .tok ⟨c, v, (st.rest.take n :: acc).reverse⟩ ⟨sc, buf, st.rest.drop n⟩

/-- Does the parser, in this configuration, call the scanner? (bison_parser.cpp:3003-3096, see `LR.step`) -/
def wantsToken (c : Cfg Sem.St SV) : Bool :=
  decide (c.stk.length + 1 < stackSize) && decide ((topState c.stk : Int) ≠ YYFINAL) && decide (noToken (topState c.stk) = some false) && c.la.isNone && c.toks.isEmpty

/-- A call. -/
inductive Call where
  | parse (sql : List UInt8)
  | tokenize (sql : List UInt8)

/-- What a call gives; `none` is undefined behaviour. -/
inductive Answer where
  | parse (o : Option ParseOut)
  | tokenize (ts : Option (List Int))

/-- A call being executed: the scanner (but for `strbuf`), the matches since the last token, and the parser, or the tokens found so far. -/
structure Busy where
  sc : SC
  rest : Bytes
  acc : List Bytes
  work : Cfg Sem.St SV ⊕ List Int

/-- A thread: the calls it will still make, the one it is executing, and the answers it has received. -/
structure Thread where
  todo : List Call
  now : Option Busy
  done : List Answer

/-- The effects of one match on a call. -/
def afterMatch (j : Busy) (m : Match) (onTok : Tok → Busy → Busy ⊕ Answer) (onUb : Answer) (buf : Bytes) : (Busy ⊕ Answer) × Bytes :=
  match m with
  | .more st acc => (.inl { j with sc := st.sc, rest := st.rest, acc := acc }, st.buf)
  | .tok t st => (onTok t { j with sc := st.sc, rest := st.rest, acc := [] }, st.buf)
  | .ub => (.inr onUb, buf)

/-- A call goes on by one match of the scanner or one step of the parser. `buf` is `strbuf`. -/
def goOn (A : Alloc) (fpr : Int) (j : Busy) (buf : Bytes) : (Busy ⊕ Answer) × Bytes :=
  match j.work with
  | .inl c =>
    if wantsToken c then
      afterMatch j (oneMatch fpr ⟨j.sc, buf, j.rest⟩ j.acc) (fun t j => .inl { j with work := .inl { c with toks := [t] } }) (.parse none) buf
    else
      match step (sem A) stackSize c with
      | .run c' => (.inl { j with work := .inl c' }, buf)
      | .done o c' => (.inr (.parse ((finishRun A o c').map fun x => ⟨{ x.2.res with isValid := decide (x.1 = 0) }, x.2.freed, x.2.leaked⟩)), buf)
      | .ub => (.inr (.parse none), buf)
  | .inr ts =>
    afterMatch j (oneMatch fpr ⟨j.sc, buf, j.rest⟩ j.acc)
      (fun t j => if toInt16 t.code = 0 then .inr (.tokenize (some ts)) else .inl { j with work := .inr (ts ++ [toInt16 t.code]) }) (.tokenize none) buf

/-- The start of a call (src/SQLParser.cpp:13-26, 43-57); `parse` gets a new result, in which `errorLine` and `errorColumn` are indeterminate. -/
def begin (l c : Int) : Call → Busy
  | .parse sql => ⟨.initial, cText sql, [], .inl (initCfg [] (startSt (newResult l c)))⟩
  | .tokenize sql => ⟨.initial, cText sql, [], .inr []⟩

/-- One step of a thread. Its `k`-th call uses the allocator `A k`. -/
def Thread.tick (A : Nat → Alloc) (fpr l c : Int) (t : Thread) (buf : Bytes) : Thread × Bytes :=
  match t.now with
  | none => match t.todo with
    | [] => (t, buf)
    | call :: todo => ({ t with todo := todo, now := some (begin l c call) }, buf)
  | some j =>
    match goOn (A t.done.length) fpr j buf with
    | (.inl j', buf') => ({ t with now := some j' }, buf')
    | (.inr a, buf') => ({ t with now := none, done := t.done ++ [a] }, buf')

/-- The program: its threads, and the `strbuf` of each. -/
structure Program where
  thread : Nat → Thread
  strbuf : Nat → Bytes

/-- Replace the value at `i`. -/
def upd {α : Type} (f : Nat → α) (i : Nat) (x : α) : Nat → α := fun j => if j = i then x else f j

/-- Thread `i` makes a step. -/
def Program.tick (A : Nat → Nat → Alloc) (fpr l c : Int) (w : Program) (i : Nat) : Program :=
  let r := (w.thread i).tick (A i) fpr l c (w.strbuf i)
  ⟨upd w.thread i r.1, upd w.strbuf i r.2⟩

/-- The threads take steps in the order of the schedule. -/
def Program.run (A : Nat → Nat → Alloc) (fpr l c : Int) (w : Program) (schedule : List Nat) : Program :=
  schedule.foldl (Program.tick A fpr l c) w

end Verif.Threads

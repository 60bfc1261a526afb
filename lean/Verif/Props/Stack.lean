import Verif.Sem.StackOk
import Verif.Sem.StackSize
import Verif.Props.Buffer
/-!
# C63: the parser stays within its arrays

The properties of the parser are about `hsqlParse`, which has a list as its stack and describes the error recovery in summary. Here: the code of `yyparse`,
which works on three arrays of 200 elements, a message buffer of 128 bytes and uninitialised memory, does the same.
-/
namespace Verif.Props
open Verif.Lex Verif.LR Verif.Sem Verif.Api

/-- `SQLParser::parse` (src/SQLParser.cpp:13-35) with the scanner on its buffer (`Lex/Buffer`) and the parser on its arrays (`Sem/Stack`): the outcome, the blocks of the
scanner and the number of message blocks that are left. -/
def parseY (A : Alloc) (fpr : Int) (J : Junk) (buf : Bytes) (sql : List UInt8) (r : Res) : Option (ParseOut × List Blk × Nat) := do
  let g ← scanString sql
  let toks ← bLexAll fpr (g.mem.length - 1) g buf
  let (ret, st, blocks) ← yyparse A J toks r
  let live ← destroyScanner scannerBlocks
  some (⟨{ st.res with isValid := decide (ret = 0) }, st.freed, st.leaked⟩, live, blocks)

/-- **C63**: whatever the uninitialised memory contains, `SQLParser::parse` does what `parse` says, for every text of less than 2^31 - 2 bytes whose parse is
not undefined because of an action: no array or table is accessed outside of its bounds, no pointer leaves its array, each loop of the error
recovery ends, and neither a block of the scanner nor one for the message is left or freed twice. -/
theorem C63_parse_arrays (A : Alloc) (fpr : Int) (J : Junk) (hJ : J.Ok) (buf : Bytes) (sql : List UInt8) (r : Res) (hl : (cText sql).length + 2 < 2147483648)
    (o : ParseOut) (h : parse A fpr buf sql r = some o) : parseY A fpr J buf sql r = some (o, [], 0) := by
  have hb := C62_parse A fpr buf sql r hl
  rw [h, Option.map_some] at hb
  unfold parseB at hb
  unfold parseY
  cases h1 : scanString sql with
  | none => rw [h1] at hb; cases hb
  | some g =>
    rw [h1, Option.bind_eq_bind, Option.bind_some] at hb
    rw [Option.bind_eq_bind, Option.bind_some]
    cases h2 : bLexAll fpr (g.mem.length - 1) g buf with
    | none => rw [h2] at hb; cases hb
    | some toks =>
      rw [h2, Option.bind_eq_bind, Option.bind_some] at hb
      rw [Option.bind_eq_bind, Option.bind_some]
      cases h3 : hsqlParse A toks r with
      | none => rw [h3] at hb; cases hb
      | some y =>
        obtain ⟨x, st⟩ := y
        rw [h3, Option.bind_eq_bind, Option.bind_some] at hb
        rw [yyparse_ok hJ h3, Option.bind_eq_bind, Option.bind_some]
        simp only [destroyScanner_ok, Option.bind_eq_bind, Option.bind_some, Option.some.injEq, Prod.mk.injEq] at hb ⊢
        exact ⟨hb.1, trivial⟩

/-- **C63**: nothing of the outcome depends on what the uninitialised memory contains. -/
theorem C63_uninitialised (A : Alloc) (fpr : Int) (J J' : Junk) (hJ : J.Ok) (hJ' : J'.Ok) (buf : Bytes) (sql : List UInt8) (r : Res)
    (hl : (cText sql).length + 2 < 2147483648) (h : (parse A fpr buf sql r).isSome) : parseY A fpr J buf sql r = parseY A fpr J' buf sql r := by
  obtain ⟨o, h⟩ := Option.isSome_iff_exists.1 h
  rw [C63_parse_arrays A fpr J hJ buf sql r hl o h, C63_parse_arrays A fpr J' hJ' buf sql r hl o h]

/-- **C63**: for every state and token the message of a syntax error fits into the buffer of 128 bytes, so that the larger block is never needed: `yysyntax_error`
succeeds at once, and the buffer then holds the message with its NUL. -/
theorem C63_message_fits (s x : Nat) (hs : s < 656) (hx : x < 199) (msg : Bytes) (hm : msg.length = 128) :
    ∃ msg', yysyntaxError s x 128 msg = some (0, 128, msg') ∧ cstr msg' 0 = some (syntaxMsg s x) ∧ (syntaxMsg s x).length < 109 := by
  have hle := msg_le hs hx
  have hlt := Nat.lt_of_lt_of_le (msg_size s x) hle
  rcases syntaxError_ok hs hx 128 msg hm with ⟨m, h1, h2⟩ | ⟨a, h1, h2, h3⟩
  · exact ⟨m, h1, h2, hlt⟩
  · omega

section
variable {A : Alloc} {fpr : Int} (hA : Distinct A) (hf : FprOK fpr) (buf : Bytes) (sql : List UInt8) (l c : Int)
include hA hf

/-- **C63**: the message of a syntax error, for every text, has less than 109 bytes. -/
theorem C63_message_length (o : ParseOut) (h : parse A fpr buf sql (newResult l c) = some o) (m : Bytes) (hm : message o.res = some m)
    (hsy : b!"syntax error, " <+: m) : m.length < 109 := by
  obtain ⟨ret, st, hp, rfl⟩ := parse_some h
  obtain ⟨e, junk, hin, hE⟩ := parse_ends (sql := sql) (ok := Occurs fpr sql) hf (hA.ok (l := l) (c := c)) newResult_ok
  rw [hp] at hE
  rcases ends_msg hin rfl hE hm with ⟨rfl, _⟩ | h | ⟨pre, u, rest, s, q1, _, q2, q3, _⟩
  · exfalso
    rcases hsy with ⟨w, hw⟩; cases hw
  · exact absurd hsy (kinds h).2
  · rw [q2]
    exact Nat.lt_of_lt_of_le (msg_size s (tsym u)) (msg_le q3 (Sem.tsym_lt u))
end

/-- Some uninitialised memory. -/
def junk0 : Junk := ⟨List.replicate 200 77, List.replicate 200 .undef, List.replicate 200 ⟨3, 1, 4, 1⟩, List.replicate 128 65, fun n => List.replicate n 66⟩

theorem junk0_ok : junk0.Ok := ⟨List.length_replicate, List.length_replicate, List.length_replicate, List.length_replicate, fun _ => List.length_replicate⟩

theorem parseY_view {s : Bytes} {v : View} (h : (run0 s).map view = some v) (hl : (cText (txt s)).length + 2 < 2147483648) :
    (parseY heap 64 junk0 [] (txt s) (newResult 0 0)).map (fun x => (view x.1, x.2)) = some (v, [], 0) := by
  cases ho : run0 s with
  | none => rw [ho] at h; cases h
  | some o =>
    rw [ho, Option.map_some, Option.some.injEq] at h
    rw [C63_parse_arrays heap 64 junk0 junk0_ok [] (txt s) (newResult 0 0) hl o ho, ← h]
    rfl

/-- The hypotheses of `C63_parse_arrays` are met: a valid text. -/
example : (parseY heap 64 junk0 [] (txt b!"SELECT a FROM t;") (newResult 0 0)).map (fun x => (view x.1, x.2)) = some (⟨true, 1, none, 0, 0⟩, [], 0) :=
  parseY_view (parse_of_eval (f := 30) (q := Option.map view) (by decide +kernel)) (by decide)

/-- A syntax error, whose message is composed in the buffer. -/
example : (parseY heap 64 junk0 [] (txt b!"SELECT a\nFROM ;") (newResult 0 0)).map (fun x => (view x.1, x.2)) =
    some (⟨false, 0, some b!"syntax error, unexpected ';', expecting IDENTIFIER or '('", 1, 5⟩, [], 0) :=
  parseY_view (parse_of_eval (f := 30) (q := Option.map view) (by decide +kernel)) (by decide)

/-- An error of an action. -/
example : (parseY heap 64 junk0 [] (txt b!"SELECT DATE 'x'") (newResult 0 0)).map (fun x => (view x.1, x.2)) =
    some (⟨false, 0, some b!"Found incorrect date format. Expected format: YYYY-MM-DD", 0, 7⟩, [], 0) :=
  parseY_view (parse_of_eval (f := 30) (q := Option.map view) (by decide +kernel)) (by decide)

/-- The hypothesis of `C63_message_length` is met by that message. -/
example : b!"syntax error, " <+: b!"syntax error, unexpected ';', expecting IDENTIFIER or '('" := by decide

/-- `yyparse` itself, on the tokens of `;` : the message in the buffer of the stack. -/
example : (yyparse heap junk0 [⟨59, .none, [b!";"]⟩, ⟨0, .none, []⟩] (newResult 0 0)).map (fun x => (x.1, x.2.1.res.errMsg.map Prod.snd, x.2.2)) =
    some (1, some b!"syntax error, unexpected ';', expecting SELECT or '('", 0) := by decide +kernel

end Verif.Props

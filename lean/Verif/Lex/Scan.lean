import Verif.Lex.Tables
import Verif.Lex.Spec
/-!
# The table-driven matcher

Model of the matching part of `hsql_lex` (src/parser/flex_lexer.cpp:3193-3240 and 4224-4400), on the
verbatim tables of `Verif.Lex.Tables`.  `none` stands for undefined behaviour (a table or buffer
access out of bounds, a loop that does not end, or the use of a stale "last accepting state");
that it never occurs is a theorem (`scan_spec`).

Simplifications: the in-place buffer with `yy_hold_char` is a list; the buffer holds the text followed
by the two NUL bytes that `hsql__scan_bytes` appends (flex_lexer.cpp, `yy_scan_bytes`).
-/
namespace Verif.Lex

/-- The inner `while` plus the table move (flex_lexer.cpp:3217-3224): from state `s` on class `c`.
The fuel replaces the unbounded `while`; running out of it is `none`. -/
def yyNextFuel : Nat → Nat → Nat → Option Nat
  | 0, _, _ => none
  | f + 1, s, c => do
    let base ← yy_base[s]?
    let chk ← yy_chk[base + c]?
    if chk = s then yy_nxt[base + c]?
    else
      let s' ← yy_def[s]?
      let c' ← if s' ≥ 1368 then yy_meta[c]? else some c
      yyNextFuel f s' c'

/-- One move of the automaton (flex_lexer.cpp:3217-3224). -/
def yyNext (s c : Nat) : Option Nat := yyNextFuel 8 s c

/-- The `do ... while (yy_current_state != 1367)` loop, flex_lexer.cpp:3209-3228.  `rest` is the buffer
from `yy_cp` on, `s` is `yy_current_state`, `n` is `yy_cp - yy_bp`, `last` is the pair
(`yy_last_accepting_state`, `yy_last_accepting_cpos - yy_bp`); `none` if not set since `yy_bp`.
The result is what 3229-3230 load: the last accepting state and position. -/
def matchLoop : Bytes → Nat → Nat → Option (Nat × Nat) → Option (Nat × Nat)
  | [], _, _, _ => none
  | b :: rest, s, n, last => do
    let c ← yy_ec[b]?
    let acc ← yy_accept[s]?
    let last' := if acc ≠ 0 then some (s, n) else last
    let s' ← yyNext s c
    if s' = 1367 then last' else matchLoop rest s' (n + 1) last'

/-- `yy_get_previous_state`, flex_lexer.cpp:4501-4526 (NUL counts as class 1). Returns the state reached
and the last accepting (state, position) strictly before the end. -/
def prevState : Bytes → Nat → Nat → Option (Nat × Nat) → Option (Nat × Option (Nat × Nat))
  | [], s, _, last => some (s, last)
  | b :: rest, s, n, last => do
    let c ← if b ≠ 0 then yy_ec[b]? else some 1
    let acc ← yy_accept[s]?
    let last' := if acc ≠ 0 then some (s, n) else last
    let s' ← yyNext s c
    prevState rest s' (n + 1) last'

/-- Outcome of one pass of the scanner loop: a rule action with the length of `yytext`, or end of file. -/
inductive ScanRes where
  | rule (r n : Nat)
  | eof
deriving DecidableEq, Repr

/-- `yy_start` for a start condition: `BEGIN(x)` sets `yy_start = 1 + 2*x` (flex_lexer.cpp, `#define BEGIN`). -/
def startState : SC → Nat
  | .initial => 1
  | .squote => 3
  | .comment => 5

/-- One pass of the scanner loop at `text` (the rest of the buffer without the two end NULs):
matching (3193-3230), `yy_find_action` (3232-3235), `case 0` back-up (3242-3247), and the
`YY_END_OF_BUFFER` case (4228-4330) with `yy_get_next_buffer` (4362-4395; `yy_fill_buffer` is 0 for a
string buffer). -/
def scan (sc : SC) (text : Bytes) : Option ScanRes := do
  let (s, n) ← matchLoop (text ++ [0, 0]) (startState sc) 0 none
  let act ← yy_accept[s]?
  if act = 190 then
    if n ≤ text.length then none            -- "This was really a NUL": cannot happen, see scan_spec
    else if n = 1 then some .eof            -- EOB_ACT_END_OF_FILE
    else do                                 -- EOB_ACT_LAST_MATCH
      let (s', last) ← prevState text (startState sc) 0 none
      let act' ← yy_accept[s']?
      if act' ≠ 0 then some (.rule act' text.length)
      else do
        let (s'', n'') ← last
        let act'' ← yy_accept[s'']?
        some (.rule act'' n'')
  else some (.rule act n)

end Verif.Lex

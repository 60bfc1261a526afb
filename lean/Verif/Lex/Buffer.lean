import Verif.Lex.Lexer
/-!
# The scanner on its buffer

`Lex/Scan` and `Lex/Lexer` describe the scanner on lists. This is the code as it is: a character buffer of fixed size, pointers into
it (here: indices), the byte that is overwritten by the terminating NUL of `yytext` and put back before the next match, the last accepting
state and position that survive from one match to the next, and the three kinds of `goto`. `none` is a read or write outside of the
buffer, the use of a null pointer, a fatal error of the scanner (which ends the process), signed overflow or non-termination.

Not modelled: failure of `malloc` for a sensible size; `yyin`/`yyout`, which are not used with a string buffer;
the code that refills a buffer from a file (flex_lexer.cpp:4398-4497), since `yy_fill_buffer` is 0.
-/
namespace Verif.Lex

/-- `struct yyguts_t` (flex_lexer.cpp:2923-2958) together with the current `struct yy_buffer_state` (flex_lexer.cpp:200-262). -/
structure Guts where
  mem : Bytes                 -- *yy_ch_buf: yy_buf_size + 2 bytes
  bufPos : Nat                -- yy_buf_pos
  bufChars : Nat              -- yy_n_chars of the buffer
  isNew : Bool                -- yy_buffer_status == YY_BUFFER_NEW
  inited : Bool               -- yy_init
  start : Nat                 -- yy_start
  nChars : Nat                -- yy_n_chars of the scanner
  cbuf : Nat                  -- yy_c_buf_p
  text : Nat                  -- yytext_ptr
  leng : Nat                  -- yyleng
  hold : Nat                  -- yy_hold_char
  lastState : Nat             -- yy_last_accepting_state
  lastPos : Option Nat        -- yy_last_accepting_cpos, a null pointer at first
deriving DecidableEq, Repr

/-- `*p = v` for `p` pointing to index `i`. -/
def write (mem : Bytes) (i v : Nat) : Option Bytes := if i < mem.length then some (mem.set i v) else none

/-- `yy_match` (flex_lexer.cpp:3207-3225): the `do ... while` loop. The fuel stands for the loop. -/
def bMatch : Nat → Guts → Nat → Nat → Option Guts
  | 0, _, _, _ => none
  | f + 1, g, cp, s => do
    let b ← g.mem[cp]?
    let c ← yy_ec[b]?
    let acc ← yy_accept[s]?
    let g' := if acc ≠ 0 then { g with lastState := s, lastPos := some cp } else g
    let s' ← yyNext s c
    if s' = 1367 then some g' else bMatch f g' (cp + 1) s'

/-- `yy_get_previous_state` (flex_lexer.cpp:4501-4527): the `for` loop, `k` rounds to go. -/
def bPrev : Nat → Guts → Nat → Nat → Option (Guts × Nat)
  | 0, g, _, s => some (g, s)
  | k + 1, g, cp, s => do
    let b ← g.mem[cp]?
    let c ← if b ≠ 0 then yy_ec[b]? else some 1
    let acc ← yy_accept[s]?
    let g' := if acc ≠ 0 then { g with lastState := s, lastPos := some cp } else g
    let s' ← yyNext s c
    bPrev k g' (cp + 1) s'

/-- `yy_try_NUL_trans` (flex_lexer.cpp:4534-4557). -/
def bNul (g : Guts) (s : Nat) : Option (Guts × Option Nat) := do
  let acc ← yy_accept[s]?
  let g' := if acc ≠ 0 then { g with lastState := s, lastPos := some g.cbuf } else g
  let s' ← yyNext s 1
  some (g', if s' = 1367 then none else some s')

/-- `YY_DO_BEFORE_ACTION` (flex_lexer.cpp:343-348). -/
def bBefore (g : Guts) (bp cp : Nat) : Option Guts := do
  let h ← g.mem[cp]?
  let m ← write g.mem cp 0
  if cp < bp then none
  else some { g with text := bp, leng := cp - bp, hold := h, mem := m, cbuf := cp }

/-- The first arrival at the end of a new buffer (flex_lexer.cpp:4237-4251; `yy_input_file` is not modelled). -/
def bNew (g : Guts) : Guts := if g.isNew then { g with nChars := g.bufChars, isNew := false } else g

/-- What the scanner does next: the action of a rule, or that of the end of file. -/
inductive BAct where
  | rule (r : Nat)
  | eof
deriving DecidableEq, Repr

/-- From `yy_find_action` on (flex_lexer.cpp:3229-3245, 4228-4348) with `yy_get_next_buffer` (4366-4397). The fuel counts the `goto`s. -/
def bFind : Nat → Guts → Nat → Nat → Nat → Option (Guts × BAct)
  | 0, _, _, _, _ => none
  | f + 1, g, bp, cp, s => do
    let act ← yy_accept[s]?
    let g ← bBefore g bp cp
    if act = 0 then do                                    -- must back up
      let m ← write g.mem cp g.hold
      let cp' ← g.lastPos
      bFind f { g with mem := m } bp cp' g.lastState
    else if act = 190 then do                             -- YY_END_OF_BUFFER
      if cp < g.text + 1 then none
      else do
      let amount := cp - g.text - 1
      let m ← write g.mem cp g.hold
      let g := bNew { g with mem := m }
      if g.cbuf ≤ g.nChars then do                        -- this was really a NUL
        let g := { g with cbuf := g.text + amount }
        let (g, s') ← bPrev (g.cbuf - g.text) g g.text g.start
        let (g, nx) ← bNul g s'
        match nx with
        | some s'' => do
          let g := { g with cbuf := g.cbuf + 1 }
          let g ← bMatch (g.mem.length + 1) g g.cbuf s''
          let cp' ← g.lastPos
          bFind f g g.text cp' g.lastState
        | none => do
          let cp' ← g.lastPos
          bFind f g g.text cp' g.lastState
      else if g.cbuf > g.nChars + 1 then none             -- fatal: end of buffer missed
      else if g.cbuf - g.text = 1 then                    -- EOB_ACT_END_OF_FILE; hsql_wrap returns 1
        some ({ g with cbuf := g.text }, .eof)
      else do                                             -- EOB_ACT_LAST_MATCH
        let g := { g with cbuf := g.nChars }
        let (g, s') ← bPrev (g.cbuf - g.text) g g.text g.start
        bFind f g g.text g.cbuf s'
    else some (g, .rule act)

/-- One round of the `while (1)` loop of `hsql_lex` up to the action (flex_lexer.cpp:3197-3227). -/
def bScan (g : Guts) : Option (Guts × BAct) := do
  let m ← write g.mem g.cbuf g.hold
  let g := { g with mem := m }
  let bp := g.cbuf
  let g ← bMatch (g.mem.length + 1) g bp g.start
  let cp ← g.lastPos
  bFind 4 g bp cp g.lastState

/-- The C string at index `i`: its bytes up to the first NUL. -/
def cstr (mem : Bytes) (i : Nat) : Option Bytes :=
  if 0 ∈ mem.drop i then some ((mem.drop i).takeWhile (· ≠ 0)) else none

/-- The start condition `YY_START` (flex_lexer.cpp:137). -/
def scOf (start : Nat) : Option SC :=
  if start = 1 then some .initial else if start = 3 then some .squote else if start = 5 then some .comment else none

/-- `hsql__load_buffer_state` (flex_lexer.cpp:4693-4700). -/
def loadBuffer (g : Guts) : Option Guts := do
  let h ← g.mem[g.bufPos]?
  some { g with nChars := g.bufChars, text := g.bufPos, cbuf := g.bufPos, hold := h }

/-- The loop of `hsql_lex` (flex_lexer.cpp:3195-4355). The actions see `yytext` as a C string. -/
def bLexFuel (fpr : Int) : Nat → Guts → Bytes → List Bytes → Option (Tok × Guts × Bytes)
  | 0, _, _, _ => none
  | f + 1, g, buf, acc => do
    let (g, a) ← bScan g
    let sc ← scOf g.start
    match a with
    | .eof => some (⟨0, .none, acc.reverse⟩, g, buf)
    | .rule r => do
      let text ← cstr g.mem g.text
      match ← lexAction fpr sc buf r text with
      | .skip sc buf => bLexFuel fpr f { g with start := startState sc } buf (text :: acc)
      | .ret sc buf c v => some (⟨c, v, (text :: acc).reverse⟩, { g with start := startState sc }, buf)

/-- `hsql_lex` (flex_lexer.cpp:3150-4357): initialisation at the first call (3162-3186), then the loop. `buf` is the content of `strbuf`. -/
def bLex (fpr : Int) (g : Guts) (buf : Bytes) : Option (Tok × Guts × Bytes) := do
  let g ← if g.inited then some g
    else loadBuffer { g with inited := true, start := if g.start = 0 then 1 else g.start }
  bLexFuel fpr (g.mem.length + 1) g buf []

/-- The value of a `size_t` converted to `int` (two's complement, 32 bits). -/
def toInt32 (n : Nat) : Int := ((n : Int) + 2147483648) % 4294967296 - 2147483648

/-- `hsql__scan_bytes` with `hsql__scan_buffer` (flex_lexer.cpp:4966-4994, 4916-4943): the buffer for the first `len` bytes of `bytes`, and
the scanner state (all zero after `hsql_lex_init`, flex_lexer.cpp:5202-5221, 5259-5290) after `hsql__switch_to_buffer`. -/
def scanBytes (bytes : Bytes) (len : Int) : Option Guts :=
  if len + 2 > 2147483647 then none                       -- signed overflow
  else if len < 0 then none                               -- malloc of an impossible size, or a write in front of the buffer
  else if bytes.length < len.toNat then none              -- reads behind the text
  else
    let mem := bytes.take len.toNat ++ [0, 0]
    loadBuffer { mem := mem, bufPos := 0, bufChars := mem.length - 2, isNew := true, inited := false, start := 0, nChars := 0,
                 cbuf := 0, text := 0, leng := 0, hold := 0, lastState := 0, lastPos := none }

/-- `hsql__scan_string(sql.c_str())` (flex_lexer.cpp:4953-4957; SQLParser.cpp:22-23): `(int) strlen(...)`. -/
def scanString (sql : List UInt8) : Option Guts := scanBytes (cText sql) (toInt32 (cText sql).length)

/-- Any number of successive calls of `hsql_lex`. -/
def bCalls (fpr : Int) : Nat → Guts → Bytes → Option (List Tok × Guts × Bytes)
  | 0, g, buf => some ([], g, buf)
  | k + 1, g, buf => do
    let (t, g, buf) ← bLex fpr g buf
    let (ts, g, buf) ← bCalls fpr k g buf
    some (t :: ts, g, buf)

end Verif.Lex

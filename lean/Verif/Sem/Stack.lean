import Verif.Sem.Parse
import Verif.Lex.Buffer
/-!
# `yyparse` on its arrays

`LR/Driver` and `Sem/Parse` describe the parser with one list as its stack, and its end in summary. This is the code as it is: three arrays of 200
elements and pointers into them (here: indices), `yychar` and `yylval`, the error recovery with its loop, the composition of the message
in a buffer of 128 bytes or, if that is too small, in a larger block, and the clean-up. What uninitialised memory contains is a
parameter (`Junk`). `none` is a read or write outside of an array or table, a pointer moved below the start of its array, or undefined behaviour of an action.

Simplified: a token without value leaves `yylval` indeterminate (`Sem/Parse`, `tokValue`), where the code leaves the value of an earlier token in
it; locations on the stack are without `param_list`, `total_column` and `string_length`, which are never read there. `malloc` for the message does not fail.
-/
namespace Verif.Sem
open Verif.Lex Verif.LR

/-- `*p = x` for `p` pointing to index `i`. -/
def wr {α : Type} (l : List α) (i : Nat) (x : α) : Option (List α) := if i < l.length then some (l.set i x) else none

/-- `p - n` for `p` pointing to index `i`: pointers do not leave their array. -/
def sub? (i n : Nat) : Option Nat := if n ≤ i then some (i - n) else none

/-- The contents of the uninitialised arrays of `yyparse` (bison_parser.cpp:2921-2931, 2951), and of a block of `n` bytes. -/
structure Junk where
  ss : List Nat
  vs : List V
  ls : List Loc
  msg : Bytes
  heap : Nat → Bytes

/-- The local variables of `yyparse` (bison_parser.cpp:2893-2961). The arrays are those of bison_parser.cpp:2921, 2926, 2931, 2951;
`yystacksize` is constant. `blocks` is the number of message blocks on the heap. -/
structure YY where
  ss : List Nat            -- yyssa
  ssp : Nat                -- yyssp - yyss
  vs : List V              -- yyvsa
  vsp : Nat
  ls : List Loc            -- yylsa
  lsp : Nat
  state : Nat              -- yystate
  chr : Int                -- yychar
  lval : V                 -- yylval
  len : Nat                -- yylen
  errstatus : Nat          -- yyerrstatus
  nerrs : Nat              -- yynerrs
  range1 : Loc             -- yyerror_range[1]
  msg : Bytes              -- the bytes yymsg points to
  msgAlloc : Nat           -- yymsg_alloc
  own : Bool               -- yymsg != yymsgbuf
  blocks : Nat
  toks : List Tok          -- what the scanner will return
  st : St                  -- with yylloc

/-- Where a part of `yyparse` ends: behind the assignment at `yysetstate` (bison_parser.cpp:2999), or with `return`: the value, the state, the number of
message blocks that are left. -/
inductive YRes where
  | run (y : YY)
  | ret (r : Int) (st : St) (blocks : Nat)

/-- `YYTRANSLATE` (bison_parser.cpp:724-725). -/
def yytr (c : Int) : Option Nat := if 0 ≤ c ∧ c ≤ YYMAXUTOK then (at? yytranslate c).map Int.toNat else some 2

/-- `YYPOPSTACK` (bison_parser.cpp:2956). -/
def popStack (n : Nat) (y : YY) : Option YY := do
  let v ← sub? y.vsp n
  let s ← sub? y.ssp n
  let l ← sub? y.lsp n
  some { y with vsp := v, ssp := s, lsp := l }

/-- `*++yyvsp = v; *++yylsp = l;` (bison_parser.cpp:3134-3136, 5649-5650), `yystate = s`, and from `yynewstate` to the assignment at `yysetstate` (2993-2999). -/
def pushAll (s : Nat) (v : V) (l : Loc) (y : YY) : Option YY := do
  let vs ← wr y.vs (y.vsp + 1) v
  let ls ← wr y.ls (y.lsp + 1) l
  let ss ← wr y.ss (y.ssp + 1) s
  some { y with vs := vs, vsp := y.vsp + 1, ls := ls, lsp := y.lsp + 1, state := s, ssp := y.ssp + 1, ss := ss }

/-- `yydestruct` (bison_parser.cpp:1930-2880) of a value. -/
def destructAt (sym : Nat) (v : V) (y : YY) : Option YY := (destruct sym v y.st).map fun st => { y with st := st }

/-- The last loop of `yyreturn` (bison_parser.cpp:5848-5853). The fuel stands for the loop. -/
def popRest : Nat → YY → Option YY
  | 0, _ => none
  | f + 1, y =>
    if y.ssp = 0 then some y
    else do
      let s ← y.ss[y.ssp]?
      let sym ← at? yystos s
      let v ← y.vs[y.vsp]?
      let _ ← y.ls[y.lsp]?
      let y ← destructAt sym.toNat v y
      let y ← popStack 1 y
      popRest f y

/-- Discard the lookahead (bison_parser.cpp:5835-5843). -/
def discard (y : YY) : Option YY :=
  if y.chr ≠ -2 then do
    let tok ← yytr y.chr
    destructAt tok y.lval y
  else some y

/-- `yyreturn` (bison_parser.cpp:5834-5863). -/
def yyreturn (r : Int) (y : YY) : Option YRes := do
  let y ← discard y
  let y ← popStack y.len y
  let y ← popRest 201 y
  if y.own then
    if y.blocks = 0 then none else some (.ret r y.st (y.blocks - 1))
  else some (.ret r y.st y.blocks)

/-- `yyexhaustedlab` (bison_parser.cpp:5829-5831). -/
def yyexhausted (A : Alloc) (y : YY) : Option YRes :=
  yyreturn 2 { y with st := y.st.yyerror A b!"memory exhausted" y.st.yylloc.loc.fl y.st.yylloc.loc.fc }

/-! ## The message -/

/-- The loop of `yytnamerr` behind a double quote (bison_parser.cpp:1756-1780): the name without quotes, or `none` for `do_not_strip_quotes`. The outer
`none` is a read behind the end of the string. -/
def stripQuotes : Bytes → Bytes → Option (Option Bytes)
  | [], _ => none
  | 92 :: 92 :: r, acc => stripQuotes r (92 :: acc)
  | b :: r, acc =>
    if b = 39 ∨ b = 44 ∨ b = 92 then some none
    else if b = 34 then some (some acc.reverse)
    else stripQuotes r (b :: acc)

/-- What `yytnamerr` (bison_parser.cpp:1749-1787) copies; its length is what it returns. -/
def tnamerr (s : Bytes) : Option Bytes :=
  if s.head? = some 34 then
    match stripQuotes s.tail [] with
    | none => none
    | some none => some s
    | some (some b) => some b
  else some s

/-- `yystpcpy` (bison_parser.cpp:1730-1739) to index `i`. -/
def stpcpy : Bytes → Bytes → Nat → Option Bytes
  | [], buf, i => wr buf i 0
  | b :: bs, buf, i => do
    let buf ← wr buf i b
    stpcpy bs buf (i + 1)

/-- `YYSTACK_ALLOC_MAXIMUM`: the largest `size_t` (bison_parser.cpp:507, 617). -/
def sizeMax : Nat := 18446744073709551615

/-- The loop of `yysyntax_error` over the tokens (bison_parser.cpp:1849-1868), `k` rounds to go: the arguments and the size, or `none` for the
return value 2. -/
def argLoop (n : Int) (size0 : Nat) : Nat → Nat → List Bytes → Nat → Option (Option (List Bytes × Nat))
  | 0, _, args, size => some (some (args, size))
  | k + 1, x, args, size => do
    let c ← at? yycheck (x + n)
    if c = x ∧ x ≠ 1 then do
      let v ← at? yytable (x + n)
      if v = YYTABLE_NINF then argLoop n size0 k (x + 1) args size
      else if args.length = 5 then some (some (args.take 1, size0))
      else do
        let name ← yytname[x]?
        let b ← tnamerr name
        if size + b.length ≤ sizeMax then argLoop n size0 k (x + 1) (args ++ [name]) (size + b.length)
        else some none
    else argLoop n size0 k (x + 1) args size

/-- The formats (bison_parser.cpp:1876-1884). -/
def yyformat : Nat → Bytes
  | 0 => b!"syntax error"
  | 1 => b!"syntax error, unexpected %s"
  | 2 => b!"syntax error, unexpected %s, expecting %s"
  | 3 => b!"syntax error, unexpected %s, expecting %s or %s"
  | 4 => b!"syntax error, unexpected %s, expecting %s or %s or %s"
  | _ => b!"syntax error, unexpected %s, expecting %s or %s or %s or %s"

/-- The last loop of `yysyntax_error` (bison_parser.cpp:1906-1920): `*yyp = *yyformat` with `yyp` at index `i`. -/
def fmtLoop : Bytes → List Bytes → Bytes → Nat → Option Bytes
  | [], _, buf, i => wr buf i 0
  | 37 :: 115 :: r, a :: args, buf, i => do
    let buf ← wr buf i 37
    let b ← tnamerr a
    let buf ← stpcpy b buf i
    fmtLoop r args buf (i + b.length)
  | b :: r, args, buf, i => do
    let buf ← wr buf i b
    fmtLoop r args buf (i + 1)

/-- The first part of `yysyntax_error` (bison_parser.cpp:1835-1870) in state `s`, `name` being `yytname[yytoken]`: `yyarg` and `yysize`. -/
def yyargs (s : Nat) (name : Bytes) (size0 : Nat) : Option (Option (List Bytes × Nat)) := do
  let n ← at? yypact s
  if n = YYPACT_NINF then some (some ([name], size0))
  else
    let xbegin := if n < 0 then -n else 0
    let checklim := YYLAST - n + 1
    let xend := if checklim < YYNTOKENS then checklim else YYNTOKENS
    argLoop n size0 (xend - xbegin).toNat xbegin.toNat [name] size0

/-- `yysyntax_error` (bison_parser.cpp:1797-1925) with `*yyssp = s`, `yytoken = tok`: the return value, `*yymsg_alloc`, `**yymsg`. `yyarg` has
room for 5 pointers. -/
def yysyntaxError (s : Nat) (tok : Int) (alloc : Nat) (msg : Bytes) : Option (Nat × Nat × Bytes) := do
  let name ← if 0 ≤ tok then yytname[tok.toNat]? else none
  let b ← tnamerr name
  let x ← yyargs s name b.length
  match x with
  | none => some (2, alloc, msg)
  | some (args, size) =>
    if 5 < args.length then none
    else
      let fmt := yyformat args.length
      let size := size + fmt.length
      if size > sizeMax then some (2, alloc, msg)
      else if alloc < size then
        some (1, if 2 * size ≤ sizeMax then 2 * size else sizeMax, msg)
      else do
        let msg ← fmtLoop fmt args msg 0
        some (0, alloc, msg)

/-- The report of `yyerrlab` (bison_parser.cpp:5684-5710); `true`: go to `yyexhaustedlab`. -/
def report (A : Alloc) (J : Junk) (tok : Int) (y : YY) : Option (YY × Bool) := do
  let y := { y with nerrs := y.nerrs + 1 }
  let top ← y.ss[y.ssp]?
  let (status, alloc, msg) ← yysyntaxError top tok y.msgAlloc y.msg
  if status = 0 then do
    let m ← cstr msg 0
    some ({ y with msg := msg, st := y.st.yyerror A m y.st.yylloc.loc.fl y.st.yylloc.loc.fc }, false)
  else if status = 1 then do
    let blocks ← if y.own then sub? y.blocks 1 else some y.blocks
    let (status, alloc, msg) ← yysyntaxError top tok alloc (J.heap alloc)
    let m ← cstr msg 0
    some ({ y with msg := msg, msgAlloc := alloc, own := true, blocks := blocks + 1, st := y.st.yyerror A m y.st.yylloc.loc.fl y.st.yylloc.loc.fc }, status = 2)
  else
    some ({ y with st := y.st.yyerror A b!"syntax error" y.st.yylloc.loc.fl y.st.yylloc.loc.fc }, true)

/-- The state that shifts the `error` token from state `s`, if any (bison_parser.cpp:5757-5768). -/
def errShift (s : Nat) : Option (Option Nat) := do
  let n ← at? yypact s
  if n = YYPACT_NINF then some none
  else if 0 ≤ n + 1 ∧ n + 1 ≤ YYLAST then do
    let c ← at? yycheck (n + 1)
    if c = 1 then do
      let v ← at? yytable (n + 1)
      some (if 0 < v then some v.toNat else none)
    else some none
  else some none

/-- `yyerrlab1` (bison_parser.cpp:5751-5801). The fuel stands for the loop. -/
def errlab1 : Nat → YY → Option YRes
  | 0, _ => none
  | f + 1, y => do
    match ← errShift y.state with
    | some n => do
      let l := y.st.yylloc.loc
      let y ← pushAll n y.lval ⟨y.range1.fl, y.range1.fc, l.ll, l.lc⟩ { y with errstatus := 3 }
      some (.run y)
    | none =>
      if y.ssp = 0 then yyreturn 1 { y with errstatus := 3 }
      else do
        let l ← y.ls[y.lsp]?
        let sym ← at? yystos y.state
        let v ← y.vs[y.vsp]?
        let y ← destructAt sym.toNat v { y with range1 := l, errstatus := 3 }
        let y ← popStack 1 y
        let s ← y.ss[y.ssp]?
        errlab1 f { y with state := s }

/-- `yyerrlab` (bison_parser.cpp:5670-5738). -/
def errlab (A : Alloc) (J : Junk) (y : YY) : Option YRes := do
  let tok ← if y.chr = -2 then some (-2) else (yytr y.chr).map Int.ofNat
  let (y, full) ← if y.errstatus = 0 then report A J tok y else some (y, false)
  if full then yyexhausted A y
  else
    let y := { y with range1 := y.st.yylloc.loc }
    if y.errstatus = 3 then
      if y.chr = 0 then yyreturn 1 y
      else if y.chr < 0 then errlab1 201 y
      else do
        let y ← destructAt tok.toNat y.lval y
        errlab1 201 { y with chr := -2 }
    else errlab1 201 y

/-! ## Steps -/

/-- `YYLLOC_DEFAULT (yyloc, yylsp - n, n)` (bison_parser.cpp:3168, 1489-1507). -/
def lloc (ls : List Loc) (lsp n : Nat) : Option Loc :=
  if n = 0 then do
    let b ← ls[lsp]?
    some ⟨b.ll, b.lc, b.ll, b.lc⟩
  else do
    let i ← sub? (lsp + 1) n
    let f ← ls[i]?
    let l ← ls[lsp]?
    some ⟨f.fl, f.fc, l.ll, l.lc⟩

/-- The values `yyvsp[1 - n]` to `yyvsp[0]`. -/
def rhsOf (vs : List V) (vsp n : Nat) : Option (List V) :=
  if n ≤ vsp + 1 ∧ vsp < vs.length then some ((vs.drop (vsp + 1 - n)).take n) else none

/-- `yyreduce` (bison_parser.cpp:3153-5664) and `yyerrorlab` (5730-5745). -/
def yyreduce (A : Alloc) (r : Nat) (y : YY) : Option YRes := do
  let n ← ruleLen r
  let i ← sub? (y.vsp + 1) n
  let _ ← y.vs[i]?                                      -- yyval = yyvsp[1-yylen]
  let loc ← lloc y.ls y.lsp n
  let args ← rhsOf y.vs y.vsp n
  let p ← actions[r - 2]?
  match run A loc p (mkEnv args) y.st with
  | .ub => none
  | .error st => do
    let j ← sub? (y.lsp + 1) n
    let l ← y.ls[j]?
    let y ← popStack n { y with st := st, range1 := l, len := n }
    let s ← y.ss[y.ssp]?
    errlab1 201 { y with len := 0, state := s }
  | .ok v st => do
    let y ← popStack n { y with st := st, len := n }
    let A ← ruleLhs r
    let t ← y.ss[y.ssp]?
    let s ← gotoState t A
    let y ← pushAll s v loc { y with len := 0 }
    some (.run y)

/-- What follows the choice of an action (bison_parser.cpp:3112-3147). -/
def yyact (A : Alloc) (J : Junk) (a : Option Act) (y : YY) : Option YRes := do
  match ← a with
  | .error => errlab A J y
  | .reduce r => yyreduce A r y
  | .shift s => do
    let y ← pushAll s y.lval y.st.yylloc.loc { y with errstatus := y.errstatus - 1, chr := -2 }
    some (.run y)

/-- `yylex`, if there is no lookahead (bison_parser.cpp:3090-3094). -/
def yyread (A : Alloc) (y : YY) : Option YY :=
  if y.chr = -2 then
    match y.toks with
    | [] => none
    | t :: ts => some { y with chr := t.code, lval := (readTok A t y.st).1.1, toks := ts, st := (readTok A t y.st).2 }
  else some y

/-- From behind the assignment at `yysetstate` on (bison_parser.cpp:3001-3147). -/
def yystep (A : Alloc) (J : Junk) (y : YY) : Option YRes :=
  if stackSize - 1 ≤ y.ssp then yyexhausted A y
  else if (y.state : Int) = YYFINAL then yyreturn 0 y
  else do
    match ← noToken y.state with
    | true => yyact A J (defaultAct y.state) y
    | false => do
      let y ← yyread A y
      if y.chr ≤ 0 then yyact A J (tokenAct y.state 0) { y with chr := 0 }
      else do
        let tok ← yytr y.chr
        yyact A J (tokenAct y.state tok) y

/-- The loop of `yyparse`. The fuel stands for it. -/
def yyloop (A : Alloc) (J : Junk) : Nat → YY → Option (Int × St × Nat)
  | 0, _ => none
  | f + 1, y => do
    match ← yystep A J y with
    | .run y => yyloop A J f y
    | .ret r st b => some (r, st, b)

/-- The start of `yyparse` (bison_parser.cpp:2963-2999). -/
def yyinit (J : Junk) (toks : List Tok) (r : Res) : Option YY := do
  let ls ← wr J.ls 0 ⟨0, 0, 0, 0⟩
  let ss ← wr J.ss 0 0
  some { ss := ss, ssp := 0, vs := J.vs, vsp := 0, ls := ls, lsp := 0, state := 0, chr := -2, lval := .undef, len := 0, errstatus := 0, nerrs := 0,
         range1 := ⟨0, 0, 0, 0⟩, msg := J.msg, msgAlloc := 128, own := false, blocks := 0, toks := toks, st := startSt r }

/-- `hsql_parse(result, scanner)` where the scanner returns the tokens `toks`: the return value, the state, the number of message blocks left on the heap. -/
def yyparse (A : Alloc) (J : Junk) (toks : List Tok) (r : Res) : Option (Int × St × Nat) := do
  let y ← yyinit J toks r
  yyloop A J (10 * toks.length + 2010) y

end Verif.Sem

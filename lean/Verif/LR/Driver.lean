import Verif.LR.Tree
/-!
# The parser driver

Model of the control of `yyparse` (src/parser/bison_parser.cpp:2885-5864), parametrised by the semantic
actions.  The state, value and location stacks are one list of pairs (state, value-with-location); the entry for
state 0 at the bottom is left implicit.  Reading a table out of bounds is `none`.
-/
namespace Verif.LR
open Verif.Lex

/-- Table access with C indexing; `none` is out of bounds. -/
def at? (l : List Int) (i : Int) : Option Int := if 0 ≤ i then l[i.toNat]? else none

/-- A parser action. -/
inductive Act where
  | shift (s : Nat)
  | reduce (r : Nat)
  | error
deriving DecidableEq, Repr

/-- `yydefault:` (bison_parser.cpp:3143-3147). -/
def defaultAct (s : Nat) : Option Act :=
  match at? yydefact s with
  | none => none
  | some r => if r = 0 then some .error else if 0 < r then some (.reduce r.toNat) else none

/-- Does state `s` act without a lookahead token? (bison_parser.cpp:3083-3085, `yypact_value_is_default`) -/
def noToken (s : Nat) : Option Bool := (at? yypact s).map fun n => n == YYPACT_NINF

/-- The action of state `s` on terminal `a` (bison_parser.cpp:3108-3119). -/
def tokenAct (s a : Nat) : Option Act :=
  match at? yypact s with
  | none => none
  | some p =>
    let n := p + a
    if n < 0 ∨ YYLAST < n then defaultAct s
    else match at? yycheck n with
      | none => none
      | some c =>
        if c ≠ a then defaultAct s
        else match at? yytable n with
          | none => none
          | some v =>
            if v ≤ 0 then
              if v = YYTABLE_NINF then some .error else some (.reduce (-v).toNat)
            else some (.shift v.toNat)

/-- `yyr2[r]`, the length of rule `r`. -/
def ruleLen (r : Nat) : Option Nat := (at? yyr2 r).map Int.toNat
/-- `yyr1[r]`, the left-hand side. -/
def ruleLhs (r : Nat) : Option Nat := (at? yyr1 r).map Int.toNat

/-- The state entered with nonterminal `A` from state `s` (bison_parser.cpp:5656-5662). -/
def gotoState (s A : Nat) : Option Nat :=
  match at? yypgoto (A - YYNTOKENS) with
  | none => none
  | some p =>
    let n := p + s
    let dflt := (at? yydefgoto (A - YYNTOKENS)).bind fun d => if 0 ≤ d then some d.toNat else none
    if 0 ≤ n ∧ n ≤ YYLAST then
      match at? yycheck n with
      | none => none
      | some c => if c = s then (at? yytable n).bind fun d => if 0 ≤ d then some d.toNat else none else dflt
    else dflt

/-- What the action of a rule does: produce the value of the left-hand side, execute `YYERROR`, or
undefined behaviour. -/
inductive Red (σ V : Type) where
  | ok (v : V) (s : σ)
  | error (s : σ)
  | ub

/-- The semantic side of the parser: what reading a token does (the value of the token, and the effect on the
state), and what the actions do.  `reduce r vs below s`: `vs` are the values of the right-hand side, `below` the
value of the stack entry below them. -/
structure Sem (σ V : Type) where
  read : Tok → σ → V × σ
  reduce : Nat → List V → Option V → σ → Red σ V

/-- A configuration: the stack above the bottom entry (top first), the lookahead (`yychar`, `yylval`,
`yylloc`; `none` is `YYEMPTY`), the tokens the scanner will still return, the semantic state. -/
structure Cfg (σ V : Type) where
  stk : List (Nat × V)
  la : Option (Tok × V)
  toks : List Tok
  st : σ

/-- How `yyparse` ends. -/
inductive Outcome where
  | accept
  | syntaxError
  | semError
  | exhausted
deriving DecidableEq, Repr

/-- Result of a step. For `semError` the configuration is the one after `YYPOPSTACK(yylen)`. -/
inductive SRes (σ V : Type) where
  | run (c : Cfg σ V)
  | done (o : Outcome) (c : Cfg σ V)
  | ub

/-- `yyssp`'s state. -/
def topState {V : Type} (stk : List (Nat × V)) : Nat :=
  match stk with
  | [] => 0
  | (s, _) :: _ => s

/-- `yyreduce:` (bison_parser.cpp:3153-5664) with rule `r`. -/
def doReduce {σ V : Type} (S : Sem σ V) (r : Nat) (c : Cfg σ V) : SRes σ V :=
  match ruleLen r, ruleLhs r with
  | some n, some A =>
    if c.stk.length < n then .ub
    else
      let vs := ((c.stk.take n).map Prod.snd).reverse
      let stk' := c.stk.drop n
      match S.reduce r vs (stk'.head?.map Prod.snd) c.st with
      | .ub => .ub
      | .error st => .done .semError { c with stk := stk', st := st }
      | .ok v st =>
        match gotoState (topState stk') A with
        | none => .ub
        | some s => .run { c with stk := (s, v) :: stk', st := st }
  | _, _ => .ub

/-- `yystacksize`: `YYINITDEPTH` (bison_parser.cpp:1688, 2965).  `YYSTACK_RELOCATE` is not defined in a C++
compilation with a non-trivial location type (bison_parser.cpp:643-672), so the stack does not grow. -/
def stackSize : Nat := 200

/-- Perform an action on the current lookahead. -/
def doAct {σ V : Type} (S : Sem σ V) (a : Option Act) (c : Cfg σ V) : SRes σ V :=
  match a with
  | none => .ub
  | some .error => .done .syntaxError c
  | some (.reduce r) => doReduce S r c
  | some (.shift s) =>
    match c.la with
    | none => .ub
    | some (_, v) => .run { c with stk := (s, v) :: c.stk, la := none }

/-- From `yysetstate:` (bison_parser.cpp:2998) to the next `yynewstate`, or to the end.  No state can shift the
`error` token, so `yyerrlab1` always pops the whole stack and aborts (see `noErrorShift`). `lim` is
`yystacksize`. -/
def step {σ V : Type} (S : Sem σ V) (lim : Nat) (c : Cfg σ V) : SRes σ V :=
  if lim ≤ c.stk.length + 1 then .done .exhausted c
  else
    let s := topState c.stk
    if (s : Int) = YYFINAL then .done .accept c
    else match noToken s with
      | none => .ub
      | some true => doAct S (defaultAct s) c
      | some false =>
        match c.la with
        | some (t, _) => doAct S (tokenAct s (tsym t)) c
        | none =>
          match c.toks with
          | [] => .ub
          | t :: toks =>
            let (v, st) := S.read t c.st
            let c := { c with la := some (t, v), toks := toks, st := st }
            doAct S (tokenAct s (tsym t)) c

/-- Run at most `n` steps. `none`: still running. -/
def runN {σ V : Type} (S : Sem σ V) (lim : Nat) : Nat → Cfg σ V → Option (Option (Outcome × Cfg σ V))
  | 0, _ => none
  | n + 1, c =>
    match step S lim c with
    | .run c' => runN S lim n c'
    | .done o c' => some (some (o, c'))
    | .ub => some none

/-- The start configuration. -/
def initCfg {σ V : Type} (toks : List Tok) (st : σ) : Cfg σ V := ⟨[], none, toks, st⟩

/-- The whole run on a token sequence.  (The fuel always suffices, see `C14`.) -/
def runLR {σ V : Type} (S : Sem σ V) (toks : List Tok) (st : σ) : Option (Option (Outcome × Cfg σ V)) :=
  runN S stackSize (10 * toks.length + 2010) (initCfg toks st)

end Verif.LR

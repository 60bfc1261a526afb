import Verif.Sem.Hom
import Verif.Sem.Parse
import Verif.LR.Tree
/-!
# The value of a derivation

The attribute grammar defined by bison_parser.y: the semantic actions evaluated over a derivation tree, from left to right and
bottom-up, with values that carry no addresses. No stack, no tables, no lookahead.
-/
namespace Verif.Sem
open Verif.Lex Verif.LR

/-- What evaluation threads through the tree: how many parameters (`?`) there have been, and whether an action has
reported an error. -/
structure PS where
  n : Nat
  err : Bool
deriving DecidableEq, Repr

/-- The state an action sees. -/
def pureSt (s : PS) : St :=
  { ntok := 0, nalloc := 0, freed := [], leaked := [], plist := List.replicate s.n 0, yylloc := ⟨⟨0, 0, 0, 0⟩, 0, 0⟩,
    res := ⟨[], true, if s.err then some (0, []) else none, 0, 0, []⟩ }

def St.ps (st : St) : PS := ⟨st.plist.length, st.res.errMsg.isSome⟩

/-- The semantic action of rule `r`. `none`: it fails (`YYERROR`), or is undefined. The action of `input` (rule 2), which hands the
statements over to the result, has no value; see `denInput`. -/
def evRule (r : Nat) (vs : List V) (s : PS) : Option (V × PS) :=
  if r = 2 then some (.undef, s) else
  match actions[r - 2]? with
  | none => none
  | some p => match run Z ⟨0, 0, 0, 0⟩ p (mkEnv vs) (pureSt s) with
    | .ok v st => some (v, st.ps)
    | _ => none

mutual
/-- The value of a derivation. -/
def den : Tree → PS → Option (V × PS)
  | .leaf t, s => some (tokValue Z 0 t.val, s)
  | .node r cs, s => match denL cs s with
    | some (vs, s') => evRule r vs s'
    | none => none
def denL : List Tree → PS → Option (List V × PS)
  | [], s => some ([], s)
  | c :: cs, s => match den c s with
    | some (v, s') => match denL cs s' with
      | some (vs, s'') => some (v :: vs, s'')
      | none => none
    | none => none
end

mutual
/-- Give every parameter in a value its number: `ival` becomes `ival2` (src/parser/bison_parser.y:349-357). -/
def V.fill : V → V
  | .obj a c fs => .obj a c (if isPar c fs then newIval (parKey fs) (fillL fs) else fillL fs)
  | .vec a vs => .vec a (fillL vs)
  | .tup fs => .tup (fillL fs)
  | v => v
def fillL : List V → List V
  | [] => []
  | v :: vs => v.fill :: fillL vs
end

/-- The statements a derivation of a complete input stands for: those of its `statement_list`. -/
def denInput : Tree → Option (List V)
  | .node _ cs => match denL cs ⟨0, false⟩ with
    | some (.vec _ vs :: _, _) => some (fillL vs)
    | _ => none
  | .leaf _ => none

/-- How many of the tokens are parameters (`?`). -/
def qmarks (l : List Tok) : Nat := l.countP fun t => decide (tsym t = T.QMARK)

mutual
/-- The value of a derivation, with `k` parameters in the text to the left of it. The same as `den`, but what is handed down is the
place in the text: the action of a node sees the number of `?` tokens to the left of the node, and nothing else of the context
(except, in `e`, whether an action further left has reported an error). -/
def denAt (k : Nat) : Tree → Bool → Option (V × Bool)
  | .leaf t, e => some (tokValue Z 0 t.val, e)
  | .node r cs, e => match denAtL k cs e with
    | some (vs, e') => (evRule r vs ⟨k, e'⟩).map fun x => (x.1, x.2.err)
    | none => none
def denAtL (k : Nat) : List Tree → Bool → Option (List V × Bool)
  | [], e => some ([], e)
  | c :: cs, e => match denAt k c e with
    | some (v, e') => match denAtL (k + qmarks c.yield) cs e' with
      | some (vs, e'') => some (v :: vs, e'')
      | none => none
    | none => none
end

/-- The derivations of the statements in a statement list. -/
def stmtTrees : Tree → List Tree
  | .node 3 [s] => [s]
  | .node 4 [l, _, s] => stmtTrees l ++ [s]
  | _ => []

/-- The derivations of the statements of a complete input. -/
def stmtsOf : Tree → List Tree
  | .node 2 [l, _] => stmtTrees l
  | _ => []

/-- The tokens of a list of statements: those of the statements, separated by `;`. -/
inductive Joined : List Tree → List Tok → Prop where
  | one (s : Tree) : Joined [s] s.yield
  | snoc (ss : List Tree) (ts : List Tok) (m : Tok) (s : Tree) : Joined ss ts → tsym m = T.SEMI → Joined (ss ++ [s]) (ts ++ m :: s.yield)

/-- Statement values as the statement list holds them: `stringLength`, the first field, is a number. -/
def setLen : V → V
  | .obj a c (_ :: fs) => .obj a c (.pos 0 :: fs)
  | .tup (_ :: fs) => .tup (.pos 0 :: fs)
  | v => v

end Verif.Sem

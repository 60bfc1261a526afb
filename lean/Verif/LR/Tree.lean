import Verif.LR.Grammar
/-!
# Derivations of the grammar and the precedence rules (specification)

Derivation trees of bison_parser.y and the documented meaning of `%left`/`%right`/`%nonassoc`
(the Bison manual, "Operator Precedence"), as a condition on trees.  Nothing here mentions the parser tables
except `yytranslate`, which names the terminal a token code stands for.
-/
namespace Verif.LR
open Verif.Lex

/-- The terminal a token code stands for: non-positive codes are end of input
(bison_parser.cpp:3096-3099), others are looked up by `YYTRANSLATE` (bison_parser.cpp:722-725). -/
def tokSym (c : Int) : Nat :=
  if c ≤ 0 then 0 else if c ≤ YYMAXUTOK then (yytranslate.getD c.toNat 2).toNat else 2

/-- The terminal of a token. -/
def tsym (t : Tok) : Nat := tokSym t.code

/-- Left-hand side of rule `r`. -/
def lhs (r : Nat) : Nat := (rules.getD r (0, [])).1
/-- Right-hand side of rule `r`. -/
def rhs (r : Nat) : List Nat := (rules.getD r (0, [])).2

/-- Derivation trees: a leaf is a token, an inner node an application of a grammar rule. -/
inductive Tree where
  | leaf (t : Tok)
  | node (r : Nat) (cs : List Tree)

/-- The grammar symbol at the root. -/
def Tree.sym : Tree → Nat
  | .leaf t => tsym t
  | .node r _ => lhs r

mutual
/-- The tokens at the leaves, from left to right. -/
def Tree.yield : Tree → List Tok
  | .leaf t => [t]
  | .node _ cs => yieldL cs
def yieldL : List Tree → List Tok
  | [] => []
  | c :: cs => c.yield ++ yieldL cs
end

mutual
/-- Every inner node applies a rule of the grammar. (Rule 1 is bison's `$accept` wrapper.) -/
def Tree.WF : Tree → Prop
  | .leaf _ => True
  | .node r cs => 2 ≤ r ∧ r < rules.length ∧ cs.map Tree.sym = rhs r ∧ WFL cs
def WFL : List Tree → Prop
  | [] => True
  | c :: cs => c.WF ∧ WFL cs
end

mutual
/-- The height of the parser stack a bottom-up left-to-right traversal needs for the tree. -/
def Tree.need : Tree → Nat
  | .leaf _ => 1
  | .node _ cs => max 1 (needL 0 cs)
def needL : Nat → List Tree → Nat
  | _, [] => 0
  | k, c :: cs => max (k + c.need) (needL (k + 1) cs)
end

/-! ## Precedence -/

/-- Level and associativity of the declaration a terminal occurs in (level 0 is the lowest). -/
def tokPrec (a : Nat) : Option (Nat × Assoc) :=
  let i := precDecls.findIdx fun d => d.2.contains a
  (precDecls[i]?).map fun d => (i, d.1)

/-- The precedence of a rule is that of the last terminal in it (no rule has a `%prec`). -/
def rulePrec (r : Nat) : Option (Nat × Assoc) := ((rhs r).filter (· < 199)).getLast?.bind tokPrec

/-- The left-hand sides of the operator rules, the rules precedence is declared for. -/
def opLhs : List Nat := [N.unary_expr, N.binary_expr, N.logic_expr, N.comp_expr]

/-- Rule `r` is an operator rule ending in a nonterminal `X`, and after an `X` the terminal `a` might as well
continue that `X`, since some rule begins with `X a`: here precedence has to decide. -/
def contested (r a : Nat) : Bool :=
  opLhs.contains (lhs r) && (tokPrec a).isSome &&
  (match (rhs r).getLast? with
   | none => false
   | some X => decide (199 ≤ X) && rules.any fun q => q.2.take 2 == [X, a])

/-- Precedence forbids completing rule `r` in front of the token `a`: `a` binds tighter than `r`, or equally tight
without being left-associative. -/
def forbidReduce (r a : Nat) : Bool :=
  contested r a && (match rulePrec r, tokPrec a with
    | some (p, _), some (q, as) => decide (p < q) || (decide (p = q) && decide (as ≠ .left))
    | _, _ => false)

/-- Precedence forbids that `a` continues the last operand of rule `r`: `a` binds less tight than `r`, or equally tight
without being right-associative. -/
def forbidShift (r a : Nat) : Bool :=
  contested r a && (match rulePrec r, tokPrec a with
    | some (p, _), some (q, as) => decide (q < p) || (decide (p = q) && decide (as ≠ .right))
    | _, _ => false)

mutual
/-- Some node on the left edge of the tree applies a rule that begins with `X a`: the tree is an `X` that
is continued by `a`. -/
def Tree.Leads (X a : Nat) : Tree → Prop
  | .leaf _ => False
  | .node r cs => (rhs r).take 2 = [X, a] ∨ LeadsL X a cs
def LeadsL (X a : Nat) : List Tree → Prop
  | [] => False
  | c :: _ => c.Leads X a
end

/-- The terminal that comes next: the first of the tokens, else `b`. -/
def nextSym (l : List Tok) (b : Nat) : Nat :=
  match l with
  | [] => b
  | t :: _ => tsym t

/-- The last operand of rule `r` is not continued by an operator that `r` takes precedence over. -/
def lastOK (r : Nat) (cs : List Tree) : Prop :=
  ∀ c X a, cs.getLast? = some c → (rhs r).getLast? = some X → a < 199 → c.Leads X a → forbidShift r a = false

mutual
/-- The tree, standing in front of terminal `b`, respects the declared precedences. -/
def Tree.PrecOK : Tree → Nat → Prop
  | .leaf _, _ => True
  | .node r cs, b => forbidReduce r b = false ∧ lastOK r cs ∧ PrecOKL cs b
def PrecOKL : List Tree → Nat → Prop
  | [], _ => True
  | c :: cs, b => c.PrecOK (nextSym (yieldL cs) b) ∧ PrecOKL cs b
end

/-- `t` is a derivation, respecting the precedences, of the token sequence `ts` as a complete input. -/
def Derives (ts : List Tok) (t : Tree) : Prop :=
  t.WF ∧ t.sym = N.input ∧ t.yield = ts ∧ t.PrecOK T.eof

end Verif.LR

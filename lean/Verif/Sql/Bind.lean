import Verif.Sql.Stmt
/-!
# Parameters bound to literals (specification)

`Script.bind f` puts the literal `f k` in the place of the parameter number `k`; `bindW f` does the same to a sequence of words, `bindP f` to the objects of a result.
-/
namespace Verif.Sql
open Verif.Lex Verif.LR Verif.Sem

/-- The words with those of the literal `f k` in the place of the parameter `k`. -/
def bindW (f : Nat → Lit) : List Word → List Word
  | [] => []
  | .par k :: ws => (f k).words ++ bindW f ws
  | w :: ws => w :: bindW f ws

/-- The number of a parameter (src/sql/Expr.h:123-170: `ival` is the eleventh field). -/
def paramNumber (fs : List V) : Nat :=
  match (fs[10]? : Option V) with
  | some (.int k) => k.toNat
  | _ => 0

/-- An expression (src/sql/Expr.h:123-170) that was a parameter and becomes the literal `l`: type, `name`, `fval`, `ival`, `ival2`, `datetimeField` and `isBoolLiteral` are
those of the literal, everything else (the alias in particular) stays. -/
def literalFields (l : Lit) : List V → List V
  | [_, expr, expr2, exprList, select, _, table, schema, alias, _, _, _, _, columnType, _, opType, distinct, window] =>
    [.int l.r.type, expr, expr2, exprList, select, l.r.name, table, schema, alias, l.r.fval, l.r.ival, l.r.ival2, .int l.r.datetimeField, columnType, .int l.r.isBoolLiteral, opType, distinct, window]
  | fs => fs

/-- The fields are those of a parameter expression. -/
def isParameter (c : Cls) (fs : List V) : Bool :=
  match c, fs with
  | .Expr, .int n :: _ => decide (n = ExprType.kExprParameter)
  | _, _ => false

mutual
/-- The object with literals in the place of parameters, everywhere in it. -/
def bindP (f : Nat → Lit) : V → V
  | .obj a c fs => .obj a c (bif isParameter c fs then literalFields (f (paramNumber fs)) fs else bindPL f fs)
  | .vec a vs => .vec a (bindPL f vs)
  | .tup fs => .tup (bindPL f fs)
  | v => v
def bindPL (f : Nat → Lit) : List V → List V
  | [] => []
  | v :: vs => bindP f v :: bindPL f vs
end

mutual
def Expr.bind (f : Nat → Lit) : Expr → Expr
  | .lit l => .lit l
  | .param k => .lit (f k)
  | .col t n => .col t n
  | .star t => .star t
  | .paren e => .paren (e.bind f)
  | .query s => .query (s.bind f)
  | .neg e => .neg (e.bind f)
  | .not e => .not (e.bind f)
  | .isNull b e => .isNull b (e.bind f)
  | .isNotNull e => .isNotNull (e.bind f)
  | .bin o a b => .bin o (a.bind f) (b.bind f)
  | .logic o a b => .logic o (a.bind f) (b.bind f)
  | .inList no e l => .inList no (e.bind f) (l.bind f)
  | .inQuery no e s => .inQuery no (e.bind f) (s.bind f)
  | .between e lo hi => .between (e.bind f) (lo.bind f) (hi.bind f)
  | .exist no s => .exist no (s.bind f)
  | .case x l e => .case (x.bind f) (l.bind f) (e.bind f)
  | .call s n a w => .call s n (a.bind f) (w.bind f)
  | .extract d e => .extract d (e.bind f)
  | .cast e t => .cast (e.bind f) t
  | .array l => .array (l.bind f)
  | .index e n => .index (e.bind f) n
def OExpr.bind (f : Nat → Lit) : OExpr → OExpr
  | .none => .none
  | .some e => .some (e.bind f)
def Items.bind (f : Nat → Lit) : Items → Items
  | .one e a => .one (e.bind f) a
  | .snoc l e a => .snoc (l.bind f) (e.bind f) a
def Whens.bind (f : Nat → Lit) : Whens → Whens
  | .one w t => .one (w.bind f) (t.bind f)
  | .snoc l w t => .snoc (l.bind f) (w.bind f) (t.bind f)
def Args.bind (f : Nat → Lit) : Args → Args
  | .none => .none
  | .some d l => .some d (l.bind f)
def Window.bind (f : Nat → Lit) : Window → Window
  | .none => .none
  | .over p o fr => .over (p.bind f) (o.bind f) fr
def Partition.bind (f : Nat → Lit) : Partition → Partition
  | .none => .none
  | .by l => .by (l.bind f)
def Order.bind (f : Nat → Lit) : Order → Order
  | .none => .none
  | .by l => .by (l.bind f)
def Orders.bind (f : Nat → Lit) : Orders → Orders
  | .one e d n => .one (e.bind f) d n
  | .snoc l e d n => .snoc (l.bind f) (e.bind f) d n
def Sel.bind (f : Nat → Lit) : Sel → Sel
  | .plain c o l k => .plain (c.bind f) (o.bind f) (l.bind f) k
  | .set c op r o l k => .set (c.bind f) op (r.bind f) (o.bind f) (l.bind f) k
def PSel.bind (f : Nat → Lit) : PSel → PSel
  | .one s => .one (s.bind f)
  | .more s => .more (s.bind f)
def Within.bind (f : Nat → Lit) : Within → Within
  | .paren s => .paren (s.bind f)
  | .clause c => .clause (c.bind f)
  | .set c op r => .set (c.bind f) op (r.bind f)
def Clause.bind (f : Nat → Lit) : Clause → Clause
  | .mk t d l fr w g => .mk t d (l.bind f) (fr.bind f) (w.bind f) (g.bind f)
def Group.bind (f : Nat → Lit) : Group → Group
  | .none => .none
  | .by l h => .by (l.bind f) (h.bind f)
def Limit.bind (f : Nat → Lit) : Limit → Limit
  | .none => .none
  | .limit e => .limit (e.bind f)
  | .offset e => .offset (e.bind f)
  | .both l o => .both (l.bind f) (o.bind f)
  | .all => .all
  | .allOffset o => .allOffset (o.bind f)
def From.bind (f : Nat → Lit) : From → From
  | .none => .none
  | .one t => .one (t.bind f)
  | .many l t => .many (l.bind f) (t.bind f)
def Tables.bind (f : Nat → Lit) : Tables → Tables
  | .one t => .one (t.bind f)
  | .snoc l t => .snoc (l.bind f) (t.bind f)
def TableN.bind (f : Nat → Lit) : TableN → TableN
  | .name t a => .name t a
  | .query s a => .query (s.bind f) a
def Table.bind (f : Nat → Lit) : Table → Table
  | .base t => .base (t.bind f)
  | .natural l r => .natural (l.bind f) (r.bind f)
  | .on l j r c => .on (l.bind f) j (r.bind f) (c.bind f)
  | .using l j r cols => .using (l.bind f) j (r.bind f) cols
def Query.bind (f : Nat → Lit) : Query → Query
  | .paren w s => .paren (w.bind f) (s.bind f)
  | .plain w s => .plain (w.bind f) (s.bind f)
  | .set w s op n o l => .set (w.bind f) (s.bind f) op (n.bind f) (o.bind f) (l.bind f)
def With.bind (f : Nat → Lit) : With → With
  | .none => .none
  | .some l => .some (l.bind f)
def Withs.bind (f : Nat → Lit) : Withs → Withs
  | .one n s => .one n (s.bind f)
  | .snoc l n s => .snoc (l.bind f) n (s.bind f)
end

def Updates.bind (f : Nat → Lit) : Updates → Updates
  | .one n e => .one n (e.bind f)
  | .snoc l n e => .snoc (l.bind f) n (e.bind f)
def Stmt.bind (f : Nat → Lit) : Stmt → Stmt
  | .query q => .query (q.bind f)
  | .createAs i t q => .createAs i t (q.bind f)
  | .createView i t c q => .createView i t c (q.bind f)
  | .insertQuery t c s => .insertQuery t c (s.bind f)
  | .delete t w => .delete t (w.bind f)
  | .update t l w => .update t (l.bind f) (w.bind f)
  | s => s
def Item.bind (f : Nat → Lit) : Item → Item
  | .stmt s h => .stmt (s.bind f) h
  | .copyFrom t p o w => .copyFrom t p o (w.bind f)
  | .copyQuery s p o => .copyQuery (s.bind f) p o
  | i => i
def Script.bind (f : Nat → Lit) : Script → Script
  | .one i => .one (i.bind f)
  | .snoc l i => .snoc (l.bind f) (i.bind f)

end Verif.Sql

import Verif.Sql.Stmt
/-!
# The standard form of a script (specification)

`std` writes out what was omitted and has a default, and replaces each spelling that has a synonym by the standard one. C26 says that it stands for the same statements.
-/
namespace Verif.Sql
open Verif.Lex Verif.LR Verif.Sem

/-! ## Defaults -/

/-- `ORDER BY e` is `ORDER BY e ASC`. -/
def Dir.std : Dir → Dir
  | .none => .asc
  | d => d
/-- `JOIN` is `INNER JOIN`, `LEFT JOIN` is `LEFT OUTER JOIN`, ...; `OUTER JOIN` is `FULL OUTER JOIN`. -/
def JoinType.std : JoinType → JoinType
  | .none => .inner
  | .left _ => .left true
  | .right _ => .right true
  | .full _ => .full true
  | .outer => .full true
  | j => j
/-- The default frame is `RANGE BETWEEN UNBOUNDED PRECEDING AND CURRENT ROW`; a frame without end goes up to `CURRENT ROW`. -/
def Frame.std : Frame → Frame
  | .none => .between .range .unboundedPreceding .currentRow
  | .start t b => .between t b .currentRow
  | f => f
def SimpleType.std : SimpleType → SimpleType
  | .integer => .int
  | .timestamp => .datetime
  | t => t
/-- Precision and scale are 0 by default; `CHARACTER VARYING` is `VARCHAR`. -/
def ColType.std : ColType → ColType
  | .simple t => .simple t.std
  | .characterVarying n => .varchar n
  | .decimal => .decimal2 0 0
  | .decimal1 p => .decimal2 p 0
  | .time => .time1 0
  | t => t

/-! ## Synonyms -/

/-- `e a` is `e AS a`. -/
def Alias.std : Alias → Alias
  | .bare n => .as n
  | a => a
def TAlias.std : TAlias → TAlias
  | .plain a => .plain a.std
  | a => a
/-- `5 DAYS` is `5 DAY`. -/
def Interval.std : Interval → Interval
  | .short n f _ => .short n f false
  | i => i
def Lit.std : Lit → Lit
  | .interval i => .interval i.std
  | l => l
/-- `a == b` is `a = b`. -/
def BinOp.std : BinOp → BinOp
  | .eq2 => .eq
  | o => o

mutual
/-- `e ISNULL` is `e IS NULL`; parentheses are dropped (`words` puts them back where they are needed). -/
def Expr.std : Expr → Expr
  | .lit l => .lit l.std
  | .param k => .param k
  | .col t n => .col t n
  | .star t => .star t
  | .paren e => e.std
  | .query s => .query s.std
  | .neg e => .neg e.std
  | .not e => .not e.std
  | .isNull _ e => .isNull false e.std
  | .isNotNull e => .isNotNull e.std
  | .bin o a b => .bin o.std a.std b.std
  | .logic o a b => .logic o a.std b.std
  | .inList no e l => .inList no e.std l.std
  | .inQuery no e s => .inQuery no e.std s.std
  | .between e lo hi => .between e.std lo.std hi.std
  | .exist no s => .exist no s.std
  | .case x l e => .case x.std l.std e.std
  | .call s f a w => .call s f a.std w.std
  | .extract f e => .extract f e.std
  | .cast e t => .cast e.std t.std
  | .array l => .array l.std
  | .index e n => .index e.std n
def OExpr.std : OExpr → OExpr
  | .none => .none
  | .some e => .some e.std
def Items.std : Items → Items
  | .one e a => .one e.std a.std
  | .snoc l e a => .snoc l.std e.std a.std
def Whens.std : Whens → Whens
  | .one w t => .one w.std t.std
  | .snoc l w t => .snoc l.std w.std t.std
def Args.std : Args → Args
  | .none => .none
  | .some d l => .some d l.std
def Window.std : Window → Window
  | .none => .none
  | .over p o f => .over p.std o.std f.std
def Partition.std : Partition → Partition
  | .none => .none
  | .by l => .by l.std
def Order.std : Order → Order
  | .none => .none
  | .by l => .by l.std
def Orders.std : Orders → Orders
  | .one e d n => .one e.std d.std n
  | .snoc l e d n => .snoc l.std e.std d.std n
def Sel.std : Sel → Sel
  | .plain c o l k => .plain c.std o.std l.std k
  | .set c op r o l k => .set c.std op r.std o.std l.std k
/-- One pair of parentheses. -/
def PSel.std : PSel → PSel
  | .one s => .one s.std
  | .more s => s.std
def Within.std : Within → Within
  | .paren s => .paren s.std
  | .clause c => .clause c.std
  | .set c op r => .set c.std op r.std
def Clause.std : Clause → Clause
  | .mk t d l f w g => .mk t d l.std f.std w.std g.std
def Group.std : Group → Group
  | .none => .none
  | .by l h => .by l.std h.std
/-- `OFFSET e` is `LIMIT ALL OFFSET e`. -/
def Limit.std : Limit → Limit
  | .none => .none
  | .limit e => .limit e.std
  | .offset e => .allOffset e.std
  | .both l o => .both l.std o.std
  | .all => .all
  | .allOffset o => .allOffset o.std
def From.std : From → From
  | .none => .none
  | .one t => .one t.std
  | .many l t => .many l.std t.std
def Tables.std : Tables → Tables
  | .one t => .one t.std
  | .snoc l t => .snoc l.std t.std
def TableN.std : TableN → TableN
  | .name t a => .name t a.std
  | .query s a => .query s.std a.std
def Table.std : Table → Table
  | .base t => .base t.std
  | .natural l r => .natural l.std r.std
  | .on l j r c => .on l.std j.std r.std c.std
  | .using l j r cols => .using l.std j.std r.std cols
def Query.std : Query → Query
  | .paren w s => .paren w.std s.std
  | .plain w s => .plain w.std s.std
  | .set w s op n o l => .set w.std s.std op n.std o.std l.std
def With.std : With → With
  | .none => .none
  | .some l => .some l.std
def Withs.std : Withs → Withs
  | .one n s => .one n s.std
  | .snoc l n s => .snoc l.std n s.std
end

/-! ## Statements -/

def Ext.std : Ext → Ext
  | .lit l => .lit l.std
  | .negNum n => .negNum n
  | .negInterval i => .negInterval i.std
def XLit.std : XLit → XLit
  | .plain e => .plain e.std
  | .cast e t => .cast e.std t.std
def XLits.std : XLits → XLits
  | .one x => .one x.std
  | .snoc l x => .snoc l.std x.std
def Hint.std : Hint → Hint
  | .name n => .name n
  | .args n l => .args n l.std
def HintList.std : HintList → HintList
  | .one h => .one h.std
  | .snoc l h => .snoc l.std h.std
def Hints.std : Hints → Hints
  | .none => .none
  | .some l => .some l.std
/-- `(options)` is `WITH (options)`. -/
def CopyWith.std : CopyWith → CopyWith
  | .none => .none
  | .opts _ l ok => .opts true l ok
def TableElem.std : TableElem → TableElem
  | .column n t c ok => .column n t.std c ok
  | e => e
def TableElems.std : TableElems → TableElems
  | .one e => .one e.std
  | .snoc l e => .snoc l.std e.std
def Updates.std : Updates → Updates
  | .one n e => .one n e.std
  | .snoc l n e => .snoc l.std n e.std
/-- `TRUNCATE t` is `DELETE FROM t`; `EXECUTE n ()` is `EXECUTE n`; `BEGIN` is `BEGIN TRANSACTION`. -/
def Stmt.std : Stmt → Stmt
  | .query q => .query q.std
  | .createTable i t l => .createTable i t l.std
  | .createAs i t q => .createAs i t q.std
  | .createView i t c q => .createView i t c q.std
  | .insertValues t c l => .insertValues t c l.std
  | .insertQuery t c s => .insertQuery t c s.std
  | .delete t w => .delete t w.std
  | .truncate t => .delete t .none
  | .update t l w => .update t l.std w.std
  | .executeArgs n none => .execute n
  | .executeArgs n (some l) => .executeArgs n (some l.std)
  | .transaction c _ => .transaction c true
  | .createFile i t w ok p => .createFile i t w ok p
  | .createIndex i n t l => .createIndex i n t l
  | .dropTable i t => .dropTable i t
  | .dropView i t => .dropView i t
  | .deallocate n => .deallocate n
  | .dropIndex i n => .dropIndex i n
  | .alterDrop i t j c => .alterDrop i t j c
  | .execute n => .execute n
  | .prepare n q => .prepare n q
/-- `DESCRIBE t` is `SHOW COLUMNS t`. -/
def Item.std : Item → Item
  | .stmt s h => .stmt s.std h.std
  | .showTables => .showTables
  | .showColumns t => .showColumns t
  | .describe t => .showColumns t
  | .importFile w f ok p t => .importFile w f ok p t
  | .copyFrom t p o w => .copyFrom t p o.std w.std
  | .copyTo t p o => .copyTo t p o.std
  | .copyQuery s p o => .copyQuery s.std p o.std
def Script.std : Script → Script
  | .one i => .one i.std
  | .snoc l i => .snoc l.std i.std

end Verif.Sql

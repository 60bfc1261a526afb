import Verif.Sql.Std
/-! The standard form stands for the same statements and has the same parameters. Proof-internal. -/
namespace Verif.Sql
open Verif.Lex Verif.LR Verif.Sem

theorem Dir.std_v (d : Dir) : d.std.v = d.v := by cases d <;> rfl
theorem JoinType.std_v (d : JoinType) : d.std.v = d.v := by cases d <;> rfl
theorem Frame.std_v (d : Frame) : d.std.v = d.v := by cases d <;> rfl
theorem ColType.std_v (d : ColType) : d.std.v = d.v := by
  cases d with
  | simple t => cases t <;> rfl
  | _ => rfl
theorem Alias.std_put (a : Alias) (r : ExprV) : a.std.put r = a.put r := by cases a <;> rfl
theorem TAlias.std_v (a : TAlias) : a.std.v = a.v := by
  cases a with
  | plain a => cases a <;> rfl
  | _ => rfl
theorem Interval.std_r (a : Interval) : a.std.r = a.r := by cases a <;> rfl
theorem Lit.std_r (a : Lit) : a.std.r = a.r := by
  cases a with
  | interval i => exact i.std_r
  | _ => rfl
theorem BinOp.std_v (a : BinOp) : a.std.v = a.v := by cases a <;> rfl

mutual
theorem Expr.std_r : ∀ e : Expr, e.std.r = e.r
  | .lit l => by simp only [Expr.std, Expr.r, Lit.std_r]
  | .param k => rfl
  | .col t n => rfl
  | .star t => rfl
  | .paren e => by simp only [Expr.std, Expr.r, e.std_r]
  | .query s => by simp only [Expr.std, Expr.r, s.std_r]
  | .neg e => by simp only [Expr.std, Expr.r, e.std_r]
  | .not e => by simp only [Expr.std, Expr.r, e.std_r]
  | .isNull _ e => by simp only [Expr.std, Expr.r, e.std_r]
  | .isNotNull e => by simp only [Expr.std, Expr.r, e.std_r]
  | .bin o a b => by simp only [Expr.std, Expr.r, a.std_r, b.std_r, BinOp.std_v]
  | .logic o a b => by simp only [Expr.std, Expr.r, a.std_r, b.std_r]
  | .inList no e l => by simp only [Expr.std, Expr.r, e.std_r, l.std_vals]
  | .inQuery no e s => by simp only [Expr.std, Expr.r, e.std_r, s.std_r]
  | .between e lo hi => by simp only [Expr.std, Expr.r, e.std_r, lo.std_r, hi.std_r]
  | .exist no s => by simp only [Expr.std, Expr.r, s.std_r]
  | .case x l e => by simp only [Expr.std, Expr.r, x.std_v, l.std_vals, e.std_v]
  | .call s f a w => by simp only [Expr.std, Expr.r, a.std_vals.1, a.std_vals.2, w.std_v]
  | .extract f e => by simp only [Expr.std, Expr.r, e.std_r]
  | .cast e t => by simp only [Expr.std, Expr.r, e.std_r, ColType.std_v]
  | .array l => by simp only [Expr.std, Expr.r, l.std_vals]
  | .index e n => by simp only [Expr.std, Expr.r, e.std_r]
theorem OExpr.std_v : ∀ e : OExpr, e.std.v = e.v
  | .none => rfl
  | .some e => by simp only [OExpr.std, OExpr.v, e.std_r]
theorem Items.std_vals : ∀ l : Items, l.std.vals = l.vals
  | .one e a => by simp only [Items.std, Items.vals, e.std_r, Alias.std_put]
  | .snoc l e a => by simp only [Items.std, Items.vals, e.std_r, Alias.std_put, l.std_vals]
theorem Whens.std_vals : ∀ l : Whens, l.std.vals = l.vals
  | .one w t => by simp only [Whens.std, Whens.vals, w.std_r, t.std_r]
  | .snoc l w t => by simp only [Whens.std, Whens.vals, w.std_r, t.std_r, l.std_vals]
theorem Args.std_vals : ∀ l : Args, l.std.vals = l.vals ∧ l.std.distinct = l.distinct
  | .none => ⟨rfl, rfl⟩
  | .some d l => ⟨by simp only [Args.std, Args.vals, l.std_vals], rfl⟩
theorem Window.std_v : ∀ w : Window, w.std.v = w.v
  | .none => rfl
  | .over p o f => by simp only [Window.std, Window.v, p.std_v, o.std_v, Frame.std_v]
theorem Partition.std_v : ∀ p : Partition, p.std.v = p.v
  | .none => rfl
  | .by l => by simp only [Partition.std, Partition.v, l.std_vals]
theorem Order.std_v : ∀ p : Order, p.std.v = p.v
  | .none => rfl
  | .by l => by simp only [Order.std, Order.v, l.std_vals]
theorem Orders.std_vals : ∀ l : Orders, l.std.vals = l.vals
  | .one e d n => by simp only [Orders.std, Orders.vals, e.std_r, Dir.std_v]
  | .snoc l e d n => by simp only [Orders.std, Orders.vals, e.std_r, Dir.std_v, l.std_vals]
theorem Sel.std_r : ∀ s : Sel, s.std.r = s.r
  | .plain c o .none k => by simp only [Sel.std, Sel.r, c.std_r, o.std_v, Limit.std]
  | .plain c o (.limit e) k => by simp only [Sel.std, Sel.r, c.std_r, o.std_v, Limit.std, Limit.v, e.std_r]
  | .plain c o (.offset e) k => by simp only [Sel.std, Sel.r, c.std_r, o.std_v, Limit.std, Limit.v, e.std_r]
  | .plain c o (.both e f) k => by simp only [Sel.std, Sel.r, c.std_r, o.std_v, Limit.std, Limit.v, e.std_r, f.std_r]
  | .plain c o .all k => by simp only [Sel.std, Sel.r, c.std_r, o.std_v, Limit.std, Limit.v]
  | .plain c o (.allOffset e) k => by simp only [Sel.std, Sel.r, c.std_r, o.std_v, Limit.std, Limit.v, e.std_r]
  | .set c op r o l k => by simp only [Sel.std, Sel.r, c.std_r, r.std_r, o.std_v, l.std_v]
theorem PSel.std_r : ∀ s : PSel, s.std.r = s.r
  | .one s => by simp only [PSel.std, PSel.r, s.std_r]
  | .more s => by simp only [PSel.std, PSel.r, s.std_r]
theorem Within.std_r : ∀ s : Within, s.std.r = s.r
  | .paren s => by simp only [Within.std, Within.r, s.std_r]
  | .clause c => by simp only [Within.std, Within.r, c.std_r]
  | .set c op r => by simp only [Within.std, Within.r, c.std_r, r.std_r]
theorem Clause.std_r : ∀ s : Clause, s.std.r = s.r
  | .mk t d l f w g => by simp only [Clause.std, Clause.r, l.std_vals, f.std_v, w.std_v, g.std_v]
theorem Group.std_v : ∀ g : Group, g.std.v = g.v
  | .none => rfl
  | .by l h => by simp only [Group.std, Group.v, l.std_vals, h.std_v]
theorem Limit.std_v : ∀ g : Limit, g.std.v = g.v
  | .none => rfl
  | .limit e => by simp only [Limit.std, Limit.v, e.std_r]
  | .offset e => by simp only [Limit.std, Limit.v, e.std_r]
  | .both e f => by simp only [Limit.std, Limit.v, e.std_r, f.std_r]
  | .all => rfl
  | .allOffset e => by simp only [Limit.std, Limit.v, e.std_r]
theorem From.std_v : ∀ g : From, g.std.v = g.v
  | .none => rfl
  | .one t => by simp only [From.std, From.v, t.std_r]
  | .many l t => by simp only [From.std, From.v, l.std_vals, t.std_r]
theorem Tables.std_vals : ∀ g : Tables, g.std.vals = g.vals
  | .one t => by simp only [Tables.std, Tables.vals, t.std_r]
  | .snoc l t => by simp only [Tables.std, Tables.vals, l.std_vals, t.std_r]
theorem TableN.std_r : ∀ g : TableN, g.std.r = g.r
  | .name t a => by simp only [TableN.std, TableN.r, TAlias.std_v]
  | .query s a => by simp only [TableN.std, TableN.r, TAlias.std_v, s.std_r]
theorem Table.std_r : ∀ g : Table, g.std.r = g.r
  | .base t => by simp only [Table.std, Table.r, t.std_r]
  | .natural l r => by simp only [Table.std, Table.r, l.std_r, r.std_r]
  | .on l j r c => by simp only [Table.std, Table.r, l.std_r, r.std_r, c.std_r, JoinType.std_v]
  | .using l j r cols => by simp only [Table.std, Table.r, l.std_r, r.std_r, JoinType.std_v]
theorem Query.std_r : ∀ g : Query, g.std.r = g.r
  | .paren w s => by simp only [Query.std, Query.r, w.std_v, s.std_r]
  | .plain w s => by simp only [Query.std, Query.r, w.std_v, s.std_r]
  | .set w s op n o l => by simp only [Query.std, Query.r, w.std_v, s.std_r, n.std_r, o.std_v, l.std_v]
theorem With.std_v : ∀ g : With, g.std.v = g.v
  | .none => rfl
  | .some l => by simp only [With.std, With.v, l.std_vals]
theorem Withs.std_vals : ∀ g : Withs, g.std.vals = g.vals
  | .one n s => by simp only [Withs.std, Withs.vals, s.std_r]
  | .snoc l n s => by simp only [Withs.std, Withs.vals, l.std_vals, s.std_r]
end

theorem Ext.std_r (e : Ext) : e.std.r = e.r := by cases e <;> simp only [Ext.std, Ext.r, Lit.std_r, Interval.std_r]
theorem XLit.std_r (e : XLit) : e.std.r = e.r := by cases e <;> simp only [XLit.std, XLit.r, Ext.std_r, ColType.std_v]
theorem XLits.std_vals : ∀ e : XLits, e.std.vals = e.vals
  | .one x => by simp only [XLits.std, XLits.vals, XLit.std_r]
  | .snoc l x => by simp only [XLits.std, XLits.vals, XLit.std_r, l.std_vals]
theorem Hint.std_r (e : Hint) : e.std.r = e.r := by cases e <;> simp only [Hint.std, Hint.r, XLits.std_vals]
theorem HintList.std_vals : ∀ e : HintList, e.std.vals = e.vals
  | .one x => by simp only [HintList.std, HintList.vals, Hint.std_r]
  | .snoc l x => by simp only [HintList.std, HintList.vals, Hint.std_r, l.std_vals]
theorem Hints.std_v (e : Hints) : e.std.v = e.v := by cases e <;> simp only [Hints.std, Hints.v, HintList.std_vals]
theorem CopyWith.std_r (e : CopyWith) : e.std.r = e.r := by cases e <;> rfl
theorem TableElem.std_v (e : TableElem) : e.std.v = e.v ∧ e.std.isColumn = e.isColumn := by
  cases e <;> first | exact ⟨rfl, rfl⟩ | exact ⟨by simp only [TableElem.std, TableElem.v, ColType.std_v], rfl⟩
theorem TableElems.std_list : ∀ e : TableElems, e.std.list = e.list.map TableElem.std
  | .one x => rfl
  | .snoc l x => by simp only [TableElems.std, TableElems.list, l.std_list, List.map_append, List.map_cons, List.map_nil]
theorem TableElems.std_cols (e : TableElems) : e.std.columns = e.columns ∧ e.std.constraints = e.constraints := by
  simp only [TableElems.columns, TableElems.constraints, e.std_list, List.filter_map, List.map_map]
  constructor <;> simp only [Function.comp_def, TableElem.std_v]
theorem Updates.std_vals : ∀ e : Updates, e.std.vals = e.vals
  | .one n x => by simp only [Updates.std, Updates.vals, Expr.std_r]
  | .snoc l n x => by simp only [Updates.std, Updates.vals, Expr.std_r, l.std_vals]
theorem Stmt.std_r (s : Stmt) : s.std.r = s.r := by
  cases s with
  | query q => simp only [Stmt.std, Stmt.r, Query.std_r]
  | createTable i t l => simp only [Stmt.std, Stmt.r, l.std_cols.1, l.std_cols.2]
  | createAs i t q => simp only [Stmt.std, Stmt.r, Query.std_r]
  | createView i t c q => simp only [Stmt.std, Stmt.r, Query.std_r]
  | insertValues t c l => simp only [Stmt.std, Stmt.r, XLits.std_vals]
  | insertQuery t c s => simp only [Stmt.std, Stmt.r, Sel.std_r]
  | delete t w => simp only [Stmt.std, Stmt.r, OExpr.std_v]
  | update t l w => simp only [Stmt.std, Stmt.r, OExpr.std_v, Updates.std_vals]
  | executeArgs n l =>
    cases l with
    | none => rfl
    | some l => simp only [Stmt.std, Stmt.r, xlitsV, XLits.std_vals]
  | _ => rfl
theorem Item.std_v (i : Item) (len : V) : i.std.v len = i.v len := by
  cases i with
  | stmt s h => simp only [Item.std, Item.v, Stmt.std_r, Hints.std_v]
  | copyFrom t p o w => simp only [Item.std, Item.v, CopyWith.std_r, OExpr.std_v]
  | copyTo t p o => simp only [Item.std, Item.v, CopyWith.std_r]
  | copyQuery s p o => simp only [Item.std, Item.v, CopyWith.std_r, PSel.std_r]
  | _ => rfl
theorem Script.std_items : ∀ s : Script, s.std.items = s.items.map Item.std
  | .one i => rfl
  | .snoc l i => by simp only [Script.std, Script.items, l.std_items, List.map_append, List.map_cons, List.map_nil]

end Verif.Sql

import Verif.Sql.StdOk
/-! The standard form has the same parameters, in the same order. Proof-internal. -/
namespace Verif.Sql
open Verif.Lex Verif.LR Verif.Sem

/-- The numbers of the parameters. -/
def pars : List Word → List Nat
  | [] => []
  | .par k :: ws => k :: pars ws
  | _ :: ws => pars ws

theorem pars_append : ∀ (ws us : List Word), pars (ws ++ us) = pars ws ++ pars us
  | [], us => rfl
  | w :: ws, us => by
    have := pars_append ws us
    cases w <;> simp only [List.cons_append, pars, this]

theorem pars_par (b : Bool) (ws : List Word) : pars (par b ws) = pars ws := by
  cases b <;> simp [par, cat, pars_append, pars]

theorem numbered_iff : ∀ (ws : List Word) (k : Nat), Numbered k ws ↔ pars ws = List.range' k (pars ws).length
  | [], k => by simp [Numbered, pars]
  | .par i :: ws, k => by
    have := numbered_iff ws (k + 1)
    simp only [Numbered, pars, List.length_cons, List.range'_succ, List.cons.injEq, this]
  | .kw _ :: ws, k => numbered_iff ws k
  | .id _ :: ws, k => numbered_iff ws k
  | .str _ :: ws, k => numbered_iff ws k
  | .int _ :: ws, k => numbered_iff ws k
  | .flt _ :: ws, k => numbered_iff ws k

theorem numbered_same {ws us : List Word} (h : pars ws = pars us) {k : Nat} (hn : Numbered k us) : Numbered k ws := by
  rw [numbered_iff] at hn ⊢; rw [h]; exact hn

theorem Names.pars : ∀ l : Names, Sql.pars l.words = []
  | .one n => rfl
  | .snoc l n => by simp [Names.words, cat, pars_append, l.pars, Sql.pars]
theorem TName.pars (t : TName) : Sql.pars t.words = [] := by rcases t with ⟨_ | s, n⟩ <;> rfl
theorem Dir.pars (t : Dir) : Sql.pars t.words = [] := by cases t <;> rfl
theorem Nulls.pars (t : Nulls) : Sql.pars t.words = [] := by cases t <;> rfl
theorem Bound.pars (t : Bound) : Sql.pars t.words = [] := by cases t <;> rfl
theorem Frame.pars (t : Frame) : Sql.pars t.words = [] := by cases t <;> simp [Frame.words, cat, pars_append, Bound.pars, Sql.pars]
theorem SetOp.pars (t : SetOp) : Sql.pars t.words = [] := by rcases t with ⟨_, _ | _⟩ <;> rfl
theorem LockMode.pars (t : LockMode) : Sql.pars t.words = [] := by cases t <;> rfl
theorem LockWait.pars (t : LockWait) : Sql.pars t.words = [] := by cases t <;> rfl
theorem Lock.pars (t : Lock) : Sql.pars t.words = [] := by rcases t with ⟨_, _ | _, _⟩ <;> simp [Lock.words, cat, pars_append, LockMode.pars, LockWait.pars, Names.pars, Sql.pars]
theorem LockList.pars : ∀ t : LockList, Sql.pars t.words = []
  | .one k => k.pars
  | .snoc l k => by simp [LockList.words, cat, pars_append, Lock.pars, l.pars]
theorem Locks.pars (t : Locks) : Sql.pars t.words = [] := by cases t <;> simp [Locks.words, LockList.pars, Sql.pars]
theorem JoinType.pars (t : JoinType) : Sql.pars t.words = [] := by
  cases t with
  | left b => cases b <;> rfl
  | right b => cases b <;> rfl
  | full b => cases b <;> rfl
  | _ => rfl
theorem ColType.pars (t : ColType) : Sql.pars t.words = [] := by cases t <;> rfl
theorem Alias.pars (t : Alias) : Sql.pars t.words = [] := by cases t <;> rfl
theorem TAlias.pars (t : TAlias) : Sql.pars t.words = [] := by
  cases t with
  | plain a => exact a.pars
  | cols n l => simp [TAlias.words, cat, pars_append, l.pars, Sql.pars]
theorem Interval.pars (t : Interval) : Sql.pars t.words = [] := by
  cases t with
  | short n f b => cases b <;> rfl
  | _ => rfl
theorem Num.pars (t : Num) : Sql.pars t.words = [] := by cases t <;> rfl
theorem Lit.pars (t : Lit) : Sql.pars t.words = [] := by
  cases t with
  | bool b => cases b <;> rfl
  | num n => exact n.pars
  | interval i => exact i.pars
  | _ => rfl
theorem BinOp.pars (t : BinOp) : Sql.pars t.words = [] := by cases t <;> rfl
theorem distinctKw_pars (b : Bool) : Sql.pars (distinctKw b) = [] := by cases b <;> rfl
theorem topWords_pars (b : Option Int) : Sql.pars (topWords b) = [] := by cases b <;> rfl
theorem pars_kw (a : Nat) : Sql.pars (Sql.kw a) = [] := rfl
theorem pars_nm (a : Name) : Sql.pars (nm a) = [] := rfl
theorem pars_int (a : Int) : Sql.pars [.int a] = [] := rfl
theorem pars_str (a : Bytes) : Sql.pars [.str a] = [] := rfl
theorem pars_nil : Sql.pars [] = [] := rfl

macro "ps" "[" ts:Lean.Parser.Tactic.simpLemma,* "]" : tactic => `(tactic| simp only [cat, pars_append, pars_par, pars_kw, pars_nm, pars_int, pars_str, pars_nil, List.append_nil, List.nil_append, Names.pars, TName.pars, Dir.pars, Nulls.pars, Frame.pars, SetOp.pars,
  Locks.pars, JoinType.pars, ColType.pars, Alias.pars, TAlias.pars, Lit.pars, Num.pars, Interval.pars, BinOp.pars, distinctKw_pars, topWords_pars, $ts,*])

mutual
theorem Expr.std_pars : ∀ e : Expr, pars e.std.words = pars e.words
  | .lit l => by ps [Expr.std, Expr.words]
  | .param k => rfl
  | .col t n => rfl
  | .star t => rfl
  | .paren e => by ps [Expr.std, Expr.words, e.std_pars]
  | .query s => by ps [Expr.std, Expr.words, s.std_pars]
  | .neg e => by ps [Expr.std, Expr.words, e.std_pars]
  | .not e => by ps [Expr.std, Expr.words, e.std_pars]
  | .isNull true e => by ps [Expr.std, Expr.words, e.std_pars]
  | .isNull false e => by ps [Expr.std, Expr.words, e.std_pars]
  | .isNotNull e => by ps [Expr.std, Expr.words, e.std_pars]
  | .bin o a b => by ps [Expr.std, Expr.words, a.std_pars, b.std_pars]
  | .logic o a b => by ps [Expr.std, Expr.words, a.std_pars, b.std_pars]
  | .inList false e l => by ps [Expr.std, Expr.words, e.std_pars, l.std_pars]
  | .inList true e l => by ps [Expr.std, Expr.words, e.std_pars, l.std_pars]
  | .inQuery false e s => by ps [Expr.std, Expr.words, e.std_pars, s.std_pars]
  | .inQuery true e s => by ps [Expr.std, Expr.words, e.std_pars, s.std_pars]
  | .between e lo hi => by ps [Expr.std, Expr.words, e.std_pars, lo.std_pars, hi.std_pars]
  | .exist false s => by ps [Expr.std, Expr.words, s.std_pars]
  | .exist true s => by ps [Expr.std, Expr.words, s.std_pars]
  | .case x l .none => by ps [Expr.std, OExpr.std, Expr.words, x.std_pars, l.std_pars]
  | .case x l (.some e) => by ps [Expr.std, OExpr.std, Expr.words, x.std_pars, l.std_pars, e.std_pars]
  | .call none f a w => by ps [Expr.std, Expr.words, a.std_pars, w.std_pars]
  | .call (some s) f a w => by ps [Expr.std, Expr.words, a.std_pars, w.std_pars]
  | .extract f e => by ps [Expr.std, Expr.words, e.std_pars]
  | .cast e t => by ps [Expr.std, Expr.words, e.std_pars]
  | .array l => by ps [Expr.std, Expr.words, l.std_pars]
  | .index e n => by ps [Expr.std, Expr.words, e.std_pars]
theorem OExpr.std_pars : ∀ e : OExpr, pars e.std.words = pars e.words
  | .none => rfl
  | .some e => by ps [OExpr.std, OExpr.words, e.std_pars]
theorem Items.std_pars : ∀ l : Items, pars l.std.words = pars l.words
  | .one e a => by ps [Items.std, Items.words, e.std_pars]
  | .snoc l e a => by ps [Items.std, Items.words, e.std_pars, l.std_pars]
theorem Whens.std_pars : ∀ l : Whens, pars l.std.words = pars l.words
  | .one w t => by ps [Whens.std, Whens.words, w.std_pars, t.std_pars]
  | .snoc l w t => by ps [Whens.std, Whens.words, w.std_pars, t.std_pars, l.std_pars]
theorem Args.std_pars : ∀ l : Args, pars l.std.words = pars l.words
  | .none => rfl
  | .some d l => by ps [Args.std, Args.words, l.std_pars]
theorem Window.std_pars : ∀ w : Window, pars w.std.words = pars w.words
  | .none => rfl
  | .over p o f => by ps [Window.std, Window.words, p.std_pars, o.std_pars]
theorem Partition.std_pars : ∀ p : Partition, pars p.std.words = pars p.words
  | .none => rfl
  | .by l => by ps [Partition.std, Partition.words, l.std_pars]
theorem Order.std_pars : ∀ p : Order, pars p.std.words = pars p.words
  | .none => rfl
  | .by l => by ps [Order.std, Order.words, l.std_pars]
theorem Orders.std_pars : ∀ l : Orders, pars l.std.words = pars l.words
  | .one e d n => by ps [Orders.std, Orders.words, e.std_pars]
  | .snoc l e d n => by ps [Orders.std, Orders.words, e.std_pars, l.std_pars]
theorem Sel.std_pars : ∀ s : Sel, pars s.std.words = pars s.words
  | .plain c o l k => by ps [Sel.std, Sel.words, c.std_pars, o.std_pars, l.std_pars]
  | .set c op r o l k => by ps [Sel.std, Sel.words, c.std_pars, r.std_pars, o.std_pars, l.std_pars]
theorem PSel.std_pars : ∀ s : PSel, pars s.std.words = pars s.words
  | .one s => by ps [PSel.std, PSel.words, s.std_pars]
  | .more s => by ps [PSel.std, PSel.words, s.std_pars]
theorem Within.std_pars : ∀ s : Within, pars s.std.words = pars s.words
  | .paren s => by ps [Within.std, Within.words, s.std_pars]
  | .clause c => by ps [Within.std, Within.words, c.std_pars]
  | .set c op r => by ps [Within.std, Within.words, c.std_pars, r.std_pars]
theorem Clause.std_pars : ∀ s : Clause, pars s.std.words = pars s.words
  | .mk t d l f .none g => by ps [Clause.std, OExpr.std, Clause.words, l.std_pars, f.std_pars, g.std_pars]
  | .mk t d l f (.some e) g => by ps [Clause.std, OExpr.std, Clause.words, l.std_pars, f.std_pars, e.std_pars, g.std_pars]
theorem Group.std_pars : ∀ g : Group, pars g.std.words = pars g.words
  | .none => rfl
  | .by l .none => by ps [Group.std, OExpr.std, Group.words, l.std_pars]
  | .by l (.some e) => by ps [Group.std, OExpr.std, Group.words, l.std_pars, e.std_pars]
theorem Limit.std_pars : ∀ g : Limit, pars g.std.words = pars g.words
  | .none => rfl
  | .limit e => by ps [Limit.std, Limit.words, e.std_pars]
  | .offset e => by ps [Limit.std, Limit.words, e.std_pars]
  | .both e f => by ps [Limit.std, Limit.words, e.std_pars, f.std_pars]
  | .all => rfl
  | .allOffset e => by ps [Limit.std, Limit.words, e.std_pars]
theorem From.std_pars : ∀ g : From, pars g.std.words = pars g.words
  | .none => rfl
  | .one t => by ps [From.std, From.words, t.std_pars]
  | .many l t => by ps [From.std, From.words, l.std_pars, t.std_pars]
theorem Tables.std_pars : ∀ g : Tables, pars g.std.words = pars g.words
  | .one t => by ps [Tables.std, Tables.words, t.std_pars]
  | .snoc l t => by ps [Tables.std, Tables.words, l.std_pars, t.std_pars]
theorem TableN.std_pars : ∀ g : TableN, pars g.std.words = pars g.words
  | .name t a => by ps [TableN.std, TableN.words]
  | .query s a => by ps [TableN.std, TableN.words, s.std_pars]
theorem Table.std_pars : ∀ g : Table, pars g.std.words = pars g.words
  | .base t => by ps [Table.std, Table.words, t.std_pars]
  | .natural l r => by ps [Table.std, Table.words, l.std_pars, r.std_pars]
  | .on l j r c => by ps [Table.std, Table.words, l.std_pars, r.std_pars, c.std_pars]
  | .using l j r cols => by ps [Table.std, Table.words, l.std_pars, r.std_pars]
theorem Query.std_pars : ∀ g : Query, pars g.std.words = pars g.words
  | .paren w s => by ps [Query.std, Query.words, w.std_pars, s.std_pars]
  | .plain w s => by ps [Query.std, Query.words, w.std_pars, s.std_pars]
  | .set w s op n o l => by ps [Query.std, Query.words, w.std_pars, s.std_pars, n.std_pars, o.std_pars, l.std_pars]
theorem With.std_pars : ∀ g : With, pars g.std.words = pars g.words
  | .none => rfl
  | .some l => by ps [With.std, With.words, l.std_pars]
theorem Withs.std_pars : ∀ g : Withs, pars g.std.words = pars g.words
  | .one n s => by ps [Withs.std, Withs.words, s.std_pars]
  | .snoc l n s => by ps [Withs.std, Withs.words, l.std_pars, s.std_pars]
end

theorem Ext.pars (e : Ext) : Sql.pars e.words = [] := by cases e <;> ps [Ext.words]
theorem XLit.pars (e : XLit) : Sql.pars e.words = [] := by cases e <;> ps [XLit.words, Ext.pars]
theorem XLits.pars : ∀ e : XLits, Sql.pars e.words = []
  | .one x => x.pars
  | .snoc l x => by ps [XLits.words, XLit.pars, l.pars]
theorem Hint.pars (e : Hint) : Sql.pars e.words = [] := by cases e <;> ps [Hint.words, XLits.pars]
theorem HintList.pars : ∀ e : HintList, Sql.pars e.words = []
  | .one x => x.pars
  | .snoc l x => by ps [HintList.words, Hint.pars, l.pars]
theorem Hints.pars (e : Hints) : Sql.pars e.words = [] := by cases e <;> ps [Hints.words, HintList.pars]
theorem CopyOpt.pars (e : CopyOpt) : Sql.pars e.words = [] := by cases e <;> ps [CopyOpt.words]
theorem CopyOpts.pars : ∀ e : CopyOpts, Sql.pars e.words = []
  | .one x => x.pars
  | .snoc l x => by ps [CopyOpts.words, CopyOpt.pars, l.pars]
theorem CopyWith.pars (e : CopyWith) : Sql.pars e.words = [] := by
  cases e with
  | none => rfl
  | opts b l ok => cases b <;> ps [CopyWith.words, CopyOpts.pars]
theorem colsWords_pars (c : Option Names) : Sql.pars (colsWords c) = [] := by cases c <;> ps [colsWords]
theorem Constraint.pars (e : Constraint) : Sql.pars e.words = [] := by cases e <;> ps [Constraint.words, colsWords_pars]
theorem Constraints.pars : ∀ e : Constraints, Sql.pars e.words = []
  | .one x => x.pars
  | .snoc l x => by ps [Constraints.words, Constraint.pars, l.pars]
theorem ColCons.pars (e : ColCons) : Sql.pars e.words = [] := by cases e <;> ps [ColCons.words, Constraints.pars]
theorem TableElem.pars (e : TableElem) : Sql.pars e.words = [] := by cases e <;> ps [TableElem.words, ColCons.pars, colsWords_pars]
theorem TableElems.pars : ∀ e : TableElems, Sql.pars e.words = []
  | .one x => x.pars
  | .snoc l x => by ps [TableElems.words, TableElem.pars, l.pars]
theorem Updates.std_pars : ∀ e : Updates, pars e.std.words = pars e.words
  | .one n x => by ps [Updates.std, Updates.words, Expr.std_pars]
  | .snoc l n x => by ps [Updates.std, Updates.words, Expr.std_pars, l.std_pars]
theorem whereW_std (w : OExpr) : pars (whereW w.std) = pars (whereW w) := by cases w <;> ps [OExpr.std, whereW, Expr.std_pars]
theorem Stmt.std_pars (s : Stmt) : pars s.std.words = pars s.words := by
  cases s with
  | executeArgs n l =>
    cases l with
    | none => rfl
    | some l => ps [Stmt.std, Stmt.words, xlitsW, XLits.pars]
  | transaction c b => cases b <;> rfl
  | truncate t => ps [Stmt.std, Stmt.words, whereW]
  | _ => ps [Stmt.std, Stmt.words, Query.std_pars, Sel.std_pars, TableElems.pars, XLits.pars, Updates.std_pars, whereW_std]
theorem Item.std_pars (i : Item) : pars i.std.words = pars i.words := by
  cases i <;> ps [Item.std, Item.words, Stmt.std_pars, Hints.pars, CopyWith.pars, whereW_std, PSel.std_pars]
theorem Script.std_pars : ∀ s : Script, pars s.std.words = pars s.words
  | .one i => i.std_pars
  | .snoc l i => by ps [Script.std, Script.words, l.std_pars, Item.std_pars]
theorem Script.std_pars_text (s : Script) (b : Bool) : pars (s.std.text b) = pars (s.text b) := by
  cases b
  · exact s.std_pars
  · ps [Script.text, s.std_pars]

end Verif.Sql

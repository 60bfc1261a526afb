import Verif.Sql.Bind
import Verif.Sql.StdPars
/-! Binding parameters commutes with writing down. Proof-internal. -/
namespace Verif.Sql
open Verif.Lex Verif.LR Verif.Sem

theorem Expr.bind_opnd (f : Nat → Lit) (e : Expr) : (e.bind f).isOpnd = e.isOpnd := by cases e <;> rfl

theorem Expr.bind_lev (f : Nat → Lit) : ∀ e : Expr, (e.bind f).lev = e.lev
  | .neg e => by simp only [Expr.bind, Expr.lev, e.bind_lev f, e.bind_opnd f]
  | .not e => by simp only [Expr.bind, Expr.lev, e.bind_lev f, e.bind_opnd f]
  | .isNull true e => by simp only [Expr.bind, Expr.lev, e.bind_lev f, e.bind_opnd f]
  | .isNull false e => by simp only [Expr.bind, Expr.lev, e.bind_lev f, e.bind_opnd f]
  | .isNotNull e => by simp only [Expr.bind, Expr.lev, e.bind_lev f, e.bind_opnd f]
  | .index e _ => by simp only [Expr.bind, Expr.lev, e.bind_lev f, e.bind_opnd f]
  | .bin o a b => by simp only [Expr.bind, Expr.lev, a.bind_lev f, a.bind_opnd f, b.bind_lev f, b.bind_opnd f]
  | .logic o a b => by simp only [Expr.bind, Expr.lev, a.bind_lev f, b.bind_lev f]
  | .inList true e _ => by simp only [Expr.bind, Expr.lev, e.bind_lev f, e.bind_opnd f]
  | .inList false e _ => by simp only [Expr.bind, Expr.lev, e.bind_lev f, e.bind_opnd f]
  | .inQuery true e _ => by simp only [Expr.bind, Expr.lev, e.bind_lev f, e.bind_opnd f]
  | .inQuery false e _ => by simp only [Expr.bind, Expr.lev, e.bind_lev f, e.bind_opnd f]
  | .between e _ hi => by simp only [Expr.bind, Expr.lev, e.bind_lev f, e.bind_opnd f, hi.bind_lev f, hi.bind_opnd f]
  | .lit _ => rfl
  | .param _ => rfl
  | .col _ _ => rfl
  | .star _ => rfl
  | .paren _ => rfl
  | .query _ => rfl
  | .exist _ _ => rfl
  | .case _ _ _ => rfl
  | .call _ _ _ _ => rfl
  | .extract _ _ => rfl
  | .cast _ _ => rfl
  | .array _ => rfl

theorem Expr.bind_fitL (f : Nat → Lit) (p : Nat) (e : Expr) : (e.bind f).fitL p = e.fitL p := by simp only [Expr.fitL, e.bind_lev, e.bind_opnd]
theorem Expr.bind_fitR (f : Nat → Lit) (p : Nat) (e : Expr) : (e.bind f).fitR p = e.fitR p := by simp only [Expr.fitR, e.bind_lev, e.bind_opnd]
theorem Expr.bind_fitLogL (f : Nat → Lit) (p : Nat) (e : Expr) : (e.bind f).fitLogL p = e.fitLogL p := by simp only [Expr.fitLogL, e.bind_lev]
theorem Expr.bind_fitLogR (f : Nat → Lit) (p : Nat) (e : Expr) : (e.bind f).fitLogR p = e.fitLogR p := by simp only [Expr.fitLogR, e.bind_lev]

theorem bindW_append (f : Nat → Lit) : ∀ (ws us : List Word), bindW f (ws ++ us) = bindW f ws ++ bindW f us
  | [], us => rfl
  | w :: ws, us => by
    have := bindW_append f ws us
    cases w <;> simp only [List.cons_append, bindW, this, List.append_assoc]

theorem bindW_kw (f : Nat → Lit) (a : Nat) : bindW f (Sql.kw a) = Sql.kw a := rfl
theorem bindW_nil (f : Nat → Lit) : bindW f [] = [] := rfl
theorem bindW_par (f : Nat → Lit) (b : Bool) (ws : List Word) : bindW f (par b ws) = par b (bindW f ws) := by
  cases b <;> simp only [par, cat, bindW_append, bindW_kw, cond_false, cond_true]

theorem bindW_id (f : Nat → Lit) : ∀ {ws : List Word}, pars ws = [] → bindW f ws = ws
  | [], _ => rfl
  | .par _ :: _, h => by cases h
  | .kw _ :: ws, h => congrArg _ (bindW_id f (ws := ws) h)
  | .id _ :: ws, h => congrArg _ (bindW_id f (ws := ws) h)
  | .str _ :: ws, h => congrArg _ (bindW_id f (ws := ws) h)
  | .int _ :: ws, h => congrArg _ (bindW_id f (ws := ws) h)
  | .flt _ :: ws, h => congrArg _ (bindW_id f (ws := ws) h)

theorem Names.bindW (f : Nat → Lit) (t : Names) : Sql.bindW f t.words = t.words := bindW_id f t.pars
theorem TName.bindW (f : Nat → Lit) (t : TName) : Sql.bindW f t.words = t.words := bindW_id f t.pars
theorem Dir.bindW (f : Nat → Lit) (t : Dir) : Sql.bindW f t.words = t.words := bindW_id f t.pars
theorem Nulls.bindW (f : Nat → Lit) (t : Nulls) : Sql.bindW f t.words = t.words := bindW_id f t.pars
theorem Frame.bindW (f : Nat → Lit) (t : Frame) : Sql.bindW f t.words = t.words := bindW_id f t.pars
theorem SetOp.bindW (f : Nat → Lit) (t : SetOp) : Sql.bindW f t.words = t.words := bindW_id f t.pars
theorem Locks.bindW (f : Nat → Lit) (t : Locks) : Sql.bindW f t.words = t.words := bindW_id f t.pars
theorem JoinType.bindW (f : Nat → Lit) (t : JoinType) : Sql.bindW f t.words = t.words := bindW_id f t.pars
theorem ColType.bindW (f : Nat → Lit) (t : ColType) : Sql.bindW f t.words = t.words := bindW_id f t.pars
theorem Alias.bindW (f : Nat → Lit) (t : Alias) : Sql.bindW f t.words = t.words := bindW_id f t.pars
theorem TAlias.bindW (f : Nat → Lit) (t : TAlias) : Sql.bindW f t.words = t.words := bindW_id f t.pars
theorem Lit.bindW (f : Nat → Lit) (t : Lit) : Sql.bindW f t.words = t.words := bindW_id f t.pars
theorem Num.bindW (f : Nat → Lit) (t : Num) : Sql.bindW f t.words = t.words := bindW_id f t.pars
theorem Interval.bindW (f : Nat → Lit) (t : Interval) : Sql.bindW f t.words = t.words := bindW_id f t.pars
theorem BinOp.bindW (f : Nat → Lit) (t : BinOp) : Sql.bindW f t.words = t.words := bindW_id f t.pars
theorem distinctKw_bindW (f : Nat → Lit) (b : Bool) : bindW f (distinctKw b) = distinctKw b := bindW_id f (distinctKw_pars b)
theorem topWords_bindW (f : Nat → Lit) (b : Option Int) : bindW f (topWords b) = topWords b := bindW_id f (topWords_pars b)
theorem bindW_nm (f : Nat → Lit) (a : Name) : bindW f (nm a) = nm a := rfl
theorem bindW_int (f : Nat → Lit) (a : Int) : bindW f [.int a] = [.int a] := rfl
theorem bindW_str (f : Nat → Lit) (a : Bytes) : bindW f [.str a] = [.str a] := rfl

macro "bw" "[" ts:Lean.Parser.Tactic.simpLemma,* "]" : tactic => `(tactic| simp only [cat, bindW_append, bindW_par, bindW_kw, bindW_nm, bindW_int, bindW_str, bindW_nil,
  Names.bindW, TName.bindW, Dir.bindW, Nulls.bindW, Frame.bindW, SetOp.bindW, Locks.bindW, JoinType.bindW, ColType.bindW, Alias.bindW, TAlias.bindW, Lit.bindW, Num.bindW, Interval.bindW, BinOp.bindW, distinctKw_bindW, topWords_bindW,
  Expr.bind_fitL, Expr.bind_fitR, Expr.bind_fitLogL, Expr.bind_fitLogR, Expr.bind_opnd, $ts,*])

mutual
theorem Expr.bind_words (f : Nat → Lit) : ∀ e : Expr, (e.bind f).words = bindW f e.words
  | .lit l => by bw [Expr.bind, Expr.words]
  | .param k => (List.append_nil _).symm
  | .col none n => rfl
  | .col (some t) n => rfl
  | .star none => rfl
  | .star (some t) => rfl
  | .paren e => by bw [Expr.bind, Expr.words, e.bind_words f]
  | .query s => by bw [Expr.bind, Expr.words, s.bind_words f]
  | .neg e => by bw [Expr.bind, Expr.words, e.bind_words f]
  | .not e => by bw [Expr.bind, Expr.words, e.bind_words f]
  | .isNull true e => by bw [Expr.bind, Expr.words, e.bind_words f]
  | .isNull false e => by bw [Expr.bind, Expr.words, e.bind_words f]
  | .isNotNull e => by bw [Expr.bind, Expr.words, e.bind_words f]
  | .bin o a b => by bw [Expr.bind, Expr.words, a.bind_words f, b.bind_words f]
  | .logic o a b => by bw [Expr.bind, Expr.words, a.bind_words f, b.bind_words f]
  | .inList false e l => by bw [Expr.bind, Expr.words, e.bind_words f, l.bind_words f]
  | .inList true e l => by bw [Expr.bind, Expr.words, e.bind_words f, l.bind_words f]
  | .inQuery false e s => by bw [Expr.bind, Expr.words, e.bind_words f, s.bind_words f]
  | .inQuery true e s => by bw [Expr.bind, Expr.words, e.bind_words f, s.bind_words f]
  | .between e lo hi => by bw [Expr.bind, Expr.words, e.bind_words f, lo.bind_words f, hi.bind_words f]
  | .exist false s => by bw [Expr.bind, Expr.words, s.bind_words f]
  | .exist true s => by bw [Expr.bind, Expr.words, s.bind_words f]
  | .case x l .none => by bw [Expr.bind, OExpr.bind, Expr.words, x.bind_words f, l.bind_words f]
  | .case x l (.some e) => by bw [Expr.bind, OExpr.bind, Expr.words, x.bind_words f, l.bind_words f, e.bind_words f]
  | .call none n a w => by bw [Expr.bind, Expr.words, a.bind_words f, w.bind_words f]
  | .call (some s) n a w => by bw [Expr.bind, Expr.words, a.bind_words f, w.bind_words f]
  | .extract d e => by bw [Expr.bind, Expr.words, e.bind_words f]
  | .cast e t => by bw [Expr.bind, Expr.words, e.bind_words f]
  | .array l => by bw [Expr.bind, Expr.words, l.bind_words f]
  | .index e n => by bw [Expr.bind, Expr.words, e.bind_words f]
theorem OExpr.bind_words (f : Nat → Lit) : ∀ e : OExpr, (e.bind f).words = bindW f e.words
  | .none => rfl
  | .some e => by bw [OExpr.bind, OExpr.words, e.bind_words f]
theorem Items.bind_words (f : Nat → Lit) : ∀ l : Items, (l.bind f).words = bindW f l.words
  | .one e a => by bw [Items.bind, Items.words, e.bind_words f]
  | .snoc l e a => by bw [Items.bind, Items.words, e.bind_words f, l.bind_words f]
theorem Whens.bind_words (f : Nat → Lit) : ∀ l : Whens, (l.bind f).words = bindW f l.words
  | .one w t => by bw [Whens.bind, Whens.words, w.bind_words f, t.bind_words f]
  | .snoc l w t => by bw [Whens.bind, Whens.words, w.bind_words f, t.bind_words f, l.bind_words f]
theorem Args.bind_words (f : Nat → Lit) : ∀ l : Args, (l.bind f).words = bindW f l.words
  | .none => rfl
  | .some d l => by bw [Args.bind, Args.words, l.bind_words f]
theorem Window.bind_words (f : Nat → Lit) : ∀ w : Window, (w.bind f).words = bindW f w.words
  | .none => rfl
  | .over p o fr => by bw [Window.bind, Window.words, p.bind_words f, o.bind_words f]
theorem Partition.bind_words (f : Nat → Lit) : ∀ p : Partition, (p.bind f).words = bindW f p.words
  | .none => rfl
  | .by l => by bw [Partition.bind, Partition.words, l.bind_words f]
theorem Order.bind_words (f : Nat → Lit) : ∀ p : Order, (p.bind f).words = bindW f p.words
  | .none => rfl
  | .by l => by bw [Order.bind, Order.words, l.bind_words f]
theorem Orders.bind_words (f : Nat → Lit) : ∀ l : Orders, (l.bind f).words = bindW f l.words
  | .one e d n => by bw [Orders.bind, Orders.words, e.bind_words f]
  | .snoc l e d n => by bw [Orders.bind, Orders.words, e.bind_words f, l.bind_words f]
theorem Sel.bind_words (f : Nat → Lit) : ∀ s : Sel, (s.bind f).words = bindW f s.words
  | .plain c o l k => by bw [Sel.bind, Sel.words, c.bind_words f, o.bind_words f, l.bind_words f]
  | .set c op r o l k => by bw [Sel.bind, Sel.words, c.bind_words f, r.bind_words f, o.bind_words f, l.bind_words f]
theorem PSel.bind_words (f : Nat → Lit) : ∀ s : PSel, (s.bind f).words = bindW f s.words
  | .one s => by bw [PSel.bind, PSel.words, s.bind_words f]
  | .more s => by bw [PSel.bind, PSel.words, s.bind_words f]
theorem Within.bind_words (f : Nat → Lit) : ∀ s : Within, (s.bind f).words = bindW f s.words
  | .paren s => by bw [Within.bind, Within.words, s.bind_words f]
  | .clause c => by bw [Within.bind, Within.words, c.bind_words f]
  | .set c op r => by bw [Within.bind, Within.words, c.bind_words f, r.bind_words f]
theorem Clause.bind_words (f : Nat → Lit) : ∀ s : Clause, (s.bind f).words = bindW f s.words
  | .mk t d l fr .none g => by bw [Clause.bind, OExpr.bind, Clause.words, l.bind_words f, fr.bind_words f, g.bind_words f]
  | .mk t d l fr (.some e) g => by bw [Clause.bind, OExpr.bind, Clause.words, l.bind_words f, fr.bind_words f, e.bind_words f, g.bind_words f]
theorem Group.bind_words (f : Nat → Lit) : ∀ g : Group, (g.bind f).words = bindW f g.words
  | .none => rfl
  | .by l .none => by bw [Group.bind, OExpr.bind, Group.words, l.bind_words f]
  | .by l (.some e) => by bw [Group.bind, OExpr.bind, Group.words, l.bind_words f, e.bind_words f]
theorem Limit.bind_words (f : Nat → Lit) : ∀ g : Limit, (g.bind f).words = bindW f g.words
  | .none => rfl
  | .limit e => by bw [Limit.bind, Limit.words, e.bind_words f]
  | .offset e => by bw [Limit.bind, Limit.words, e.bind_words f]
  | .both e o => by bw [Limit.bind, Limit.words, e.bind_words f, o.bind_words f]
  | .all => rfl
  | .allOffset e => by bw [Limit.bind, Limit.words, e.bind_words f]
theorem From.bind_words (f : Nat → Lit) : ∀ g : From, (g.bind f).words = bindW f g.words
  | .none => rfl
  | .one t => by bw [From.bind, From.words, t.bind_words f]
  | .many l t => by bw [From.bind, From.words, l.bind_words f, t.bind_words f]
theorem Tables.bind_words (f : Nat → Lit) : ∀ g : Tables, (g.bind f).words = bindW f g.words
  | .one t => by bw [Tables.bind, Tables.words, t.bind_words f]
  | .snoc l t => by bw [Tables.bind, Tables.words, l.bind_words f, t.bind_words f]
theorem TableN.bind_words (f : Nat → Lit) : ∀ g : TableN, (g.bind f).words = bindW f g.words
  | .name t a => by bw [TableN.bind, TableN.words]
  | .query s a => by bw [TableN.bind, TableN.words, s.bind_words f]
theorem Table.bind_words (f : Nat → Lit) : ∀ g : Table, (g.bind f).words = bindW f g.words
  | .base t => by bw [Table.bind, Table.words, t.bind_words f]
  | .natural l r => by bw [Table.bind, Table.words, l.bind_words f, r.bind_words f]
  | .on l j r c => by bw [Table.bind, Table.words, l.bind_words f, r.bind_words f, c.bind_words f]
  | .using l j r cols => by bw [Table.bind, Table.words, l.bind_words f, r.bind_words f]
theorem Query.bind_words (f : Nat → Lit) : ∀ g : Query, (g.bind f).words = bindW f g.words
  | .paren w s => by bw [Query.bind, Query.words, w.bind_words f, s.bind_words f]
  | .plain w s => by bw [Query.bind, Query.words, w.bind_words f, s.bind_words f]
  | .set w s op n o l => by bw [Query.bind, Query.words, w.bind_words f, s.bind_words f, n.bind_words f, o.bind_words f, l.bind_words f]
theorem With.bind_words (f : Nat → Lit) : ∀ g : With, (g.bind f).words = bindW f g.words
  | .none => rfl
  | .some l => by bw [With.bind, With.words, l.bind_words f]
theorem Withs.bind_words (f : Nat → Lit) : ∀ g : Withs, (g.bind f).words = bindW f g.words
  | .one n s => by bw [Withs.bind, Withs.words, s.bind_words f]
  | .snoc l n s => by bw [Withs.bind, Withs.words, l.bind_words f, s.bind_words f]
end

theorem Updates.bind_words (f : Nat → Lit) : ∀ e : Updates, (e.bind f).words = bindW f e.words
  | .one n x => by bw [Updates.bind, Updates.words, Expr.bind_words]
  | .snoc l n x => by bw [Updates.bind, Updates.words, Expr.bind_words, l.bind_words f]
theorem whereW_bind (f : Nat → Lit) (w : OExpr) : whereW (w.bind f) = bindW f (whereW w) := by cases w <;> bw [OExpr.bind, whereW, Expr.bind_words]
theorem ifNotExists_bindW (f : Nat → Lit) (b : Bool) : bindW f (ifNotExists b) = ifNotExists b := by cases b <;> rfl
theorem colsWords_bindW (f : Nat → Lit) (c : Option Names) : bindW f (colsWords c) = colsWords c := bindW_id f (colsWords_pars c)
theorem ifExists_pars (b : Bool) : pars (ifExists b) = [] := by cases b <;> rfl
theorem ifNotExists_pars (b : Bool) : pars (ifNotExists b) = [] := by cases b <;> rfl
theorem nameW_pars (b : Option Name) : pars (nameW b) = [] := by cases b <;> rfl
theorem xlitsW_pars (b : Option XLits) : pars (xlitsW b) = [] := by
  cases b with
  | none => rfl
  | some l => exact l.pars
theorem Stmt.bind_words (f : Nat → Lit) (s : Stmt) : (s.bind f).words = bindW f s.words := by
  cases s with
  | query q => bw [Stmt.bind, Stmt.words, Query.bind_words]
  | createAs i t q => bw [Stmt.bind, Stmt.words, Query.bind_words, ifNotExists_bindW]
  | createView i t c q => bw [Stmt.bind, Stmt.words, Query.bind_words, ifNotExists_bindW, colsWords_bindW]
  | insertQuery t c s => bw [Stmt.bind, Stmt.words, Sel.bind_words, colsWords_bindW]
  | delete t w => bw [Stmt.bind, Stmt.words, whereW_bind]
  | update t l w => bw [Stmt.bind, Stmt.words, whereW_bind, Updates.bind_words]
  | transaction c b => cases b <;> rfl
  | _ =>
    symm
    apply bindW_id
    ps [Stmt.words, TableElems.pars, XLits.pars, ifExists_pars, ifNotExists_pars, nameW_pars, xlitsW_pars, colsWords_pars]
theorem Item.bind_words (f : Nat → Lit) (i : Item) : (i.bind f).words = bindW f i.words := by
  cases i with
  | stmt s h => bw [Item.bind, Item.words, Stmt.bind_words, bindW_id f h.pars]
  | copyFrom t p o w => bw [Item.bind, Item.words, whereW_bind, bindW_id f o.pars]
  | copyQuery s p o => bw [Item.bind, Item.words, PSel.bind_words, bindW_id f o.pars]
  | _ =>
    symm
    apply bindW_id
    ps [Item.words, CopyWith.pars]
theorem Script.bind_words (f : Nat → Lit) : ∀ s : Script, (s.bind f).words = bindW f s.words
  | .one i => i.bind_words f
  | .snoc l i => by bw [Script.bind, Script.words, l.bind_words f, Item.bind_words]
theorem Script.bind_text (f : Nat → Lit) (s : Script) (b : Bool) : (s.bind f).text b = bindW f (s.text b) := by
  cases b
  · exact s.bind_words f
  · bw [Script.text, s.bind_words f]
theorem Script.bind_items (f : Nat → Lit) : ∀ s : Script, (s.bind f).items = s.items.map (Item.bind f)
  | .one i => rfl
  | .snoc l i => by simp only [Script.bind, Script.items, l.bind_items f, List.map_append, List.map_cons, List.map_nil]
theorem bindW_pars (f : Nat → Lit) : ∀ ws : List Word, pars (bindW f ws) = []
  | [] => rfl
  | .par k :: ws => by simp only [bindW, pars_append, Lit.pars, bindW_pars f ws, List.append_nil]
  | .kw _ :: ws => bindW_pars f ws
  | .id _ :: ws => bindW_pars f ws
  | .str _ :: ws => bindW_pars f ws
  | .int _ :: ws => bindW_pars f ws
  | .flt _ :: ws => bindW_pars f ws

end Verif.Sql

import Verif.Sql.Kept
/-! Names, string constants and numbers with a decimal point are as often in the AST as in the words. Proof-internal. -/
namespace Verif.Sql
set_option linter.unusedSectionVars false
open Verif.Lex Verif.LR Verif.Sem

/-- 1 if the two are the same. -/
def eqn (b a : Leaf) : Nat := if a = b then 1 else 0
def wc1 (b : Leaf) : Word → Nat
  | .id a => eqn b (.text a)
  | .str a => eqn b (.text a)
  | .flt a => eqn b (.float a)
  | _ => 0
/-- How often `b` is written. -/
def wc (b : Leaf) : List Word → Nat
  | [] => 0
  | w :: ws => wc1 b w + wc b ws
/-- Not an integer. -/
class NotInt (b : Leaf) : Prop where
  ne : ∀ n, b ≠ .int n
instance (a : Bytes) : NotInt (.text a) := ⟨nofun⟩
instance (a : Bytes) : NotInt (.float a) := ⟨nofun⟩
/-- How often in a value. -/
def lc (b : Leaf) (v : V) : Nat := (leaves v).count b
def lcL (b : Leaf) (vs : List V) : Nat := (leavesL vs).count b

section
variable (b : Leaf) [NotInt b]
theorem wc_nil : wc b [] = 0 := rfl
theorem wc_cons (w : Word) (ws : List Word) : wc b (w :: ws) = wc1 b w + wc b ws := rfl
theorem wc_append : ∀ (x y : List Word), wc b (x ++ y) = wc b x + wc b y
  | [], y => by simp [wc]
  | w :: x, y => by rw [List.cons_append, wc, wc, wc_append x y]; omega
theorem wc_par (c : Bool) (ws : List Word) : wc b (par c ws) = wc b ws := by
  cases c <;> simp [par, cat, wc_append, wc, wc1]
theorem lcL_nil : lcL b [] = 0 := rfl
theorem lcL_cons (v : V) (vs : List V) : lcL b (v :: vs) = lc b v + lcL b vs := by simp [lcL, lc, leavesL]
theorem lcL_append : ∀ (u v : List V), lcL b (u ++ v) = lcL b u + lcL b v
  | [], v => by simp [lcL, leavesL]
  | x :: u, v => by rw [List.cons_append, lcL_cons, lcL_cons, lcL_append u v]; omega
theorem lc_obj (n : Nat) (c : Cls) (fs : List V) : lc b (.obj n c fs) = lcL b fs := rfl
theorem lc_vec (n : Nat) (fs : List V) : lc b (.vec n fs) = lcL b fs := rfl
theorem lc_tup (fs : List V) : lc b (.tup fs) = lcL b fs := rfl
theorem lc_undef : lc b .undef = 0 := rfl
theorem lc_int (n : Int) : lc b (.int n) = 0 := by
  simp [lc, leaves, List.count_cons, (NotInt.ne n : b ≠ _).symm]
theorem lc_null : lc b .null = 0 := rfl
theorem lc_pos (n : Int) : lc b (.pos n) = 0 := rfl
theorem lc_idx (n : Nat) : lc b (.idx n) = 0 := rfl
theorem lc_raw (n : Bytes) : lc b (.raw n) = eqn b (.float n) := by
  simp [lc, leaves, eqn, List.count_cons]
theorem lc_str (n : Nat) (a : Bytes) : lc b (.str n a) = eqn b (.text a) := by
  simp [lc, leaves, eqn, List.count_cons]
theorem ExprV.lc_mk (ty : Int) (e e2 l s n ta sc al f i i2 : V) (d : Int) (c : V) (bl op di : Int) (w : V) :
    lc b (ExprV.mk ty e e2 l s n ta sc al f i i2 d c bl op di w).v = lc b e + lc b e2 + lc b l + lc b s + lc b n + lc b ta + lc b sc + lc b al + lc b f + lc b i + lc b i2 + lc b c + lc b w := by
  simp only [ExprV.v, lc_obj, lcL_cons, lcL_nil, lc_int]; omega
theorem TableV.lc_mk (ty : Int) (sc n al s l j : V) : lc b (TableV.mk ty sc n al s l j).v = lc b sc + lc b n + lc b al + lc b s + lc b l + lc b j := by
  simp only [TableV.v, lc_obj, lcL_cons, lcL_nil, lc_int]; omega
theorem lc_ovec (l : List V) : lc b (ovec l) = lcL b l := by cases l <;> rfl
/-- How often in the fields of a query. -/
def SelV.ta (s : SelV) : Nat := lc b s.fromTable + lc b s.selectList + lc b s.whereClause + lc b s.groupBy + lcL b s.setOperations + lc b s.order + lc b s.withDescriptions + lc b s.limit + lc b s.lockings
theorem SelV.lcF (s : SelV) : lcL b s.stmt.fields = s.ta b := by
  simp only [SelV.stmt, SelV.ta, lcL_cons, lcL_nil, lc_int, lc_ovec]; omega
theorem SelV.lc (s : SelV) : lc b s.v = s.ta b := by
  rw [SelV.v, StmtV.v, lc_obj, lcL_cons, lcL_cons, SelV.lcF, lc_null, lc_undef]; omega
end

variable {b : Leaf} [NotInt b] (hb : ¬ b.Exempt)

macro "xs" : tactic => `(tactic| ((try simp only [cat, wc_append, wc_cons, wc_nil, wc1, wc_par, lc_obj, lc_vec, lc_tup, lcL_cons, lcL_nil, lcL_append, lc_int, lc_null, lc_undef, lc_pos, lc_idx, lc_raw, lc_str,
  ExprV.lc_mk, SelV.lc, TableV.lc_mk, ostr, str, flag, aliasV, typeV, boundV, opV]); (try omega)))

theorem wc_exempt {a : Bytes} (hb : ¬ b.Exempt) (ha : (Leaf.text a).Exempt) : eqn b (.text a) = 0 := by
  unfold eqn
  split
  · subst_vars; exact absurd ha hb
  · rfl

theorem Names.ex : ∀ l : Names, wc b l.words = lc b l.v
  | .one n => by simp only [Names.words, Names.v, Names.vals]; xs
  | .snoc l n => by
    have h := l.ex
    simp only [Names.words, Names.v, Names.vals, lc_vec] at h ⊢; xs
theorem TName.ex (t : TName) : wc b t.words = lc b (ostr t.schema) + eqn b (.text t.name) := by
  rcases t with ⟨_ | s, n⟩ <;> simp only [TName.words] <;> xs
include hb in
theorem Interval.ex : ∀ i : Interval, wc b i.words = lc b i.r.v
  | .short n f false => by simp only [Interval.words, Interval.r]; xs
  | .short n f true => by simp only [Interval.words, Interval.r]; xs
  | .str s n f ok => by
    have h := wc_exempt (a := s) hb (.inr ⟨n, .inl ok.1⟩)
    simp only [Interval.words, Interval.r]; xs
  | .strUnit s n u f ok un => by
    have h := wc_exempt (a := s) hb (.inr ⟨n, .inr ⟨u, ok.1⟩⟩)
    simp only [Interval.words, Interval.r]; xs
theorem Num.ex : ∀ i : Num, wc b i.words = lc b i.r.v
  | .int n => by simp only [Num.words, Num.r]; xs
  | .float f => by simp only [Num.words, Num.r]; xs
include hb in
theorem Lit.ex : ∀ i : Lit, wc b i.words = lc b i.r.v
  | .str s => by simp only [Lit.words, Lit.r]; xs
  | .bool true => by simp only [Lit.words, Lit.r]; xs
  | .bool false => by simp only [Lit.words, Lit.r]; xs
  | .num n => n.ex
  | .null => by simp only [Lit.words, Lit.r]; xs
  | .date s ok => by simp only [Lit.words, Lit.r]; xs
  | .interval i => i.ex hb
theorem ColType.ex (t : ColType) : wc b t.words = lc b t.v := by
  cases t <;> simp only [ColType.words, ColType.v] <;> xs
theorem TAlias.ex (t : TAlias) : wc b t.words = lc b t.v := by
  rcases t with (_ | n | n) | ⟨n, l⟩
  · rfl
  · simp only [TAlias.words, Alias.words, TAlias.v]; xs
  · simp only [TAlias.words, Alias.words, TAlias.v]; xs
  · have h := l.ex (b := b)
    simp only [TAlias.words, TAlias.v]; xs
theorem Alias.ex (a : Alias) (r : ExprV) (h : r.alias = .null) : lc b (a.put r).v = lc b r.v + wc b a.words := by
  rcases r with ⟨ty, e, e2, l, s, n, ta, sc, al, f, i, i2, d, c, bl, op, di, w⟩
  simp only at h
  subst h
  cases a <;> simp only [Alias.words, Alias.put] <;> xs
theorem Dir.ex (d : Dir) : wc b d.words = 0 := by cases d <;> rfl
include hb in
theorem Nulls.ex (d : Nulls) : wc b d.words = 0 := by
  cases d with
  | none => rfl
  | first a c oka okb =>
    have h1 := wc_exempt hb (OptionWord.of oka (by decide))
    have h2 := wc_exempt hb (OptionWord.of okb (by decide))
    simp only [Nulls.words]; xs
  | last a c oka okb =>
    have h1 := wc_exempt hb (OptionWord.of oka (by decide))
    have h2 := wc_exempt hb (OptionWord.of okb (by decide))
    simp only [Nulls.words]; xs
theorem Bound.ex (d : Bound) : wc b d.words = 0 ∧ lc b d.v = 0 := by cases d <;> simp only [Bound.words, Bound.v] <;> constructor <;> xs
theorem Frame.ex (d : Frame) : wc b d.words = lc b d.v := by
  have h0 := (Bound.unboundedPreceding.ex (b := b)).2
  have h1 := (Bound.currentRow.ex (b := b)).2
  cases d with
  | none => simp only [Frame.words, Frame.v]; xs
  | start t c => have h := c.ex (b := b); simp only [Frame.words, Frame.v]; xs
  | between t c e => have h := c.ex (b := b); have h' := e.ex (b := b); simp only [Frame.words, Frame.v]; xs
theorem SetOp.ex (d : SetOp) : wc b d.words = 0 := by rcases d with ⟨_, _ | _⟩ <;> rfl
theorem SetOp.exv (d : SetOp) (x y z : V) : lc b (d.v x y z) = lc b x + lc b y + lc b z := by simp only [SetOp.v]; xs
theorem LockMode.ex (d : LockMode) : wc b d.words = 0 := by cases d <;> rfl
theorem LockWait.ex (d : LockWait) : wc b d.words = 0 := by cases d <;> rfl
theorem Lock.ex (d : Lock) : wc b d.words = lc b d.v := by
  rcases d with ⟨m, _ | t, w⟩
  · have h1 := m.ex (b := b); have h2 := w.ex (b := b); simp only [Lock.words, Lock.v]; xs
  · have h1 := m.ex (b := b); have h2 := w.ex (b := b); have h3 := t.ex (b := b); simp only [Lock.words, Lock.v]; xs
theorem LockList.ex : ∀ d : LockList, wc b d.words = lcL b d.vals
  | .one k => by have h := k.ex (b := b); simp only [LockList.words, LockList.vals]; xs
  | .snoc l k => by have h := k.ex (b := b); have h' := l.ex; simp only [LockList.words, LockList.vals]; xs
theorem Locks.ex (d : Locks) : wc b d.words = lc b d.v := by
  cases d with
  | none => rfl
  | some l => exact l.ex
theorem JoinType.ex (d : JoinType) : wc b d.words = 0 := by rcases d with _ | _ | ⟨_ | _⟩ | ⟨_ | _⟩ | ⟨_ | _⟩ | _ | _ <;> rfl
theorem BinOp.ex (d : BinOp) : wc b d.words = 0 := by cases d <;> rfl
theorem distinct_ex (d : Bool) : wc b (distinctKw d) = 0 := by cases d <;> rfl
theorem top_ex (t : Option Int) : wc b (topWords t) = 0 ∧ lc b (topV t) = 0 := by
  cases t with
  | none => exact ⟨rfl, rfl⟩
  | some n => simp only [topWords, topV, Num.r]; constructor <;> xs
theorem negate_ex (no : Bool) (e : ExprV) : lc b (negate no e).v = lc b e.v := by
  cases no
  · rfl
  · simp only [negate, if_true]; xs
theorem Clause.rest (c : Clause) : c.r.order = .null ∧ c.r.setOperations = [] ∧ c.r.withDescriptions = .null ∧ c.r.lockings = .null ∧ lc b c.r.limit = 0 := by
  cases c; simp [Clause.r, top_ex]
theorem limOf_ex (c : Clause) (l : Limit) : lc b (limOf c.r.limit l) = lc b l.v := by
  cases l with
  | none => simp only [limOf, Limit.v]; exact c.rest.2.2.2.2
  | _ => rfl
theorem where_ex {w : OExpr} (h : wc b w.words = lc b w.v) : wc b (whereW w) = lc b w.v := by
  cases w with
  | none => rfl
  | some e => simp only [OExpr.words] at h; simp only [whereW]; xs

include hb in
mutual
theorem Expr.ex : ∀ e : Expr, wc b e.words = lc b e.r.v
  | .lit l => by rw [Expr.words, Expr.r]; exact l.ex hb
  | .param k => by rw [Expr.words, Expr.r]; xs
  | .col none n => by rw [Expr.words, Expr.r]; xs
  | .col (some t) n => by rw [Expr.words, Expr.r]; xs
  | .star none => by rw [Expr.words, Expr.r]; xs
  | .star (some t) => by rw [Expr.words, Expr.r]; xs
  | .paren e => by have h := e.ex; rw [Expr.words, Expr.r]; xs
  | .query s => by have h := s.ex; rw [Expr.words, Expr.r]; xs
  | .neg e => by have h := e.ex; rw [Expr.words, Expr.r]; xs
  | .not e => by have h := e.ex; rw [Expr.words, Expr.r]; xs
  | .isNull true e => by have h := e.ex; rw [Expr.words, Expr.r]; xs
  | .isNull false e => by have h := e.ex; rw [Expr.words, Expr.r]; xs
  | .isNotNull e => by have h := e.ex; rw [Expr.words, Expr.r, negate_ex]; xs
  | .bin o x y => by have h := x.ex; have h' := y.ex; have h'' := o.ex (b := b); rw [Expr.words, Expr.r]; xs
  | .logic o x y => by have h := x.ex; have h' := y.ex; rw [Expr.words, Expr.r]; xs
  | .inList false e l => by have h := e.ex; have h' := l.ex; rw [Expr.words, Expr.r, negate_ex]; xs
  | .inList true e l => by have h := e.ex; have h' := l.ex; rw [Expr.words, Expr.r, negate_ex]; xs
  | .inQuery false e l => by have h := e.ex; have h' := l.ex; rw [Expr.words, Expr.r, negate_ex]; xs
  | .inQuery true e l => by have h := e.ex; have h' := l.ex; rw [Expr.words, Expr.r, negate_ex]; xs
  | .between e lo hi => by have h := e.ex; have h' := lo.ex; have h'' := hi.ex; rw [Expr.words, Expr.r]; xs
  | .exist false s => by have h := s.ex; rw [Expr.words, Expr.r, negate_ex]; xs
  | .exist true s => by have h := s.ex; rw [Expr.words, Expr.r, negate_ex]; xs
  | .case x l .none => by have h := x.ex; have h' := l.ex; rw [Expr.words, Expr.r, OExpr.v]; xs
  | .case x l (.some e) => by have h := x.ex; have h' := l.ex; have h'' := e.ex; rw [Expr.words, Expr.r]; rw [show (OExpr.some e).v = e.r.v by rw [OExpr.v]]; xs
  | .call none f a w => by have h := a.ex; have h' := w.ex; rw [Expr.words, Expr.r]; xs
  | .call (some s) f a w => by have h := a.ex; have h' := w.ex; rw [Expr.words, Expr.r]; xs
  | .extract f e => by have h := e.ex; rw [Expr.words, Expr.r]; xs
  | .cast e t => by have h := e.ex; have h' := t.ex (b := b); rw [Expr.words, Expr.r]; xs
  | .array l => by have h := l.ex; rw [Expr.words, Expr.r]; xs
  | .index e n => by have h := e.ex; rw [Expr.words, Expr.r]; xs
theorem OExpr.ex : ∀ e : OExpr, wc b e.words = lc b e.v
  | .none => by rw [OExpr.words, OExpr.v]; rfl
  | .some e => by rw [OExpr.words, OExpr.v]; exact e.ex
theorem Items.ex : ∀ l : Items, wc b l.words = lcL b l.vals
  | .one e a => by have h := e.ex; have h' := a.ex (b := b) e.r e.noAlias; rw [Items.words, Items.vals]; xs
  | .snoc l e a => by have h := e.ex; have h' := a.ex (b := b) e.r e.noAlias; have h'' := l.ex; rw [Items.words, Items.vals]; xs
theorem Whens.ex : ∀ l : Whens, wc b l.words = lcL b l.vals
  | .one w t => by have h := w.ex; have h' := t.ex; rw [Whens.words, Whens.vals]; xs
  | .snoc l w t => by have h := w.ex; have h' := t.ex; have h'' := l.ex; rw [Whens.words, Whens.vals]; xs
theorem Args.ex : ∀ l : Args, wc b l.words = lcL b l.vals
  | .none => by rw [Args.words, Args.vals]; rfl
  | .some d l => by have h := l.ex; have h' := distinct_ex (b := b) d; rw [Args.words, Args.vals]; xs
theorem Window.ex : ∀ l : Window, wc b l.words = lc b l.v
  | .none => by rw [Window.words, Window.v]; rfl
  | .over p o f => by have h := p.ex; have h' := o.ex; have h'' := f.ex (b := b); rw [Window.words, Window.v]; xs
theorem Partition.ex : ∀ l : Partition, wc b l.words = lc b l.v
  | .none => by rw [Partition.words, Partition.v]; rfl
  | .by l => by have h := l.ex; rw [Partition.words, Partition.v]; xs
theorem Order.ex : ∀ l : Order, wc b l.words = lc b l.v
  | .none => by rw [Order.words, Order.v]; rfl
  | .by l => by have h := l.ex; rw [Order.words, Order.v]; xs
theorem Orders.ex : ∀ l : Orders, wc b l.words = lcL b l.vals
  | .one e d n => by have h := e.ex; have h' := d.ex (b := b); have h'' := n.ex hb; rw [Orders.words, Orders.vals]; xs
  | .snoc l e d n => by have h := e.ex; have h' := d.ex (b := b); have h'' := n.ex hb; have h3 := l.ex; rw [Orders.words, Orders.vals]; xs
theorem Clause.ex : ∀ c : Clause, wc b c.words = lc b c.r.fromTable + lc b c.r.selectList + lc b c.r.whereClause + lc b c.r.groupBy
  | .mk t d l f w g => by
    have h1 := l.ex
    have h2 := f.ex
    have h3 := where_ex w.ex
    have h4 := g.ex
    have h5 := distinct_ex (b := b) d
    have h6 := top_ex (b := b) t
    rw [Clause.words_eq, Clause.r]; xs
theorem Group.ex : ∀ l : Group, wc b l.words = lc b l.v
  | .none => by rw [Group.words, Group.v]; rfl
  | .by l .none => by have h := l.ex; rw [Group.words, Group.v, OExpr.v]; xs
  | .by l (.some e) => by have h := l.ex; have h' := e.ex; rw [Group.words, Group.v, OExpr.v]; xs
theorem Limit.ex : ∀ l : Limit, wc b l.words = lc b l.v
  | .none => by rw [Limit.words, Limit.v]; rfl
  | .limit e => by have h := e.ex; rw [Limit.words, Limit.v]; xs
  | .offset e => by have h := e.ex; rw [Limit.words, Limit.v]; xs
  | .both e o => by have h := e.ex; have h' := o.ex; rw [Limit.words, Limit.v]; xs
  | .all => by rw [Limit.words, Limit.v]; xs
  | .allOffset e => by have h := e.ex; rw [Limit.words, Limit.v]; xs
theorem From.ex : ∀ l : From, wc b l.words = lc b l.v
  | .none => by rw [From.words, From.v]; rfl
  | .one t => by have h := t.ex; rw [From.words, From.v]; xs
  | .many l t => by have h := t.ex; have h' := l.ex; rw [From.words, From.v]; xs
theorem Tables.ex : ∀ l : Tables, wc b l.words = lcL b l.vals
  | .one t => by have h := t.ex; rw [Tables.words, Tables.vals]; xs
  | .snoc l t => by have h := t.ex; have h' := l.ex; rw [Tables.words, Tables.vals]; xs
theorem TableN.ex : ∀ l : TableN, wc b l.words = lc b l.r.v
  | .name ⟨none, n⟩ a => by have h' := a.ex (b := b); rw [TableN.words, TableN.r]; simp only [TName.words]; xs
  | .name ⟨some s, n⟩ a => by have h' := a.ex (b := b); rw [TableN.words, TableN.r]; simp only [TName.words]; xs
  | .query s a => by have h := s.ex; have h' := a.ex (b := b); rw [TableN.words, TableN.r]; xs
theorem Table.ex : ∀ l : Table, wc b l.words = lc b l.r.v
  | .base t => by rw [Table.words, Table.r]; exact t.ex
  | .natural l r => by have h := l.ex; have h' := r.ex; rw [Table.words, Table.r]; xs
  | .on l j r c => by have h := l.ex; have h' := r.ex; have h'' := c.ex; have hj := j.ex (b := b); rw [Table.words, Table.r]; xs
  | .using l j r c => by have h := l.ex; have h' := r.ex; have h'' := c.ex (b := b); have hj := j.ex (b := b); rw [Table.words, Table.r]; xs
theorem Sel.ex : ∀ s : Sel, wc b s.words = s.r.ta b
  | .plain c o l k => by
    have h1 := c.ex
    have h2 := o.ex
    have h3 := l.ex
    have h4 := k.ex (b := b)
    obtain ⟨r1, r2, r3, r4, r5⟩ := c.rest (b := b)
    have h5 := limOf_ex (b := b) c l
    rw [Sel.words, Sel.r_plain]
    simp only [SelV.ta, r1, r2, r3, r4]; xs
  | .set c op r o l k => by
    have h1 := c.ex
    have h2 := r.ex
    have h3 := o.ex
    have h4 := l.ex
    have h5 := k.ex (b := b)
    have h6 := op.ex (b := b)
    obtain ⟨r1, r2, r3, r4, r5⟩ := c.rest (b := b)
    rw [Sel.words, Sel.r]
    simp only [SelV.ta, r1, r2, r3, r4, lcL_cons, lcL_nil, SetOp.exv]; xs
theorem PSel.ex : ∀ s : PSel, wc b s.words = s.r.ta b
  | .one s => by have h := s.ex; rw [PSel.words, PSel.r]; xs
  | .more s => by have h := s.ex; rw [PSel.words, PSel.r]; xs
theorem Within.ex : ∀ s : Within, wc b s.words = s.r.ta b
  | .paren s => by rw [Within.words, Within.r]; exact s.ex
  | .clause c => by
    have h1 := c.ex
    obtain ⟨r1, r2, r3, r4, r5⟩ := c.rest (b := b)
    rw [Within.words, Within.r]
    simp only [SelV.ta, r1, r2, r3, r4]; xs
  | .set c op r => by
    have h1 := c.ex
    have h2 := r.ex
    have h6 := op.ex (b := b)
    obtain ⟨r1, r2, r3, r4, r5⟩ := c.rest (b := b)
    rw [Within.words, Within.r]
    simp only [SelV.ta, r1, r2, r3, r4, lcL_cons, lcL_nil, SetOp.exv]; xs
theorem Query.ex : ∀ s : Query, wc b s.words = s.r.ta b
  | .paren w s => by
    have h1 := w.ex
    have h2 := s.ex
    have r := s.noWith
    rw [Query.words, Query.r]
    simp only [SelV.ta, r] at h2 ⊢; rw [lc_null] at h2; xs
  | .plain w s => by
    have h1 := w.ex
    have h2 := s.ex
    have r := s.noWith
    rw [Query.words, Query.r]
    simp only [SelV.ta, r] at h2 ⊢; rw [lc_null] at h2; xs
  | .set w s op n o l => by
    have h1 := w.ex
    have h2 := s.ex
    have h3 := n.ex
    have h4 := o.ex
    have h5 := l.ex
    have h6 := op.ex (b := b)
    have r := s.noWith
    rw [Query.words, Query.r]
    simp only [SelV.ta, r] at h2 ⊢
    rw [lc_null] at h2
    simp only [lcL_append, lcL_cons, lcL_nil, SetOp.exv]
    xs
theorem With.ex : ∀ s : With, wc b s.words = lc b s.v
  | .none => by rw [With.words, With.v]; rfl
  | .some l => by have h := l.ex; rw [With.words, With.v]; xs
theorem Withs.ex : ∀ s : Withs, wc b s.words = lcL b s.vals
  | .one n s => by have h := s.ex; rw [Withs.words, Withs.vals]; xs
  | .snoc l n s => by have h := s.ex; have h' := l.ex; rw [Withs.words, Withs.vals]; xs
end
end Verif.Sql

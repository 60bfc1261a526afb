import Verif.Sql.Steps
/-! One step of the derivation of expressions and queries. Proof-internal. -/
namespace Verif.Sql
open Verif.Lex Verif.LR Verif.Sem

/-! ## What follows an expression -/

theorem Alias.saf (a : Alias) : Saf a.words := by cases a <;> first | exact saf_nil | exact saf_kw rfl | exact saf_id
theorem TAlias.saf (a : TAlias) : Saf a.words := by
  match a with
  | .plain a => exact a.saf
  | .cols _ _ => exact saf_kw rfl
theorem Dir.saf (a : Dir) : Saf a.words := by cases a <;> first | exact saf_nil | exact saf_kw rfl
theorem Nulls.saf (a : Nulls) : Saf a.words := by cases a <;> first | exact saf_nil | exact saf_id
theorem Frame.saf (a : Frame) : Saf a.words := by
  match a with
  | .none => exact saf_nil
  | .start t b => cases t <;> exact saf_kw rfl
  | .between t b e => cases t <;> exact saf_kw rfl
theorem SetOp.saf (a : SetOp) : Saf a.words := by
  match a with
  | ⟨t, false⟩ => cases t <;> exact saf_kw rfl
  | ⟨t, true⟩ => cases t <;> exact saf_kw rfl
theorem Lock.saf (a : Lock) : Saf a.words := by
  match a with
  | ⟨_, none, _⟩ => exact saf_kw rfl
  | ⟨_, some _, _⟩ => exact saf_kw rfl
theorem LockList.saf : ∀ a : LockList, Saf a.words
  | .one k => k.saf
  | .snoc l k => saf_append l.saf k.saf
theorem Locks.saf (a : Locks) : Saf a.words := by
  match a with
  | .none => exact saf_nil
  | .some l => exact l.saf
theorem JoinType.saf (a : JoinType) : Saf a.words := by
  match a with
  | .none => exact saf_nil
  | .inner | .left false | .left true | .right false | .right true | .full false | .full true | .outer | .cross => exact saf_kw rfl
theorem Order.saf (a : Order) : Saf a.words := by cases a <;> first | exact saf_nil | exact saf_kw rfl
theorem Limit.saf (a : Limit) : Saf a.words := by cases a <;> first | exact saf_nil | exact saf_kw rfl
theorem From.saf (a : From) : Saf a.words := by cases a <;> first | exact saf_nil | exact saf_kw rfl
theorem Group.saf (a : Group) : Saf a.words := by
  match a with
  | .none => exact saf_nil
  | .by _ .none => exact saf_kw rfl
  | .by _ (.some _) => exact saf_kw rfl
theorem Clause.saf (c : Clause) : Saf c.words := by cases c; exact saf_kw rfl
theorem Sel.saf (s : Sel) : Saf s.words := by
  match s with
  | .plain c _ _ _ => cases c; exact saf_kw rfl
  | .set c _ _ _ _ _ => cases c; exact saf_kw rfl
theorem PSel.saf (s : PSel) : Saf s.words := by cases s <;> exact saf_kw rfl
theorem Within.saf (s : Within) : Saf s.words := by
  match s with
  | .paren s => exact s.saf
  | .clause c => exact c.saf
  | .set c _ _ => cases c; exact saf_kw rfl
theorem Whens.saf : ∀ l : Whens, Saf l.words
  | .one _ _ => saf_kw rfl
  | .snoc l _ _ => saf_append l.saf (saf_kw rfl)
theorem With.saf (w : With) : Saf w.words := by cases w <;> first | exact saf_nil | exact saf_kw rfl

/-- `WHERE`, if there is a condition. -/
def whereWords (w : OExpr) : List Word := match w with | .none => [] | .some e => cat [kw T.WHERE, e.words]
theorem where_saf (w : OExpr) : Saf (whereWords w) := by cases w <;> first | exact saf_nil | exact saf_kw rfl

macro "saf" : tactic => `(tactic| (repeat' (first | exact saf_nil | exact saf_id | exact saf_int | exact saf_str | exact saf_kw rfl | exact Alias.saf _ | exact TAlias.saf _ | exact Dir.saf _ | exact Nulls.saf _ | exact Frame.saf _ | exact SetOp.saf _ | exact Locks.saf _ | exact JoinType.saf _ | exact Order.saf _ | exact Limit.saf _ | exact From.saf _ | exact Group.saf _ | exact Clause.saf _ | exact Sel.saf _ | exact PSel.saf _ | exact Within.saf _ | exact Whens.saf _ | exact With.saf _ | exact where_saf _ | exact Lock.saf _ | apply saf_append)))

/-! ## No value is undefined -/

@[simp] theorem nu_str (a : Nat) (b : Bytes) : (V.str a b).isUndef = false := rfl
@[simp] theorem nu_vec (a : Nat) (b : List V) : (V.vec a b).isUndef = false := rfl
@[simp] theorem nu_obj (a : Nat) (c : Cls) (b : List V) : (V.obj a c b).isUndef = false := rfl
@[simp] theorem nu_tup (b : List V) : (V.tup b).isUndef = false := rfl
@[simp] theorem nu_int (b : Int) : (V.int b).isUndef = false := rfl
@[simp] theorem nu_null : V.null.isUndef = false := rfl
@[simp] theorem SelV.nu (e : SelV) : e.v.isUndef = false := rfl
@[simp] theorem TableV.nu (e : TableV) : e.v.isUndef = false := rfl
@[simp] theorem SetOp.nu0 (e : SetOp) : e.v0.isUndef = false := rfl
@[simp] theorem Names.nu (e : Names) : e.v.isUndef = false := rfl
@[simp] theorem ExprV.nu (e : ExprV) : e.v.isUndef = false := rfl
@[simp] theorem OExpr.nu (e : OExpr) : e.v.isUndef = false := by cases e <;> rfl
@[simp] theorem From.nu (e : From) : e.v.isUndef = false := by cases e <;> rfl
@[simp] theorem Group.nu (e : Group) : e.v.isUndef = false := by cases e <;> rfl
@[simp] theorem Order.nu (e : Order) : e.v.isUndef = false := by cases e <;> rfl
@[simp] theorem Limit.nu (e : Limit) : e.v.isUndef = false := by cases e <;> rfl
@[simp] theorem With.nu (e : With) : e.v.isUndef = false := by cases e <;> rfl
@[simp] theorem Window.nu (e : Window) : e.v.isUndef = false := by cases e <;> rfl
@[simp] theorem Partition.nu (e : Partition) : e.v.isUndef = false := by cases e <;> rfl
@[simp] theorem Frame.nu (e : Frame) : e.v.isUndef = false := by cases e <;> rfl
@[simp] theorem Locks.nu (e : Locks) : e.v.isUndef = false := by cases e <;> rfl
@[simp] theorem TAlias.nu (e : TAlias) : e.v.isUndef = false := by
  match e with
  | .plain .none | .plain (.as _) | .plain (.bare _) | .cols _ _ => rfl
@[simp] theorem ColType.nu (e : ColType) : e.v.isUndef = false := by cases e <;> rfl
@[simp] theorem topV_nu (e : Option Int) : (topV e).isUndef = false := by cases e <;> rfl
@[simp] theorem ostr_nu (e : Option Name) : (ostr e).isUndef = false := by cases e <;> rfl

/-! ## Expressions -/

theorem item_der {e : Expr} {a : Alias} (h : Good e) : D N.expr_alias (cat [e.words, a.words]) (a.put e.r).v := by
  refine Der.any_node 182 rfl rfl (DL.cons h.d (DL.last a.der.d) a.saf) ?_
  cases a with
  | none => exact ev
  | as n => exact ev
  | bare n => exact ev

theorem items_one {e : Expr} {a : Alias} (h : Good e) : D N.expr_list (Items.one e a).words (.vec 0 (Items.one e a).vals) := Der.any_node 171 rfl rfl (DL.last (item_der h)) ev
theorem items_snoc {l : Items} {e : Expr} {a : Alias} (hl : D N.expr_list l.words (.vec 0 l.vals)) (h : Good e) : D N.expr_list (Items.snoc l e a).words (.vec 0 (Items.snoc l e a).vals) :=
  Der.any_node 172 rfl rfl (DL.ck hl (DL.kw (DL.last (item_der h)))) ev

/-- The list of cases before it is put into the expression. -/
def Whens.v (l : Whens) : V := ({ type := ExprType.kExprOperator, opType := OperatorType.kOpNone, exprList := .vec 0 l.vals } : ExprV).v

theorem whens_one {w t : Expr} (hw : Good w) (ht : Good t) : D N.case_list (Whens.one w t).words (Whens.one w t).v :=
  Der.any_node 227 rfl rfl (DL.kw (DL.ck hw.d (DL.kw (DL.last ht.d)))) ev
theorem whens_snoc {l : Whens} {w t : Expr} (hl : D N.case_list l.words l.v) (hw : Good w) (ht : Good t) : D N.case_list (Whens.snoc l w t).words (Whens.snoc l w t).v :=
  Der.any_node 228 rfl rfl (DL.ck hl (DL.kw (DL.ck hw.d (DL.kw (DL.last ht.d))))) ev

/-- What is known about an optional expression. -/
def OGood : OExpr → Prop
  | .none => True
  | .some e => Good e

theorem where_der {w : OExpr} (h : OGood w) : D N.opt_where (whereWords w) w.v := by
  cases w with
  | none => exact DT.d (Der.eps 148 rfl rfl ev).any
  | some e => exact Der.any_node 147 rfl rfl (DL.kw (DL.last h.d)) ev

theorem first_safe {l us : List Word} (hl : Saf l) (hu : ∀ b, Safe (first us b)) : ∀ b, Safe (first (l ++ us) b) := by
  intro b
  cases l with
  | nil => exact hu b
  | cons w l => exact hl T.RPAREN rfl

theorem case_good {x : OExpr} {l : Whens} {e : OExpr} (hx : OGood x) (hl : D N.case_list l.words l.v) (he : OGood e) : Good (.case x l e) := by
  refine good_atom (by simp only [Expr.lev]) (Der.up 193 rfl rfl ev ?_)
  match x, e, hx, he with
  | .none, .none, _, _ =>
    show DN _ (cat [kw T.CASE, l.words, kw T.END]) _
    exact Der.closedL 225 rfl rfl (DL.kw (DL.ck hl DL.kw1)) ev
  | .none, .some e, _, he =>
    show DN _ (cat [kw T.CASE, l.words, kw T.ELSE, e.words, kw T.END]) _
    have h : Good e := he
    exact Der.closedL 226 rfl rfl (DL.kw (DL.ck hl (DL.kw (DL.ck h.d DL.kw1)))) ev
  | .some x, .none, hx, _ =>
    have h : Good x := hx
    exact Der.closedL 223 rfl rfl (DL.kw (DL.ck h.d (DL.ck hl DL.kw1) (first_safe l.saf fun _ => rfl))) ev
  | .some x, .some e, hx, he =>
    have h : Good x := hx
    have h' : Good e := he
    exact Der.closedL 224 rfl rfl (DL.kw (DL.ck h.d (DL.ck hl (DL.kw (DL.ck h'.d DL.kw1))) (first_safe l.saf fun _ => rfl))) ev

/-- What is known about the arguments of a function. -/
def AGood : Args → Prop
  | .none => True
  | .some _ l => D N.expr_list l.words (.vec 0 l.vals)

theorem call_good {s : Option Name} {f : Name} {a : Args} {w : Window} (ha : AGood a) (hw : DT N.opt_window w.words w.v) : Good (.call s f a w) := by
  refine good_atom (by simp only [Expr.lev]) (Der.up 194 rfl rfl ev ?_)
  match s, a, ha with
  | none, .none, _ => exact Der.closedL 238 rfl rfl (ws := cat [nm f, kw T.LPAREN, kw T.RPAREN, w.words]) (DL.id (DL.kw (DL.kw (DerL.last hw)))) evo
  | none, .some d l, ha =>
    have := Der.closedL 239 rfl rfl (v := (Expr.call none f (.some d l) w).r.v) (DL.id (b := f) (DL.kw (DL.top (distinct_der d) (DL.ck ha (DL.kw (DerL.last hw)))))) evo
    simp only [Expr.words, Args.words, cat, List.append_assoc]
    exact this
  | some s, .none, _ => exact Der.closedL 240 rfl rfl (ws := cat [nm s, kw T.DOT, nm f, kw T.LPAREN, kw T.RPAREN, w.words]) (DL.id (DL.kw (DL.id (DL.kw (DL.kw (DerL.last hw)))))) evo
  | some s, .some d l, ha =>
    have := Der.closedL 241 rfl rfl (v := (Expr.call (some s) f (.some d l) w).r.v) (DL.id (b := s) (DL.kw (DL.id (b := f) (DL.kw (DL.top (distinct_der d) (DL.ck ha (DL.kw (DerL.last hw)))))))) evo
    simp only [Expr.words, Args.words, cat, List.append_assoc]
    exact this

theorem lit_good (l : Lit) : Good (.lit l) := good_atom (by simp only [Expr.lev]) (Der.up 190 rfl rfl ev (Der.up 200 rfl rfl ev l.der))
theorem param_good (k : Nat) : Good (.param k) := good_atom (by simp only [Expr.lev]) (Der.up 190 rfl rfl ev (Der.up 200 rfl rfl ev (param_der k)))
theorem col_good (t : Option Name) (n : Name) : Good (.col t n) := by
  refine good_atom (by simp only [Expr.lev]) (Der.up 190 rfl rfl ev (Der.up 199 rfl rfl ev ?_))
  cases t with
  | none => exact Der.closedL 276 rfl rfl DL.id1 ev
  | some t => exact Der.closedL 277 rfl rfl (DL.id (DL.kw DL.id1)) ev
theorem star_good (t : Option Name) : Good (.star t) := by
  refine good_atom (by simp only [Expr.lev]) (Der.up 190 rfl rfl ev (Der.up 199 rfl rfl ev ?_))
  cases t with
  | none => exact Der.closedL 278 rfl rfl DL.kw1 ev
  | some t => exact Der.closedL 279 rfl rfl (DL.id (DL.kw DL.kw1)) ev
theorem paren_good {e : Expr} (h : Good e) : Good (.paren e) := good_atom (by simp only [Expr.lev]) (paren_der h.d)
theorem query_good {s : Sel} (h : D N.select_no_paren s.words s.r.v) : Good (.query s) := good_atom (by simp only [Expr.lev]) (Der.closedL 198 rfl rfl (DL.kw (DL.ck h DL.kw1)) ev)
theorem extract_good {f : Field} {e : Expr} (h : Good e) : Good (.extract f e) :=
  good_atom (by simp only [Expr.lev]) (Der.up 195 rfl rfl ev (Der.closedL 257 rfl rfl (DL.kw (DL.kw (DL.top f.der (DL.kw (DL.ck h.d DL.kw1))))) ev))
theorem cast_good {e : Expr} {t : ColType} (h : Good e) : Good (.cast e t) :=
  good_atom (by simp only [Expr.lev]) (Der.up 196 rfl rfl ev (Der.closedL 258 rfl rfl (DL.kw (DL.kw (DL.ck h.d (DL.kw (DL.top t.der DL.kw1))))) evo))
theorem array_good {l : Items} (h : D N.expr_list l.words (.vec 0 l.vals)) : Good (.array l) :=
  good_atom (by simp only [Expr.lev]) (Der.up 197 rfl rfl ev (Der.closedL 273 rfl rfl (DL.kw (DL.kw (DL.ck h DL.kw1))) ev))

/-! ## Windows, orders, limits -/

theorem window_none : DT N.opt_window Window.none.words Window.none.v := (Der.eps 243 rfl rfl ev).any
theorem window_over {p : Partition} {o : Order} {f : Frame} (hp : D N.opt_partition p.words p.v) (ho : D N.opt_order o.words o.v) : DT N.opt_window (Window.over p o f).words (Window.over p o f).v := by
  refine Der.any_node 242 rfl rfl (DL.kw (DL.kw (DL.ck hp (DL.ck ho (DL.top f.der DL.kw1) ?_) ?_))) evo
  · exact first_safe f.saf fun _ => rfl
  · exact first_safe o.saf (first_safe f.saf fun _ => rfl)
theorem part_none : D N.opt_partition Partition.none.words Partition.none.v := DT.d (Der.eps 245 rfl rfl ev).any
theorem part_by {l : Items} (h : D N.expr_list l.words (.vec 0 l.vals)) : D N.opt_partition (Partition.by l).words (Partition.by l).v := Der.any_node 244 rfl rfl (DL.kw (DL.kw (DL.last h))) ev
theorem order_none : D N.opt_order Order.none.words Order.none.v := DT.d (Der.eps 154 rfl rfl ev).any
theorem order_by {l : Orders} (h : D N.order_list l.words (.vec 0 l.vals)) : D N.opt_order (Order.by l).words (Order.by l).v := Der.any_node 153 rfl rfl (DL.kw (DL.kw (DL.last h))) ev
theorem order_desc {e : Expr} {d : Dir} {n : Nulls} (h : Good e) : D N.order_desc (cat [e.words, d.words, n.words]) (.obj 0 .OrderDescription [.int d.v, e.r.v, .int n.v]) :=
  Der.any_node 157 rfl rfl (DL.cons h.d (DL.top d.der (DL.last n.der.d)) (by saf)) ev
theorem orders_one {e : Expr} {d : Dir} {n : Nulls} (h : Good e) : D N.order_list (Orders.one e d n).words (.vec 0 (Orders.one e d n).vals) := Der.any_node 155 rfl rfl (DL.last (order_desc h)) ev
theorem orders_snoc {l : Orders} {e : Expr} {d : Dir} {n : Nulls} (hl : D N.order_list l.words (.vec 0 l.vals)) (h : Good e) : D N.order_list (Orders.snoc l e d n).words (.vec 0 (Orders.snoc l e d n).vals) :=
  Der.any_node 156 rfl rfl (DL.ck hl (DL.kw (DL.last (order_desc h)))) ev

theorem limit_none : D N.opt_limit Limit.none.words Limit.none.v := DT.d (Der.eps 170 rfl rfl ev).any
theorem limit_limit {e : Expr} (h : Good e) : D N.opt_limit (Limit.limit e).words (Limit.limit e).v := Der.any_node 165 rfl rfl (DL.kw (DL.last h.d)) ev
theorem limit_offset {e : Expr} (h : Good e) : D N.opt_limit (Limit.offset e).words (Limit.offset e).v := Der.any_node 166 rfl rfl (DL.kw (DL.last h.d)) ev
theorem limit_both {l o : Expr} (h : Good l) (h' : Good o) : D N.opt_limit (Limit.both l o).words (Limit.both l o).v := Der.any_node 167 rfl rfl (DL.kw (DL.ck h.d (DL.kw (DL.last h'.d)))) ev
theorem limit_all : D N.opt_limit Limit.all.words Limit.all.v := Der.any_node 168 rfl rfl (DL.kw DL.kw1) ev
theorem limit_allOffset {e : Expr} (h : Good e) : D N.opt_limit (Limit.allOffset e).words (Limit.allOffset e).v := Der.any_node 169 rfl rfl (DL.kw (DL.kw (DL.kw (DL.last h.d)))) ev

/-! ## Queries -/

theorem group_none : D N.opt_group Group.none.words Group.none.v := DT.d (Der.eps 150 rfl rfl ev).any
theorem group_by {l : Items} {e : OExpr} (h : D N.expr_list l.words (.vec 0 l.vals)) (he : OGood e) : D N.opt_group (Group.by l e).words (Group.by l e).v := by
  cases e with
  | none =>
    have := Der.any_node 149 rfl rfl (v := (Group.by l .none).v) (DL.kw (a := T.GROUP) (DL.kw (a := T.BY) (DL.cons h (DL.last (DT.d (Der.eps 152 rfl rfl (v := .null) ev).any)) saf_nil))) ev
    rw [List.append_nil] at this
    exact this
  | some e => exact Der.any_node 149 rfl rfl (DL.kw (DL.kw (DL.ck h (DL.last (Der.any_node 151 rfl rfl (DL.kw (DL.last (Good.d he))) (v := e.r.v) ev))))) ev

theorem clause_der {t : Option Int} {d : Bool} {l : Items} {f : From} {w : OExpr} {g : Group} (hl : D N.expr_list l.words (.vec 0 l.vals)) (hf : D N.opt_from_clause f.words f.v) (hw : OGood w) (hg : D N.opt_group g.words g.v) :
    D N.select_clause (Clause.mk t d l f w g).words (Clause.mk t d l f w g).r.v := by
  have h : DL [N.select_list, N.opt_from_clause, N.opt_where, N.opt_group] (cat [l.words, f.words, whereWords w, g.words]) [.vec 0 l.vals, f.v, w.v, g.v] :=
    DL.cons (Der.up 143 rfl rfl ev hl) (DL.cons hf (DL.cons (where_der hw) (DL.last hg) (by saf)) (by saf)) (by saf)
  have := Der.any_node 140 rfl rfl (v := (Clause.mk t d l f w g).r.v) (DL.kw (DL.top (top_der t) (DL.top (distinct_der d) h))) evo
  have e : (Clause.mk t d l f w g).words = [.kw T.SELECT] ++ (topWords t ++ (distinctKw d ++ cat [l.words, f.words, whereWords w, g.words])) := by
    cases w <;> simp only [Clause.words] <;> rfl
  rw [e]
  exact this

theorem psel_one {s : Sel} (h : D N.select_no_paren s.words s.r.v) : D N.select_with_paren (PSel.one s).words (PSel.one s).r.v := Der.any_node 130 rfl rfl (DL.kw (DL.ck h DL.kw1)) ev
theorem psel_more {s : PSel} (h : D N.select_with_paren s.words s.r.v) : D N.select_with_paren (PSel.more s).words (PSel.more s).r.v := Der.any_node 131 rfl rfl (DL.kw (DL.ck h DL.kw1)) ev

theorem within_paren {s : PSel} (h : D N.select_with_paren s.words s.r.v) : D N.select_within_set_operation (Within.paren s).words (Within.paren s).r.v := Der.up 126 rfl rfl ev h
theorem within_clause {c : Clause} (h : D N.select_clause c.words c.r.v) : D N.select_within_set_operation (Within.clause c).words (Within.clause c).r.v := Der.up 127 rfl rfl ev (Der.up 128 rfl rfl ev h)
theorem within_set {c : Clause} {op : SetOp} {r : Within} (h : D N.select_clause c.words c.r.v) (hr : D N.select_within_set_operation r.words r.r.v) : D N.select_within_set_operation (Within.set c op r).words (Within.set c op r).r.v := by
  refine Der.up 127 rfl rfl ev (Der.any_node 129 rfl rfl (DL.cons h (DL.top op.der (DL.last hr)) (by saf)) ?_)
  cases c
  exact evo

theorem top_del (t : Option Int) : (treat .del (topV t)).isSome = true := by cases t <;> rfl

theorem sel_plain {c : Clause} {o : Order} {l : Limit} {k : Locks} (h : D N.select_clause c.words c.r.v) (ho : D N.opt_order o.words o.v) (hl : D N.opt_limit l.words l.v) :
    D N.select_no_paren (Sel.plain c o l k).words (Sel.plain c o l k).r.v := by
  refine Der.any_node 132 rfl rfl (DL.cons h (DL.cons ho (DL.cons hl (DL.last k.der.d) (by saf)) (by saf)) (by saf)) ?_
  cases c with | mk t d its f w g =>
  cases l <;> cases k <;> cases t <;> exact fun _ => ev_op rfl rfl (by simp [V.isNumber, Clause.r, top_del])

theorem ev133 {c : SelV} {op : SetOp} {x y z u : V} (hx : x.isUndef = false) (hy : y.isUndef = false) (hz : z.isUndef = false) (hu : u.isUndef = false) (hc : c.setOperations = []) (n : Nat) :
    evRule 133 [c.v, op.v0, x, y, z, u] ⟨n, false⟩ = some (({ c with setOperations := [op.v x y z], lockings := u } : SelV).v, ⟨n, false⟩) := by
  obtain ⟨a1, a2, a3, a4, a5, so, a6, a7, a8, a9⟩ := c
  cases hc
  exact ev_op rfl rfl (by simp only [hx, hy, hz, hu]; rfl)

theorem sel_set {c : Clause} {op : SetOp} {r : Within} {o : Order} {l : Limit} {k : Locks} (h : D N.select_clause c.words c.r.v) (hr : D N.select_within_set_operation r.words r.r.v) (ho : D N.opt_order o.words o.v) (hl : D N.opt_limit l.words l.v) :
    D N.select_no_paren (Sel.set c op r o l k).words (Sel.set c op r o l k).r.v := by
  refine Der.any_node 133 rfl rfl (DL.cons h (DL.top op.der (DL.cons hr (DL.cons ho (DL.cons hl (DL.last k.der.d) (by saf)) (by saf)) (by saf))) (by saf)) ?_
  have hc : c.r.setOperations = [] := by cases c; rfl
  exact ev133 (SelV.nu _) (Order.nu _) (Limit.nu _) (Locks.nu _) hc

/-! ## Tables -/

theorem from_none : D N.opt_from_clause From.none.words From.none.v := DT.d (Der.eps 145 rfl rfl ev).any
theorem from_one {t : Table} (h : D N.table_ref_atomic t.words t.r.v) : D N.opt_from_clause (From.one t).words (From.one t).v :=
  Der.up 144 rfl rfl ev (Der.any_node 146 rfl rfl (DL.kw (DL.last (Der.up 299 rfl rfl ev h))) ev)
theorem from_many {l : Tables} {t : Table} (hl : D N.table_ref_commalist l.words (.vec 0 l.vals)) (h : D N.table_ref_atomic t.words t.r.v) : D N.opt_from_clause (From.many l t).words (From.many l t).v :=
  Der.up 144 rfl rfl ev (Der.any_node 146 rfl rfl (DL.kw (DL.last (Der.any_node 300 rfl rfl (DL.ck hl (DL.kw (DL.last h))) (v := (From.many l t).v) ev))) ev)
theorem tables_one {t : Table} (h : D N.table_ref_atomic t.words t.r.v) : D N.table_ref_commalist (Tables.one t).words (.vec 0 (Tables.one t).vals) := Der.any_node 305 rfl rfl (DL.last h) ev
theorem tables_snoc {l : Tables} {t : Table} (hl : D N.table_ref_commalist l.words (.vec 0 l.vals)) (h : D N.table_ref_atomic t.words t.r.v) : D N.table_ref_commalist (Tables.snoc l t).words (.vec 0 (Tables.snoc l t).vals) :=
  Der.any_node 306 rfl rfl (DL.ck hl (DL.kw (DL.last h))) ev

theorem tn_name {t : TName} {a : TAlias} : D N.nonjoin_table_ref_atomic (TableN.name t a).words (TableN.name t a).r.v :=
  Der.up 303 rfl rfl ev (Der.any_node 307 rfl rfl (DL.top t.der (DL.last a.der.d)) evo)
theorem tn_query {s : Query} {a : TAlias} (h : D N.select_statement s.words s.r.v) : D N.nonjoin_table_ref_atomic (TableN.query s a).words (TableN.query s a).r.v :=
  Der.any_node 304 rfl rfl (DL.kw (DL.ck h (DL.kw (DL.last a.der.d)))) evo
theorem table_base {t : TableN} (h : D N.nonjoin_table_ref_atomic t.words t.r.v) : D N.table_ref_atomic (Table.base t).words (Table.base t).r.v := Der.up 301 rfl rfl ev h
theorem table_natural {l : Table} {r : TableN} (hl : D N.table_ref_atomic l.words l.r.v) (h : D N.nonjoin_table_ref_atomic r.words r.r.v) : D N.table_ref_atomic (Table.natural l r).words (Table.natural l r).r.v :=
  Der.up 302 rfl rfl ev (Der.any_node 340 rfl rfl (DL.ck hl (DL.kw (DL.kw (DL.last h)))) ev)
theorem table_on {l : Table} {j : JoinType} {r : Table} {c : Expr} (hl : D N.table_ref_atomic l.words l.r.v) (hr : D N.table_ref_atomic r.words r.r.v) (hc : Good c) : D N.table_ref_atomic (Table.on l j r c).words (Table.on l j r c).r.v :=
  Der.up 302 rfl rfl ev (Der.any_node 341 rfl rfl (DL.cons hl (DL.top j.der (DL.kw (DL.ck hr (DL.kw (DL.last (Der.up 353 rfl rfl ev hc.d)))))) (by saf)) ev)
theorem table_using {l : Table} {j : JoinType} {r : Table} {n : Names} (hl : D N.table_ref_atomic l.words l.r.v) (hr : D N.table_ref_atomic r.words r.r.v) : D N.table_ref_atomic (Table.using l j r n).words (Table.using l j r n).r.v :=
  Der.up 302 rfl rfl ev (Der.any_node 342 rfl rfl (DL.cons hl (DL.top j.der (DL.kw (DL.ck hr (DL.kw (DL.kw (DL.top n.der DL.kw1)))))) (by saf)) ev)

/-! ## `WITH` -/

theorem with_none : D N.opt_with_clause With.none.words With.none.v := DT.d (Der.eps 335 rfl rfl ev).any
theorem with_some {l : Withs} (h : D N.with_description_list l.words (.vec 0 l.vals)) : D N.opt_with_clause (With.some l).words (With.some l).v := Der.up 334 rfl rfl ev (Der.any_node 336 rfl rfl (DL.kw (DL.last h)) ev)
theorem withs_one {n : Name} {s : PSel} (h : D N.select_with_paren s.words s.r.v) : D N.with_description_list (Withs.one n s).words (.vec 0 (Withs.one n s).vals) :=
  Der.any_node 337 rfl rfl (DL.last (Der.any_node 339 rfl rfl (DL.id (DL.kw (DL.last h))) (v := .obj 0 .WithDescription [str n, s.r.v]) ev)) ev
theorem withs_snoc {l : Withs} {n : Name} {s : PSel} (hl : D N.with_description_list l.words (.vec 0 l.vals)) (h : D N.select_with_paren s.words s.r.v) : D N.with_description_list (Withs.snoc l n s).words (.vec 0 (Withs.snoc l n s).vals) :=
  Der.any_node 338 rfl rfl (DL.ck hl (DL.kw (DL.last (Der.any_node 339 rfl rfl (DL.id (DL.kw (DL.last h))) (v := .obj 0 .WithDescription [str n, s.r.v]) ev)))) ev

theorem query_paren {w : With} {s : PSel} (hw : D N.opt_with_clause w.words w.v) (h : D N.select_with_paren s.words s.r.v) : D N.select_statement (Query.paren w s).words (Query.paren w s).r.v :=
  Der.any_node 123 rfl rfl (DL.cons hw (DL.last h) (by saf)) evo
theorem query_plain {w : With} {s : Sel} (hw : D N.opt_with_clause w.words w.v) (h : D N.select_no_paren s.words s.r.v) : D N.select_statement (Query.plain w s).words (Query.plain w s).r.v :=
  Der.any_node 124 rfl rfl (DL.cons hw (DL.last h) (by saf)) evo

theorem back_get (a : Nat) (xs : List V) (x : V) (p : List Sem.Sel) : (V.vec a (xs ++ [x])).get (.back :: p) = x.get p := by
  rw [V.get, List.getLast?_concat]
theorem back_put (a : Nat) (xs : List V) (x : V) (p : List Sem.Sel) (y : V) : (V.vec a (xs ++ [x])).put (.back :: p) y = match x.put p y with
    | some w => some (.vec a (xs ++ [w]))
    | none => none := by
  rw [V.put, List.getLast?_concat]
  simp only [List.dropLast_concat]
  cases x.put p y <;> rfl

theorem ev125 {c : SelV} {op : SetOp} {w x y z : V} (hx : x.isUndef = false) (hy : y.isUndef = false) (hz : z.isUndef = false) (hw : w.isUndef = false) (n : Nat) :
    evRule 125 [w, c.v, op.v0, x, y, z] ⟨n, false⟩ = some (({ c with setOperations := c.setOperations ++ [op.v x y z], withDescriptions := w } : SelV).v, ⟨n, false⟩) := by
  obtain ⟨a1, a2, a3, a4, a5, so, a6, a7, a8, a9⟩ := c
  cases so with
  | nil => exact ev_op rfl rfl (by simp only [hx, hy, hz, hw]; rfl)
  | cons s ss =>
    refine ev_of rfl ?_
    show pev act125 _ _ = _
    have e1 : ∀ so : List V, ovec (so ++ [op.v x y z]) = .vec 0 (so ++ [op.v x y z]) := by intro so; cases so <;> rfl
    show _ = some ((SelV.mk a1 a2 a3 a4 a5 ((s :: ss) ++ [op.v x y z]) a6 w a8 a9).v, false)
    simp only [SelV.v, StmtV.v, SelV.stmt, e1, ovec]
    generalize (s :: ss) = so
    simp [act125, pev, mkEnv, evalCond, evalRv, evalAtom, getP, putP, V.get, V.put, SetOp.v0, SetOp.v, SelectStatement.setOperations, SelectStatement.withDescriptions, SetOperation.nestedSelectStatement, SetOperation.resultOrder, SetOperation.resultLimit, show V.undef.isUndef = true from rfl, hx, hy, hz, hw, back_get, back_put]

theorem query_set {w : With} {s : PSel} {op : SetOp} {n : Within} {o : Order} {l : Limit} (hw : D N.opt_with_clause w.words w.v) (h : D N.select_with_paren s.words s.r.v) (hn : D N.select_within_set_operation n.words n.r.v)
    (ho : D N.opt_order o.words o.v) (hl : D N.opt_limit l.words l.v) : D N.select_statement (Query.set w s op n o l).words (Query.set w s op n o l).r.v := by
  refine Der.any_node 125 rfl rfl (DL.cons hw (DL.cons h (DL.top op.der (DL.cons hn (DL.cons ho (DL.last hl) (by saf)) (by saf))) (by saf)) (by saf)) ?_
  exact ev125 (SelV.nu _) (Order.nu _) (Limit.nu _) (With.nu _)

end Verif.Sql

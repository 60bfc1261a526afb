import Verif.Sql.ShowOk
/-! The printing functions on the AST of abstract SQL: the induction. Proof-internal. -/
namespace Verif.Sql
open Verif.Lex Verif.LR Verif.Sem Verif.Print

/-! ## Queries -/

/-- An object that is printed with a heading if it is there. -/
abbrev under (h : Bytes) (v : V) (f : V → Nat → Print.Out) (n : Nat) : Print.Out := ifPtr v (say h n ++ f v (n + 1))
/-- The two parts of a limit. -/
abbrev limitOut (k : Nat) (h : Bytes) (l : V) (n : Nat) : Print.Out := ifPtr l (deref l [LimitDescription.limit] fun x => under h x (printExpression k) n)
abbrev offsetOut (k : Nat) (h : Bytes) (l : V) (n : Nat) : Print.Out := ifPtr l (deref l [LimitDescription.offset] fun x => under h x (printExpression k) n)
abbrev groupOut (k : Nat) (g : V) (n : Nat) : Print.Out := ifPtr g (say b!"GroupBy:" n ++
  deref g [GroupByDescription.columns] (fun l => forEach l fun x => printExpression k x (n + 1)) ++
  deref g [GroupByDescription.having] fun h => under b!"Having:" h (printExpression k) n)
abbrev setOut (k n : Nat) (o : V) : Print.Out :=
  deref o [SetOperation.setType] (fun t => asInt t fun t =>
    if t = Sem.SetType.kSetIntersect then say b!"Intersect:" n
    else if t = Sem.SetType.kSetUnion then say b!"Union:" n
    else if t = Sem.SetType.kSetExcept then say b!"Except:" n
    else .nil) ++
  deref o [SetOperation.nestedSelectStatement] (fun x => printSelectStatementInfo k x (n + 1)) ++
  deref o [SetOperation.resultOrder] (fun l => under b!"SetResultOrderBy:" l (printOrderBy k) n) ++
  deref o [SetOperation.resultLimit] fun l => ifPtr l (
    deref l [LimitDescription.limit] (fun x => under b!"SetResultLimit:" x (printExpression k) n) ++
    deref l [LimitDescription.offset] fun x => under b!"SetResultOffset:" x (printExpression k) n)

structure PageOK (s : SelV) (p : Page) : Prop where
  fields : ∀ n, Shows (fun k => forEach (gv s.selectList) fun x => printExpression k x n) (p.fields n)
  sources : ∀ n, Shows (fun k => under b!"Sources:" (gv s.fromTable) (printTableRefInfo k) n) (p.sources n)
  search : ∀ n, Shows (fun k => under b!"Search Conditions:" (gv s.whereClause) (printExpression k) n) (p.search n)
  group : ∀ n, Shows (fun k => groupOut k (gv s.groupBy) n) (p.group n)
  locks : ∀ n, Shows (fun _ => ifPtr (gv s.lockings) (say b!"Lock Info:" (n + 1) ++ forEach (gv s.lockings) fun c => printLock c n)) (p.locks (n + 1))
  sets : ∀ n, Shows (fun k => seqL (setOut k n) (gL s.setOperations)) (p.sets n)
  order : ∀ n, Shows (fun k => under b!"OrderBy:" (gv s.order) (printOrderBy k) n) (p.order n)
  limit : ∀ n, Shows (fun k => limitOut k b!"Limit:" (gv s.limit) n) (p.limit n)
  offset : ∀ n, Shows (fun k => offsetOut k b!"Offset:" (gv s.limit) n) (p.offset n)

theorem sets_eq (vs : List V) (f : V → Print.Out) : ifPtr (gv (ovec vs)) (forEach (gv (ovec vs)) f) = seqL f (gL vs) := by
  cases vs <;> rfl

theorem PageOK.show {s : SelV} {p : Page} (h : PageOK s p) (hints len : V) (n : Nat) :
    Shows (fun k => printSelectStatementInfo k (gv (s.stmt.v hints len)) n) (p.show n) := by
  apply Shows.succ
  refine ((((((((((shows_say b!"SelectStatement" n).app (shows_say b!"Fields:" (n + 1))).app (h.fields (n + 2))).app (h.sources (n + 1))).app (h.search (n + 1))).app (h.group (n + 1))).app
    (h.locks n)).app (h.sets (n + 1))).app (h.order (n + 1))).app (h.limit (n + 1))).app (h.offset (n + 1)) |>.congr fun k => ?_
  show printSelectStatementInfo (k + 1) _ n = _
  rw [printSelectStatementInfo, ← sets_eq]
  rfl

theorem SetOp.shown (op : SetOp) (n : Nat) (f : Int → Print.Out)
    (hf : f = fun t => if t = Sem.SetType.kSetIntersect then say b!"Intersect:" n else if t = Sem.SetType.kSetUnion then say b!"Union:" n else if t = Sem.SetType.kSetExcept then say b!"Except:" n else .nil) :
    f op.type.v = .ok (ln op.text n) := by
  subst hf
  obtain ⟨t, b⟩ := op
  cases t <;> rfl

theorem shows_orders {vs : List V} {n : Nat} {ls : List Line}
    (h : Shows (fun k => seqL (fun o => deref o [OrderDescription.expr] (fun x => printExpression k x n) ++
      deref o [OrderDescription.type] fun t => asInt t fun t => if t = OrderType.kOrderAsc then say b!"ascending" n else say b!"descending" n) (gL vs)) ls) :
    Shows (fun k => printOrderBy k (gv (.vec 0 vs)) n) ls := by
  apply Shows.succ
  refine h.congr fun k => ?_
  show printOrderBy (k + 1) _ n = _
  rw [printOrderBy]; rfl
theorem shows_order {e : Expr} {d : Dir} {m : Nulls} {n : Nat} (h : Shows (fun k => printExpression k (gv e.r.v) n) (e.show n)) :
    Shows (fun k => (fun o => deref o [OrderDescription.expr] (fun x => printExpression k x n) ++
      deref o [OrderDescription.type] fun t => asInt t fun t => if t = OrderType.kOrderAsc then say b!"ascending" n else say b!"descending" n)
      (gv (.obj 0 .OrderDescription [.int d.v, e.r.v, .int m.v]))) (e.show n ++ d.show n) := by
  refine (h.app (shows_const (d.show n))).congr fun k => ?_
  cases d <;> rfl

theorem plain_ok {c : Clause} {o : Order} {l : Limit} {k : Locks} (h : PageOK c.r c.page) (ho : ∀ n, Shows (fun k => under b!"OrderBy:" (gv o.v) (printOrderBy k) n) (o.show b!"OrderBy:" n))
    (hl : ∀ n, Shows (fun k => limitOut k b!"Limit:" (gv l.v) n) (l.showLimit b!"Limit:" n)) (hf : ∀ n, Shows (fun k => offsetOut k b!"Offset:" (gv l.v) n) (l.showOffset b!"Offset:" n)) :
    PageOK (Sel.plain c o l k).r (Sel.plain c o l k).page := by
  cases l with
  | none =>
    rw [Sel.r, Sel.page]
    exact { h with order := ho, locks := fun n => ⟨0, fun _ _ => k.prints n⟩ }
  | _ =>
    rw [Sel.r, Sel.page]
    · exact { h with order := ho, locks := fun n => ⟨0, fun _ _ => k.prints n⟩, limit := hl, offset := hf }
    all_goals (intro h; cases h)
/-- The condition. -/
def searchOf : OExpr → Nat → List Line
  | .none => silent
  | .some e => headed b!"Search Conditions:" e.show
theorem clause_ok {t : Option Int} {d : Bool} {l : Items} {f : From} {w : OExpr} {g : Group}
    (hl : ∀ n, Shows (fun k => seqL (fun x => printExpression k x n) (gL l.vals)) (l.show n))
    (hf : ∀ n, Shows (fun k => under b!"Sources:" (gv f.v) (printTableRefInfo k) n) (f.show n))
    (hw : ∀ n, Shows (fun k => under b!"Search Conditions:" (gv w.v) (printExpression k) n) (searchOf w n))
    (hg : ∀ n, Shows (fun k => groupOut k (gv g.v) n) (g.show n)) : PageOK (Clause.mk t d l f w g).r (Clause.mk t d l f w g).page := by
  have hp : (Clause.mk t d l f w g).page = { fields := l.show, sources := f.show, search := searchOf w, group := g.show, locks := silent, sets := silent, order := silent, limit := (match t with | none => silent | some i => headed b!"Limit:" (lnInt i)), offset := silent } := by
    rw [Clause.page.eq_def]; cases w <;> rfl
  rw [hp, Clause.r]
  exact {
    fields := hl
    sources := hf
    search := hw
    group := hg
    locks := fun n => shows_nil
    sets := fun n => shows_nil
    order := fun n => shows_nil
    limit := fun n => (match t with
      | none => shows_nil
      | some i => (shows_say b!"Limit:" n).app (plainly fun a => (Num.int i).prints a (n + 1)))
    offset := fun n => (match t with
      | none => shows_nil
      | some i => shows_nil) }

mutual
theorem Expr.prints : ∀ (e : Expr) (n : Nat) (a : Alias), Shows (fun k => printExpression k (gv (a.put e.r).v) n) (e.show n ++ a.show n)
  | .lit l, n, a => by rw [Expr.r, Expr.show]; exact l.prints a n
  | .param k, n, a => by
    rw [Expr.r, Expr.show]
    refine Shows.succ ⟨0, fun j _ => ?_⟩
    show printExpression (j + 1) _ n = _
    rw [printExpression]
    cases a <;> rfl
  | .col t c, n, a => by
    rw [Expr.r]
    cases t with
    | none => rw [Expr.show]; exact shows_expr rfl rfl ⟨0, fun _ _ => rfl⟩
    | some t => rw [Expr.show]; exact shows_expr rfl rfl ⟨0, fun _ _ => rfl⟩
  | .star t, n, a => by rw [Expr.r, Expr.show]; exact shows_expr rfl rfl ⟨0, fun _ _ => rfl⟩
  | .paren e, n, a => by rw [Expr.r, Expr.show]; exact Expr.prints e n a
  | .query s, n, a => by rw [Expr.r, Expr.show]; exact shows_expr rfl rfl ((Sel.prints s).show _ _ n)
  | .neg e, n, a => by rw [Expr.r, Expr.show]; exact shows_un (plainly (Expr.prints e (n + 1))) a
  | .not e, n, a => by rw [Expr.r, Expr.show]; exact shows_un (plainly (Expr.prints e (n + 1))) a
  | .isNull _ e, n, a => by rw [Expr.r, Expr.show]; exact shows_un (plainly (Expr.prints e (n + 1))) a
  | .isNotNull e, n, a => by
    rw [Expr.r, Expr.show]
    exact shows_not (no := true) (x := headed b!"IS NULL" e.show) (fun n a => shows_un (plainly (Expr.prints e (n + 1))) a) n a
  | .bin o x y, n, a => by
    rw [Expr.r, Expr.show, ← o.shown]; exact shows_bin (plainly (Expr.prints x (n + 1))) (plainly (Expr.prints y (n + 1))) a
  | .logic o x y, n, a => by
    rw [Expr.r, Expr.show, ← o.shown]; exact shows_bin (plainly (Expr.prints x (n + 1))) (plainly (Expr.prints y (n + 1))) a
  | .inList no e l, n, a => by
    rw [Expr.r, Expr.show]
    exact shows_not (fun n a => (shows_oper (y := .null) (l := .vec 0 l.vals) (plainly (Expr.prints e (n + 1))) (Items.prints l (n + 1)) a).to (by
      simp only [headed, List.append_assoc]; rfl)) n a
  | .inQuery no e s, n, a => by
    rw [Expr.r, Expr.show]
    exact shows_not (fun n a => (shows_oper (y := .null) (l := .null) (plainly (Expr.prints e (n + 1))) shows_nil a).to (by
      simp only [headed, List.append_nil]; rfl)) n a
  | .between e lo hi, n, a => by
    rw [Expr.r, Expr.show]
    refine (shows_oper (y := .null) (plainly (Expr.prints e (n + 1))) (lr := lo.show (n + 1) ++ hi.show (n + 1)) ?_ a).to (by
      simp only [headed, List.append_assoc]; rfl)
    exact shows_snoc (f := fun k x => printExpression k x (n + 1)) (l := [lo.r.v]) (shows_one (f := fun k x => printExpression k x (n + 1)) (plainly (Expr.prints lo (n + 1)))) (plainly (Expr.prints hi (n + 1)))
  | .exist no s, n, a => by
    rw [Expr.r, Expr.show]
    exact shows_not (fun n a => (shows_oper (x := .null) (y := .null) (l := .null) (shows_null (n + 1)) shows_nil a).to rfl) n a
  | .case x l .none, n, a => by
    rw [Expr.r, Expr.show]
    refine (shows_oper (y := OExpr.none.v) (l := .vec 0 l.vals) (OExpr.prints x (n + 1)) (Whens.prints l (n + 1)) a).to (by simp only [headed, List.append_assoc]; rfl)
  | .case x l (.some e), n, a => by
    rw [Expr.r, Expr.show]
    have : (OExpr.some e).v = e.r.v := by rw [OExpr.v]
    rw [this]
    refine (shows_oper (y := e.r.v) (OExpr.prints x (n + 1)) (plainly (Expr.prints e (n + 1))) a).to (by simp only [headed, List.append_assoc]; rfl)
  | .call s f b w, n, a => by
    rw [Expr.r, Expr.show]
    refine shows_expr rfl rfl ?_
    refine ((((shows_say f n).app (Args.prints b (n + 1))).app (Window.prints w (n + 1))).to (by simp only [headed, List.append_assoc])).congr fun k => rfl
  | .extract f e, n, a => by
    rw [Expr.r, Expr.show]
    refine shows_expr rfl rfl ?_
    refine ((((shows_say b!"EXTRACT" n).app (shows_say f.text (n + 1))).app (plainly (Expr.prints e (n + 1)))).to (by simp only [headed, List.append_assoc])).congr fun k => ?_
    rw [← f.shown]; rfl
  | .cast e t, n, a => by
    rw [Expr.r, Expr.show]
    refine shows_expr rfl rfl ?_
    refine ((((shows_say b!"CAST" n).app (shows_const (ln t.text (n + 1)))).app (plainly (Expr.prints e (n + 1)))).to (by simp only [headed, List.append_assoc])).congr fun k => ?_
    rw [← t.shown]; rfl
  | .array l, n, a => by
    rw [Expr.r, Expr.show]
    exact shows_expr rfl rfl (Items.prints l (n + 1))
  | .index e i, n, a => by
    rw [Expr.r, Expr.show]
    exact shows_expr rfl rfl ((plainly (Expr.prints e (n + 1))).app (shows_const (lnInt i n)))
theorem OExpr.prints : ∀ (x : OExpr) (n : Nat), Shows (fun k => printExpression k (gv x.v) n) (x.show n)
  | .none, n => by rw [OExpr.v, OExpr.show]; exact shows_null n
  | .some e, n => by rw [OExpr.v, OExpr.show]; exact plainly (Expr.prints e n)
theorem Items.prints : ∀ (l : Items) (n : Nat), Shows (fun k => seqL (fun x => printExpression k x n) (gL l.vals)) (l.show n)
  | .one e a, n => by rw [Items.vals, Items.show]; exact shows_one (f := fun k x => printExpression k x n) (Expr.prints e n a)
  | .snoc l e a, n => by
    rw [Items.vals, Items.show]; exact shows_snoc (f := fun k x => printExpression k x n) (Items.prints l n) (Expr.prints e n a)
theorem Whens.prints : ∀ (l : Whens) (n : Nat), Shows (fun k => seqL (fun x => printExpression k x n) (gL l.vals)) (l.show n)
  | .one w t, n => by
    rw [Whens.vals, Whens.show]
    exact shows_one (f := fun k x => printExpression k x n) (plainly (shows_bin (plainly (Expr.prints w (n + 1))) (plainly (Expr.prints t (n + 1)))))
  | .snoc l w t, n => by
    rw [Whens.vals, Whens.show]
    exact shows_snoc (f := fun k x => printExpression k x n) (Whens.prints l n) (plainly (shows_bin (plainly (Expr.prints w (n + 1))) (plainly (Expr.prints t (n + 1)))))
theorem Args.prints : ∀ (l : Args) (n : Nat), Shows (fun k => seqL (fun x => printExpression k x n) (gL l.vals)) (l.show n)
  | .none, n => by rw [Args.vals, Args.show]; exact shows_nil
  | .some _ l, n => by rw [Args.vals, Args.show]; exact Items.prints l n
theorem Window.prints : ∀ (w : Window) (n : Nat), Shows (fun k => ifPtr (gv w.v) (printWindowDescription k (gv w.v) n)) (w.show n)
  | .none, n => by rw [Window.v, Window.show]; exact shows_nil
  | .over p o f, n => by
    rw [Window.v, Window.show]
    apply Shows.succ
    refine (((((shows_say b!"OVER" n).app (Partition.prints p (n + 1))).app (Order.prints o b!"ORDER BY" (n + 1))).app (shows_const (ln f.text (n + 1)))).to (by
      simp only [headed, List.append_assoc])).congr fun k => ?_
    show printWindowDescription (k + 1) _ n = _
    rw [printWindowDescription, ← Frame.shown]; rfl
theorem Partition.prints : ∀ (p : Partition) (n : Nat), Shows (fun k => ifPtr (gv p.v) (say b!"PARTITION BY" n ++ forEach (gv p.v) fun x => printExpression k x (n + 1))) (p.show n)
  | .none, n => by rw [Partition.v, Partition.show]; exact shows_nil
  | .by l, n => by rw [Partition.v, Partition.show]; exact (shows_say b!"PARTITION BY" n).app (Items.prints l (n + 1))
theorem Order.prints : ∀ (o : Order) (h : Bytes) (n : Nat), Shows (fun k => under h (gv o.v) (printOrderBy k) n) (o.show h n)
  | .none, h, n => by rw [Order.v, Order.show]; exact shows_nil
  | .by l, h, n => by rw [Order.v, Order.show]; exact (shows_say h n).app (shows_orders (Orders.prints l (n + 1)))
theorem Orders.prints : ∀ (l : Orders) (n : Nat), Shows (fun k => seqL (fun o => deref o [OrderDescription.expr] (fun x => printExpression k x n) ++
      deref o [OrderDescription.type] fun t => asInt t fun t => if t = OrderType.kOrderAsc then say b!"ascending" n else say b!"descending" n) (gL l.vals)) (l.show n)
  | .one e d m, n => by
    rw [Orders.vals, Orders.show]
    exact shows_one (shows_order (d := d) (m := m) (plainly (Expr.prints e n)))
  | .snoc l e d m, n => by
    rw [Orders.vals, Orders.show]
    exact shows_snoc (Orders.prints l n) (shows_order (d := d) (m := m) (plainly (Expr.prints e n)))
theorem Sel.prints : ∀ (s : Sel), PageOK s.r s.page
  | .plain c o l k => plain_ok (Clause.prints c) (Order.prints o b!"OrderBy:") (Limit.limits l b!"Limit:") (Limit.offsets l b!"Offset:")
  | .set c op r o l k => by
    have h := Clause.prints c
    have h' := Within.prints r
    rw [Sel.r, Sel.page]
    exact { h with
      locks := fun n => ⟨0, fun _ _ => k.prints n⟩,
      sets := fun n => shows_one (f := fun k => setOut k n)
        (((((shows_const (ln op.text n)).app (h'.show _ _ (n + 1))).app (Order.prints o _ n)).app (Limit.twice l n)).congr fun k => by
          rw [← SetOp.shown op n _ rfl]; rfl) }
theorem PSel.prints : ∀ (s : PSel), PageOK s.r s.page
  | .one s => by rw [PSel.r, PSel.page]; exact Sel.prints s
  | .more s => by rw [PSel.r, PSel.page]; exact PSel.prints s
theorem Within.prints : ∀ (s : Within), PageOK s.r s.page
  | .paren s => by rw [Within.r, Within.page]; exact PSel.prints s
  | .clause c => by rw [Within.r, Within.page]; exact Clause.prints c
  | .set c op r => by
    have h := Clause.prints c
    have h' := Within.prints r
    rw [Within.r, Within.page]
    exact { h with
      sets := fun n => shows_one (f := fun k => setOut k n)
        (((((shows_const (ln op.text n)).app (h'.show _ _ (n + 1))).app shows_nil).app shows_nil).to (by simp only [List.append_nil]) |>.congr fun k => by
          rw [← SetOp.shown op n _ rfl]; rfl) }
theorem Clause.prints : ∀ (s : Clause), PageOK s.r s.page
  | .mk t d l f .none g => clause_ok (Items.prints l) (From.prints f) (fun n => by rw [OExpr.v]; exact shows_nil) (Group.prints g)
  | .mk t d l f (.some e) g => clause_ok (Items.prints l) (From.prints f) (fun n => by rw [OExpr.v]; exact (shows_say b!"Search Conditions:" n).app (plainly (Expr.prints e (n + 1)))) (Group.prints g)
theorem Group.prints : ∀ (g : Group) (n : Nat), Shows (fun k => groupOut k (gv g.v) n) (g.show n)
  | .none, n => by rw [Group.v, Group.show]; exact shows_nil
  | .by l .none, n => by
    rw [Group.v, Group.show, OExpr.v]
    exact ((((shows_say b!"GroupBy:" n).app (Items.prints l (n + 1))).app shows_nil).to (by rw [List.append_nil]))
  | .by l (.some h), n => by
    rw [Group.v, Group.show, OExpr.v]
    exact ((shows_say b!"GroupBy:" n).app (Items.prints l (n + 1))).app ((shows_say b!"Having:" n).app (plainly (Expr.prints h (n + 1))))
theorem Limit.limits : ∀ (l : Limit) (h : Bytes) (n : Nat), Shows (fun k => limitOut k h (gv l.v) n) (l.showLimit h n)
  | .none, h, n => by rw [Limit.v, Limit.showLimit] <;> first | exact shows_nil | (intros; contradiction)
  | .limit e, h, n => by rw [Limit.v, Limit.showLimit]; exact (shows_say h n).app (plainly (Expr.prints e (n + 1)))
  | .offset e, h, n => by rw [Limit.v, Limit.showLimit] <;> first | exact shows_nil | (intros; contradiction)
  | .both e _, h, n => by rw [Limit.v, Limit.showLimit]; exact (shows_say h n).app (plainly (Expr.prints e (n + 1)))
  | .all, h, n => by rw [Limit.v, Limit.showLimit] <;> first | exact shows_nil | (intros; contradiction)
  | .allOffset e, h, n => by rw [Limit.v, Limit.showLimit] <;> first | exact shows_nil | (intros; contradiction)
theorem Limit.offsets : ∀ (l : Limit) (h : Bytes) (n : Nat), Shows (fun k => offsetOut k h (gv l.v) n) (l.showOffset h n)
  | .none, h, n => by rw [Limit.v, Limit.showOffset] <;> first | exact shows_nil | (intros; contradiction)
  | .limit e, h, n => by rw [Limit.v, Limit.showOffset] <;> first | exact shows_nil | (intros; contradiction)
  | .offset e, h, n => by rw [Limit.v, Limit.showOffset]; exact (shows_say h n).app (plainly (Expr.prints e (n + 1)))
  | .both _ e, h, n => by rw [Limit.v, Limit.showOffset]; exact (shows_say h n).app (plainly (Expr.prints e (n + 1)))
  | .all, h, n => by rw [Limit.v, Limit.showOffset] <;> first | exact shows_nil | (intros; contradiction)
  | .allOffset e, h, n => by rw [Limit.v, Limit.showOffset]; exact (shows_say h n).app (plainly (Expr.prints e (n + 1)))
theorem Limit.twice : ∀ (l : Limit) (n : Nat), Shows (fun k => ifPtr (gv l.v) (
    deref (gv l.v) [LimitDescription.limit] (fun x => under b!"SetResultLimit:" x (printExpression k) n) ++
    deref (gv l.v) [LimitDescription.offset] fun x => under b!"SetResultOffset:" x (printExpression k) n)) (l.showLimit b!"SetResultLimit:" n ++ l.showOffset b!"SetResultOffset:" n)
  | .none, n => ((Limit.limits .none b!"SetResultLimit:" n).app (Limit.offsets .none b!"SetResultOffset:" n)).congr fun k => by rw [Limit.v]; rfl
  | .limit e, n => ((Limit.limits (.limit e) b!"SetResultLimit:" n).app (Limit.offsets (.limit e) b!"SetResultOffset:" n)).congr fun k => by rw [Limit.v]; rfl
  | .offset e, n => ((Limit.limits (.offset e) b!"SetResultLimit:" n).app (Limit.offsets (.offset e) b!"SetResultOffset:" n)).congr fun k => by rw [Limit.v]; rfl
  | .both e e', n => ((Limit.limits (.both e e') b!"SetResultLimit:" n).app (Limit.offsets (.both e e') b!"SetResultOffset:" n)).congr fun k => by rw [Limit.v]; rfl
  | .all, n => ((Limit.limits .all b!"SetResultLimit:" n).app (Limit.offsets .all b!"SetResultOffset:" n)).congr fun k => by rw [Limit.v]; rfl
  | .allOffset e, n => ((Limit.limits (.allOffset e) b!"SetResultLimit:" n).app (Limit.offsets (.allOffset e) b!"SetResultOffset:" n)).congr fun k => by rw [Limit.v]; rfl
theorem From.prints : ∀ (f : From) (n : Nat), Shows (fun k => under b!"Sources:" (gv f.v) (printTableRefInfo k) n) (f.show n)
  | .none, n => by rw [From.v, From.show]; exact shows_nil
  | .one t, n => by rw [From.v, From.show]; exact (shows_say b!"Sources:" n).app (Table.prints t (n + 1))
  | .many l t, n => by
    rw [From.v, From.show]
    refine (shows_say b!"Sources:" n).app ?_
    apply Shows.succ
    refine ((shows_snoc (f := fun k x => printTableRefInfo k x (n + 1)) (Tables.prints l (n + 1)) (Table.prints t (n + 1))).app shows_nil).to (List.append_nil _) |>.congr fun k => ?_
    show printTableRefInfo (k + 1) _ (n + 1) = _
    rw [printTableRefInfo]; rfl
theorem Tables.prints : ∀ (l : Tables) (n : Nat), Shows (fun k => seqL (fun x => printTableRefInfo k x n) (gL l.vals)) (l.show n)
  | .one t, n => by rw [Tables.vals, Tables.show]; exact shows_one (f := fun k x => printTableRefInfo k x n) (Table.prints t n)
  | .snoc l t, n => by rw [Tables.vals, Tables.show]; exact shows_snoc (f := fun k x => printTableRefInfo k x n) (Tables.prints l n) (Table.prints t n)
theorem TableN.prints : ∀ (t : TableN) (n : Nat), Shows (fun k => printTableRefInfo k (gv t.r.v) n) (t.show n)
  | .name ⟨none, t⟩ a, n => by
    rw [TableN.r, TableN.show]
    apply Shows.succ
    refine ((shows_say t n).app (shows_const (a.show n))).congr fun k => ?_
    show printTableRefInfo (k + 1) _ n = _
    rw [printTableRefInfo, ← TAlias.prints]; rfl
  | .name ⟨some s, t⟩ a, n => by
    rw [TableN.r, TableN.show]
    apply Shows.succ
    refine (((shows_say t n).app ((shows_say b!"Schema" (n + 1)).app (shows_say s (n + 2)))).app (shows_const (a.show n))).congr fun k => ?_
    show printTableRefInfo (k + 1) _ n = _
    rw [printTableRefInfo, ← TAlias.prints]; rfl
  | .query q a, n => by
    rw [TableN.r, TableN.show]
    apply Shows.succ
    refine (((Query.prints q).show .null .undef n).app (shows_const (a.show n))).congr fun k => ?_
    show printTableRefInfo (k + 1) _ n = _
    rw [printTableRefInfo, ← TAlias.prints]; rfl
theorem Table.prints : ∀ (t : Table) (n : Nat), Shows (fun k => printTableRefInfo k (gv t.r.v) n) (t.show n)
  | .base t, n => by rw [Table.r, Table.show]; exact TableN.prints t n
  | .natural l r, n => by
    rw [Table.r, Table.show]
    apply Shows.succ
    refine ((((((shows_say b!"Join Table" n).app (shows_say b!"Left" (n + 1))).app (Table.prints l (n + 2))).app (shows_say b!"Right" (n + 1))).app (TableN.prints r (n + 2))).app
      (shows_say b!"Join Condition" (n + 1))).app (shows_null (n + 2)) |>.app shows_nil |>.to (by simp only [headed, List.append_assoc, List.append_nil]) |>.congr fun k => ?_
    show printTableRefInfo (k + 1) _ n = _
    rw [printTableRefInfo]; rfl
  | .on l j r c, n => by
    rw [Table.r, Table.show]
    apply Shows.succ
    refine ((((((shows_say b!"Join Table" n).app (shows_say b!"Left" (n + 1))).app (Table.prints l (n + 2))).app (shows_say b!"Right" (n + 1))).app (Table.prints r (n + 2))).app
      (shows_say b!"Join Condition" (n + 1))).app (plainly (Expr.prints c (n + 2))) |>.app shows_nil |>.to (by simp only [headed, List.append_assoc, List.append_nil]) |>.congr fun k => ?_
    show printTableRefInfo (k + 1) _ n = _
    rw [printTableRefInfo]; rfl
  | .using l j r cols, n => by
    rw [Table.r, Table.show]
    apply Shows.succ
    refine ((((((shows_say b!"Join Table" n).app (shows_say b!"Left" (n + 1))).app (Table.prints l (n + 2))).app (shows_say b!"Right" (n + 1))).app (Table.prints r (n + 2))).app
      (shows_say b!"Join Condition" (n + 1))).app (shows_null (n + 2)) |>.app shows_nil |>.to (by simp only [headed, List.append_assoc, List.append_nil]) |>.congr fun k => ?_
    show printTableRefInfo (k + 1) _ n = _
    rw [printTableRefInfo]; rfl
theorem Query.prints : ∀ (q : Query), PageOK q.r q.page
  | .paren w s => by
    have h := PSel.prints s
    rw [Query.r, Query.page]
    exact { h with }
  | .plain w s => by
    have h := Sel.prints s
    rw [Query.r, Query.page]
    exact { h with }
  | .set w s op r o l => by
    have h := PSel.prints s
    have h' := Within.prints r
    rw [Query.r, Query.page]
    exact { h with
      sets := fun n => shows_snoc (f := fun k => setOut k n) (h.sets n)
        (((((shows_const (ln op.text n)).app (h'.show _ _ (n + 1))).app (Order.prints o _ n)).app (Limit.twice l n)).congr fun k => by
          rw [← SetOp.shown op n _ rfl]; rfl) }
end

end Verif.Sql

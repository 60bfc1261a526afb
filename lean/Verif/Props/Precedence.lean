import Verif.Props.RoundTrip
import Verif.Sql.Chain
/-!
# C22: precedence and associativity
-/
namespace Verif.Props
open Verif.Lex Verif.LR Verif.Sem Verif.Api Verif.Sql

/-! ## Specification -/

/-- The query `SELECT e`, as a script. -/
def selectOf (e : Expr) : Script := .one (.stmt (.query (.plain .none (.plain (.mk none false (.one e .none) .none .none .none) .none .none .none))) .none)
/-- The statement `SELECT e`: a list of one expression, all else absent. -/
def selectAst (e : Expr) : V := .obj 0 .SelectStatement [.pos 0, .null, .int StatementType.kStmtSelect, .null, .int 0, .vec 0 [e.r.v.fill], .null, .null, .null, .null, .null, .null, .null]

/-- The binary operators: between operands, or logical. -/
inductive Op where
  | bin (o : BinOp)
  | log (o : LogOp)
def Op.words : Op → List Word
  | .bin o => o.words
  | .log o => Sql.kw o.kw
def Op.app : Op → Expr → Expr → Expr
  | .bin o => .bin o
  | .log o => .logic o
/-- The level of the operator in the precedence table (bison_parser.y:317-336): how tight it binds its right operand. -/
def Op.level : Op → Nat
  | .bin o => o.level
  | .log o => o.level
/-- How tight it binds its left operand. This is the same, except for `NOT LIKE`, which stands in line with `NOT` there. -/
def Op.leftLevel : Op → Nat
  | .bin o => o.tokLevel
  | .log o => o.level

theorem Op.leftLevel_eq (o : Op) (h : o ≠ .bin .notLike) : o.leftLevel = o.level := by
  cases o with
  | bin o => cases o <;> first | rfl | exact absurd rfl h
  | log o => rfl

/-- An expression without an operator on its edges: a literal, a column, a call, anything in parentheses, ... -/
def Closed (e : Expr) : Prop := e.isOpnd = true ∧ e.lev = (closed, closed)

theorem fill_select (e : Expr) : (selectOf e).items.map (fun i => (i.v (.pos 0)).fill) = [selectAst e] := by
  simp [selectOf, selectAst, Script.items, Item.v, Stmt.r, Query.r, Sel.r, Clause.r, SelV.stmt, StmtV.v, Items.vals, Alias.put, From.v, OExpr.v, Group.v, Order.v, Limit.v, Locks.v, With.v, topV, Hints.v,
    V.fill, fillL, isPar, ovec]

theorem select_words (e : Expr) : (selectOf e).text false = kw T.SELECT ++ e.words := by
  simp [selectOf, Script.text, Script.words, Item.words, Stmt.words, Query.words, Sel.words, Clause.words, Items.words, Alias.words, From.words, Group.words, Order.words, Limit.words, Locks.words, With.words,
    Hints.words, cat, topWords, distinctKw]

theorem closed_words {e : Expr} (h : Closed e) (q : Nat) (hq : q < 100) : par (e.fitL q) e.words = e.words ∧ par (e.fitR q) e.words = e.words ∧ par (e.fitLogL q) e.words = e.words ∧ par (e.fitLogR q) e.words = e.words := by
  have h1 : tightL q closed = true := by simp [tightL, closed, hq]
  have h2 : tightR q closed = true := by simp [tightR, closed, hq]
  simp only [Expr.fitL, Expr.fitR, Expr.fitLogL, Expr.fitLogR, h.1, h.2, h1, h2, Bool.and_self, par, cond_true, and_self]

theorem Op.lt (o : Op) : o.level < 100 ∧ o.leftLevel < 100 := by
  cases o with
  | bin o => cases o <;> exact ⟨by decide, by decide⟩
  | log o => cases o <;> exact ⟨by decide, by decide⟩

theorem app_words {x y : Expr} (o : Op) (hx : Closed x) (hy : Closed y) : (o.app x y).words = x.words ++ (o.words ++ y.words) := by
  cases o with
  | bin o =>
    have h := Op.lt (.bin o)
    simp only [Op.app, Expr.words, cat, Op.words, (closed_words hx _ h.2).1, (closed_words hy _ h.1).2.1, Op.leftLevel, Op.level] at h ⊢
    rw [(closed_words hx _ h.2).1, (closed_words hy _ h.1).2.1]
  | log o =>
    have h := Op.lt (.log o)
    simp only [Op.app, Expr.words, cat, Op.words, Op.leftLevel, Op.level] at h ⊢
    rw [(closed_words hx _ h.2).2.2.1, (closed_words hy _ h.1).2.2.2]

theorem app_lev {x y : Expr} (o : Op) (hx : Closed x) (hy : Closed y) : (o.app x y).lev = (o.leftLevel, o.level) := by
  cases o with
  | bin o => simp only [Op.app, Expr.lev, hx.2, hy.2, cond_eq_if, ite_self, Op.leftLevel, Op.level]; cases o <;> rfl
  | log o => simp only [Op.app, Expr.lev, hx.2, hy.2, cond_eq_if, ite_self, Op.leftLevel, Op.level]; cases o <;> rfl

theorem words_left {x y z : Expr} (hx : Closed x) (hy : Closed y) (hz : Closed z) {o p : Op} (h : p.leftLevel < o.level ∨ (o.level = p.leftLevel ∧ leftAssoc o.level = true)) :
    (p.app (o.app x y) z).words = x.words ++ (o.words ++ (y.words ++ (p.words ++ z.words))) := by
  have ht : tightL p.leftLevel o.level = true := by
    simp only [tightL, Bool.or_eq_true, decide_eq_true_eq, Bool.and_eq_true, beq_iff_eq]
    rcases h with h | h
    · exact .inl h
    · exact .inr ⟨h.1.symm, by rw [← h.1]; exact h.2⟩
  have hp := Op.lt p
  cases p with
  | bin p =>
    have hop : (o.app x y).isOpnd = true := by
      cases o with
      | bin o => rfl
      | log o => cases o <;> cases p <;> rcases h with h | ⟨h, _⟩ <;> simp [Op.leftLevel, Op.level, BinOp.tokLevel, BinOp.level, LogOp.level] at h
    have hfit : (o.app x y).fitL p.tokLevel = true := by rw [Expr.fitL, app_lev o hx hy, hop]; exact ht
    show cat [par ((o.app x y).fitL p.tokLevel) (o.app x y).words, p.words, par (z.fitR p.level) z.words] = _
    rw [hfit, (closed_words hz p.level hp.1).2.1]
    simp only [cat, par, cond_true, app_words o hx hy, Op.words, List.append_assoc]
  | log p =>
    have hfit : (o.app x y).fitLogL p.level = true := by rw [Expr.fitLogL, app_lev o hx hy]; exact ht
    show cat [par ((o.app x y).fitLogL p.level) (o.app x y).words, Sql.kw p.kw, par (z.fitLogR p.level) z.words] = _
    rw [hfit, (closed_words hz p.level hp.1).2.2.2]
    simp only [cat, par, cond_true, app_words o hx hy, Op.words, List.append_assoc]

theorem words_right {x y z : Expr} (hx : Closed x) (hy : Closed y) (hz : Closed z) {o p : Op} (h : o.level < p.leftLevel) :
    (o.app x (p.app y z)).words = x.words ++ (o.words ++ (y.words ++ (p.words ++ z.words))) := by
  have ht : tightR o.level p.leftLevel = true := by
    simp only [tightR, Bool.or_eq_true, decide_eq_true_eq]; exact .inl h
  have hp := Op.lt o
  cases o with
  | bin o =>
    have hop : (p.app y z).isOpnd = true := by
      cases p with
      | bin p => rfl
      | log p => cases p <;> cases o <;> simp [Op.leftLevel, Op.level, BinOp.level, LogOp.level] at h
    have hfit : (p.app y z).fitR o.level = true := by rw [Expr.fitR, app_lev p hy hz, hop]; exact ht
    show cat [par (x.fitL o.tokLevel) x.words, o.words, par ((p.app y z).fitR o.level) (p.app y z).words] = _
    rw [hfit, (closed_words hx o.tokLevel hp.2).1]
    simp only [cat, par, cond_true, app_words p hy hz, Op.words]
  | log o =>
    have hfit : (p.app y z).fitLogR o.level = true := by rw [Expr.fitLogR, app_lev p hy hz]; exact ht
    show cat [par (x.fitLogL o.level) x.words, Sql.kw o.kw, par ((p.app y z).fitLogR o.level) (p.app y z).words] = _
    rw [hfit, (closed_words hx o.level hp.2).2.2.1]
    simp only [cat, par, cond_true, app_words p hy hz, Op.words]

/-! ## Theorems -/

section
variable {A : Alloc} (hA : Distinct A) {fpr : Int} (hf : FprOK fpr) (buf : Bytes) (sql : List UInt8) (l c : Int)
include hA hf

/-- C22. An expression written with parentheses only where the precedences demand them (`Expr.words`) is parsed as that expression. -/
theorem C22_minimal_parentheses (e : Expr) (hs : Text (kw T.SELECT ++ e.words) (cText sql)) (hn : Numbered 0 e.words) :
    ∃ o, parse A fpr buf sql (newResult l c) = some o ∧
      ((o.res.isValid = true ∧ astL o.res.stmts = [selectAst e]) ∨
       (o.res.isValid = false ∧ message o.res = some b!"memory exhausted" ∧ 97 < e.words.length + 1)) := by
  have h := C23_round_trip hA hf buf sql l c (selectOf e) false (by rw [select_words]; exact hs) (by rw [select_words]; exact hn)
  rw [fill_select, select_words] at h
  simpa [Nat.add_comm] using h

/-- C22. How `x o y p z` is grouped, for operands without operators on their edges (others would be in parentheses): to the left if `o` binds tighter, or equally tight
and is left-associative; to the right if `p` binds tighter. (If they bind equally tight and are not left-associative, `x o y p z` is rejected: `C22_nonassociative_rejected`.) -/
theorem C22_grouping (x y z : Expr) (hx : Closed x) (hy : Closed y) (hz : Closed z) (o p : Op)
    (hs : Text (kw T.SELECT ++ (x.words ++ (o.words ++ (y.words ++ (p.words ++ z.words))))) (cText sql)) (hn : Numbered 0 (x.words ++ (o.words ++ (y.words ++ (p.words ++ z.words))))) :
    ((p.leftLevel < o.level ∨ (o.level = p.leftLevel ∧ leftAssoc o.level = true)) →
      ∃ r, parse A fpr buf sql (newResult l c) = some r ∧
        ((r.res.isValid = true ∧ astL r.res.stmts = [selectAst (p.app (o.app x y) z)]) ∨ (r.res.isValid = false ∧ message r.res = some b!"memory exhausted"))) ∧
    (o.level < p.leftLevel →
      ∃ r, parse A fpr buf sql (newResult l c) = some r ∧
        ((r.res.isValid = true ∧ astL r.res.stmts = [selectAst (o.app x (p.app y z))]) ∨ (r.res.isValid = false ∧ message r.res = some b!"memory exhausted"))) := by
  have fin : ∀ e : Expr, e.words = x.words ++ (o.words ++ (y.words ++ (p.words ++ z.words))) →
      ∃ r, parse A fpr buf sql (newResult l c) = some r ∧ ((r.res.isValid = true ∧ astL r.res.stmts = [selectAst e]) ∨ (r.res.isValid = false ∧ message r.res = some b!"memory exhausted")) := by
    intro e he
    obtain ⟨r, hr, h | h⟩ := C22_minimal_parentheses hA hf buf sql l c e (by rw [he]; exact hs) (by rw [he]; exact hn)
    · exact ⟨r, hr, .inl h⟩
    · exact ⟨r, hr, .inr ⟨h.1, h.2.1⟩⟩
  exact ⟨fun h => fin _ (words_left hx hy hz h), fun h => fin _ (words_right hx hy hz h)⟩

/-- C22. Operators of the same level that is not associative (comparisons; `=`, `LIKE`, ...) cannot be chained: a text that begins with `SELECT x o y p` is rejected, however it continues. -/
theorem C22_nonassociative_rejected (x y : Expr) (hx : Closed x) (hy : Closed y) (o p : Op) (rest : List Word)
    (hs : Text (kw T.SELECT ++ (x.words ++ (o.words ++ (y.words ++ (p.words ++ rest))))) (cText sql)) (hn : Numbered 0 (x.words ++ (o.words ++ y.words)))
    (hl : o.level = p.leftLevel) (ha : leftAssoc o.level = false) (r : ParseOut) (hr : parse A fpr buf sql (newResult l c) = some r) : r.res.isValid = false := by
  cases hv : r.res.isValid with
  | false => rfl
  | true =>
  obtain ⟨t, ht, _⟩ := C11_valid_is_grammatical hA hf buf sql l c r hr hv
  have hsp := tokensOf_text (fpr := fpr) hs
  cases o with
  | log o => cases o <;> cases ha
  | bin o =>
  cases p with
  | log p => cases o <;> cases p <;> first | cases hl | cases ha
  | bin p =>
  have hl : o.level = p.tokLevel := hl
  have ho : o.level = 3 ∨ o.level = 4 := by cases o <;> first | exact .inl rfl | exact .inr rfl | cases ha
  have hp : p ∈ chainOps := chain_mem (by revert hl; cases p <;> intro hl <;> first | exact .inl rfl | exact .inr rfl | (rw [hl] at ho; rcases ho with h | h <;> cases h))
  have e : kw T.SELECT ++ (x.words ++ (o.words ++ (y.words ++ (p.words ++ rest)))) = (kw T.SELECT ++ (x.words ++ (o.words ++ y.words))) ++ (p.words ++ rest) := by simp
  simp only [Op.words] at hsp hn
  rw [e] at hsp
  obtain ⟨a, b, hab, h1, h2⟩ := spelled_append hsp
  obtain ⟨u, b', hb, hu⟩ : ∃ u b', b = u :: b' ∧ tsym u = opTok p := by
    cases b with
    | nil => cases p <;> exact h2.elim
    | cons u b' => exact ⟨u, b', rfl, by cases p <;> exact h2.1⟩
  subst hb
  have kx : par (x.fitL o.tokLevel) x.words = x.words := by
    rw [Expr.fitL, hx.1, hx.2]; cases o <;> rfl
  have ky : par (y.fitR o.level && y.fitL p.tokLevel) y.words = y.words := by
    rw [Expr.fitL, Expr.fitR, hy.1, hy.2, ← hl]; cases o <;> rfl
  refine absurd ?_ (chain (x := x) (y := y) (chain_mem ho) hp hl (by rw [kx, ky]; exact h1) (by rw [kx, ky]; exact hn) hu ht)
  rw [hab]
  exact ⟨b'.map tsym ++ [0], by simp⟩
end

/-! ### Examples -/

/-- `a - b - c`, `a + b * c`, `a = b = c`, `NOT a = b AND c` -/
def va : Expr := .col none b!"a"
def vb : Expr := .col none b!"b"
def vc : Expr := .col none b!"c"

example : Closed va ∧ Closed (.paren (.logic .or va vb)) ∧ Closed (.call none b!"f" (.some false (.one (.bin .plus va vb) .none)) .none) := ⟨⟨rfl, rfl⟩, ⟨rfl, rfl⟩, ⟨rfl, rfl⟩⟩
example : render (selectOf (.bin .minus (.bin .minus va vb) vc)).words = b!"SELECT \"a\" - \"b\" - \"c\" " := by decide +kernel
example : render (selectOf (.bin .minus va (.bin .minus vb vc))).words = b!"SELECT \"a\" - ( \"b\" - \"c\" ) " := by decide +kernel
example : render (selectOf (.bin .eq va (.bin .eq vb vc))).words = b!"SELECT \"a\" = ( \"b\" = \"c\" ) " := by decide +kernel
example : render (selectOf (.logic .and (.not (.bin .eq va vb)) vc)).words = b!"SELECT NOT \"a\" = \"b\" AND \"c\" " := by decide +kernel

/-- A check that the words can be rendered. -/
def renderB (ws : List Word) : Bool := ws.all fun w => okB w && (match w with | .kw a => spellings.any fun e => e.1 == a | _ => true)
theorem textB {ws : List Word} (h : renderB ws = true) : Text ws (cText ((render ws).map UInt8.ofNat)) := by
  have h1 : ∀ w ∈ ws, w.Ok := fun w hw => okB_ok (Bool.and_eq_true .. ▸ List.all_eq_true.1 h w hw).1
  have h2 : K ws := fun a ha => (Bool.and_eq_true .. ▸ List.all_eq_true.1 h (.kw a) ha).2
  rw [cText_ofNat (render_bytes h1 h2)]
  exact render_text h1 h2

/-- `a - b - c` is `(a - b) - c`; `a + b * c` is `a + (b * c)`; `a = b = c` is rejected. -/
example {A : Alloc} (hA : Distinct A) {fpr : Int} (hf : FprOK fpr) (buf : Bytes) (l c : Int) :
    (∃ r, parse A fpr buf ((render (kw T.SELECT ++ (va.words ++ (kw T.HYPHEN ++ (vb.words ++ (kw T.HYPHEN ++ vc.words)))))).map UInt8.ofNat) (newResult l c) = some r ∧
      ((r.res.isValid = true ∧ astL r.res.stmts = [selectAst (.bin .minus (.bin .minus va vb) vc)]) ∨ (r.res.isValid = false ∧ message r.res = some b!"memory exhausted"))) ∧
    (∃ r, parse A fpr buf ((render (kw T.SELECT ++ (va.words ++ (kw T.PLUS ++ (vb.words ++ (kw T.STAR ++ vc.words)))))).map UInt8.ofNat) (newResult l c) = some r ∧
      ((r.res.isValid = true ∧ astL r.res.stmts = [selectAst (.bin .plus va (.bin .star vb vc))]) ∨ (r.res.isValid = false ∧ message r.res = some b!"memory exhausted"))) ∧
    (∀ r, parse A fpr buf ((render (kw T.SELECT ++ (va.words ++ (kw T.EQ ++ (vb.words ++ (kw T.EQ ++ vc.words)))))).map UInt8.ofNat) (newResult l c) = some r → r.res.isValid = false) := by
  have ha : Closed va := ⟨rfl, rfl⟩
  have hb : Closed vb := ⟨rfl, rfl⟩
  have hc : Closed vc := ⟨rfl, rfl⟩
  exact ⟨(C22_grouping hA hf buf _ l c va vb vc ha hb hc (.bin .minus) (.bin .minus) (textB (by decide +kernel)) trivial).1 (.inr ⟨rfl, rfl⟩),
    (C22_grouping hA hf buf _ l c va vb vc ha hb hc (.bin .plus) (.bin .star) (textB (by decide +kernel)) trivial).2 (by decide),
    fun r hr => C22_nonassociative_rejected hA hf buf _ l c va vb ha hb (.bin .eq) (.bin .eq) vc.words (textB (by decide +kernel)) trivial rfl rfl r hr⟩

end Verif.Props

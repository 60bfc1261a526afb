import Verif.Sql.Exact
import Verif.Sql.KeptStmt
/-! Names, string constants and numbers with a decimal point are as often in the AST of a statement as in its words. Proof-internal. -/
namespace Verif.Sql
set_option linter.unusedSectionVars false
open Verif.Lex Verif.LR Verif.Sem

variable {b : Leaf} [NotInt b] (hb : ¬ b.Exempt)

theorem ine_ex (i : Bool) : wc b (ifNotExists i) = 0 := by cases i <;> rfl
theorem ie_ex (i : Bool) : wc b (ifExists i) = 0 := by cases i <;> rfl
theorem cols_ex (c : Option Names) : wc b (colsWords c) = lc b (colsV c) := by
  cases c with
  | none => rfl
  | some l => have h := l.ex (b := b); simp only [colsWords, colsV]; xs
theorem name_ex (c : Option Name) : wc b (nameW c) = lc b (ostr c) := by
  cases c <;> simp only [nameW] <;> xs
theorem lc_ints (l : List Int) : lcL b (l.map .int) = 0 := by
  induction l with
  | nil => rfl
  | cons x l ih => rw [List.map_cons, lcL_cons, ih, lc_int]

/-- Like `xs`, without looking into optional names. -/
macro "xt" : tactic => `(tactic| ((try simp only [cat, wc_append, wc_cons, wc_nil, wc1, wc_par, lc_obj, lc_vec, lc_tup, lcL_cons, lcL_nil, lcL_append, lc_int, lc_null, lc_undef, lc_pos, lc_idx, lc_raw, lc_str,
  ExprV.lc_mk, SelV.lc, TableV.lc_mk, str, flag, ine_ex, ie_ex, cols_ex, name_ex, TName.ex, lc_ints, CreateV.stmt, refV]); (try omega)))

section
include hb
theorem Ext.ex : ∀ e : Ext, wc b e.words = lc b e.r.v
  | .lit l => l.ex hb
  | .negNum n => by have h := n.ex (b := b); simp only [Ext.words, Ext.r]; xs
  | .negInterval n => by have h := n.ex hb; simp only [Ext.words, Ext.r]; xs
theorem XLit.ex : ∀ e : XLit, wc b e.words = lc b e.r.v
  | .plain l => l.ex hb
  | .cast n t => by have h := n.ex hb; have h' := t.ex (b := b); simp only [XLit.words, XLit.r]; xs
theorem XLits.ex : ∀ e : XLits, wc b e.words = lcL b e.vals
  | .one x => by have h := x.ex hb; simp only [XLits.words, XLits.vals]; xs
  | .snoc l x => by have h := x.ex hb; have h' := l.ex; simp only [XLits.words, XLits.vals]; xs
theorem Hint.ex : ∀ e : Hint, wc b e.words = lc b e.r.v
  | .name n => by simp only [Hint.words, Hint.r]; xs
  | .args n l => by have h' := l.ex hb; simp only [Hint.words, Hint.r]; xs
theorem HintList.ex : ∀ e : HintList, wc b e.words = lcL b e.vals
  | .one x => by have h := x.ex hb; simp only [HintList.words, HintList.vals]; xs
  | .snoc l x => by have h := x.ex hb; have h' := l.ex; simp only [HintList.words, HintList.vals]; xs
theorem Hints.ex : ∀ e : Hints, wc b e.words = lc b e.v
  | .none => rfl
  | .some l => by have h' := l.ex hb; simp only [Hints.words, Hints.v]; xs

/-! ## Options of COPY -/

omit hb in
theorem obytes_ex (c : Option Bytes) : lc b (obytes c) = match c with | none => 0 | some a => eqn b (.text a) := by
  cases c
  · rfl
  · simp only [obytes]; xs
/-- How often in the options. -/
def CopyV.n (b : Leaf) (v : CopyV) : Nat := lc b v.encodingV + lc b v.csvV
theorem CopyOpt.ex (v : CopyV) (o : CopyOpt) (hf : v.Fits o) : (v.add o).n b = v.n b + wc b o.words := by
  have hd : lc b v.csvV =
      lc b (obytes (v.csv.getD {}).delimiter) + lc b (obytes (v.csv.getD {}).null) + lc b (obytes (v.csv.getD {}).quote) := by
    obtain ⟨t, e, c⟩ := v
    cases c
    · rfl
    · simp only [CopyV.csvV, Option.getD_some]; xs
  cases o with
  | format w t ok =>
    have h := wc_exempt hb (fileType_option ok)
    simp only [CopyV.n, CopyV.add, CopyV.encodingV, CopyV.csvV, CopyOpt.words]; xs
  | encoding s =>
    simp only [CopyV.Fits] at hf
    simp only [CopyV.n, CopyV.add, CopyV.encodingV, CopyV.csvV, CopyOpt.words, hf, obytes]; xs
  | delimiter w ok s =>
    have h := wc_exempt hb (OptionWord.of (toLower_upper ok) (by decide))
    have hf := hf.2
    rw [CopyV.n, CopyV.n, hd, hf]
    simp only [CopyV.add, CopyV.encodingV, CopyV.csvV, CopyOpt.words]
    simp only [show obytes none = V.null from rfl, show ∀ a : Bytes, obytes (some a) = str a from fun _ => rfl]; xs
  | quote w ok s =>
    have h := wc_exempt hb (OptionWord.of (toLower_upper' ok) (by decide))
    have hf := hf.2
    rw [CopyV.n, CopyV.n, hd, hf]
    simp only [CopyV.add, CopyV.encodingV, CopyV.csvV, CopyOpt.words]
    simp only [show obytes none = V.null from rfl, show ∀ a : Bytes, obytes (some a) = str a from fun _ => rfl]; xs
  | null s =>
    have hf := hf.2
    rw [CopyV.n, CopyV.n, hd, hf]
    simp only [CopyV.add, CopyV.encodingV, CopyV.csvV, CopyOpt.words]
    simp only [show obytes none = V.null from rfl, show ∀ a : Bytes, obytes (some a) = str a from fun _ => rfl]; xs
omit hb in
theorem CopyV.fits0 (o : CopyOpt) : CopyV.Fits {} o := by
  cases o <;> simp [CopyV.Fits]
theorem CopyOpts.ex : ∀ l : CopyOpts, l.OK → wc b l.words = l.r.n b
  | .one o, _ => by
    have h := CopyOpt.ex hb {} o (CopyV.fits0 o)
    have h0 : CopyV.n b {} = 0 := rfl
    simp only [CopyOpts.words, CopyOpts.r]; omega
  | .snoc l o, ⟨h1, h2⟩ => by
    have h := l.ex h1
    have h' := CopyOpt.ex hb l.r o h2
    simp only [CopyOpts.words, CopyOpts.r]; xs
theorem CopyWith.ex : ∀ o : CopyWith, wc b o.words = o.r.n b
  | .none => rfl
  | .opts true l ok => by have h := l.ex hb ok; simp only [CopyWith.words, CopyWith.r]; xs
  | .opts false l ok => by have h := l.ex hb ok; simp only [CopyWith.words, CopyWith.r]; xs
end

/-! ## Table definitions -/

theorem Constraint.ex : ∀ c : Constraint, wc b c.words = lcL b c.refs
  | .primaryKey => by simp only [Constraint.words, Constraint.refs]; xt
  | .unique => by simp only [Constraint.words, Constraint.refs]; xt
  | .null => by simp only [Constraint.words, Constraint.refs]; xt
  | .notNull => by simp only [Constraint.words, Constraint.refs]; xt
  | .references t cols => by simp only [Constraint.words, Constraint.refs]; xt
theorem Constraints.ex : ∀ c : Constraints, wc b c.words = lcL b c.refs
  | .one c => c.ex
  | .snoc l c => by have h := l.ex; have h' := c.ex (b := b); simp only [Constraints.words, Constraints.refs]; xt
theorem ColCons.ex : ∀ c : ColCons, wc b c.words = lcL b c.refs
  | .none => rfl
  | .some l => l.ex
theorem TableElem.ex : ∀ e : TableElem, wc b e.words = lc b e.v
  | .column n t c ok => by have h := t.ex (b := b); have h' := c.ex (b := b); simp only [TableElem.words, TableElem.v]; xt
  | .primaryKey l => by have h := l.ex (b := b); simp only [TableElem.words, TableElem.v]; xt
  | .unique l => by have h := l.ex (b := b); simp only [TableElem.words, TableElem.v]; xt
  | .foreignKey l t cols => by have h := l.ex (b := b); simp only [TableElem.words, TableElem.v]; xt
theorem TableElems.ex0 : ∀ l : TableElems, wc b l.words = lcL b (l.list.map TableElem.v)
  | .one e => by have h := e.ex (b := b); simp only [TableElems.words, TableElems.list, List.map]; xt
  | .snoc l e => by have h := e.ex (b := b); have h' := l.ex0; simp only [TableElems.words, TableElems.list, List.map_append, List.map]; xt
theorem lcL_parts (p : TableElem → Bool) : ∀ l : List TableElem, lcL b ((l.filter p).map TableElem.v) + lcL b ((l.filter fun e => !p e).map TableElem.v) = lcL b (l.map TableElem.v)
  | [] => rfl
  | e :: l => by
    have := lcL_parts p l
    rw [List.filter_cons, List.filter_cons]
    cases p e <;> simp only [Bool.not_true, Bool.not_false, if_true, if_false, Bool.false_eq_true, List.map_cons, lcL_cons] <;> omega
theorem TableElems.ex (l : TableElems) : wc b l.words = lcL b l.columns + lcL b l.constraints := by
  rw [l.ex0, TableElems.columns, TableElems.constraints, lcL_parts]

section
include hb
theorem Updates.ex : ∀ l : Updates, wc b l.words = lcL b l.vals
  | .one n e => by have h := e.ex hb; simp only [Updates.words, Updates.vals]; xt
  | .snoc l n e => by have h := e.ex hb; have h' := l.ex; simp only [Updates.words, Updates.vals]; xt
theorem xlits_ex (l : Option XLits) : wc b (xlitsW l) = lc b (xlitsV l) := by
  cases l with
  | none => rfl
  | some l => exact l.ex hb

/-- There is an index, and a name with a dot. -/
def IndexDot (ws : List Word) : Prop := .kw T.INDEX ∈ ws ∧ .kw T.DOT ∈ ws

theorem Stmt.ex : ∀ s : Stmt, ¬ IndexDot s.words → wc b s.words = lcL b s.r.fields
  | .query q, _ => by have h := q.ex hb; simp only [Stmt.words, Stmt.r, SelV.lcF]; exact h
  | .createFile i t w ok p, _ => by have h := wc_exempt hb (OptionWord.of ok (by decide)); simp only [Stmt.words, Stmt.r]; xt
  | .createTable i t l, _ => by have h := l.ex (b := b); simp only [Stmt.words, Stmt.r]; xt
  | .createAs i t q, _ => by have h := q.ex hb; simp only [Stmt.words, Stmt.r]; xt
  | .createIndex i n ⟨none, t⟩ l, _ => by have h := l.ex (b := b); simp only [Stmt.words, Stmt.r, TName.words]; xt
  | .createIndex i n ⟨some s, t⟩ l, hn => absurd ⟨by simp [Stmt.words, cat], by simp [Stmt.words, TName.words, cat]⟩ hn
  | .createView i t c q, _ => by have h := q.ex hb; simp only [Stmt.words, Stmt.r]; xt
  | .insertValues t c l, _ => by have h := l.ex hb; simp only [Stmt.words, Stmt.r]; xt
  | .insertQuery t c s, _ => by have h := s.ex hb; simp only [Stmt.words, Stmt.r]; xt
  | .delete t w, _ => by have h := where_ex (w.ex hb); simp only [Stmt.words, Stmt.r]; xt
  | .truncate t, _ => by simp only [Stmt.words, Stmt.r]; xt
  | .update t l w, _ => by have h := where_ex (w.ex hb); have h' := l.ex hb; simp only [Stmt.words, Stmt.r]; xt
  | .dropTable i t, _ => by simp only [Stmt.words, Stmt.r]; xt
  | .dropView i t, _ => by simp only [Stmt.words, Stmt.r]; xt
  | .deallocate n, _ => by simp only [Stmt.words, Stmt.r]; xt
  | .dropIndex i n, _ => by simp only [Stmt.words, Stmt.r]; xt
  | .alterDrop i t j c, _ => by simp only [Stmt.words, Stmt.r]; xt
  | .execute n, _ => by simp only [Stmt.words, Stmt.r]; xt
  | .executeArgs n l, _ => by have h := xlits_ex hb l; simp only [Stmt.words, Stmt.r]; xt
  | .transaction c false, _ => by simp only [Stmt.words, Stmt.r]; xt
  | .transaction c true, _ => by simp only [Stmt.words, Stmt.r]; xt
  | .prepare n q, _ => by simp only [Stmt.words, Stmt.r]; xt

omit hb in
theorem StmtV.lc (s : StmtV) (hints len : V) : lc b (s.v hints len) = lc b len + lc b hints + lcL b s.fields := by
  simp only [StmtV.v, lc_obj, lcL_cons]; omega
theorem Item.ex (len : V) (hl : lc b len = 0) : ∀ i : Item, ¬ IndexDot i.words → wc b i.words = lc b (i.v len)
  | .stmt s h, hn => by
    have h1 := s.ex hb (fun h => hn ⟨by simp [Item.words, cat, h.1], by simp [Item.words, cat, h.2]⟩)
    have h2 := h.ex hb
    simp only [Item.words, Item.v, StmtV.lc]; xt
  | .showTables, _ => by simp only [Item.words, Item.v, StmtV.lc]; xt
  | .showColumns t, _ => by simp only [Item.words, Item.v, StmtV.lc]; xt
  | .describe t, _ => by simp only [Item.words, Item.v, StmtV.lc]; xt
  | .importFile w f ok p t, _ => by have h := wc_exempt hb (fileType_option ok); simp only [Item.words, Item.v, StmtV.lc]; xt
  | .copyFrom t p o w, _ => by have h := o.ex hb; have h' := where_ex (w.ex hb); rw [CopyV.n] at h; simp only [Item.words, Item.v, StmtV.lc]; xt
  | .copyTo t p o, _ => by have h := o.ex hb; rw [CopyV.n] at h; simp only [Item.words, Item.v, StmtV.lc]; xt
  | .copyQuery s p o, _ => by have h := o.ex hb; have h' := s.ex hb; rw [CopyV.n] at h; simp only [Item.words, Item.v, StmtV.lc]; xt
theorem Script.ex (len : V) (hl : lc b len = 0) : ∀ s : Script, ¬ IndexDot s.words → wc b s.words = lcL b (s.items.map (Item.v len))
  | .one i, hn => by have h := i.ex hb len hl hn; simp only [Script.words, Script.items, List.map]; xt
  | .snoc l i, hn => by
    have h := i.ex hb len hl (fun h => hn ⟨by simp [Script.words, cat, h.1], by simp [Script.words, cat, h.2]⟩)
    have h' := l.ex len hl (fun h => hn ⟨by simp [Script.words, cat, h.1], by simp [Script.words, cat, h.2]⟩)
    simp only [Script.words, Script.items, List.map_append, List.map]; xt
theorem Script.ex_text (len : V) (hl : lc b len = 0) (s : Script) (c : Bool) (hn : ¬ IndexDot (s.text c)) : wc b (s.text c) = lcL b (s.items.map (Item.v len)) := by
  cases c
  · exact s.ex hb len hl hn
  · have h := s.ex hb len hl (fun h => hn ⟨by simp [Script.text, cat, h.1], by simp [Script.text, cat, h.2]⟩)
    simp only [Script.text]; xt
end
end Verif.Sql

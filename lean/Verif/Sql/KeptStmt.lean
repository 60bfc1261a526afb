import Verif.Sql.Kept
/-! What is written in a statement is in its AST. Proof-internal. -/
namespace Verif.Sql
open Verif.Lex Verif.LR Verif.Sem

theorem kept_ine (b : Bool) (l : List Leaf) : Kept (ifNotExists b) l := by cases b <;> simp only [ifNotExists] <;> q
theorem kept_ie (b : Bool) (l : List Leaf) : Kept (ifExists b) l := by cases b <;> simp only [ifExists] <;> q
theorem kept_where (w : OExpr) : Kept (whereW w) (V.lv w.v) := by
  cases w with
  | none => exact kept_nil _
  | some e => have h := e.kept; simp only [whereW, OExpr.v]; kc
theorem kept_cols (c : Option Names) : Kept (colsWords c) (V.lv (colsV c)) := by
  cases c with
  | none => exact kept_nil _
  | some l => have h := l.kept; simp only [colsWords, colsV]; kc
theorem kept_name (c : Option Name) : Kept (nameW c) (V.lv (ostr c)) := by
  cases c with
  | none => exact kept_nil _
  | some l => simp only [nameW, ostr]; q
theorem TName.kept' (t : TName) {l : List Leaf} (h1 : ∀ x, x ∈ V.lv (ostr t.schema) → x ∈ l) (h2 : .text t.name ∈ l) : Kept t.words l :=
  t.kept.mono fun x hx => by
    rcases List.mem_append.1 hx with h | h
    · exact h1 x h
    · simp [V.lv] at h; subst h; exact h2

macro "mem2" : tactic => `(tactic| ((first | rw [ExprV.lv] | rw [SelV.lv] | rw [TableV.lv] | skip); simp [V.lv, lvL, lvL_append, isPar, str, flag, opV, CreateV.stmt, refV, TableV.lv]))
macro "sub2" : tactic => `(tactic| (intro x hx; (first | rw [ExprV.lv] | rw [SelV.lv] | rw [TableV.lv] | skip); simp [V.lv, lvL, lvL_append, isPar, str, flag, opV, CreateV.stmt, refV, TableV.lv, hx]))
macro "piece2" : tactic => `(tactic| first
  | exact kept_none _
  | exact kept_kw _ _
  | exact kept_nil _
  | exact kept_ine _ _
  | exact kept_ie _ _
  | assumption
  | (refine Kept.mono (by assumption) ?_; sub2)
  | (refine Kept.mono (kept_where _) ?_; sub2)
  | (refine Kept.mono (kept_cols _) ?_; sub2)
  | (refine Kept.mono (kept_name _) ?_; sub2)
  | (refine TName.kept' _ ?_ ?_ <;> first | sub2 | mem2)
  | (refine kept_id ?_; mem2)
  | (refine kept_str ?_; mem2)
  | (refine kept_int ?_; mem2))
macro "kc2" : tactic => `(tactic| (refine kept_cat ?_; simp only [List.forall_mem_cons]; repeat' (first | apply And.intro | piece2)))

theorem Ext.kept : ∀ e : Ext, Kept e.words (V.lv e.r.v)
  | .lit l => l.kept
  | .negNum n => by have h := n.kept; simp only [Ext.words, Ext.r]; kc
  | .negInterval n => by have h := n.kept; simp only [Ext.words, Ext.r]; kc
theorem XLit.kept : ∀ e : XLit, Kept e.words (V.lv e.r.v)
  | .plain l => l.kept
  | .cast n t => by have h := n.kept; have h' := t.kept; simp only [XLit.words, XLit.r]; kc
theorem XLits.kept : ∀ e : XLits, Kept e.words (lvL e.vals)
  | .one x => by have h := x.kept; simp only [XLits.words, XLits.vals]; piece
  | .snoc l x => by have h := x.kept; have h' := l.kept; simp only [XLits.words, XLits.vals]; kc
theorem Hint.kept : ∀ e : Hint, Kept e.words (V.lv e.r.v)
  | .name n => by simp only [Hint.words, Hint.r]; piece
  | .args n l => by have h' := l.kept; simp only [Hint.words, Hint.r]; kc
theorem HintList.kept : ∀ e : HintList, Kept e.words (lvL e.vals)
  | .one x => by have h := x.kept; simp only [HintList.words, HintList.vals]; piece
  | .snoc l x => by have h := x.kept; have h' := l.kept; simp only [HintList.words, HintList.vals]; kc
theorem Hints.kept : ∀ e : Hints, Kept e.words (V.lv e.v)
  | .none => kept_nil _
  | .some l => by have h' := l.kept; simp only [Hints.words, Hints.v]; kc

/-! ## Options of COPY -/

/-- What the options hold. -/
def CopyV.lv (v : CopyV) : List Leaf := V.lv v.encodingV ++ V.lv v.csvV
theorem csvV_lv (v : CopyV) (x : Leaf) : x ∈ V.lv v.csvV ↔ ∃ c, v.csv = some c ∧ (x ∈ V.lv (obytes c.delimiter) ∨ x ∈ V.lv (obytes c.null) ∨ x ∈ V.lv (obytes c.quote)) := by
  unfold CopyV.csvV
  cases v.csv with
  | none => simp [V.lv]
  | some c => simp [V.lv, isPar, lvL]
theorem fileType_option {w : Bytes} {t : Int} (h : fileType w = some t) : (Leaf.text w).Exempt := by
  unfold fileType at h
  split at h
  · exact OptionWord.of ‹_› (by decide)
  · split at h
    · exact OptionWord.of ‹_› (by decide)
    · split at h
      · exact OptionWord.of ‹_› (by decide)
      · split at h
        · exact OptionWord.of ‹_› (by decide)
        · cases h
theorem toLower_upper {w : Bytes} (h : eqNoCase w b!"DELIMITER" = true) : eqNoCase w b!"delimiter" = true := h
theorem toLower_upper' {w : Bytes} (h : eqNoCase w b!"QUOTE" = true) : eqNoCase w b!"quote" = true := h
theorem CopyOpt.kept (v : CopyV) (o : CopyOpt) : Kept o.words (v.add o).lv := by
  cases o with
  | format w t ok =>
    have h : Kept (nm w) (v.add (.format w t ok)).lv := kept_idx (fileType_option ok)
    simp only [CopyOpt.words]; kc
  | encoding b => simp only [CopyOpt.words, CopyV.lv, CopyV.add, CopyV.encodingV, obytes]; kc
  | delimiter w ok b =>
    have h : Kept (nm w) (v.add (.delimiter w ok b)).lv := kept_idx (OptionWord.of (toLower_upper ok) (by decide))
    have h' : Kept [.str b] (v.add (.delimiter w ok b)).lv := kept_str (by simp [CopyV.lv, csvV_lv, CopyV.add, obytes, V.lv])
    simp only [CopyOpt.words]; kc
  | quote w ok b =>
    have h : Kept (nm w) (v.add (.quote w ok b)).lv := kept_idx (OptionWord.of (toLower_upper' ok) (by decide))
    have h' : Kept [.str b] (v.add (.quote w ok b)).lv := kept_str (by simp [CopyV.lv, csvV_lv, CopyV.add, obytes, V.lv])
    simp only [CopyOpt.words]; kc
  | null b =>
    have h' : Kept [.str b] (v.add (.null b)).lv := kept_str (by simp [CopyV.lv, csvV_lv, CopyV.add, obytes, V.lv])
    simp only [CopyOpt.words]; kc
/-- Adding an option that fits loses nothing. -/
theorem CopyV.add_lv (v : CopyV) (o : CopyOpt) (h : v.Fits o) (x : Leaf) (hx : x ∈ v.lv) : x ∈ (v.add o).lv := by
  rcases v with ⟨f, e, _ | ⟨d, n, qu⟩⟩ <;> cases o <;> simp_all [CopyV.lv, csvV_lv, CopyV.add, CopyV.Fits, obytes, V.lv, CopyV.encodingV, CopyV.csvV, isPar, lvL] <;> grind
theorem CopyOpts.kept : ∀ l : CopyOpts, l.OK → Kept l.words l.r.lv
  | .one o, _ => CopyOpt.kept {} o
  | .snoc l o, ⟨h1, h2⟩ => by
    have h := (l.kept h1).mono (CopyV.add_lv l.r o h2)
    have h' := CopyOpt.kept l.r o
    simp only [CopyOpts.words, CopyOpts.r]; kc
theorem CopyWith.kept : ∀ o : CopyWith, Kept o.words o.r.lv
  | .none => kept_nil _
  | .opts true l ok => by have h := l.kept ok; simp only [CopyWith.words, CopyWith.r]; kc
  | .opts false l ok => by have h := l.kept ok; simp only [CopyWith.words, CopyWith.r]; kc

/-! ## Table definitions -/

theorem Constraint.kept : ∀ c : Constraint, Kept c.words (lvL c.refs)
  | .primaryKey => by simp only [Constraint.words]; kc
  | .unique => by simp only [Constraint.words]; piece
  | .null => by simp only [Constraint.words]; piece
  | .notNull => by simp only [Constraint.words]; kc
  | .references t cols => by simp only [Constraint.words, Constraint.refs]; kc2
theorem Constraints.kept : ∀ c : Constraints, Kept c.words (lvL c.refs)
  | .one c => c.kept
  | .snoc l c => by have h := l.kept; have h' := c.kept; simp only [Constraints.words, Constraints.refs]; kc
theorem ColCons.kept : ∀ c : ColCons, Kept c.words (lvL c.refs)
  | .none => kept_nil _
  | .some l => l.kept
theorem TableElem.kept : ∀ e : TableElem, Kept e.words (V.lv e.v)
  | .column n t c ok => by have h := t.kept; have h' := c.kept; simp only [TableElem.words, TableElem.v]; kc2
  | .primaryKey l => by have h := l.kept; simp only [TableElem.words, TableElem.v]; kc2
  | .unique l => by have h := l.kept; simp only [TableElem.words, TableElem.v]; kc2
  | .foreignKey l t cols => by have h := l.kept; simp only [TableElem.words, TableElem.v]; kc2
theorem elems_lv {l : TableElems} {e : TableElem} (he : e ∈ l.list) {x : Leaf} (hx : x ∈ V.lv e.v) : x ∈ lvL l.columns ∨ x ∈ lvL l.constraints := by
  simp only [mem_lvL, TableElems.columns, TableElems.constraints, List.mem_map, List.mem_filter]
  cases hc : e.isColumn
  · exact .inr ⟨_, ⟨e, ⟨he, by simp [hc]⟩, rfl⟩, hx⟩
  · exact .inl ⟨_, ⟨e, ⟨he, hc⟩, rfl⟩, hx⟩
theorem TableElems.kept0 : ∀ l : TableElems, Kept l.words (lvL (l.list.map TableElem.v))
  | .one e => by have h := e.kept; simp only [TableElems.words, TableElems.list, List.map]; piece
  | .snoc l e => by have h := e.kept; have h' := l.kept0; simp only [TableElems.words, TableElems.list, List.map_append, List.map]; kc
theorem TableElems.kept (l : TableElems) : Kept l.words (lvL l.columns ++ lvL l.constraints) :=
  l.kept0.mono fun x hx => by
    rw [mem_lvL] at hx
    obtain ⟨v, hv, hx⟩ := hx
    obtain ⟨e, he, rfl⟩ := List.mem_map.1 hv
    exact List.mem_append.2 (elems_lv he hx)
theorem Updates.kept : ∀ l : Updates, Kept l.words (lvL l.vals)
  | .one n e => by have h := e.kept; simp only [Updates.words, Updates.vals]; kc2
  | .snoc l n e => by have h := e.kept; have h' := l.kept; simp only [Updates.words, Updates.vals]; kc2

/-! ## Statements -/

theorem kept_xlits (l : Option XLits) : Kept (xlitsW l) (V.lv (xlitsV l)) := by
  cases l with
  | none => exact kept_nil _
  | some l => exact l.kept

theorem Stmt.kept : ∀ s : Stmt, Kept s.words (lvL s.r.fields)
  | .query q => q.kept.mono fun x hx => q.r.fields x hx
  | .createFile i t w ok p => by
    have h : Kept (nm w) (lvL (Stmt.createFile i t w ok p).r.fields) := kept_idx (OptionWord.of ok (by decide))
    simp only [Stmt.words, Stmt.r] at *; kc2
  | .createTable i t l => by
    have h : Kept l.words (lvL (Stmt.createTable i t l).r.fields) := l.kept.mono fun x hx => by
      rcases List.mem_append.1 hx with h | h <;> simp [Stmt.r, CreateV.stmt, lvL, V.lv, h]
    simp only [Stmt.words, Stmt.r] at *; kc2
  | .createAs i t q => by have h := q.kept.v; simp only [Stmt.words, Stmt.r] at *; kc2
  | .createIndex i n t l => fun x hx => .inr (.inr (.inr (by simp [Stmt.words, cat])))
  | .createView i t c q => by have h := q.kept.v; simp only [Stmt.words, Stmt.r] at *; kc2
  | .insertValues t c l => by have h := l.kept; simp only [Stmt.words, Stmt.r] at *; kc2
  | .insertQuery t c s => by have h := s.kept.v; simp only [Stmt.words, Stmt.r] at *; kc2
  | .delete t w => by simp only [Stmt.words, Stmt.r] at *; kc2
  | .truncate t => by simp only [Stmt.words, Stmt.r] at *; kc2
  | .update t l w => by have h := l.kept; simp only [Stmt.words, Stmt.r] at *; kc2
  | .dropTable i t => by simp only [Stmt.words, Stmt.r] at *; kc2
  | .dropView i t => by simp only [Stmt.words, Stmt.r] at *; kc2
  | .deallocate n => by simp only [Stmt.words, Stmt.r] at *; kc2
  | .dropIndex i n => by simp only [Stmt.words, Stmt.r] at *; kc2
  | .alterDrop i t j c => by simp only [Stmt.words, Stmt.r] at *; kc2
  | .execute n => by simp only [Stmt.words, Stmt.r] at *; kc2
  | .executeArgs n l => by have h := kept_xlits l; simp only [Stmt.words, Stmt.r] at *; kc2
  | .transaction c false => by simp only [Stmt.words, Stmt.r] at *; piece2
  | .transaction c true => by simp only [Stmt.words, Stmt.r] at *; kc2
  | .prepare n q => by simp only [Stmt.words, Stmt.r] at *; kc2

theorem Stmt.cls (s : Stmt) : s.r.cls ≠ .Expr := by cases s <;> simp [Stmt.r, CreateV.stmt, SelV.stmt]
theorem stmt_lv {s : StmtV} (h : s.cls ≠ .Expr) (hints len : V) : V.lv (s.v hints len) = V.lv len ++ (V.lv hints ++ lvL s.fields) := by
  have : isPar s.cls (len :: hints :: s.fields) = false := by
    unfold isPar
    split
    · exact absurd (by assumption) h
    · rfl
  simp [StmtV.v, V.lv, this, lvL]
theorem CopyV.parts (v : CopyV) (x : Leaf) (hx : x ∈ v.lv) {l : List Leaf} (h1 : ∀ x, x ∈ V.lv v.encodingV → x ∈ l) (h2 : ∀ x, x ∈ V.lv v.csvV → x ∈ l) : x ∈ l := by
  rcases List.mem_append.1 hx with h | h
  · exact h1 x h
  · exact h2 x h
theorem Item.kept (len : V) : ∀ i : Item, Kept i.words (V.lv (i.v len))
  | .stmt s h => by
    have h1 := s.kept
    have h2 := h.kept
    simp only [Item.words, Item.v, stmt_lv s.cls]; kc
  | .showTables => by simp only [Item.words]; kc
  | .showColumns t => by simp only [Item.words, Item.v, StmtV.v]; kc2
  | .describe t => by simp only [Item.words, Item.v, StmtV.v]; kc2
  | .importFile w f ok p t => by
    have h : Kept (nm w) (V.lv ((Item.importFile w f ok p t).v len)) := kept_idx (fileType_option ok)
    simp only [Item.words, Item.v, StmtV.v] at *; kc2
  | .copyFrom t p o w => by
    have h : Kept o.words (V.lv ((Item.copyFrom t p o w).v len)) := o.kept.mono fun x hx => o.r.parts x hx (by simp only [Item.v, StmtV.v]; sub2) (by simp only [Item.v, StmtV.v]; sub2)
    simp only [Item.words, Item.v, StmtV.v] at *; kc2
  | .copyTo t p o => by
    have h : Kept o.words (V.lv ((Item.copyTo t p o).v len)) := o.kept.mono fun x hx => o.r.parts x hx (by simp only [Item.v, StmtV.v]; sub2) (by simp only [Item.v, StmtV.v]; sub2)
    simp only [Item.words, Item.v, StmtV.v] at *; kc2
  | .copyQuery s p o => by
    have h1 := s.kept.v
    have h : Kept o.words (V.lv ((Item.copyQuery s p o).v len)) := o.kept.mono fun x hx => o.r.parts x hx (by simp only [Item.v, StmtV.v]; sub2) (by simp only [Item.v, StmtV.v]; sub2)
    simp only [Item.words, Item.v, StmtV.v] at *; kc2
theorem Script.kept (len : V) : ∀ s : Script, Kept s.words (lvL (s.items.map (Item.v len)))
  | .one i => by have h := i.kept len; simp only [Script.words, Script.items, List.map]; piece
  | .snoc l i => by have h := i.kept len; have h' := l.kept len; simp only [Script.words, Script.items, List.map_append, List.map]; kc
theorem Script.kept_text (len : V) (s : Script) (b : Bool) : Kept (s.text b) (lvL (s.items.map (Item.v len))) := by
  have h := s.kept len
  cases b
  · exact h
  · simp only [Script.text]; kc
end Verif.Sql

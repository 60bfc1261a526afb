import Verif.Sql.KeptDefs
import Verif.Sem.Denote
/-! What is written is in the AST. Proof-internal. -/
namespace Verif.Sql
open Verif.Lex Verif.LR Verif.Sem

/-! ## The leaves that stay when the parameters are numbered -/

mutual
/-- `leaves`, without the field of a parameter that is filled in at the end. -/
def V.lv : V → List Leaf
  | .str _ b => [.text b]
  | .int n => [.int n]
  | .raw b => [.float b]
  | .obj _ c fs => if isPar c fs then lvAt 10 fs else lvL fs
  | .vec _ vs => lvL vs
  | .tup fs => lvL fs
  | _ => []
def lvL : List V → List Leaf
  | [] => []
  | v :: vs => V.lv v ++ lvL vs
/-- Without the `k`-th. -/
def lvAt : Nat → List V → List Leaf
  | _, [] => []
  | 0, _ :: vs => lvL vs
  | k + 1, v :: vs => V.lv v ++ lvAt k vs
end

theorem mem_lvL {x : Leaf} : ∀ {vs : List V}, x ∈ lvL vs ↔ ∃ v ∈ vs, x ∈ V.lv v
  | [] => by simp [lvL]
  | v :: vs => by simp [lvL, mem_lvL (vs := vs)]
theorem mem_leavesL {x : Leaf} : ∀ {vs : List V}, x ∈ leavesL vs ↔ ∃ v ∈ vs, x ∈ leaves v
  | [] => by simp [leavesL]
  | v :: vs => by simp [leavesL, mem_leavesL (vs := vs)]
theorem lvL_append (a b : List V) : lvL (a ++ b) = lvL a ++ lvL b := by
  induction a with
  | nil => rfl
  | cons v a ih => simp [lvL, ih]
theorem mem_lvAt {x : Leaf} : ∀ {k : Nat} {vs : List V}, x ∈ lvAt k vs ↔ ∃ i v, vs[i]? = some v ∧ i ≠ k ∧ x ∈ V.lv v
  | _, [] => by simp [lvAt]
  | 0, v :: vs => by
    simp only [lvAt, mem_lvL]
    constructor
    · rintro ⟨w, hw, hx⟩
      obtain ⟨i, hi⟩ := List.getElem?_of_mem hw
      exact ⟨i + 1, w, by simpa using hi, by omega, hx⟩
    · rintro ⟨i, w, hi, hk, hx⟩
      cases i with
      | zero => exact absurd rfl hk
      | succ i => exact ⟨w, List.mem_of_getElem? (by simpa using hi), hx⟩
  | k + 1, v :: vs => by
    simp only [lvAt, List.mem_append, mem_lvAt (k := k) (vs := vs)]
    constructor
    · rintro (hx | ⟨i, w, hi, hk, hx⟩)
      · exact ⟨0, v, by simp, by omega, hx⟩
      · exact ⟨i + 1, w, by simpa using hi, by omega, hx⟩
    · rintro ⟨i, w, hi, hk, hx⟩
      cases i with
      | zero => simp at hi; subst hi; exact .inl hx
      | succ i => exact .inr ⟨i, w, by simpa using hi, by omega, hx⟩

mutual
theorem fill_lv : ∀ (v : V) (x : Leaf), x ∈ V.lv v → x ∈ leaves v.fill
  | .str _ b, x, h => by simpa [V.lv, V.fill, leaves] using h
  | .int n, x, h => by simpa [V.lv, V.fill, leaves] using h
  | .raw b, x, h => by simpa [V.lv, V.fill, leaves] using h
  | .obj a c fs, x, h => by
    simp only [V.fill, leaves, mem_leavesL]
    simp only [V.lv] at h
    split at h
    · rename_i hp
      rw [mem_lvAt] at h
      obtain ⟨i, v, hi, hk, hx⟩ := h
      have h1 := fillL_lv fs i v hi x hx
      rw [if_pos hp]
      unfold newIval
      split
      · split
        · obtain ⟨w, hw, hx⟩ := h1
          exact ⟨w, List.mem_of_getElem? (i := i) (by rw [List.getElem?_set_ne (by omega)]; exact hw), hx⟩
        · obtain ⟨w, hw, hx⟩ := h1
          exact ⟨w, List.mem_of_getElem? hw, hx⟩
      · obtain ⟨w, hw, hx⟩ := h1
        exact ⟨w, List.mem_of_getElem? hw, hx⟩
    · rename_i hp
      rw [mem_lvL] at h
      obtain ⟨v, hv, hx⟩ := h
      obtain ⟨i, hi⟩ := List.getElem?_of_mem hv
      obtain ⟨w, hw, hx⟩ := fillL_lv fs i v hi x hx
      rw [if_neg hp]
      exact ⟨w, List.mem_of_getElem? hw, hx⟩
  | .vec a vs, x, h => by
    simp only [V.lv, mem_lvL] at h
    obtain ⟨v, hv, hx⟩ := h
    obtain ⟨i, hi⟩ := List.getElem?_of_mem hv
    obtain ⟨w, hw, hx⟩ := fillL_lv vs i v hi x hx
    simp only [V.fill, leaves, mem_leavesL]
    exact ⟨w, List.mem_of_getElem? hw, hx⟩
  | .tup vs, x, h => by
    simp only [V.lv, mem_lvL] at h
    obtain ⟨v, hv, hx⟩ := h
    obtain ⟨i, hi⟩ := List.getElem?_of_mem hv
    obtain ⟨w, hw, hx⟩ := fillL_lv vs i v hi x hx
    simp only [V.fill, leaves, mem_leavesL]
    exact ⟨w, List.mem_of_getElem? hw, hx⟩
  | .undef, x, h => by simp [V.lv] at h
  | .null, x, h => by simp [V.lv] at h
  | .pos n, x, h => by simp [V.lv] at h
  | .idx n, x, h => by simp [V.lv] at h
theorem fillL_lv : ∀ (vs : List V) (i : Nat) (v : V), vs[i]? = some v → ∀ x, x ∈ V.lv v → ∃ w, (fillL vs)[i]? = some w ∧ x ∈ leaves w
  | [], i, v, h, x, hx => by simp at h
  | v :: vs, 0, w, h, x, hx => by
    simp at h; subst h
    exact ⟨v.fill, by simp [fillL], fill_lv v x hx⟩
  | v :: vs, i + 1, w, h, x, hx => by
    obtain ⟨u, hu, hx⟩ := fillL_lv vs i w (by simpa using h) x hx
    exact ⟨u, by simpa [fillL] using hu, hx⟩
end

/-! ## Kept -/

theorem leavesW_append : ∀ (a b : List Word), leavesW (a ++ b) = leavesW a ++ leavesW b
  | [], b => rfl
  | w :: a, b => by simp [leavesW, leavesW_append a b]

def Kept (ws : List Word) (ls : List Leaf) : Prop := ∀ x, x ∈ leavesW ws → x ∈ ls ∨ x.Exempt ∨ MayLose ws

theorem MayLose.mono {a b : List Word} (h : MayLose a) (hs : ∀ w ∈ a, w ∈ b) : MayLose b := by
  rcases h with ⟨h1, h2 | h2⟩ | h
  · exact .inl ⟨hs _ h1, .inl (hs _ h2)⟩
  · exact .inl ⟨hs _ h1, .inr (hs _ h2)⟩
  · exact .inr (hs _ h)
theorem Kept.mono {ws : List Word} {l l' : List Leaf} (h : Kept ws l) (hs : ∀ x, x ∈ l → x ∈ l') : Kept ws l' := fun x hx => (h x hx).imp (hs x) id
theorem kept_append {a b : List Word} {l : List Leaf} (h1 : Kept a l) (h2 : Kept b l) : Kept (a ++ b) l := by
  intro x hx
  rw [leavesW_append, List.mem_append] at hx
  rcases hx with hx | hx
  · exact (h1 x hx).imp id (Or.imp id fun h => h.mono fun w hw => List.mem_append.2 (.inl hw))
  · exact (h2 x hx).imp id (Or.imp id fun h => h.mono fun w hw => List.mem_append.2 (.inr hw))
theorem kept_nil (l : List Leaf) : Kept [] l := fun x hx => by simp [leavesW] at hx
theorem kept_kw (a : Nat) (l : List Leaf) : Kept (kw a) l := fun x hx => by simp [leavesW, Word.leaves] at hx
theorem kept_par0 (k : Nat) (l : List Leaf) : Kept [.par k] l := fun x hx => by simp [leavesW, Word.leaves] at hx
theorem kept_id {b : Bytes} {l : List Leaf} (h : .text b ∈ l) : Kept [.id b] l := fun x hx => by simp [leavesW, Word.leaves] at hx; subst hx; exact .inl h
theorem kept_str {b : Bytes} {l : List Leaf} (h : .text b ∈ l) : Kept [.str b] l := fun x hx => by simp [leavesW, Word.leaves] at hx; subst hx; exact .inl h
theorem kept_int {n : Int} {l : List Leaf} (h : .int n ∈ l) : Kept [.int n] l := fun x hx => by simp [leavesW, Word.leaves] at hx; subst hx; exact .inl h
theorem kept_flt {b : Bytes} {l : List Leaf} (h : .float b ∈ l) : Kept [.flt b] l := fun x hx => by simp [leavesW, Word.leaves] at hx; subst hx; exact .inl h
theorem kept_idx {b : Bytes} {l : List Leaf} (h : (Leaf.text b).Exempt) : Kept [.id b] l := fun x hx => by simp [leavesW, Word.leaves] at hx; subst hx; exact .inr (.inl h)
theorem kept_strx {b : Bytes} {l : List Leaf} (h : (Leaf.text b).Exempt) : Kept [.str b] l := fun x hx => by simp [leavesW, Word.leaves] at hx; subst hx; exact .inr (.inl h)

theorem kept_none (l : List Leaf) : ∀ p ∈ ([] : List (List Word)), Kept p l := nofun
theorem kept_cat {l : List Leaf} : ∀ {ps : List (List Word)}, (∀ p ∈ ps, Kept p l) → Kept (cat ps) l
  | [], _ => kept_nil l
  | [p], h => h p (by simp)
  | p :: q :: ps, h => kept_append (h p (by simp)) (kept_cat fun r hr => h r (List.mem_cons_of_mem _ hr))
theorem kept_par {b : Bool} {ws : List Word} {l : List Leaf} (h : Kept ws l) : Kept (par b ws) l := by
  cases b
  · refine kept_cat ?_
    simp only [List.forall_mem_cons]
    exact ⟨kept_kw _ _, h, kept_kw _ _, nofun⟩
  · exact h

/-- The fields of an expression. -/
theorem ExprV.lv (e : ExprV) : V.lv e.v = .int e.type :: (V.lv e.expr ++ (V.lv e.expr2 ++ (V.lv e.exprList ++ (V.lv e.select ++ (V.lv e.name ++ (V.lv e.table ++ (V.lv e.schema ++ (V.lv e.alias ++
    (V.lv e.fval ++ ((if e.type = ExprType.kExprParameter then [] else V.lv e.ival) ++ (V.lv e.ival2 ++ (.int e.datetimeField :: (V.lv e.columnType ++ [.int e.isBoolLiteral, .int e.opType, .int e.distinct] ++ V.lv e.window))))))))))))) := by
  by_cases h : e.type = ExprType.kExprParameter
  · simp [ExprV.v, isPar, h, lvAt, lvL, V.lv]
  · simp [ExprV.v, isPar, h, lvAt, lvL, V.lv]

theorem TableV.lv (t : TableV) : V.lv t.v = .int t.type :: (V.lv t.schema ++ (V.lv t.name ++ (V.lv t.alias ++ (V.lv t.select ++ (V.lv t.list ++ V.lv t.join))))) := by
  simp [TableV.v, isPar, lvL, V.lv]
theorem ovec_lv (l : List V) : V.lv (ovec l) = lvL l := by
  cases l <;> simp [ovec, V.lv, lvL]
/-- The fields of a query. -/
def SelV.all (s : SelV) : List Leaf := V.lv s.fromTable ++ (V.lv s.selectList ++ (V.lv s.whereClause ++ (V.lv s.groupBy ++
    (lvL s.setOperations ++ (V.lv s.order ++ (V.lv s.withDescriptions ++ (V.lv s.limit ++ V.lv s.lockings)))))))
theorem SelV.fields (s : SelV) (x : Leaf) (h : x ∈ s.all) : x ∈ lvL s.stmt.fields := by
  simp only [SelV.all, List.mem_append] at h
  simp only [SelV.stmt, lvL, List.mem_append, ovec_lv]
  grind
theorem SelV.lv (s : SelV) : V.lv s.v = lvL s.stmt.fields := by
  simp [SelV.v, StmtV.v, SelV.stmt, isPar, lvL, V.lv]
theorem nePar1 : ¬ ExprType.kExprLiteralInt = ExprType.kExprParameter := by decide
theorem nePar2 : ¬ ExprType.kExprLiteralInterval = ExprType.kExprParameter := by decide
theorem nePar3 : ¬ ExprType.kExprArrayIndex = ExprType.kExprParameter := by decide

macro "mem" : tactic => `(tactic| ((first | rw [ExprV.lv] | rw [SelV.lv] | rw [TableV.lv] | skip); simp [V.lv, lvL, lvL_append, lvAt, isPar, str, ostr, flag, aliasV, typeV, topV, boundV, opV, ovec_lv, StmtV.v, CreateV.stmt, SetOp.v, nePar1, nePar2, nePar3, refV, colsV]))
macro "sub" : tactic => `(tactic| (intro x hx; (first | rw [ExprV.lv] | rw [SelV.lv] | rw [TableV.lv] | skip); simp [V.lv, lvL, lvL_append, lvAt, isPar, str, ostr, flag, aliasV, typeV, topV, boundV, opV, ovec_lv, StmtV.v, CreateV.stmt, SetOp.v, nePar1, nePar2, nePar3, refV, colsV, hx]))
macro "piece" : tactic => `(tactic| first
  | exact kept_none _
  | exact kept_kw _ _
  | exact kept_nil _
  | exact kept_par0 _ _
  | exact kept_par (by assumption)
  | assumption
  | (refine kept_par (Kept.mono (by assumption) ?_); sub)
  | (refine Kept.mono (by assumption) ?_; sub)
  | (refine kept_id ?_; mem)
  | (refine kept_str ?_; mem)
  | (refine kept_int ?_; mem)
  | (refine kept_flt ?_; mem))
macro "kc" : tactic => `(tactic| (refine kept_cat ?_; simp only [List.forall_mem_cons]; repeat' (first | apply And.intro | piece)))

theorem Names.kept : ∀ l : Names, Kept l.words (V.lv l.v)
  | .one n => by show Kept (nm n) _; simp only [Names.v, Names.vals]; refine kept_id ?_; mem
  | .snoc l n => by
    have h := l.kept
    simp only [Names.words, Names.v, Names.vals, V.lv] at h ⊢
    kc
theorem TName.kept (t : TName) : Kept t.words (V.lv (ostr t.schema) ++ V.lv (str t.name)) := by
  rcases t with ⟨_ | s, n⟩
  · show Kept (nm n) _; piece
  · simp only [TName.words]; kc
theorem Interval.kept : ∀ i : Interval, Kept i.words (V.lv i.r.v)
  | .short n f false => by simp only [Interval.words, Interval.r]; kc
  | .short n f true => by simp only [Interval.words, Interval.r]; kc
  | .str s n f ok => by
    have h : Kept [.str s] (V.lv (Interval.str s n f ok).r.v) := kept_strx (.inr ⟨n, .inl ok.1⟩)
    simp only [Interval.words]; kc
  | .strUnit s n u f ok un => by
    have h : Kept [.str s] (V.lv (Interval.strUnit s n u f ok un).r.v) := kept_strx (.inr ⟨n, .inr ⟨u, ok.1⟩⟩)
    simp only [Interval.words]; kc
theorem Num.kept : ∀ i : Num, Kept i.words (V.lv i.r.v)
  | .int n => by simp only [Num.words, Num.r]; piece
  | .float b => by simp only [Num.words, Num.r]; piece
theorem Lit.kept : ∀ i : Lit, Kept i.words (V.lv i.r.v)
  | .str b => by simp only [Lit.words, Lit.r]; piece
  | .bool true => by simp only [Lit.words, Lit.r]; piece
  | .bool false => by simp only [Lit.words, Lit.r]; piece
  | .num n => n.kept
  | .null => by simp only [Lit.words, Lit.r]; piece
  | .date b ok => by simp only [Lit.words, Lit.r]; kc
  | .interval i => i.kept
theorem ColType.kept (t : ColType) : Kept t.words (V.lv t.v) := by
  cases t <;> simp only [ColType.words, ColType.v] <;> first | piece | kc
theorem TAlias.kept (t : TAlias) : Kept t.words (V.lv t.v) := by
  rcases t with (_ | n | n) | ⟨n, l⟩
  · exact kept_nil _
  · simp only [TAlias.words, Alias.words, TAlias.v]; kc
  · simp only [TAlias.words, Alias.words, TAlias.v]; piece
  · have h := l.kept
    simp only [TAlias.words, TAlias.v]; kc
theorem Alias.kept (a : Alias) (r : ExprV) : Kept a.words (V.lv (a.put r).v) := by
  cases a with
  | none => exact kept_nil _
  | as n => simp only [Alias.words, Alias.put]; kc
  | bare n => simp only [Alias.words, Alias.put]; piece
theorem Alias.sub (a : Alias) (r : ExprV) (h : r.alias = .null) (x : Leaf) (hx : x ∈ V.lv r.v) : x ∈ V.lv (a.put r).v := by
  cases a with
  | none => exact hx
  | as n => rw [ExprV.lv] at hx ⊢; simp only [h, Alias.put, V.lv, List.mem_cons, List.mem_append, List.not_mem_nil, or_false, false_or] at hx ⊢; grind
  | bare n => rw [ExprV.lv] at hx ⊢; simp only [h, Alias.put, V.lv, List.mem_cons, List.mem_append, List.not_mem_nil, or_false, false_or] at hx ⊢; grind
theorem Dir.kept (d : Dir) (l : List Leaf) : Kept d.words l := by cases d <;> simp only [Dir.words] <;> piece
theorem OptionWord.of {a o : Bytes} (h : eqNoCase a o = true) (ho : o ∈ optionWords) : (Leaf.text a).Exempt := .inl ⟨o, ho, h⟩
theorem Nulls.kept (d : Nulls) (l : List Leaf) : Kept d.words l := by
  cases d with
  | none => exact kept_nil _
  | first a b oka okb =>
    have h1 : Kept (nm a) l := kept_idx (OptionWord.of oka (by decide))
    have h2 : Kept (nm b) l := kept_idx (OptionWord.of okb (by decide))
    simp only [Nulls.words]; kc
  | last a b oka okb =>
    have h1 : Kept (nm a) l := kept_idx (OptionWord.of oka (by decide))
    have h2 : Kept (nm b) l := kept_idx (OptionWord.of okb (by decide))
    simp only [Nulls.words]; kc
theorem Bound.kept (d : Bound) : Kept d.words (V.lv d.v) := by cases d <;> simp only [Bound.words, Bound.v] <;> first | piece | kc
theorem Frame.kept (d : Frame) : Kept d.words (V.lv d.v) := by
  cases d with
  | none => exact kept_nil _
  | start t b => have h := b.kept; simp only [Frame.words, Frame.v]; kc
  | between t b e => have h := b.kept; have h' := e.kept; simp only [Frame.words, Frame.v]; kc
theorem SetOp.kept (d : SetOp) (l : List Leaf) : Kept d.words l := by rcases d with ⟨_, _ | _⟩ <;> simp only [SetOp.words] <;> first | piece | kc
theorem LockMode.kept (d : LockMode) (l : List Leaf) : Kept d.words l := by cases d <;> simp only [LockMode.words] <;> first | piece | kc
theorem LockWait.kept (d : LockWait) (l : List Leaf) : Kept d.words l := by cases d <;> simp only [LockWait.words] <;> first | piece | kc
theorem Lock.kept (d : Lock) : Kept d.words (V.lv d.v) := by
  rcases d with ⟨m, _ | t, w⟩
  · have h1 := m.kept (V.lv (Lock.v ⟨m, none, w⟩))
    have h2 := w.kept (V.lv (Lock.v ⟨m, none, w⟩))
    simp only [Lock.words]; kc
  · have h1 := m.kept (V.lv (Lock.v ⟨m, some t, w⟩))
    have h2 := w.kept (V.lv (Lock.v ⟨m, some t, w⟩))
    have h3 := t.kept
    simp only [Lock.words, Lock.v] at *; kc
theorem LockList.kept : ∀ d : LockList, Kept d.words (lvL d.vals)
  | .one k => by have h := k.kept; simp only [LockList.words, LockList.vals]; piece
  | .snoc l k => by have h := k.kept; have h' := l.kept; simp only [LockList.words, LockList.vals]; kc
theorem Locks.kept (d : Locks) : Kept d.words (V.lv d.v) := by
  cases d with
  | none => exact kept_nil _
  | some l => exact l.kept
theorem JoinType.kept (d : JoinType) (l : List Leaf) : Kept d.words l := by
  rcases d with _ | _ | ⟨_ | _⟩ | ⟨_ | _⟩ | ⟨_ | _⟩ | _ | _ <;> simp only [JoinType.words] <;> first | piece | kc
theorem BinOp.kept (d : BinOp) (l : List Leaf) : Kept d.words l := by cases d <;> simp only [BinOp.words] <;> first | piece | kc
theorem kept_distinct (d : Bool) (l : List Leaf) : Kept (distinctKw d) l := by cases d <;> simp only [distinctKw] <;> piece
theorem negate_lv {no : Bool} {e : ExprV} {x : Leaf} (hx : x ∈ V.lv e.v) : x ∈ V.lv (negate no e).v := by
  cases no
  · exact hx
  · simp only [negate, if_true]
    revert x
    sub
theorem Expr.noAlias : ∀ e : Expr, e.r.alias = .null
  | .paren e => by rw [Expr.r]; exact e.noAlias
  | .lit l => by rcases l with _ | _ | ⟨_ | _⟩ | _ | _ | ⟨_ | _ | _⟩ <;> rfl
  | .param _ | .col _ _ | .star _ | .query _ | .neg _ | .not _ | .isNull _ _ | .isNotNull _ | .bin _ _ _ | .logic _ _ _ | .between _ _ _ | .case _ _ _ | .call _ _ _ _ | .extract _ _ | .cast _ _
  | .array _ | .index _ _ => by simp [Expr.r, negate, opV]
  | .inList no _ _ | .inQuery no _ _ | .exist no _ => by cases no <;> simp [Expr.r, negate, opV]

macro "q" : tactic => `(tactic| first | piece | kc)

theorem kept_negate {ws : List Word} {no : Bool} {e : ExprV} (h : Kept ws (V.lv e.v)) : Kept ws (V.lv (negate no e).v) := h.mono fun _ => negate_lv

/-- The words of a query and where they are kept. -/
def CKept (ws : List Word) (r : SelV) : Prop := ∀ x, x ∈ leavesW ws →
  x ∈ V.lv r.selectList ∨ x ∈ V.lv r.fromTable ∨ x ∈ V.lv r.whereClause ∨ x ∈ V.lv r.groupBy ∨ (x ∈ V.lv r.limit ∧ .kw T.TOP ∈ ws) ∨ x.Exempt ∨ MayLose ws

theorem Clause.words_eq (t : Option Int) (d : Bool) (l : Items) (f : From) (w : OExpr) (g : Group) :
    (Clause.mk t d l f w g).words = cat [kw T.SELECT, topWords t, distinctKw d, l.words, f.words, whereW w, g.words] := by
  cases w <;> simp [Clause.words, whereW]
def limOf (a : V) : Limit → V
  | .none => a
  | l => l.v
theorem Sel.r_plain (c : Clause) (o : Order) (l : Limit) (k : Locks) : (Sel.plain c o l k).r = { c.r with order := o.v, limit := limOf c.r.limit l, lockings := k.v } := by
  cases l <;> simp [Sel.r, limOf]
theorem limOf_mem (a : V) (l : Limit) (x : Leaf) (h : x ∈ V.lv l.v) : x ∈ V.lv (limOf a l) := by
  cases l with
  | none => simp [Limit.v, V.lv] at h
  | _ => exact h
theorem limOf_old (a : V) (l : Limit) (x : Leaf) (h : x ∈ V.lv a) : x ∈ V.lv (limOf a l) ∨ .kw T.LIMIT ∈ l.words ∨ .kw T.OFFSET ∈ l.words := by
  cases l with
  | none => exact .inl h
  | _ => right; simp [Limit.words, cat]
theorem Kept.v {ws : List Word} {s : SelV} (h : Kept ws s.all) : Kept ws (V.lv s.v) := h.mono fun x hx => by rw [SelV.lv]; exact s.fields x hx
theorem CKept.all {ws : List Word} {s : SelV} (h : CKept ws s) : Kept ws s.all := by
  intro x hx
  simp only [SelV.all, List.mem_append]
  rcases h x hx with h | h | h | h | ⟨h, ht⟩ | h | h <;> simp [h]
theorem Clause.noWith (c : Clause) : c.r.withDescriptions = .null := by cases c; simp [Clause.r]
theorem Sel.noWith (s : Sel) : s.r.withDescriptions = .null := by cases s <;> simp [Sel.r, Clause.noWith]
theorem PSel.noWith : ∀ s : PSel, s.r.withDescriptions = .null
  | .one s => by rw [PSel.r]; exact s.noWith
  | .more s => by rw [PSel.r]; exact s.noWith
theorem all_with {w : V} (r : SelV) (h : r.withDescriptions = .null) {x : Leaf} (hx : x ∈ r.all) : x ∈ { r with withDescriptions := w }.all := by
  simp only [SelV.all, h, V.lv, List.mem_append, List.not_mem_nil, false_or] at hx ⊢
  grind

mutual
theorem Expr.kept : ∀ e : Expr, Kept e.words (V.lv e.r.v)
  | .lit l => by rw [Expr.words, Expr.r]; exact l.kept
  | .param k => by rw [Expr.words]; piece
  | .col none n => by rw [Expr.words, Expr.r]; piece
  | .col (some t) n => by rw [Expr.words, Expr.r]; kc
  | .star none => by rw [Expr.words]; piece
  | .star (some t) => by rw [Expr.words, Expr.r]; kc
  | .paren e => by have h := e.kept; rw [Expr.words, Expr.r]; kc
  | .query s => by have h := s.kept.v; rw [Expr.words, Expr.r]; kc
  | .neg e => by have h := e.kept; rw [Expr.words, Expr.r]; kc
  | .not e => by have h := e.kept; rw [Expr.words, Expr.r]; kc
  | .isNull true e => by have h := e.kept; rw [Expr.words, Expr.r]; kc
  | .isNull false e => by have h := e.kept; rw [Expr.words, Expr.r]; kc
  | .isNotNull e => by have h := e.kept; rw [Expr.words, Expr.r]; apply kept_negate; kc
  | .bin o a b => by
    have h := a.kept
    have h' := b.kept
    have ho := o.kept (V.lv (Expr.bin o a b).r.v)
    rw [Expr.r] at ho
    rw [Expr.words, Expr.r]; kc
  | .logic o a b => by have h := a.kept; have h' := b.kept; rw [Expr.words, Expr.r]; kc
  | .inList false e l => by have h := e.kept; have h' := l.kept; rw [Expr.words, Expr.r]; apply kept_negate; kc
  | .inList true e l => by have h := e.kept; have h' := l.kept; rw [Expr.words, Expr.r]; apply kept_negate; kc
  | .inQuery false e l => by have h := e.kept; have h' := l.kept.v; rw [Expr.words, Expr.r]; apply kept_negate; kc
  | .inQuery true e l => by have h := e.kept; have h' := l.kept.v; rw [Expr.words, Expr.r]; apply kept_negate; kc
  | .between e lo hi => by have h := e.kept; have h' := lo.kept; have h'' := hi.kept; rw [Expr.words, Expr.r]; kc
  | .exist false s => by have h := s.kept.v; rw [Expr.words, Expr.r]; apply kept_negate; kc
  | .exist true s => by have h := s.kept.v; rw [Expr.words, Expr.r]; apply kept_negate; kc
  | .case x l .none => by have h := x.kept; have h' := l.kept; rw [Expr.words, Expr.r]; kc
  | .case x l (.some e) => by have h := x.kept; have h' := l.kept; have h'' := e.kept; rw [Expr.words, Expr.r, OExpr.v]; kc
  | .call none f a w => by have h := a.kept; have h' := w.kept; rw [Expr.words, Expr.r]; kc
  | .call (some s) f a w => by have h := a.kept; have h' := w.kept; rw [Expr.words, Expr.r]; kc
  | .extract f e => by have h := e.kept; rw [Expr.words, Expr.r]; kc
  | .cast e t => by have h := e.kept; have h' := t.kept; rw [Expr.words, Expr.r]; kc
  | .array l => by have h := l.kept; rw [Expr.words, Expr.r]; kc
  | .index e n => by have h := e.kept; rw [Expr.words, Expr.r]; kc
theorem OExpr.kept : ∀ e : OExpr, Kept e.words (V.lv e.v)
  | .none => by rw [OExpr.words]; piece
  | .some e => by rw [OExpr.words, OExpr.v]; exact e.kept
theorem Items.kept : ∀ l : Items, Kept l.words (lvL l.vals)
  | .one e a => by
    have h : Kept e.words (V.lv (a.put e.r).v) := e.kept.mono (a.sub e.r e.noAlias)
    have h' := a.kept e.r
    rw [Items.words, Items.vals]; kc
  | .snoc l e a => by
    have h : Kept e.words (V.lv (a.put e.r).v) := e.kept.mono (a.sub e.r e.noAlias)
    have h' := a.kept e.r
    have h'' := l.kept
    rw [Items.words, Items.vals]; kc
theorem Whens.kept : ∀ l : Whens, Kept l.words (lvL l.vals)
  | .one w t => by
    have h : Kept w.words (V.lv (opV OperatorType.kOpCaseListElement w.r.v t.r.v).v) := w.kept.mono (by sub)
    have h' : Kept t.words (V.lv (opV OperatorType.kOpCaseListElement w.r.v t.r.v).v) := t.kept.mono (by sub)
    rw [Whens.words, Whens.vals]
    generalize opV OperatorType.kOpCaseListElement w.r.v t.r.v = z at *
    kc
  | .snoc l w t => by
    have h : Kept w.words (V.lv (opV OperatorType.kOpCaseListElement w.r.v t.r.v).v) := w.kept.mono (by sub)
    have h' : Kept t.words (V.lv (opV OperatorType.kOpCaseListElement w.r.v t.r.v).v) := t.kept.mono (by sub)
    have h'' := l.kept
    rw [Whens.words, Whens.vals]
    generalize opV OperatorType.kOpCaseListElement w.r.v t.r.v = z at *
    kc
theorem Args.kept : ∀ l : Args, Kept l.words (lvL l.vals)
  | .none => by rw [Args.words]; piece
  | .some d l => by
    have h := l.kept
    have h' := kept_distinct d (lvL l.vals)
    rw [Args.words, Args.vals]; kc
theorem Window.kept : ∀ l : Window, Kept l.words (V.lv l.v)
  | .none => by rw [Window.words]; piece
  | .over p o f => by
    have h := p.kept
    have h' := o.kept
    have h'' := f.kept
    rw [Window.words, Window.v]; kc
theorem Partition.kept : ∀ l : Partition, Kept l.words (V.lv l.v)
  | .none => by rw [Partition.words]; piece
  | .by l => by have h := l.kept; rw [Partition.words, Partition.v]; kc
theorem Order.kept : ∀ l : Order, Kept l.words (V.lv l.v)
  | .none => by rw [Order.words]; piece
  | .by l => by have h := l.kept; rw [Order.words, Order.v]; kc
theorem Orders.kept : ∀ l : Orders, Kept l.words (lvL l.vals)
  | .one e d n => by
    have h := e.kept
    have h1 := d.kept (lvL (Orders.one e d n).vals)
    have h2 := n.kept (lvL (Orders.one e d n).vals)
    rw [Orders.vals] at h1 h2
    rw [Orders.words, Orders.vals]; kc
  | .snoc l e d n => by
    have h := e.kept
    have h1 := d.kept (lvL (Orders.snoc l e d n).vals)
    have h2 := n.kept (lvL (Orders.snoc l e d n).vals)
    have h3 := l.kept
    rw [Orders.vals] at h1 h2
    rw [Orders.words, Orders.vals]; kc
theorem Clause.kept : ∀ c : Clause, CKept c.words c.r
  | .mk t d l f w g => by
    have h1 := l.kept
    have h2 := f.kept
    have h3 := w.kept
    have h4 := g.kept
    have h5 : Kept (whereW w) (V.lv w.v) := by
      cases w with
      | none => exact kept_nil _
      | some e =>
        simp only [whereW]
        have h6 : Kept e.words (V.lv (OExpr.some e).v) := by rw [OExpr.words] at h3; exact h3
        kc
    intro x hx
    rw [Clause.r]
    rw [Clause.words_eq] at hx ⊢
    simp only [cat, leavesW_append, List.mem_append] at hx
    rcases hx with hx | hx | hx | hx | hx | hx | hx
    · simp [leavesW, Word.leaves] at hx
    · cases t with
      | none => simp [topWords, leavesW] at hx
      | some n =>
        simp [topWords, cat, leavesW, Word.leaves] at hx
        subst hx
        refine .inr (.inr (.inr (.inr (.inl ⟨?_, by simp [topWords, cat]⟩))))
        simp only [topV, V.lv, isPar, lvL, Bool.false_eq_true, if_false, List.mem_append, Num.r]
        left
        mem
    · cases d <;> simp [distinctKw, leavesW, Word.leaves] at hx
    · rcases h1 x hx with h | h | h
      · exact .inl h
      · simp [h]
      · exact .inr (.inr (.inr (.inr (.inr (.inr (h.mono fun z hz => by simp [cat, hz]))))))
    · rcases h2 x hx with h | h | h
      · exact .inr (.inl h)
      · simp [h]
      · exact .inr (.inr (.inr (.inr (.inr (.inr (h.mono fun z hz => by simp [cat, hz]))))))
    · rcases h5 x hx with h | h | h
      · exact .inr (.inr (.inl h))
      · simp [h]
      · exact .inr (.inr (.inr (.inr (.inr (.inr (h.mono fun z hz => by simp [cat, hz]))))))
    · rcases h4 x hx with h | h | h
      · exact .inr (.inr (.inr (.inl h)))
      · simp [h]
      · exact .inr (.inr (.inr (.inr (.inr (.inr (h.mono fun z hz => by simp [cat, hz]))))))
theorem Group.kept : ∀ l : Group, Kept l.words (V.lv l.v)
  | .none => by rw [Group.words]; piece
  | .by l .none => by have h := l.kept; rw [Group.words, Group.v]; kc
  | .by l (.some e) => by have h := l.kept; have h' := e.kept; rw [Group.words, Group.v, OExpr.v]; kc
theorem Limit.kept : ∀ l : Limit, Kept l.words (V.lv l.v)
  | .none => by rw [Limit.words]; piece
  | .limit e => by have h := e.kept; rw [Limit.words, Limit.v]; kc
  | .offset e => by have h := e.kept; rw [Limit.words, Limit.v]; kc
  | .both e o => by have h := e.kept; have h' := o.kept; rw [Limit.words, Limit.v]; kc
  | .all => by rw [Limit.words, Limit.v]; kc
  | .allOffset e => by have h := e.kept; rw [Limit.words, Limit.v]; kc
theorem From.kept : ∀ l : From, Kept l.words (V.lv l.v)
  | .none => by rw [From.words]; piece
  | .one t => by have h := t.kept; rw [From.words, From.v]; kc
  | .many l t => by have h := t.kept; have h' := l.kept; rw [From.words, From.v]; kc
theorem Tables.kept : ∀ l : Tables, Kept l.words (lvL l.vals)
  | .one t => by have h := t.kept; rw [Tables.words, Tables.vals]; piece
  | .snoc l t => by have h := t.kept; have h' := l.kept; rw [Tables.words, Tables.vals]; kc
theorem TableN.kept : ∀ l : TableN, Kept l.words (V.lv l.r.v)
  | .name ⟨none, n⟩ a => by have h' := a.kept; rw [TableN.words, TableN.r]; simp only [TName.words]; kc
  | .name ⟨some s, n⟩ a => by
    have h' := a.kept
    have h : Kept (cat [nm s, kw T.DOT, nm n]) (V.lv (TableN.name ⟨some s, n⟩ a).r.v) := by rw [TableN.r]; kc
    rw [TableN.r] at h
    rw [TableN.words, TableN.r]; simp only [TName.words]; kc
  | .query s a => by have h := s.kept.v; have h' := a.kept; rw [TableN.words, TableN.r]; kc
theorem Table.kept : ∀ l : Table, Kept l.words (V.lv l.r.v)
  | .base t => by rw [Table.words, Table.r]; exact t.kept
  | .natural l r => by have h := l.kept; have h' := r.kept; rw [Table.words, Table.r]; kc
  | .on l j r c => by
    have h := l.kept
    have h' := r.kept
    have h'' := c.kept
    have hj := j.kept (V.lv (Table.on l j r c).r.v)
    rw [Table.r] at hj
    rw [Table.words, Table.r]; kc
  | .using l j r c => by
    have h := l.kept
    have h' := r.kept
    have h'' := c.kept
    have hj := j.kept (V.lv (Table.using l j r c).r.v)
    rw [Table.r] at hj
    rw [Table.words, Table.r]; kc
theorem Sel.kept : ∀ s : Sel, Kept s.words s.r.all
  | .plain c o l k => by
    have h1 := c.kept
    have h2 := o.kept
    have h3 := l.kept
    have h4 := k.kept
    intro x hx
    rw [Sel.words] at hx ⊢
    rw [Sel.r_plain]
    simp only [cat, leavesW_append, List.mem_append] at hx
    simp only [SelV.all, List.mem_append]
    have lim := limOf_mem c.r.limit l x
    have lim' : x ∈ V.lv c.r.limit → .kw T.TOP ∈ c.words → x ∈ V.lv (limOf c.r.limit l) ∨ MayLose (cat [c.words, o.words, l.words, k.words]) := by
      intro hx ht
      rcases limOf_old _ l x hx with h | h | h
      · exact .inl h
      · exact .inr (.inl ⟨by simp [cat, ht], by simp [cat, h]⟩)
      · exact .inr (.inl ⟨by simp [cat, ht], by simp [cat, h]⟩)
    rcases hx with hx | hx | hx | hx
    · rcases h1 x hx with h | h | h | h | ⟨h, ht⟩ | h | h
      · simp [h]
      · simp [h]
      · simp [h]
      · simp [h]
      · rcases lim' h ht with h | h <;> simp [h]
      · simp [h]
      · exact .inr (.inr (h.mono fun z hz => by simp [cat, hz]))
    · rcases h2 x hx with h | h | h
      · simp [h]
      · simp [h]
      · exact .inr (.inr (h.mono fun z hz => by simp [cat, hz]))
    · rcases h3 x hx with h | h | h
      · simp [lim h]
      · simp [h]
      · exact .inr (.inr (h.mono fun z hz => by simp [cat, hz]))
    · rcases h4 x hx with h | h | h
      · simp [h]
      · simp [h]
      · exact .inr (.inr (h.mono fun z hz => by simp [cat, hz]))
  | .set c op r o l k => by
    have h1 := c.kept
    have h2 := r.kept.v
    have h3 := o.kept
    have h4 := l.kept
    have h5 := k.kept
    intro x hx
    rw [Sel.words] at hx ⊢
    rw [Sel.r]
    simp only [cat, leavesW_append, List.mem_append] at hx
    simp only [SelV.all, List.mem_append, SetOp.v, lvL, V.lv, isPar, Bool.false_eq_true, if_false]
    rcases hx with hx | hx | hx | hx | hx | hx
    · rcases h1 x hx with h | h | h | h | ⟨h, ht⟩ | h | h
      · simp [h]
      · simp [h]
      · simp [h]
      · simp [h]
      · simp [h]
      · simp [h]
      · exact .inr (.inr (h.mono fun z hz => by simp [cat, hz]))
    · rcases op.kept [] x hx with h | h | h
      · simp at h
      · simp [h]
      · exact .inr (.inr (h.mono fun z hz => by simp [cat, hz]))
    · rcases h2 x hx with h | h | h
      · simp [h]
      · simp [h]
      · exact .inr (.inr (h.mono fun z hz => by simp [cat, hz]))
    · rcases h3 x hx with h | h | h
      · simp [h]
      · simp [h]
      · exact .inr (.inr (h.mono fun z hz => by simp [cat, hz]))
    · rcases h4 x hx with h | h | h
      · simp [h]
      · simp [h]
      · exact .inr (.inr (h.mono fun z hz => by simp [cat, hz]))
    · rcases h5 x hx with h | h | h
      · simp [h]
      · simp [h]
      · exact .inr (.inr (h.mono fun z hz => by simp [cat, hz]))
theorem PSel.kept : ∀ s : PSel, Kept s.words s.r.all
  | .one s => by have h := s.kept; rw [PSel.words, PSel.r]; kc
  | .more s => by have h := s.kept; rw [PSel.words, PSel.r]; kc
theorem Within.kept : ∀ s : Within, Kept s.words s.r.all
  | .paren s => by rw [Within.words, Within.r]; exact s.kept
  | .clause c => by rw [Within.words, Within.r]; exact c.kept.all
  | .set c op r => by
    have h1 := c.kept
    have h2 := r.kept.v
    intro x hx
    rw [Within.words] at hx ⊢
    rw [Within.r]
    simp only [cat, leavesW_append, List.mem_append] at hx
    simp only [SelV.all, List.mem_append, SetOp.v, lvL, V.lv, isPar, Bool.false_eq_true, if_false]
    rcases hx with hx | hx | hx
    · rcases h1 x hx with h | h | h | h | ⟨h, ht⟩ | h | h
      · simp [h]
      · simp [h]
      · simp [h]
      · simp [h]
      · simp [h]
      · simp [h]
      · exact .inr (.inr (h.mono fun z hz => by simp [cat, hz]))
    · rcases op.kept [] x hx with h | h | h
      · simp at h
      · simp [h]
      · exact .inr (.inr (h.mono fun z hz => by simp [cat, hz]))
    · rcases h2 x hx with h | h | h
      · simp [h]
      · simp [h]
      · exact .inr (.inr (h.mono fun z hz => by simp [cat, hz]))
theorem Query.kept : ∀ s : Query, Kept s.words s.r.all
  | .paren w s => by
    have h1 := w.kept
    have h2 := s.kept
    rw [Query.words, Query.r]
    refine kept_cat ?_
    simp only [List.forall_mem_cons]
    exact ⟨h1.mono (fun x hx => by simp [SelV.all, hx]), h2.mono (fun x hx => all_with s.r s.noWith hx), kept_none _⟩
  | .plain w s => by
    have h1 := w.kept
    have h2 := s.kept
    rw [Query.words, Query.r]
    refine kept_cat ?_
    simp only [List.forall_mem_cons]
    exact ⟨h1.mono (fun x hx => by simp [SelV.all, hx]), h2.mono (fun x hx => all_with s.r s.noWith hx), kept_none _⟩
  | .set w s op n o l => by
    have h1 := w.kept
    have h2 := s.kept
    have h3 := n.kept.v
    have h4 := o.kept
    have h5 := l.kept
    rw [Query.words, Query.r]
    refine kept_cat ?_
    simp only [List.forall_mem_cons]
    refine ⟨h1.mono (fun x hx => by simp [SelV.all, hx]), h2.mono (fun x hx => ?_), op.kept _, h3.mono (fun x hx => ?_), h4.mono (fun x hx => ?_), h5.mono (fun x hx => ?_), kept_none _⟩
    · have := all_with (w := w.v) s.r s.noWith hx
      simp only [SelV.all, lvL_append, List.mem_append] at this ⊢
      grind
    · simp [SelV.all, lvL_append, SetOp.v, lvL, V.lv, isPar, hx]
    · simp [SelV.all, lvL_append, SetOp.v, lvL, V.lv, isPar, hx]
    · simp [SelV.all, lvL_append, SetOp.v, lvL, V.lv, isPar, hx]
theorem With.kept : ∀ s : With, Kept s.words (V.lv s.v)
  | .none => by rw [With.words]; piece
  | .some l => by have h := l.kept; rw [With.words, With.v]; kc
theorem Withs.kept : ∀ s : Withs, Kept s.words (lvL s.vals)
  | .one n s => by have h := s.kept.v; rw [Withs.words, Withs.vals]; kc
  | .snoc l n s => by have h := s.kept.v; have h' := l.kept; rw [Withs.words, Withs.vals]; kc
end
end Verif.Sql

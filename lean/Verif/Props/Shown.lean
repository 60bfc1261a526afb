import Verif.Sql.ShowStmt
import Verif.Props.Access
import Verif.Props.Only
/-!
# C59: what is printed is what was written

`Verif.Sql.Show` says, for every statement as it is written, which lines are shown of it.
-/
namespace Verif.Props
open Verif.Lex Verif.LR Verif.Sem Verif.Api Verif.Sql Verif.Print

/-- The call `f` (a function of the bound on the recursion depth) terminates, is defined, and prints exactly these lines. -/
def PrintsLines (f : Nat → Print.Out) (lines : List Line) : Prop := ∃ depth, ∀ k, depth ≤ k → f k = .ok lines

theorem PrintsLines.unique {f : Nat → Print.Out} {a b : List Line} (h : PrintsLines f a) (h' : PrintsLines f b) : a = b := by
  obtain ⟨K, h⟩ := h
  obtain ⟨K', h'⟩ := h'
  have e := h (K + K') (by omega)
  rw [h' (K + K') (by omega)] at e
  cases e; rfl

theorem shown_of_ast {vs : List V} {s : Script} (ha : astL vs = s.items.map fun i => (i.v (.pos 0)).fill) :
    vs.length = s.items.length ∧ ∀ (i : Nat) (it : Sql.Item), s.items[i]? = some it → ∃ v, vs[i]? = some v ∧ PrintsLines (fun k => printStatementInfo k v) it.show := by
  refine ⟨?_, fun i it hi => ?_⟩
  · have := congrArg List.length ha
    rw [astL, hL_map, List.length_map, List.length_map] at this
    exact this
  · obtain ⟨v, hv, e⟩ := hL_get ha (i := i) (w := (it.v (.pos 0)).fill) (by rw [List.getElem?_map, hi]; rfl)
    exact ⟨v, hv, Sql.Item.prints_of e⟩

section
variable {A : Alloc} (hA : Distinct A) {fpr : Int} (hf : FprOK fpr) (buf : Bytes) (sql : List UInt8) (l c : Int)
include hA hf

/-- C59. If a text of the script `s` is parsed, the result has a statement for each one written, and `printStatementInfo` prints of each exactly what
`Sql.Item.show` says of it. -/
theorem C59_printed (s : Script) (b : Bool) (hs : Text (s.text b) (cText sql)) (hn : Numbered 0 (s.text b)) (o : ParseOut)
    (h : parse A fpr buf sql (newResult l c) = some o) (hv : o.res.isValid = true) :
    o.res.stmts.length = s.items.length ∧
    ∀ (i : Nat) (it : Sql.Item), s.items[i]? = some it → ∃ v, o.res.stmts[i]? = some v ∧ PrintsLines (fun k => printStatementInfo k v) it.show :=
  shown_of_ast (valid_ast hA hf buf sql l c s b hs hn o h hv)

/-- C59: `printSelectStatementInfo`, with any indentation, of the queries among them. -/
theorem C59_query (s : Script) (b : Bool) (hs : Text (s.text b) (cText sql)) (hn : Numbered 0 (s.text b)) (o : ParseOut)
    (h : parse A fpr buf sql (newResult l c) = some o) (hv : o.res.isValid = true) (i : Nat) (q : Query) (hi : Hints) (hq : s.items[i]? = some (.stmt (.query q) hi)) (n : Nat) :
    ∃ v, o.res.stmts[i]? = some v ∧ PrintsLines (fun k => printSelectStatementInfo k v n) (q.page.show n) := by
  obtain ⟨v, hv, e⟩ := hL_get (valid_ast hA hf buf sql l c s b hs hn o h hv) (i := i) (w := ((Sql.Item.stmt (.query q) hi).v (.pos 0)).fill) (by rw [List.getElem?_map, hq]; rfl)
  obtain ⟨K, hK⟩ := (Query.prints q).show hi.v (.pos 0) n
  refine ⟨v, hv, K, fun k hk => (leAll k).sel v n _ ?_⟩
  rw [← e0_h v, e]
  exact hK k hk

/-- C59, the other direction: every valid result is that of a script, and so is what is printed of it. -/
theorem C59_every_result (o : ParseOut) (h : parse A fpr buf sql (newResult l c) = some o) (hv : o.res.isValid = true) :
    ∃ (s : Script) (b : Bool), Spelled (s.text b) (sentence (tokensOf fpr sql)) ∧ o.res.stmts.length = s.items.length ∧
      ∀ (i : Nat) (it : Sql.Item), s.items[i]? = some it → ∃ v, o.res.stmts[i]? = some v ∧ PrintsLines (fun k => printStatementInfo k v) it.show := by
  obtain ⟨s, b, hs, _, ha⟩ := C41_only_scripts hA hf buf sql l c o h hv
  exact ⟨s, b, hs, shown_of_ast ha⟩

/-- C59: two valid results whose statements are equal but for the addresses (as those of two texts with the same tokens are) print the same, whatever
allocator, error stream, buffer and result object were used for them. -/
theorem C59_same {A' : Alloc} (hA' : Distinct A') {fpr' : Int} (hf' : FprOK fpr') (buf' : Bytes) (sql' : List UInt8) (l' c' : Int) (o o' : ParseOut)
    (h : parse A fpr buf sql (newResult l c) = some o) (hv : o.res.isValid = true)
    (h' : parse A' fpr' buf' sql' (newResult l' c') = some o') (_hv' : o'.res.isValid = true) (he : astL o.res.stmts = astL o'.res.stmts) (i : Nat) :
    ∀ v w, o.res.stmts[i]? = some v → o'.res.stmts[i]? = some w →
      ∃ lines, PrintsLines (fun k => printStatementInfo k v) lines ∧ PrintsLines (fun k => printStatementInfo k w) lines := by
  obtain ⟨s, b, _, _, ha⟩ := C41_only_scripts hA hf buf sql l c o h hv
  intro v w jv jw
  obtain ⟨hl, k1⟩ := shown_of_ast ha
  obtain ⟨_, k2⟩ := shown_of_ast (he ▸ ha)
  have hi : i < s.items.length := by rw [← hl]; exact (List.getElem?_eq_some_iff.1 jv).1
  obtain ⟨v', e1, p1⟩ := k1 i _ (List.getElem?_eq_getElem hi)
  obtain ⟨w', e2, p2⟩ := k2 i _ (List.getElem?_eq_getElem hi)
  rw [jv] at e1; cases e1
  rw [jw] at e2; cases e2
  exact ⟨_, p1, p2⟩

end

/-! ### Numbers -/

/-- The value of a string of decimal digits. -/
def valueOf (b : Bytes) : Nat := b.foldl (fun v d => 10 * v + (d - 48)) 0

theorem digits_spec (n : Nat) : valueOf (Print.digits n) = n ∧ (∀ d ∈ Print.digits n, 48 ≤ d ∧ d ≤ 57) ∧ Print.digits n ≠ [] ∧ (n ≠ 0 → (Print.digits n).head? ≠ some 48) := by
  induction n using Nat.strongRecOn with
  | _ n ih =>
    rw [Print.digits]
    by_cases h : n < 10
    · rw [if_pos h]
      refine ⟨by simp [valueOf], ?_, by simp, ?_⟩
      · intro d hd; simp at hd; omega
      · intro hn; simp; omega
    · rw [if_neg h]
      obtain ⟨h1, h2, h3, h4⟩ := ih (n / 10) (by omega)
      refine ⟨?_, ?_, by simp, ?_⟩
      · unfold valueOf at h1 ⊢
        rw [List.foldl_append, h1]; simp; omega
      · intro d hd
        rw [List.mem_append] at hd
        rcases hd with hd | hd
        · exact h2 d hd
        · simp at hd; omega
      · intro _
        cases hd : Print.digits (n / 10) with
        | nil => exact absurd hd h3
        | cons x xs => rw [hd] at h4; exact h4 (by omega)

/-- C59: a number in a column type or a frame is shown in decimal, without leading zeros, and a minus sign in front if it is negative. -/
theorem C59_decimal (i : Int) : ∃ ds : Bytes, showInt i = (if i < 0 then [45] else []) ++ ds ∧ valueOf ds = i.natAbs ∧ (∀ d ∈ ds, 48 ≤ d ∧ d ≤ 57) ∧ ds ≠ [] ∧
    (i ≠ 0 → ds.head? ≠ some 48) := by
  obtain ⟨h1, h2, h3, h4⟩ := digits_spec i.natAbs
  refine ⟨Print.digits i.natAbs, ?_, h1, h2, h3, fun hi => h4 (by omega)⟩
  unfold showInt
  by_cases h : i < 0
  · rw [if_pos h, if_pos h]; rfl
  · rw [if_neg h, if_neg h]; rfl

/-! ### Example -/

/-- What is shown of the two statements of `demo`. -/
example : demo.items.map Sql.Item.show = [[
    ⟨0, .text b!"SelectStatement"⟩, ⟨1, .text b!"Fields:"⟩, ⟨2, .text b!"a"⟩, ⟨2, .text b!"f"⟩, ⟨3, .int 0⟩,
    ⟨1, .text b!"Sources:"⟩, ⟨2, .text b!"t"⟩,
    ⟨1, .text b!"Search Conditions:"⟩, ⟨2, .text b!"AND"⟩, ⟨3, .text b!"OR"⟩, ⟨4, .text b!"a"⟩, ⟨4, .text b!"b"⟩, ⟨3, .text b!"="⟩, ⟨4, .text b!"c"⟩, ⟨4, .text b!"it's"⟩,
    ⟨1, .text b!"OrderBy:"⟩, ⟨2, .text b!"a"⟩, ⟨2, .text b!"descending"⟩],
    []] := by
  simp [demo, Script.items, Sql.Item.show, Stmt.show, Query.page, Sel.page, Clause.page, Page.show, Items.show, Expr.show, Args.show, Window.show, Alias.show, From.show, Table.show, TableN.show,
    TAlias.show, Group.show, Order.show, Orders.show, Locks.show, Dir.show, Lit.show, BinOp.text, LogOp.text]

/-- The theorem applies to the text of `demo`. -/
example {A : Alloc} (hA : Distinct A) {fpr : Int} (hf : FprOK fpr) (buf : Bytes) (l c : Int) :
    ∃ o v w, parse A fpr buf ((Sql.render (demo.text true)).map UInt8.ofNat) (newResult l c) = some o ∧ o.res.stmts = [v, w] ∧
      (∃ it, demo.items[0]? = some it ∧ PrintsLines (fun k => printStatementInfo k v) it.show) ∧ PrintsLines (fun k => printStatementInfo k w) [] := by
  have hw : Sql.Text (demo.text true) (cText ((Sql.render (demo.text true)).map UInt8.ofNat)) := by
    rw [Sql.cText_ofNat (Sql.render_bytes demo_ok.1 (demo.text_kn true))]
    exact Sql.render_text demo_ok.1 (demo.text_kn true)
  obtain ⟨o, ho, ⟨hv, ha⟩ | ⟨_, _, hl⟩⟩ := C23_rendering hA hf buf l c demo true demo_ok.1 demo_ok.2
  · obtain ⟨h1, h2⟩ := C59_printed hA hf buf _ l c demo true hw demo_ok.2 o ho hv
    obtain ⟨v, e0, p0⟩ := h2 0 _ rfl
    obtain ⟨w, e1, p1⟩ := h2 1 _ rfl
    refine ⟨o, v, w, ho, ?_, ⟨_, rfl, p0⟩, p1⟩
    have h1 : o.res.stmts.length = 2 := h1
    match hs : o.res.stmts, h1 with
    | [x, y], _ =>
      rw [hs] at e0 e1
      cases e0; cases e1; rfl
  · rw [demo_length] at hl; omega

/-- A CASE with an ELSE, `EXISTS`, a query after `IN`, `LIMIT ALL`: parts of these are not shown. -/
example : (run0 b!"SELECT CASE WHEN a THEN 1 ELSE 2 END FROM t WHERE EXISTS (SELECT 1) AND b NOT IN (SELECT c FROM u) LIMIT ALL").map (fun o => o.res.stmts.map (printStatementInfo 20)) = some [.ok [
    ⟨0, .text b!"SelectStatement"⟩, ⟨1, .text b!"Fields:"⟩, ⟨2, .text b!"CASE"⟩, ⟨3, .int 2⟩,
    ⟨1, .text b!"Sources:"⟩, ⟨2, .text b!"t"⟩,
    ⟨1, .text b!"Search Conditions:"⟩, ⟨2, .text b!"AND"⟩, ⟨3, .text b!"EXISTS"⟩, ⟨3, .text b!"NOT"⟩, ⟨4, .text b!"IN"⟩, ⟨5, .text b!"b"⟩]] :=
  parse_of_eval (f := 150) (q := Option.map fun o => o.res.stmts.map (printStatementInfo 20)) (by decide +kernel)

end Verif.Props

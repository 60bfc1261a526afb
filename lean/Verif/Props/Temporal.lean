import Verif.LR.Adj
import Verif.Props.Only
import Verif.Sql.Blamed
import Verif.Props.ResultEx
/-!
# C45: dates and intervals in accepted texts

`DateText`, `NumberText`, `UnitText`, `FitsInt` (Sql/Temporal) are the specification.
-/
set_option linter.all false
set_option maxRecDepth 20000
namespace Verif.Props
open Verif.Lex Verif.LR Verif.Sem Verif.Api Verif.Sql

/-! ## What may stand side by side (proof) -/

def adjDate : AdjSets where
  nul := [N.opt_alias, N.opt_all, N.opt_column_constraints, N.opt_column_list, N.opt_decimal_specification, N.opt_distinct, N.opt_exists, N.opt_extended_literal_list, N.opt_frame_clause, N.opt_from_clause, N.opt_group, N.opt_having, N.opt_hints, N.opt_import_export_options, N.opt_index_name, N.opt_join_type, N.opt_limit, N.opt_locking_clause, N.opt_not_exists, N.opt_null_ordering, N.opt_order, N.opt_order_type, N.opt_partition, N.opt_row_lock_policy, N.opt_semicolon, N.opt_table_alias, N.opt_time_precision, N.opt_top, N.opt_transaction_keyword, N.opt_where, N.opt_window, N.opt_with_clause]
  fst := [N.array_index, N.between_expr, N.binary_expr, N.casted_extended_literal, N.comp_expr, N.expr, N.expr_alias, N.expr_list, N.extended_literal, N.extended_literal_list, N.file_path, N.in_expr, N.join_condition, N.literal, N.logic_expr, N.operand, N.opt_extended_literal_list, N.order_desc, N.order_list, N.prepare_target_query, N.scalar_expr, N.select_list, N.string_literal, N.unary_expr, T.STRING]
  lst := [N.column_def, N.column_type, N.table_elem, N.table_elem_commalist, T.DATE]
theorem adjDate_closed : adjDate.closed = true := by decide +kernel
theorem adjDate_rules : ((List.range 358).all fun r => Nat.ble r 1 || !adjDate.meet (rhs r) || [294].contains r) = true := by decide +kernel

def adjInterval : AdjSets where
  nul := [N.opt_alias, N.opt_all, N.opt_column_constraints, N.opt_column_list, N.opt_decimal_specification, N.opt_distinct, N.opt_exists, N.opt_extended_literal_list, N.opt_frame_clause, N.opt_from_clause, N.opt_group, N.opt_having, N.opt_hints, N.opt_import_export_options, N.opt_index_name, N.opt_join_type, N.opt_limit, N.opt_locking_clause, N.opt_not_exists, N.opt_null_ordering, N.opt_order, N.opt_order_type, N.opt_partition, N.opt_row_lock_policy, N.opt_semicolon, N.opt_table_alias, N.opt_time_precision, N.opt_top, N.opt_transaction_keyword, N.opt_where, N.opt_window, N.opt_with_clause]
  fst := [N.array_index, N.between_expr, N.binary_expr, N.casted_extended_literal, N.comp_expr, N.expr, N.expr_alias, N.expr_list, N.extended_literal, N.extended_literal_list, N.file_path, N.in_expr, N.join_condition, N.literal, N.logic_expr, N.operand, N.opt_extended_literal_list, N.order_desc, N.order_list, N.prepare_target_query, N.scalar_expr, N.select_list, N.string_literal, N.unary_expr, T.STRING]
  lst := [T.INTERVAL]
theorem adjInterval_closed : adjInterval.closed = true := by decide +kernel
theorem adjInterval_rules : ((List.range 358).all fun r => Nat.ble r 1 || !adjInterval.meet (rhs r) || [296, 297].contains r) = true := by decide +kernel

def adjField : AdjSets where
  nul := [N.opt_alias, N.opt_all, N.opt_column_constraints, N.opt_column_list, N.opt_decimal_specification, N.opt_distinct, N.opt_exists, N.opt_extended_literal_list, N.opt_frame_clause, N.opt_from_clause, N.opt_group, N.opt_having, N.opt_hints, N.opt_import_export_options, N.opt_index_name, N.opt_join_type, N.opt_limit, N.opt_locking_clause, N.opt_not_exists, N.opt_null_ordering, N.opt_order, N.opt_order_type, N.opt_partition, N.opt_row_lock_policy, N.opt_semicolon, N.opt_table_alias, N.opt_time_precision, N.opt_top, N.opt_transaction_keyword, N.opt_where, N.opt_window, N.opt_with_clause]
  fst := [N.datetime_field, N.duration_field, T.DAY, T.HOUR, T.MINUTE, T.MONTH, T.SECOND, T.YEAR]
  lst := [N.between_expr, N.binary_expr, N.case_list, N.casted_extended_literal, N.comp_expr, N.create_statement, N.csv_option, N.date_literal, N.delete_statement, N.export_statement, N.expr, N.expr_alias, N.expr_list, N.extended_literal, N.extended_literal_list, N.file_path, N.from_clause, N.import_export_options, N.import_statement, N.input, N.insert_statement, N.interval_literal, N.join_clause, N.join_condition, N.literal, N.logic_expr, N.operand, N.opt_extended_literal_list, N.opt_from_clause, N.opt_group, N.opt_having, N.opt_limit, N.opt_order, N.opt_partition, N.opt_where, N.order_desc, N.order_list, N.preparable_statement, N.prepare_statement, N.prepare_target_query, N.scalar_expr, N.select_clause, N.select_list, N.select_no_paren, N.select_statement, N.select_within_set_operation, N.select_within_set_operation_no_parentheses, N.statement, N.statement_list, N.string_literal, N.table_ref, N.table_ref_atomic, N.table_ref_commalist, N.unary_expr, N.update_clause, N.update_clause_commalist, N.update_statement, T.STRING]
theorem adjField_closed : adjField.closed = true := by decide +kernel
theorem adjField_rules : ((List.range 358).all fun r => Nat.ble r 1 || !adjField.meet (rhs r) || [296].contains r) = true := by decide +kernel

theorem leaf_of {t : Tree} (hw : t.WF) (h : t.sym < 199) : ∃ k, t = .leaf k ∧ tsym k = t.sym := by
  cases t with
  | leaf k => exact ⟨k, rfl, rfl⟩
  | node r cs => have := sym_node hw; simp only [Tree.sym] at this h; omega

theorem kids2 {cs : List Tree} {X Y : Nat} (hw : WFL cs) (h : cs.map Tree.sym = [X, Y]) : ∃ c d, cs = [c, d] ∧ c.sym = X ∧ d.sym = Y ∧ c.WF ∧ d.WF := by
  match cs, h, hw with
  | [c, d], h, hw =>
    simp only [List.map_cons, List.map_nil, List.cons.injEq, and_true] at h
    exact ⟨c, d, rfl, h.1, h.2, hw.1, hw.2.1⟩
theorem kids3 {cs : List Tree} {X Y Z : Nat} (hw : WFL cs) (h : cs.map Tree.sym = [X, Y, Z]) : ∃ c d e, cs = [c, d, e] ∧ c.sym = X ∧ d.sym = Y ∧ e.sym = Z ∧ c.WF ∧ d.WF ∧ e.WF := by
  match cs, h, hw with
  | [c, d, e], h, hw =>
    simp only [List.map_cons, List.map_nil, List.cons.injEq, and_true] at h
    exact ⟨c, d, e, rfl, h.1, h.2.1, h.2.2, hw.1, hw.2.1, hw.2.2.1⟩

theorem den2 {r : Nat} {a b : Tok} {s s' : PS} {v : V} (h : den (.node r [.leaf a, .leaf b]) s = some (v, s')) : evRule r [tokValue Z 0 a.val, tokValue Z 0 b.val] s = some (v, s') := h
theorem den3 {r : Nat} {a b : Tok} {d : Tree} {s s' : PS} {v : V} (h : den (.node r [.leaf a, .leaf b, d]) s = some (v, s')) : ∃ w s1, evRule r [tokValue Z 0 a.val, tokValue Z 0 b.val, w] s1 = some (v, s') := by
  obtain ⟨vs, s1, h1, h2⟩ := den_node h
  simp only [denL, den] at h1
  split at h1
  · rename_i h3
    split at h3
    · rename_i h4
      split at h4
      · cases h4; cases h3; cases h1; exact ⟨_, _, h2⟩
      · cases h4
    · cases h3
  · cases h1

theorem one_list {c d : Tree} {cs1 cs2 : List Tree} {x : Tree} (h : [c, d] = cs1 ++ x :: cs2) (hne : cs2 ≠ []) : cs1 = [] ∧ x = c ∧ cs2 = [d] := by
  cases cs1 with
  | nil => cases h; exact ⟨rfl, rfl, rfl⟩
  | cons y cs1 =>
    cases cs1 with
    | nil => cases h; exact absurd rfl hne
    | cons z cs1 => simp at h

theorem unit_of_tree {d : Tree} (hw : d.WF) (hs : d.sym = N.datetime_field) : ∃ (k : Tok) (f : Field), d.yield = [k] ∧ tsym k = f.kw := by
  obtain ⟨r, cs, rfl⟩ := not_tok (by decide) hw hs
  have hr2 : r < 358 := by have := hw.2.1; rwa [rules_len] at this
  have hr : ∀ r, r < 358 → 2 ≤ r → lhs r = N.datetime_field → r = 259 ∨ r = 260 ∨ r = 261 ∨ r = 262 ∨ r = 263 ∨ r = 264 := by decide +kernel
  have key : ∀ f : Field, rhs r = [f.kw] → ∃ (k : Tok) (f : Field), (Tree.node r cs).yield = [k] ∧ tsym k = f.kw := by
    intro f hf
    have hsy := hw.2.2.1
    rw [hf] at hsy
    obtain ⟨c, rfl, hc⟩ := map_one hsy
    obtain ⟨k, rfl, hk⟩ := leaf_of hw.2.2.2.1 (by rw [hc]; cases f <;> decide)
    exact ⟨k, f, rfl, by rw [hk, hc]⟩
  rcases hr r hr2 hw.1 hs with rfl | rfl | rfl | rfl | rfl | rfl
  · exact key .second rfl
  · exact key .minute rfl
  · exact key .hour rfl
  · exact key .day rfl
  · exact key .month rfl
  · exact key .year rfl

/-! ## The smallest texts -/

theorem spelled2 {ts : List Tok} {x y : Word} {w : List Word} {z : Word} (h : Spelled (z :: x :: y :: w) ts) :
    ∃ p a b q, ts = [p] ++ a :: b :: q ∧ tsym a = x.sym ∧ tsym b = y.sym ∧ b.val = y.val ∧ Spelled w q := by
  match ts, h with
  | p :: a :: b :: q, h => exact ⟨p, a, b, q, rfl, h.2.2.1, h.2.2.2.2.1, h.2.2.2.2.2.1, h.2.2.2.2.2.2⟩

/-- `SELECT` of one literal. -/
def selLit (x : Lit) : Script := .one (.stmt (.query (.plain .none (.plain (.mk none false (.one (.lit x) .none) .none .none .none) .none .none .none))) .none)

section
variable {A : Alloc} (hA : Distinct A) {fpr : Int} (hf : FprOK fpr) (buf : Bytes) (sql : List UInt8) (l c : Int)
include hA hf

/-- C45, dates. In an accepted text, a string behind `DATE` is a date. -/
theorem C45_dates (o : ParseOut) (h : parse A fpr buf sql (newResult l c) = some o) (hv : o.res.isValid = true)
    {p q : List Tok} {a b : Tok} {s : Bytes} (hs : sentence (tokensOf fpr sql) = p ++ a :: b :: q) (ha : tsym a = T.DATE) (hb : tsym b = T.STRING) (hbs : b.val = .sval s) : DateText s := by
  obtain ⟨t, ht, _⟩ := (parse_valid_iff hA hf buf sql l c).1 ⟨o, h, hv⟩
  have hd := parse_den hA hf buf sql l c o h hv ht
  rw [← ht.2.2.1] at hs
  obtain ⟨r, cs, hr, hp, hw, hm⟩ := adjDate.adj adjDate_closed adjDate_rules ht.1 (by rw [ha]; decide) (by rw [hb]; decide) hs
  obtain rfl := List.mem_singleton.1 hr
  obtain ⟨c1, c2, rfl, h1, h2, w1, w2⟩ := kids2 (X := T.DATE) (Y := T.STRING) hw.2.2.2 hw.2.2.1
  obtain ⟨k1, rfl, e1⟩ := leaf_of w1 (by rw [h1]; decide)
  obtain ⟨k2, rfl, e2⟩ := leaf_of w2 (by rw [h2]; decide)
  obtain ⟨cs1, x, cs2, u, w, _, _, g1, g2, g3, _⟩ := hm.is
  obtain ⟨rfl, rfl, rfl⟩ := one_list g1 (by rintro rfl; cases g3)
  obtain rfl : k2 = b := by simpa [yieldL, Tree.yield] using congrArg List.head? g3
  obtain ⟨s1, v, s2, hden⟩ := hp.den hd
  have := den2 hden
  rw [hbs] at this
  exact (dateOk_iff s).1 (inv294 this)

/-- C45, intervals. In an accepted text, a string behind `INTERVAL` is a number that fits into 32 bits, if a unit follows; and otherwise it is such a number and one of the units, in singular or plural. -/
theorem C45_intervals (o : ParseOut) (h : parse A fpr buf sql (newResult l c) = some o) (hv : o.res.isValid = true)
    {p q : List Tok} {a b : Tok} {s : Bytes} (hs : sentence (tokensOf fpr sql) = p ++ a :: b :: q) (ha : tsym a = T.INTERVAL) (hb : tsym b = T.STRING) (hbs : b.val = .sval s) :
    ((∃ f : Field, q.head?.map tsym = some f.kw) → ∃ n, NumberText none n s ∧ FitsInt n) ∧
    ((¬ ∃ f : Field, q.head?.map tsym = some f.kw) → ∃ n u, UnitText s n u ∧ FitsInt n ∧ ∃ f : Field, eqNoCase u f.name = true ∨ eqNoCase u (f.name ++ b!"s") = true) := by
  obtain ⟨t, ht, _⟩ := (parse_valid_iff hA hf buf sql l c).1 ⟨o, h, hv⟩
  have hd := parse_den hA hf buf sql l c o h hv ht
  rw [← ht.2.2.1] at hs
  constructor
  · rintro ⟨f, hf⟩
    obtain ⟨k, q, rfl, hk⟩ : ∃ k q', q = k :: q' ∧ tsym k = f.kw := by
      cases q with
      | nil => cases hf
      | cons k q => exact ⟨k, q, rfl, by simpa using hf⟩
    have hs' : t.yield = (p ++ [a]) ++ b :: k :: q := by rw [hs]; simp
    obtain ⟨r, cs, hr, hp, hw, hm⟩ := adjField.adj adjField_closed adjField_rules ht.1 (by rw [hb]; decide) (by rw [hk]; cases f <;> decide) hs'
    obtain rfl := List.mem_singleton.1 hr
    obtain ⟨c1, c2, c3, rfl, h1, h2, h3, w1, w2, w3⟩ := kids3 (X := T.INTERVAL) (Y := T.STRING) (Z := N.datetime_field) hw.2.2.2 hw.2.2.1
    obtain ⟨k1, rfl, e1⟩ := leaf_of w1 (by rw [h1]; decide)
    obtain ⟨k2, rfl, e2⟩ := leaf_of w2 (by rw [h2]; decide)
    obtain ⟨cs1, x, cs2, u, w, _, _, g1, g2, g3, _⟩ := hm.is
    have hx : k2 = b := by
      cases cs1 with
      | nil =>
        cases g1
        have : k1 = b := by simpa [Tree.yield] using congrArg List.getLast? g2
        rw [this] at h1; exact absurd (h1.symm.trans hb) (by decide)
      | cons y cs1 =>
        rw [List.cons_append] at g1
        obtain ⟨_, g1⟩ := List.cons.inj g1
        obtain ⟨rfl, rfl, rfl⟩ := one_list g1 (by rintro rfl; cases g3)
        simpa [Tree.yield] using congrArg List.getLast? g2
    subst hx
    obtain ⟨s1, v, s2, hden⟩ := hp.den hd
    obtain ⟨w, s3, h4⟩ := den3 hden
    rw [hbs] at h4
    exact (durOk_true s).1 (inv296 h4)
  · intro hno
    obtain ⟨r, cs, hr, hp, hw, hm⟩ := adjInterval.adj adjInterval_closed adjInterval_rules ht.1 (by rw [ha]; decide) (by rw [hb]; decide) hs
    simp only [List.mem_cons, List.not_mem_nil, or_false] at hr
    rcases hr with rfl | rfl
    · exfalso
      obtain ⟨c1, c2, c3, rfl, h1, h2, h3, w1, w2, w3⟩ := kids3 (X := T.INTERVAL) (Y := T.STRING) (Z := N.datetime_field) hw.2.2.2 hw.2.2.1
      obtain ⟨k1, rfl, e1⟩ := leaf_of w1 (by rw [h1]; decide)
      obtain ⟨k2, rfl, e2⟩ := leaf_of w2 (by rw [h2]; decide)
      obtain ⟨k3, f, e3, hk3⟩ := unit_of_tree w3 h3
      obtain ⟨cs1, x, cs2, u, w, _, y', g1, g2, g3, g4, g5⟩ := hm.is
      cases cs1 with
      | nil =>
        cases g1
        simp only [yieldL, Tree.yield, e3, List.singleton_append, List.append_nil, List.cons.injEq] at g3
        obtain ⟨-, rfl⟩ := g3
        exact hno ⟨f, by rw [g5, ← hk3]; rfl⟩
      | cons y cs1 =>
        rw [List.cons_append] at g1
        obtain ⟨_, g1⟩ := List.cons.inj g1
        obtain ⟨rfl, rfl, rfl⟩ := one_list g1 (by rintro rfl; cases g3)
        have : k2 = a := by simpa [Tree.yield] using congrArg List.getLast? g2
        rw [this] at h2; exact absurd (h2.symm.trans ha) (by decide)
    · obtain ⟨c1, c2, rfl, h1, h2, w1, w2⟩ := kids2 (X := T.INTERVAL) (Y := T.STRING) hw.2.2.2 hw.2.2.1
      obtain ⟨k1, rfl, e1⟩ := leaf_of w1 (by rw [h1]; decide)
      obtain ⟨k2, rfl, e2⟩ := leaf_of w2 (by rw [h2]; decide)
      obtain ⟨cs1, x, cs2, u, w, _, _, g1, g2, g3, _⟩ := hm.is
      obtain ⟨rfl, rfl, rfl⟩ := one_list g1 (by rintro rfl; cases g3)
      obtain rfl : k2 = b := by simpa [yieldL, Tree.yield] using congrArg List.head? g3
      obtain ⟨s1, v, s2, hden⟩ := hp.den hd
      have := den2 hden
      rw [hbs] at this
      obtain ⟨i1, f, w', r', i2, i3⟩ := inv297 this
      obtain ⟨n, u', j1, j2, j3⟩ := (durUnitOk_true s).1 i1
      rw [j3] at i2
      obtain ⟨rfl, -⟩ := Prod.mk.inj (Option.some.inj i2)
      exact ⟨n, u', j1, j2, f, i3⟩
/-- C45. `SELECT DATE '...'`, written in any way, is accepted if and only if the string is a date. -/
theorem C45_date_iff (s : Bytes) (ht : Text [.kw T.SELECT, .kw T.DATE, .str s] (cText sql)) :
    (∃ o, parse A fpr buf sql (newResult l c) = some o ∧ o.res.isValid = true) ↔ DateText s := by
  constructor
  · rintro ⟨o, h, hv⟩
    obtain ⟨p, a, b, q, e, h1, h2, h3, -⟩ := spelled2 (tokensOf_text (fpr := fpr) ht)
    exact C45_dates hA hf buf sql l c o h hv e h1 h2 h3
  · intro hd
    obtain ⟨o, h, hv⟩ := C23_round_trip hA hf buf sql l c (selLit (.date s hd)) false ht trivial
    rcases hv with hv | hv
    · exact ⟨o, h, hv.1⟩
    · exact absurd hv.2.2 (by show ¬ 97 < 3; omega)

/-- C45. `SELECT INTERVAL '...' DAY` (or another unit), written in any way, is accepted if and only if the string is a number that fits into 32 bits. -/
theorem C45_interval_iff (s : Bytes) (f : Field) (ht : Text [.kw T.SELECT, .kw T.INTERVAL, .str s, .kw f.kw] (cText sql)) :
    (∃ o, parse A fpr buf sql (newResult l c) = some o ∧ o.res.isValid = true) ↔ ∃ n, NumberText none n s ∧ FitsInt n := by
  constructor
  · rintro ⟨o, h, hv⟩
    obtain ⟨p, a, b, q, e, h1, h2, h3, h4⟩ := spelled2 (tokensOf_text (fpr := fpr) ht)
    refine (C45_intervals hA hf buf sql l c o h hv e h1 h2 h3).1 ⟨f, ?_⟩
    match q, h4 with
    | k :: _, h4 => exact congrArg some h4.1
  · rintro ⟨n, hn⟩
    obtain ⟨o, h, hv⟩ := C23_round_trip hA hf buf sql l c (selLit (.interval (.str s n f hn))) false ht trivial
    rcases hv with hv | hv
    · exact ⟨o, h, hv.1⟩
    · exact absurd hv.2.2 (by show ¬ 97 < 4; omega)

/-- C45. `SELECT INTERVAL '...'`, written in any way, is accepted if and only if the string is a number that fits into 32 bits and a unit. -/
theorem C45_unit_iff (s : Bytes) (ht : Text [.kw T.SELECT, .kw T.INTERVAL, .str s] (cText sql)) :
    (∃ o, parse A fpr buf sql (newResult l c) = some o ∧ o.res.isValid = true) ↔
      ∃ n u, UnitText s n u ∧ FitsInt n ∧ ∃ f : Field, eqNoCase u f.name = true ∨ eqNoCase u (f.name ++ b!"s") = true := by
  constructor
  · rintro ⟨o, h, hv⟩
    obtain ⟨p, a, b, q, e, h1, h2, h3, h4⟩ := spelled2 (tokensOf_text (fpr := fpr) ht)
    refine (C45_intervals hA hf buf sql l c o h hv e h1 h2 h3).2 ?_
    rintro ⟨f, hf⟩
    match q, h4 with
    | [], h4 => cases hf
  · rintro ⟨n, u, hn, hi, f, hu⟩
    obtain ⟨o, h, hv⟩ := C23_round_trip hA hf buf sql l c (selLit (.interval (.strUnit s n u f ⟨hn, hi⟩ hu))) false ht trivial
    rcases hv with hv | hv
    · exact ⟨o, h, hv.1⟩
    · exact absurd hv.2.2 (by show ¬ 97 < 3; omega)
end

/-! ### Examples -/

/-- The hypothesis of `C45_date_iff` can be met, whatever the string (without zero bytes). -/
theorem dateQuery (s : Bytes) (hs : ∀ z ∈ s, z ≠ 0 ∧ z < 256) : Text [.kw T.SELECT, .kw T.DATE, .str s] (cText ((b!"seLECT\ndate" ++ 39 :: (double s ++ b!"'")).map UInt8.ofNat)) := by
  rw [cText_ofNat]
  · refine .cons (b := []) (x := b!"seLECT") (y := b!"\ndate" ++ 39 :: (double s ++ b!"'")) (by simp) (.keyword (k := b!"SELECT") (by decide) (by decide) (by intro c h; cases h; decide)) ?_
    refine .cons (b := b!"\n") (x := b!"date") (y := 39 :: (double s ++ b!"'")) (by decide) (.keyword (k := b!"DATE") (by decide) (by decide) (by intro c h; cases h; decide)) ?_
    have := Text.cons (b := []) (x := 39 :: (double s ++ b!"'")) (y := []) (ws := []) (w := .str s) (by simp) (.string (by intro c h; cases h)) (.nil (by simp))
    simpa using this
  · have hd : ∀ s : Bytes, (∀ z ∈ s, z ≠ 0 ∧ z < 256) → ∀ z ∈ double s, z ≠ 0 ∧ z < 256 := by
      intro s
      induction s with
      | nil => intro _ z hz; cases hz
      | cons b s ih =>
        intro hs z hz
        have h1 := ih (fun z hz => hs z (by simp [hz]))
        have h2 := hs b (by simp)
        unfold double at hz
        split at hz
        · rename_i hb
          simp only [List.mem_cons] at hz
          rcases hz with rfl | rfl | hz
          · omega
          · omega
          · exact h1 z hz
        · simp only [List.mem_cons] at hz
          rcases hz with rfl | hz
          · exact h2
          · exact h1 z hz
    intro z hz
    rcases List.mem_append.1 hz with hz | hz
    · exact (by decide : ∀ z ∈ b!"seLECT\ndate", z ≠ 0 ∧ z < 256) z hz
    rcases List.mem_cons.1 hz with rfl | hz
    · omega
    rcases List.mem_append.1 hz with hz | hz
    · exact hd s hs z hz
    · exact (by decide : ∀ z ∈ b!"'", z ≠ 0 ∧ z < 256) z hz

/-- A day that does not exist is a date. -/
example : DateText b!"2020-02-30" := (dateOk_iff _).1 (by decide)
example : DateText b!"-1- +2- 3" := (dateOk_iff _).1 (by decide)
example : ¬ DateText b!"2020-2-3 " := fun h => absurd ((dateOk_iff _).2 h) (by decide)
example : ¬ DateText b!"20201-02-03" := fun h => absurd ((dateOk_iff _).2 h) (by decide)
example : ∃ n, NumberText none n b!" -17" ∧ FitsInt n := (durOk_true _).1 (by decide)
example : ∃ n u, UnitText b!"4 hours" n u ∧ FitsInt n ∧ ∃ f : Field, eqNoCase u f.name = true ∨ eqNoCase u (f.name ++ b!"s") = true := by
  obtain ⟨n, u, h1, h2, h3⟩ := (durUnitOk_true b!"4 hours").1 (by decide)
  have h4 : scanUnit b!"4 hours" = some (b!"hours", []) := by decide
  rw [h4] at h3
  cases h3
  exact ⟨n, _, h1, h2, .hour, by decide⟩

/-- An accepted text with dates and intervals inside. -/
example : (run0 b!"SELECT DATE '2020-02-30', x FROM t WHERE INTERVAL '3' DAY > INTERVAL '4 hours'").map view = some ⟨true, 1, none, 0, 0⟩ :=
  parse_of_eval (f := 60) (q := Option.map view) (by decide +kernel)
end Verif.Props

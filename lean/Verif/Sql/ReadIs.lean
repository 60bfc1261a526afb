import Verif.Sql.Read
/-! GENERATED by tools/genread.py. What the words of a tree are, symbol by symbol. Proof-internal. -/
set_option linter.all false
namespace Verif.Sql
open Verif.Lex Verif.LR Verif.Sem

def txW : Bool → List Word
  | false => []
  | true => kw T.TRANSACTION
def allW : Bool → List Word
  | false => []
  | true => kw T.ALL
def semiW : Bool → List Word
  | false => []
  | true => kw T.SEMI
def timeW : Option Int → List Word
  | none => []
  | some p => cat [kw T.LPAREN, [.int p], kw T.RPAREN]
def decW : Option (Int × Option Int) → List Word
  | none => []
  | some (p, none) => cat [kw T.LPAREN, [.int p], kw T.RPAREN]
  | some (p, some s) => cat [kw T.LPAREN, [.int p], kw T.COMMA, [.int s], kw T.RPAREN]
def durW (f : Field) : Bool → List Word
  | false => Sql.kw f.kw
  | true => Sql.kw f.kws
def havingW : OExpr → List Word
  | .none => []
  | .some e => cat [kw T.HAVING, e.words]
def litW : Lit ⊕ Nat → List Word
  | .inl l => l.words
  | .inr j => [.par j]
def csvOf : CopyOpt → Option (CsvKind × Bytes)
  | .delimiter _ _ b => some (.delimiter, b)
  | .quote _ _ b => some (.quote, b)
  | .null b => some (.null, b)
  | _ => none
def tup4 (v : V) : Prop := ∃ a b c d, v = .tup [a, b, c, d] ∧ a.isUndef = false ∧ b.isUndef = false ∧ c.isUndef = false ∧ d.isUndef = false

/-- What is to be proved of the trees of a symbol. -/
abbrev Pr := Tree → Nat → V → Bool → Prop

def IsTok (a : Nat) : Pr := fun t k v _ =>
  bif Nat.beq a T.IDENTIFIER then ∃ x : Name, t.ws k = nm x ∧ v = .str 0 x
  else bif Nat.beq a T.STRING then ∃ x : Bytes, t.ws k = [.str x] ∧ v = .str 0 x
  else bif Nat.beq a T.INTVAL then ∃ x : Int, t.ws k = [.int x] ∧ v = .int x
  else bif Nat.beq a T.FLOATVAL then ∃ x : Bytes, t.ws k = [.flt x]
  else bif Nat.beq a T.QMARK then t.ws k = [.par k]
  else t.ws k = [.kw a] ∧ v = .undef

def Is_accept : Pr := fun t k v e => True
def Is_input : Pr := fun t k v e => True
def Is_statement_list : Pr := fun t k v e => ∃ (x : Script), t.ws k = x.words
def Is_statement : Pr := fun t k v e => ∃ (x : Item), t.ws k = x.words
def Is_preparable_statement : Pr := fun t k v e => ∃ (x : Stmt), t.ws k = x.words
def Is_opt_hints : Pr := fun t k v e => ∃ (x : Hints), t.ws k = x.words
def Is_hint_list : Pr := fun t k v e => ∃ (x : HintList), t.ws k = x.words
def Is_hint : Pr := fun t k v e => ∃ (x : Hint), t.ws k = x.words
def Is_transaction_statement : Pr := fun t k v e => ∃ (x : Stmt), t.ws k = x.words
def Is_opt_transaction_keyword : Pr := fun t k v e => ∃ (x : Bool), t.ws k = txW x
def Is_prepare_statement : Pr := fun t k v e => ∃ (x : Stmt), t.ws k = x.words
def Is_prepare_target_query : Pr := fun t k v e => ∃ (x : Bytes), t.ws k = [.str x]
def Is_execute_statement : Pr := fun t k v e => ∃ (x : Stmt), t.ws k = x.words
def Is_import_statement : Pr := fun t k v e => ∃ (x : Item), t.ws k = x.words
def Is_file_type : Pr := fun t k v e => ∃ (x : Name) (f : Int), t.ws k = nm x ∧ fileType x = some f ∧ v = .int f
def Is_file_path : Pr := fun t k v e => ∃ (x : Bytes), t.ws k = [.str x] ∧ v = str x
def Is_opt_import_export_options : Pr := fun t k v e => ∃ (x : CopyWith), t.ws k = x.words
def Is_import_export_options : Pr := fun t k v e => ∃ (x : CopyOpts), t.ws k = x.words ∧ x.OK ∧ v = x.r.o
def Is_csv_option : Pr := fun t k v e => ∃ (x : CopyOpt) (d : CsvKind) (y : Bytes), t.ws k = x.words ∧ csvOf x = some (d, y) ∧ v = csvPair d y
def Is_export_statement : Pr := fun t k v e => ∃ (x : Item), t.ws k = x.words
def Is_show_statement : Pr := fun t k v e => ∃ (x : Item), t.ws k = x.words
def Is_create_statement : Pr := fun t k v e => ∃ (x : Stmt), t.ws k = x.words
def Is_opt_not_exists : Pr := fun t k v e => ∃ (x : Bool), t.ws k = ifNotExists x ∧ v = flag x
def Is_table_elem_commalist : Pr := fun t k v e => e = false → ∃ x : TableElems, t.ws k = x.words
def Is_table_elem : Pr := fun t k v e => e = false → ∃ x : TableElem, t.ws k = x.words
def Is_column_def : Pr := fun t k v e => e = false → ∃ x : TableElem, t.ws k = x.words
def Is_column_type : Pr := fun t k v e => ∃ (x : ColType), t.ws k = x.words ∧ tup4 v
def Is_opt_time_precision : Pr := fun t k v e => ∃ (x : Option Int), t.ws k = timeW x ∧ ∃ i, v = .int i
def Is_opt_decimal_specification : Pr := fun t k v e => ∃ (x : Option (Int × Option Int)), t.ws k = decW x ∧ ∃ i j, v = .obj 0 .IntPair [.int i, .int j]
def Is_opt_column_constraints : Pr := fun t k v e => ∃ (x : ColCons), t.ws k = x.words ∧ ∃ rs, v = consV x.kinds rs
def Is_column_constraints : Pr := fun t k v e => ∃ (x : Constraints), t.ws k = x.words ∧ ∃ rs, v = consV x.kinds rs
def Is_column_constraint : Pr := fun t k v e => ∃ (x : Constraint), t.ws k = x.words ∧ v = .int x.kind
def Is_table_constraint : Pr := fun t k v e => ∃ (x : TableElem), t.ws k = x.words
def Is_references_spec : Pr := fun t k v e => ∃ (x : TName) (y : Option Names), t.ws k = cat [kw T.REFERENCES, x.words, colsWords y] ∧ v = refV x y
def Is_drop_statement : Pr := fun t k v e => ∃ (x : Stmt), t.ws k = x.words
def Is_opt_exists : Pr := fun t k v e => ∃ (x : Bool), t.ws k = ifExists x
def Is_alter_statement : Pr := fun t k v e => ∃ (x : Stmt), t.ws k = x.words
def Is_alter_action : Pr := fun t k v e => ∃ (i : Bool) (x : Name), t.ws k = cat [kw T.DROP, kw T.COLUMN, ifExists i, nm x]
def Is_drop_action : Pr := fun t k v e => ∃ (i : Bool) (x : Name), t.ws k = cat [kw T.DROP, kw T.COLUMN, ifExists i, nm x]
def Is_delete_statement : Pr := fun t k v e => ∃ (x : Stmt), t.ws k = x.words
def Is_truncate_statement : Pr := fun t k v e => ∃ (x : Stmt), t.ws k = x.words
def Is_insert_statement : Pr := fun t k v e => ∃ (x : Stmt), t.ws k = x.words
def Is_opt_column_list : Pr := fun t k v e => ∃ (x : Option Names), t.ws k = colsWords x ∧ v = colsV x
def Is_update_statement : Pr := fun t k v e => ∃ (x : Stmt), t.ws k = x.words
def Is_update_clause_commalist : Pr := fun t k v e => ∃ (x : Updates), t.ws k = x.words
def Is_update_clause : Pr := fun t k v e => ∃ (x : Name) (y : Expr), t.ws k = cat [nm x, kw T.EQ, y.words]
def Is_select_statement : Pr := fun t k v e => ∃ (x : Query), t.ws k = x.words
def Is_select_within_set_operation : Pr := fun t k v e => ∃ (x : Within), t.ws k = x.words
def Is_select_within_set_operation_no_parentheses : Pr := fun t k v e => ∃ (x : Within), t.ws k = x.words
def Is_select_with_paren : Pr := fun t k v e => ∃ (x : PSel), t.ws k = x.words
def Is_select_no_paren : Pr := fun t k v e => ∃ (x : Sel), t.ws k = x.words
def Is_set_operator : Pr := fun t k v e => ∃ (x : SetOp), t.ws k = x.words
def Is_set_type : Pr := fun t k v e => ∃ (x : SetType), t.ws k = Sql.kw x.kw
def Is_opt_all : Pr := fun t k v e => ∃ (x : Bool), t.ws k = allW x
def Is_select_clause : Pr := fun t k v e => ∃ (x : Clause), t.ws k = x.words
def Is_opt_distinct : Pr := fun t k v e => ∃ (x : Bool), t.ws k = distinctKw x
def Is_select_list : Pr := fun t k v e => ∃ (x : Items), t.ws k = x.words
def Is_opt_from_clause : Pr := fun t k v e => ∃ (x : From), t.ws k = x.words
def Is_from_clause : Pr := fun t k v e => ∃ (x : From), t.ws k = x.words
def Is_opt_where : Pr := fun t k v e => ∃ (x : OExpr), t.ws k = whereW x
def Is_opt_group : Pr := fun t k v e => ∃ (x : Group), t.ws k = x.words
def Is_opt_having : Pr := fun t k v e => ∃ (x : OExpr), t.ws k = havingW x
def Is_opt_order : Pr := fun t k v e => ∃ (x : Order), t.ws k = x.words
def Is_order_list : Pr := fun t k v e => ∃ (x : Orders), t.ws k = x.words
def Is_order_desc : Pr := fun t k v e => ∃ (x : Expr) (d : Dir) (n : Nulls), t.ws k = cat [x.words, d.words, n.words]
def Is_opt_order_type : Pr := fun t k v e => ∃ (x : Dir), t.ws k = x.words
def Is_opt_null_ordering : Pr := fun t k v e => ∃ (x : Nulls), t.ws k = x.words
def Is_opt_top : Pr := fun t k v e => ∃ (x : Option Int), t.ws k = topWords x
def Is_opt_limit : Pr := fun t k v e => ∃ (x : Limit), t.ws k = x.words
def Is_expr_list : Pr := fun t k v e => ∃ (x : Items), t.ws k = x.words
def Is_opt_extended_literal_list : Pr := fun t k v e => ∃ (x : Option XLits), t.ws k = xlitsW x
def Is_extended_literal_list : Pr := fun t k v e => ∃ (x : XLits), t.ws k = x.words
def Is_casted_extended_literal : Pr := fun t k v e => ∃ (x : XLit), t.ws k = x.words
def Is_extended_literal : Pr := fun t k v e => ∃ (x : Ext), t.ws k = x.words
def Is_expr_alias : Pr := fun t k v e => ∃ (x : Expr) (a : Alias), t.ws k = cat [x.words, a.words]
def Is_expr : Pr := fun t k v e => ∃ (x : Expr), t.ws k = x.words ∧ ExE x t
def Is_operand : Pr := fun t k v e => ∃ (x : Expr), t.ws k = x.words ∧ OpE x t
def Is_scalar_expr : Pr := fun t k v e => ∃ (x : Expr), t.ws k = x.words ∧ OpE x t
def Is_unary_expr : Pr := fun t k v e => ∃ (x : Expr), t.ws k = x.words ∧ OpE x t
def Is_binary_expr : Pr := fun t k v e => ∃ (x : Expr), t.ws k = x.words ∧ OpE x t
def Is_logic_expr : Pr := fun t k v e => ∃ (x : Expr), t.ws k = x.words ∧ ExE x t
def Is_in_expr : Pr := fun t k v e => ∃ (x : Expr), t.ws k = x.words ∧ ExE x t
def Is_case_expr : Pr := fun t k v e => ∃ (x : Expr), t.ws k = x.words ∧ OpE x t
def Is_case_list : Pr := fun t k v e => ∃ (x : Whens), t.ws k = x.words
def Is_exists_expr : Pr := fun t k v e => ∃ (x : Expr), t.ws k = x.words ∧ ExE x t
def Is_comp_expr : Pr := fun t k v e => ∃ (x : Expr), t.ws k = x.words ∧ OpE x t
def Is_function_expr : Pr := fun t k v e => ∃ (x : Expr), t.ws k = x.words ∧ OpE x t
def Is_opt_window : Pr := fun t k v e => ∃ (x : Window), t.ws k = x.words
def Is_opt_partition : Pr := fun t k v e => ∃ (x : Partition), t.ws k = x.words
def Is_opt_frame_clause : Pr := fun t k v e => ∃ (x : Frame), t.ws k = x.words
def Is_frame_type : Pr := fun t k v e => ∃ (x : FrameType), t.ws k = Sql.kw x.kw
def Is_frame_bound : Pr := fun t k v e => ∃ (x : Bound), t.ws k = x.words
def Is_extract_expr : Pr := fun t k v e => ∃ (x : Expr), t.ws k = x.words ∧ OpE x t
def Is_cast_expr : Pr := fun t k v e => ∃ (x : Expr), t.ws k = x.words ∧ OpE x t
def Is_datetime_field : Pr := fun t k v e => ∃ (x : Field), t.ws k = Sql.kw x.kw
def Is_datetime_field_plural : Pr := fun t k v e => ∃ (x : Field), t.ws k = Sql.kw x.kws
def Is_duration_field : Pr := fun t k v e => ∃ (x : Field) (p : Bool), t.ws k = durW x p
def Is_array_expr : Pr := fun t k v e => ∃ (x : Expr), t.ws k = x.words ∧ OpE x t
def Is_array_index : Pr := fun t k v e => ∃ (x : Expr), t.ws k = x.words ∧ OpE x t
def Is_between_expr : Pr := fun t k v e => ∃ (x : Expr), t.ws k = x.words ∧ ExE x t
def Is_column_name : Pr := fun t k v e => ∃ (x : Expr), t.ws k = x.words ∧ OpE x t
def Is_literal : Pr := fun t k v e => ∃ (x : Lit ⊕ Nat), t.ws k = litW x ∧ ∀ j, x = .inr j → ∃ m, v = paramV 0 (.pos 0) m
def Is_string_literal : Pr := fun t k v e => ∃ (x : Lit), t.ws k = x.words
def Is_bool_literal : Pr := fun t k v e => ∃ (x : Lit), t.ws k = x.words
def Is_num_literal : Pr := fun t k v e => ∃ (x : Num), t.ws k = x.words
def Is_int_literal : Pr := fun t k v e => ∃ (x : Int), t.ws k = [.int x]
def Is_null_literal : Pr := fun t k v e => ∃ (x : Lit), t.ws k = x.words
def Is_date_literal : Pr := fun t k v e => ∃ (x : Lit), t.ws k = x.words
def Is_interval_literal : Pr := fun t k v e => ∃ (x : Interval), t.ws k = x.words
def Is_param_expr : Pr := fun t k v e => ∃ (x : Nat), t.ws k = [.par x] ∧ ∃ m, v = paramV 0 (.pos 0) m
def Is_table_ref : Pr := fun t k v e => ∃ (x : From), t.ws k = x.words.tail ∧ x ≠ .none
def Is_table_ref_atomic : Pr := fun t k v e => ∃ (x : Table), t.ws k = x.words
def Is_nonjoin_table_ref_atomic : Pr := fun t k v e => ∃ (x : TableN), t.ws k = x.words
def Is_table_ref_commalist : Pr := fun t k v e => ∃ (x : Tables), t.ws k = x.words
def Is_table_ref_name : Pr := fun t k v e => ∃ (x : TableN), t.ws k = x.words
def Is_table_ref_name_no_alias : Pr := fun t k v e => ∃ (x : TName), t.ws k = x.words
def Is_table_name : Pr := fun t k v e => ∃ (x : TName), t.ws k = x.words ∧ v = .tup [ostr x.schema, str x.name]
def Is_opt_index_name : Pr := fun t k v e => ∃ (x : Option Name), t.ws k = nameW x
def Is_table_alias : Pr := fun t k v e => ∃ (x : TAlias), t.ws k = x.words
def Is_opt_table_alias : Pr := fun t k v e => ∃ (x : TAlias), t.ws k = x.words
def Is_alias : Pr := fun t k v e => ∃ (x : Alias), t.ws k = x.words
def Is_opt_alias : Pr := fun t k v e => ∃ (x : Alias), t.ws k = x.words
def Is_opt_locking_clause : Pr := fun t k v e => ∃ (x : Locks), t.ws k = x.words
def Is_opt_locking_clause_list : Pr := fun t k v e => ∃ (x : LockList), t.ws k = x.words
def Is_locking_clause : Pr := fun t k v e => ∃ (x : Lock), t.ws k = x.words
def Is_row_lock_mode : Pr := fun t k v e => ∃ (x : LockMode), t.ws k = x.words
def Is_opt_row_lock_policy : Pr := fun t k v e => ∃ (x : LockWait), t.ws k = x.words
def Is_opt_with_clause : Pr := fun t k v e => ∃ (x : With), t.ws k = x.words
def Is_with_clause : Pr := fun t k v e => ∃ (x : With), t.ws k = x.words
def Is_with_description_list : Pr := fun t k v e => ∃ (x : Withs), t.ws k = x.words
def Is_with_description : Pr := fun t k v e => ∃ (x : Name) (y : PSel), t.ws k = cat [nm x, kw T.AS, y.words]
def Is_join_clause : Pr := fun t k v e => ∃ (x : Table), t.ws k = x.words
def Is_opt_join_type : Pr := fun t k v e => ∃ (x : JoinType), t.ws k = x.words
def Is_join_condition : Pr := fun t k v e => ∃ (x : Expr), t.ws k = x.words
def Is_opt_semicolon : Pr := fun t k v e => ∃ (x : Bool), t.ws k = semiW x
def Is_ident_commalist : Pr := fun t k v e => ∃ (x : Names), t.ws k = x.words ∧ v = x.v

def tab : List Pr := [Is_accept, Is_input, Is_statement_list, Is_statement, Is_preparable_statement, Is_opt_hints, Is_hint_list, Is_hint, Is_transaction_statement, Is_opt_transaction_keyword, Is_prepare_statement, Is_prepare_target_query, Is_execute_statement, Is_import_statement, Is_file_type, Is_file_path, Is_opt_import_export_options, Is_import_export_options, Is_csv_option, Is_export_statement, Is_show_statement, Is_create_statement, Is_opt_not_exists, Is_table_elem_commalist, Is_table_elem, Is_column_def, Is_column_type, Is_opt_time_precision, Is_opt_decimal_specification, Is_opt_column_constraints, Is_column_constraints, Is_column_constraint, Is_table_constraint, Is_references_spec, Is_drop_statement, Is_opt_exists, Is_alter_statement, Is_alter_action, Is_drop_action, Is_delete_statement, Is_truncate_statement, Is_insert_statement, Is_opt_column_list, Is_update_statement, Is_update_clause_commalist, Is_update_clause, Is_select_statement, Is_select_within_set_operation, Is_select_within_set_operation_no_parentheses, Is_select_with_paren, Is_select_no_paren, Is_set_operator, Is_set_type, Is_opt_all, Is_select_clause, Is_opt_distinct, Is_select_list, Is_opt_from_clause, Is_from_clause, Is_opt_where, Is_opt_group, Is_opt_having, Is_opt_order, Is_order_list, Is_order_desc, Is_opt_order_type, Is_opt_null_ordering, Is_opt_top, Is_opt_limit, Is_expr_list, Is_opt_extended_literal_list, Is_extended_literal_list, Is_casted_extended_literal, Is_extended_literal, Is_expr_alias, Is_expr, Is_operand, Is_scalar_expr, Is_unary_expr, Is_binary_expr, Is_logic_expr, Is_in_expr, Is_case_expr, Is_case_list, Is_exists_expr, Is_comp_expr, Is_function_expr, Is_opt_window, Is_opt_partition, Is_opt_frame_clause, Is_frame_type, Is_frame_bound, Is_extract_expr, Is_cast_expr, Is_datetime_field, Is_datetime_field_plural, Is_duration_field, Is_array_expr, Is_array_index, Is_between_expr, Is_column_name, Is_literal, Is_string_literal, Is_bool_literal, Is_num_literal, Is_int_literal, Is_null_literal, Is_date_literal, Is_interval_literal, Is_param_expr, Is_table_ref, Is_table_ref_atomic, Is_nonjoin_table_ref_atomic, Is_table_ref_commalist, Is_table_ref_name, Is_table_ref_name_no_alias, Is_table_name, Is_opt_index_name, Is_table_alias, Is_opt_table_alias, Is_alias, Is_opt_alias, Is_opt_locking_clause, Is_opt_locking_clause_list, Is_locking_clause, Is_row_lock_mode, Is_opt_row_lock_policy, Is_opt_with_clause, Is_with_clause, Is_with_description_list, Is_with_description, Is_join_clause, Is_opt_join_type, Is_join_condition, Is_opt_semicolon, Is_ident_commalist]

def Is (X : Nat) : Pr := bif Nat.ble 199 X then tab.getD (X - 199) (fun _ _ _ _ => True) else IsTok X

def IsL : List Nat → List Tree → Nat → List V → Bool → Prop
  | [], cs, _, vs, _ => cs = [] ∧ vs = []
  | X :: Xs, cs, k, vs, e => ∃ c cs' v vs', cs = c :: cs' ∧ vs = v :: vs' ∧ Is X c k v e ∧ IsL Xs cs' (k + qmarks c.yield) vs' e

/-- The step for a rule. -/
def RuleOK (r : Nat) : Prop := 2 ≤ r → ∀ cs k vs s v s' b e, (Tree.node r cs).PrecOK b → (∀ e, (s.err = true → e = true) → IsL (rhs r) cs k vs e) → evRule r vs s = some (v, s') → (s.err = true → e = true) → (s'.err = true → e = true) →
  Is (lhs r) (.node r cs) k v e

theorem leaf_is {t : Tok} (h : Fits t) (k : Nat) (s : PS) {v : V} {s' : PS} (hd : den (.leaf t) s = some (v, s')) (e : Bool) : Is (tsym t) (.leaf t) k v e := by
  obtain ⟨h1, h2, h3⟩ := h
  rw [den] at hd
  simp only [Option.some.injEq, Prod.mk.injEq] at hd
  obtain ⟨hd, _⟩ := hd
  have hlt : tsym t < 199 := tsym_lt t
  have hb : Nat.ble 199 (tsym t) = false := by
    cases hb : Nat.ble 199 (tsym t) with
    | false => rfl
    | true => exact absurd (Nat.le_of_ble_eq_true hb) (by omega)
  unfold Is
  rw [hb, cond_false]
  have hw : (Tree.leaf t).ws k = [wordOf k t] := by simp [Tree.ws, Tree.yield, toWords]
  unfold IsTok
  rw [hw]
  unfold TokShape at h1
  unfold wordOf
  cases hv : t.val with
  | none =>
    rw [hv] at h1 hd
    obtain ⟨g1, g2, g3, g4⟩ := h1
    have f : ∀ a, tsym t ≠ a → Nat.beq (tsym t) a = false := fun a ha => by
      cases hh : Nat.beq (tsym t) a with
      | false => rfl
      | true => exact absurd (Nat.eq_of_beq_eq_true hh) ha
    rw [f _ g1, f _ g2, f _ g3, f _ g4]
    simp only [cond_false]
    by_cases hq : tsym t = T.QMARK
    · rw [hq, if_pos rfl]; rfl
    · rw [f _ hq, if_neg hq]; exact ⟨rfl, hd.symm⟩
  | ival n =>
    rw [hv] at h1 hd
    simp only [h2, h3, or_false] at h1
    rw [h1]; exact ⟨n, rfl, hd.symm⟩
  | fval b =>
    rw [hv] at h1 hd
    have h1 : tsym t = T.FLOATVAL := h1
    rw [h1]; exact ⟨b, rfl⟩
  | sval b =>
    rw [hv] at h1 hd
    by_cases hq : tsym t = T.STRING
    · rw [hq]; exact ⟨b, rfl, hd.symm⟩
    · have h1 : tsym t = T.IDENTIFIER := by rcases h1 with h | h; exact h; exact absurd h hq
      rw [h1]; exact ⟨b, rfl, hd.symm⟩

mutual
theorem tree_is (all : ∀ r, r < 358 → RuleOK r) : ∀ (t : Tree), t.WF → (∀ m ∈ t.yield, Fits m) → ∀ (k : Nat) (s : PS) {v : V} {s' : PS} {b : Nat} {e : Bool}, t.PrecOK b → den t s = some (v, s') →
    (s'.err = true → e = true) → Is t.sym t k v e
  | .leaf t, _, hf, k, s, v, s', b, e, _, hd, _ => leaf_is (hf t (by simp [Tree.yield])) k s hd e
  | .node r cs, hw, hf, k, s, v, s', b, e, hp, hd, he => by
    rw [den] at hd
    have h2 : r < 358 := by have := hw.2.1; rwa [rules_len] at this
    cases hc : denL cs s with
    | none => rw [hc] at hd; cases hd
    | some x =>
      obtain ⟨vs, s1⟩ := x
      rw [hc] at hd
      simp only [] at hd
      have h3 := fun e he => list_is all cs hw.2.2.2 (by rw [Tree.yield] at hf; exact hf) k s hp.2.2 hc (e := e) he
      rw [hw.2.2.1] at h3
      exact all r h2 hw.1 cs k vs s1 v s' b e hp h3 hd (fun h => he (evRule_mono hw.1 h2 hd h)) he
theorem list_is (all : ∀ r, r < 358 → RuleOK r) : ∀ (cs : List Tree), WFL cs → (∀ m ∈ yieldL cs, Fits m) → ∀ (k : Nat) (s : PS) {vs : List V} {s' : PS} {b : Nat} {e : Bool}, PrecOKL cs b → denL cs s = some (vs, s') →
    (s'.err = true → e = true) → IsL (cs.map Tree.sym) cs k vs e
  | [], _, _, k, s, vs, s', b, e, _, hd, _ => by rw [denL] at hd; cases hd; exact ⟨rfl, rfl⟩
  | c :: cs, hw, hf, k, s, vs, s', b, e, hp, hd, he => by
    rw [denL] at hd
    cases hc : den c s with
    | none => rw [hc] at hd; cases hd
    | some x =>
      obtain ⟨v, s1⟩ := x
      rw [hc] at hd
      simp only [] at hd
      cases hl : denL cs s1 with
      | none => rw [hl] at hd; cases hd
      | some y =>
        obtain ⟨vs1, s2⟩ := y
        rw [hl] at hd
        simp only [Option.some.injEq, Prod.mk.injEq] at hd
        obtain ⟨rfl, rfl⟩ := hd
        rw [yieldL] at hf
        refine ⟨c, cs, v, vs1, rfl, rfl, ?_, ?_⟩
        · exact tree_is all c hw.1 (fun m hm => hf m (by simp [hm])) k s hp.1 hc (fun h => he (denL_mono cs hw.2 hl h))
        · exact list_is all cs hw.2 (fun m hm => hf m (by simp [hm])) _ s1 hp.2 hl he
end

theorem lt_step {P : Nat → Prop} {n : Nat} (h : ∀ r, r < n → P r) (hn : P n) : ∀ r, r < n + 1 → P r := fun r hr => by
  rcases Nat.lt_succ_iff_lt_or_eq.1 hr with h1 | rfl
  · exact h r h1
  · exact hn

end Verif.Sql

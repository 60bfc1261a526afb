import Verif.Sql.All
import Verif.Sql.Stmt
/-! Every abstract statement is derived from the grammar, with its AST as value. Proof-internal. -/
namespace Verif.Sql
open Verif.Lex Verif.LR Verif.Sem

/-! ## Literals, hints -/

theorem ev179 {e : ExprV} (h : e.type ≠ ExprType.kExprParameter) (n : Nat) : evRule 179 [e.v] ⟨n, false⟩ = some (e.v, ⟨n, false⟩) := by
  refine ev_of rfl ?_
  show pev act179 _ _ = _
  unfold act179
  rw [pev_f (by rw [← decide_eq_false h]; rfl)]
  rfl

theorem Lit.not_param (l : Lit) : l.r.type ≠ ExprType.kExprParameter := by
  match l with
  | .str b | .bool true | .bool false | .num (.int _) | .num (.float _) | .null | .date _ _ => simp [Lit.r, Num.r]; decide
  | .interval i => cases i <;> simp [Lit.r, Interval.r] <;> decide

theorem Ext.der (e : Ext) : DT N.extended_literal e.words e.r.v := by
  match e with
  | .lit l => exact Der.unit 179 rfl rfl l.der.any (ev179 l.not_param)
  | .negNum n => exact Der.any_node 180 rfl rfl (DL.kw (DerL.last n.der.any)) ev
  | .negInterval n => exact Der.any_node 181 rfl rfl (DL.kw (DerL.last n.der.any)) ev

theorem XLit.der (x : XLit) : DT N.casted_extended_literal x.words x.r.v := by
  match x with
  | .plain e => exact Der.up 177 rfl rfl ev e.der
  | .cast e t => exact Der.any_node 178 rfl rfl (DL.kw (DL.kw (DL.top e.der (DL.kw (DL.top t.der DL.kw1))))) evo

theorem XLits.der : ∀ l : XLits, DT N.extended_literal_list l.words (.vec 0 l.vals)
  | .one x => Der.any_node 175 rfl rfl (DerL.last x.der) ev
  | .snoc l x => Der.any_node 176 rfl rfl (DL.top l.der (DL.kw (DerL.last x.der))) ev

theorem Hint.der (h : Hint) : DT N.hint h.words h.r.v := by
  match h with
  | .name n => exact Der.any_node 24 rfl rfl DL.id1 ev
  | .args n l => exact Der.any_node 25 rfl rfl (DL.id (DL.kw (DL.top l.der DL.kw1))) ev

theorem HintList.der : ∀ l : HintList, DT N.hint_list l.words (.vec 0 l.vals)
  | .one x => Der.any_node 22 rfl rfl (DerL.last x.der) ev
  | .snoc l x => Der.any_node 23 rfl rfl (DL.top l.der (DL.kw (DerL.last x.der))) ev

theorem Hints.der (h : Hints) : DT N.opt_hints h.words h.v := by
  match h with
  | .none => exact (Der.eps 21 rfl rfl ev).any
  | .some l => exact Der.any_node 20 rfl rfl (DL.kw (DL.kw (DL.kw (DL.top l.der DL.kw1)))) ev

theorem Hints.saf (h : Hints) : Saf h.words := by cases h <;> first | exact saf_nil | exact saf_kw rfl
@[simp] theorem Hints.nu (h : Hints) : h.v.isUndef = false := by cases h <;> rfl

/-! ## COPY -/

theorem obytes_eq (b : Option Bytes) : obytes b = optStr b := by cases b <;> rfl
theorem CopyV.csvV_eq (v : CopyV) : v.csvV = Sem.csvV v.csv := by
  rcases v with ⟨f, e, _ | c⟩
  · rfl
  · simp only [CopyV.csvV, Sem.csvV, Csv.v, obytes_eq]

/-- The options while they are read. -/
def CopyV.o (v : CopyV) : V := ieo v.format v.encoding v.csv

theorem file_type {w : Name} {t : Int} (h : fileType w = some t) : DT N.file_type (nm w) (.int t) := by
  refine Der.any_node 37 rfl rfl DL.id1 ?_
  intro n
  rw [ev37, h]; rfl

theorem fileType_auto {w : Name} {t : Int} (h : fileType w = some t) : t ≠ ImportType.kImportAuto := by
  unfold fileType at h
  repeat' split at h
  all_goals first | (cases h; decide) | cases h

/-- The kind of a CSV option. -/
theorem csv_der {o : CopyOpt} : match o with
    | .delimiter _ _ b => DT N.csv_option o.words (csvPair .delimiter b)
    | .quote _ _ b => DT N.csv_option o.words (csvPair .quote b)
    | .null b => DT N.csv_option o.words (csvPair .null b)
    | _ => True := by
  match o with
  | .format _ _ _ => trivial
  | .encoding _ => trivial
  | .delimiter w ok b =>
    refine Der.any_node 48 rfl rfl (DL.id DL.str1) ?_
    intro n; rw [ev48, ok]; rfl
  | .quote w ok b =>
    refine Der.any_node 48 rfl rfl (DL.id DL.str1) ?_
    intro n
    have : eqNoCase w b!"DELIMITER" = false := by rw [eqNoCase_trans ok]; rfl
    rw [ev48, ok, this]; rfl
  | .null b => exact Der.any_node 49 rfl rfl (DL.kw DL.str1) (fun n => ev49 _ _ _ _)

theorem CopyOpts.der : ∀ l : CopyOpts, l.OK → DT N.import_export_options l.words l.r.o
  | .one (.format w t h), _ => Der.any_node 43 rfl rfl (DL.kw (DerL.last (file_type h))) (fun n => ev43 _ _ _ _)
  | .one (.encoding b), _ => Der.any_node 45 rfl rfl (DL.kw DL.str1) (fun n => ev45 _ _ _ _)
  | .one (.delimiter w h b), _ => Der.any_node 47 rfl rfl (DerL.last (csv_der (o := .delimiter w h b))) (fun n => ev47 _ _ _ _)
  | .one (.quote w h b), _ => Der.any_node 47 rfl rfl (DerL.last (csv_der (o := .quote w h b))) (fun n => ev47 _ _ _ _)
  | .one (.null b), _ => Der.any_node 47 rfl rfl (DerL.last (csv_der (o := .null b))) (fun n => ev47 _ _ _ _)
  | .snoc l (.format w t h), ok => by
    refine Der.any_node 42 rfl rfl (DL.top (l.der ok.1) (DL.kw (DL.kw (DerL.last (file_type h))))) ?_
    intro n
    unfold CopyV.o
    rw [ev42 _ (fileType_auto h)]; exact if_pos ok.2
  | .snoc l (.encoding b), ok => by
    refine Der.any_node 44 rfl rfl (DL.top (l.der ok.1) (DL.kw (DL.kw DL.str1))) ?_
    intro n
    unfold CopyV.o
    rw [ev44]; exact if_pos ok.2
  | .snoc l (.delimiter w h b), ok => by
    refine Der.any_node 46 rfl rfl (DL.top (l.der ok.1) (DL.kw (DerL.last (csv_der (o := .delimiter w h b))))) ?_
    intro n
    unfold CopyV.o
    rw [ev46]; exact if_pos ok.2
  | .snoc l (.quote w h b), ok => by
    refine Der.any_node 46 rfl rfl (DL.top (l.der ok.1) (DL.kw (DerL.last (csv_der (o := .quote w h b))))) ?_
    intro n
    unfold CopyV.o
    rw [ev46]; exact if_pos ok.2
  | .snoc l (.null b), ok => by
    refine Der.any_node 46 rfl rfl (DL.top (l.der ok.1) (DL.kw (DerL.last (csv_der (o := .null b))))) ?_
    intro n
    unfold CopyV.o
    rw [ev46]; exact if_pos ok.2

theorem CopyWith.der (o : CopyWith) : DT N.opt_import_export_options o.words o.r.o := by
  match o with
  | .none => exact (Der.eps 41 rfl rfl ev).any
  | .opts true l ok => exact Der.any_node 39 rfl rfl (DL.kw (DL.kw (DL.top (l.der ok) DL.kw1))) ev
  | .opts false l ok => exact Der.any_node 40 rfl rfl (DL.kw (DL.top (l.der ok) DL.kw1)) ev

/-! ## Small parts -/

theorem cols_der (c : Option Names) : DT N.opt_column_list (colsWords c) (colsV c) := by
  match c with
  | none => exact (Der.eps 118 rfl rfl ev).any
  | some l => exact Der.any_node 117 rfl rfl (DL.kw (DL.top l.der DL.kw1)) ev
@[simp] theorem cols_nu (c : Option Names) : (colsV c).isUndef = false := by cases c <;> rfl
@[simp] theorem xlits_nu (c : Option XLits) : (xlitsV c).isUndef = false := by cases c <;> rfl

theorem xlits_der (c : Option XLits) : DT N.opt_extended_literal_list (xlitsW c) (xlitsV c) := by
  match c with
  | none => exact (Der.eps 174 rfl rfl ev).any
  | some l => exact Der.up 173 rfl rfl ev l.der

theorem ine_der (b : Bool) : DT N.opt_not_exists (ifNotExists b) (flag b) := by
  match b with
  | false => exact (Der.eps 61 rfl rfl ev).any
  | true => exact Der.any_node 60 rfl rfl (DL.kw (DL.kw DL.kw1)) ev
theorem ie_der (b : Bool) : DT N.opt_exists (ifExists b) (flag b) := by
  match b with
  | false => exact (Der.eps 109 rfl rfl ev).any
  | true => exact Der.any_node 108 rfl rfl (DL.kw DL.kw1) ev
theorem nameW_der (b : Option Name) : DT N.opt_index_name (nameW b) (ostr b) := by
  match b with
  | none => exact (Der.eps 312 rfl rfl ev).any
  | some n => exact Der.any_node 311 rfl rfl DL.id1 ev
theorem path_der (p : Bytes) : DT N.file_path [.str p] (str p) := Der.any_node 38 rfl rfl DL.str1 ev
theorem whereW_der (w : OExpr) : D N.opt_where (whereW w) w.v := by
  have : whereW w = whereWords w := by cases w <;> rfl
  rw [this]; exact where_der w.good
theorem whereW_saf (w : OExpr) : Saf (whereW w) := by cases w <;> first | exact saf_nil | exact saf_kw rfl

/-! ## Table definitions -/

theorem refs_der (t : TName) (c : Option Names) : DT N.references_spec (cat [kw T.REFERENCES, t.words, colsWords c]) (refV t c) :=
  Der.any_node 103 rfl rfl (DL.kw (DL.top t.der (DerL.last (cols_der c)))) evo

/-- Column constraints while they are read. -/
def consV (ks : List Int) (rs : List V) : V := .obj 0 .ColumnConstraints [.vec 0 (ks.map .int), .vec 0 rs]

theorem hasInt_map (k : Int) : ∀ ks : List Int, hasInt k (ks.map V.int) = ks.contains k
  | [] => rfl
  | x :: ks => by
    have := hasInt_map k ks
    simp only [hasInt] at this
    simp only [List.map_cons, hasInt, List.any_cons, this, List.contains_cons, V.isInt]
    congr 1
    rw [Bool.eq_iff_iff, decide_eq_true_eq, beq_iff_eq]; exact eq_comm

theorem insert_map (k : Int) (ks : List Int) : (if hasInt k (ks.map V.int) then ks.map V.int else ks.map V.int ++ [.int k]) = (insertKind k ks).map V.int := by
  rw [hasInt_map]
  unfold insertKind
  cases ks.contains k <;> simp

theorem con_der {c : Constraint} (h : c.refs = []) : DT N.column_constraint c.words (.int c.kind) := by
  match c, h with
  | .primaryKey, _ => exact Der.any_node 96 rfl rfl (DL.kw DL.kw1) ev
  | .unique, _ => exact Der.any_node 97 rfl rfl DL.kw1 ev
  | .null, _ => exact Der.any_node 98 rfl rfl DL.kw1 ev
  | .notNull, _ => exact Der.any_node 99 rfl rfl (DL.kw DL.kw1) ev

theorem ev93 (k : Int) (ks : List Int) (rs : List V) (n : Nat) : evRule 93 [consV ks rs, .int k] ⟨n, false⟩ = some (consV (insertKind k ks) rs, ⟨n, false⟩) := by
  refine ev_of rfl ?_
  unfold consV
  rw [← insert_map]
  rfl
theorem ev95 (v : V) (ks : List Int) (rs : List V) (hv : v.isUndef = false) (n : Nat) : evRule 95 [consV ks rs, v] ⟨n, false⟩ = some (consV (insertKind ConstraintType.ForeignKey ks) (rs ++ [v]), ⟨n, false⟩) := by
  refine ev_of rfl ?_
  unfold consV
  rw [← insert_map]
  cases v <;> first | rfl | cases hv

theorem Constraints.der : ∀ l : Constraints, DT N.column_constraints l.words (consV l.kinds l.refs)
  | .one .primaryKey => Der.any_node 92 rfl rfl (DerL.last (con_der rfl)) ev
  | .one .unique => Der.any_node 92 rfl rfl (DerL.last (con_der rfl)) ev
  | .one .null => Der.any_node 92 rfl rfl (DerL.last (con_der rfl)) ev
  | .one .notNull => Der.any_node 92 rfl rfl (DerL.last (con_der rfl)) ev
  | .one (.references t c) => Der.any_node 94 rfl rfl (DerL.last (refs_der t c)) ev
  | .snoc l .primaryKey => by
    have := Der.any_node (S := Top) 93 rfl rfl (DL.top l.der (DerL.last (con_der (c := .primaryKey) rfl))) (ev93 _ _ _)
    exact (congrArg (fun r => DT N.column_constraints _ (consV _ r)) (List.append_nil l.refs)).mpr this
  | .snoc l .unique => by
    have := Der.any_node (S := Top) 93 rfl rfl (DL.top l.der (DerL.last (con_der (c := .unique) rfl))) (ev93 _ _ _)
    exact (congrArg (fun r => DT N.column_constraints _ (consV _ r)) (List.append_nil l.refs)).mpr this
  | .snoc l .null => by
    have := Der.any_node (S := Top) 93 rfl rfl (DL.top l.der (DerL.last (con_der (c := .null) rfl))) (ev93 _ _ _)
    exact (congrArg (fun r => DT N.column_constraints _ (consV _ r)) (List.append_nil l.refs)).mpr this
  | .snoc l .notNull => by
    have := Der.any_node (S := Top) 93 rfl rfl (DL.top l.der (DerL.last (con_der (c := .notNull) rfl))) (ev93 _ _ _)
    exact (congrArg (fun r => DT N.column_constraints _ (consV _ r)) (List.append_nil l.refs)).mpr this
  | .snoc l (.references t c) => Der.any_node 95 rfl rfl (DL.top l.der (DerL.last (refs_der t c))) (ev95 _ _ _ rfl)

theorem ColCons.der (c : ColCons) : DT N.opt_column_constraints c.words (consV c.kinds c.refs) := by
  match c with
  | .none => exact (Der.eps 91 rfl rfl ev).any
  | .some l => exact Der.up 90 rfl rfl ev l.der

theorem ev66 {n : Name} {t : ColType} {ks : List Int} {rs : List V} (h : ((ks.contains ConstraintType.NotNull || ks.contains ConstraintType.PrimaryKey) && ks.contains ConstraintType.Null) = false) (m : Nat) :
    evRule 66 [str n, t.v, consV ks rs] ⟨m, false⟩ =
      some (.obj 0 .ColumnDefinition [.vec 0 (ks.map .int), str n, t.v, flag (!(ks.contains ConstraintType.NotNull || ks.contains ConstraintType.PrimaryKey)), .vec 0 rs], ⟨m, false⟩) := by
  refine ev_of rfl ?_
  show pev columnDef _ _ = _
  have ht : ∃ a b c d, t.v = .tup [a, b, c, d] := by cases t <;> exact ⟨_, _, _, _, rfl⟩
  obtain ⟨a, b, c, d, ht⟩ := ht
  rw [ht]
  unfold columnDef
  rw [pev_set (v := .obj 0 .ColumnDefinition [.vec 0 (ks.map .int), str n, .tup [a, b, c, d], .int 1, .vec 0 rs]) rfl]
  show pev (.ite _ _ _) _ _ = _
  cases h1 : ks.contains ConstraintType.NotNull with
  | true =>
    have h2 : ks.contains ConstraintType.Null = false := by rw [h1] at h; simpa using h
    rw [pev_t (by show some (hasInt _ _) = _; rw [hasInt_map, h1]), pev_f (by show some (hasInt _ _) = _; rw [hasInt_map, h2])]
    rfl
  | false =>
    rw [pev_f (by show some (hasInt _ _) = _; rw [hasInt_map, h1])]
    cases h3 : ks.contains ConstraintType.PrimaryKey with
    | true =>
      have h2 : ks.contains ConstraintType.Null = false := by rw [h3] at h; simpa using h
      rw [pev_t (by show some (hasInt _ _) = _; rw [hasInt_map, h3]), pev_f (by show some (hasInt _ _) = _; rw [hasInt_map, h2])]
      rfl
    | false =>
      rw [pev_f (by show some (hasInt _ _) = _; rw [hasInt_map, h3])]
      rfl

theorem TableElem.der (e : TableElem) : DT N.table_elem e.words e.v := by
  match e with
  | .column n t c ok => exact Der.up 64 rfl rfl ev (Der.any_node 66 rfl rfl (DL.id (DL.top t.der (DerL.last c.der))) (ev66 ok))
  | .primaryKey l => exact Der.up 65 rfl rfl ev (Der.any_node 100 rfl rfl (DL.kw (DL.kw (DL.kw (DL.top l.der DL.kw1)))) ev)
  | .unique l => exact Der.up 65 rfl rfl ev (Der.any_node 101 rfl rfl (DL.kw (DL.kw (DL.top l.der DL.kw1))) ev)
  | .foreignKey l t c => exact Der.up 65 rfl rfl ev (Der.any_node 102 rfl rfl (DL.kw (DL.kw (DL.kw (DL.top l.der (DL.kw (DerL.last (refs_der t c))))))) ev)

theorem TableElem.v_obj (e : TableElem) : ∃ c fs, e.v = .obj 0 c fs := by cases e <;> exact ⟨_, _, rfl⟩
theorem TableElem.nu (e : TableElem) : e.v.isUndef = false := by cases e <;> rfl

def TableElems.vals (l : TableElems) : List V := l.list.map TableElem.v

theorem TableElems.der : ∀ l : TableElems, DT N.table_elem_commalist l.words (.vec 0 l.vals)
  | .one e => by
    refine Der.any_node 62 rfl rfl (DerL.last e.der) ?_
    show ∀ n, evRule 62 [e.v] ⟨n, false⟩ = some (.vec 0 [e.v], _)
    obtain ⟨c, fs, h⟩ := e.v_obj
    rw [h]; exact ev
  | .snoc l e => by
    refine Der.any_node 63 rfl rfl (DL.top l.der (DL.kw (DerL.last e.der))) ?_
    have : (TableElems.snoc l e).vals = l.vals ++ [e.v] := by simp [TableElems.vals, TableElems.list]
    rw [this]
    obtain ⟨c, fs, h⟩ := e.v_obj
    rw [h]; exact ev

theorem filter_cols (l : List TableElem) : (l.map TableElem.v).filter isColumnDef = (l.filter TableElem.isColumn).map TableElem.v := by
  induction l with
  | nil => rfl
  | cons e l ih =>
    have : isColumnDef e.v = e.isColumn := by cases e <;> rfl
    simp only [List.map_cons, List.filter_cons, this, ih]
    cases e.isColumn <;> rfl
theorem filter_cons (l : List TableElem) : (l.map TableElem.v).filter isConstraint = (l.filter fun e => !e.isColumn).map TableElem.v := by
  induction l with
  | nil => rfl
  | cons e l ih =>
    have : isConstraint e.v = !e.isColumn := by cases e <;> rfl
    simp only [List.map_cons, List.filter_cons, this, ih]
    cases e.isColumn <;> rfl

theorem ev56' (i : Int) (s : Option Name) (x : Name) (vs : List V) (n : Nat) :
    evRule 56 [.undef, .undef, .int i, .tup [ostr s, str x], .undef, .vec 0 vs, .undef] ⟨n, false⟩ =
      some (.obj 0 .CreateStatement [.undef, .null, .int StatementType.kStmtCreate, .int CreateType.kCreateTable, .int i, .null, ostr s, str x, .null, .null, .vec 0 (vs.filter isColumnDef), .vec 0 (vs.filter isConstraint), .null, .null], ⟨n, false⟩) := by
  refine ev_of rfl ?_
  cases s <;> rfl

theorem ev56 {i : Bool} {t : TName} {l : TableElems} (n : Nat) :
    evRule 56 [.undef, .undef, flag i, .tup [ostr t.schema, str t.name], .undef, .vec 0 l.vals, .undef] ⟨n, false⟩ =
      some (({ type := CreateType.kCreateTable, ifNotExists := i, schema := ostr t.schema, tableName := str t.name, columns := .vec 0 l.columns, tableConstraints := .vec 0 l.constraints } : CreateV).stmt.v .null .undef, ⟨n, false⟩) := by
  unfold TableElems.columns TableElems.constraints
  rw [← filter_cols, ← filter_cons]
  cases i <;> exact ev56' _ _ _ _ _

theorem Updates.der : ∀ l : Updates, D N.update_clause_commalist l.words (.vec 0 l.vals)
  | .one n e => Der.any_node 120 rfl rfl (DL.last (Der.any_node 122 rfl rfl (DL.id (DL.kw (DL.last e.good.d))) evo)) ev
  | .snoc l n e => Der.any_node 121 rfl rfl (DL.ck l.der (DL.kw (DL.last (Der.any_node 122 rfl rfl (DL.id (DL.kw (DL.last e.good.d))) evo)))) ev

/-! ## Statements -/

/-- The value of a statement before hints and length are put into it. -/
abbrev StmtV.v0 (s : StmtV) : V := s.v .null .undef

theorem tx_der (c : TxCmd) : ∀ w, DT N.transaction_statement (Stmt.transaction c w).words (Stmt.transaction c w).r.v0 := by
  intro w
  cases c <;> cases w
  · exact Der.any_node (ws := _ ++ []) 26 rfl rfl (DL.kw (DerL.last (Der.eps 30 rfl rfl ev).any)) ev
  · exact Der.any_node 26 rfl rfl (DL.kw (DerL.last (Der.any_node 29 rfl rfl DL.kw1 ev))) ev
  · exact Der.any_node (ws := _ ++ []) 27 rfl rfl (DL.kw (DerL.last (Der.eps 30 rfl rfl ev).any)) ev
  · exact Der.any_node 27 rfl rfl (DL.kw (DerL.last (Der.any_node 29 rfl rfl DL.kw1 ev))) ev
  · exact Der.any_node (ws := _ ++ []) 28 rfl rfl (DL.kw (DerL.last (Der.eps 30 rfl rfl ev).any)) ev
  · exact Der.any_node 28 rfl rfl (DL.kw (DerL.last (Der.any_node 29 rfl rfl DL.kw1 ev))) ev

/-- The nonterminal of a statement. -/
def Stmt.nt : Stmt → Nat
  | .prepare _ _ => N.prepare_statement
  | _ => N.preparable_statement

theorem ev55 {i : Int} {s : Option Name} {x : Name} {w : Name} (h : eqNoCase w b!"tbl" = true) (p : Bytes) (n : Nat) :
    evRule 55 [.undef, .undef, .int i, .tup [ostr s, str x], .undef, .str 0 w, .undef, str p] ⟨n, false⟩ =
      some (.obj 0 .CreateStatement [.undef, .null, .int StatementType.kStmtCreate, .int CreateType.kCreateTableFromTbl, .int i, str p, ostr s, str x, .null, .null, .null, .null, .null, .null], ⟨n, false⟩) := by
  refine ev_of rfl ?_
  have hc : ∀ env st, strAt env ⟨6, []⟩ = some w → evalCond (.strIs ⟨6, []⟩ b!"tbl") env st = some true := by
    intro env st he; simp only [evalCond, he, Option.map_some, h]
  show pev act55 _ _ = _
  unfold act55
  cases s
  · rw [pev_set rfl]
    show pev (.set _ _ _) _ _ = _
    rw [pev_set rfl]
    show pev (.set _ _ _) _ _ = _
    rw [pev_set rfl]
    show pev (.set _ _ _) _ _ = _
    rw [pev_set rfl]
    show pev (.ite _ _ _) _ _ = _
    rw [pev_t (hc _ _ rfl)]
    rfl
  · rw [pev_set rfl]
    show pev (.set _ _ _) _ _ = _
    rw [pev_set rfl]
    show pev (.set _ _ _) _ _ = _
    rw [pev_set rfl]
    show pev (.set _ _ _) _ _ = _
    rw [pev_set rfl]
    show pev (.ite _ _ _) _ _ = _
    rw [pev_t (hc _ _ rfl)]
    rfl

theorem flag_int (b : Bool) : ∃ n, flag b = .int n := by cases b <;> exact ⟨_, rfl⟩
@[simp] theorem flag_nu (b : Bool) : (flag b).isUndef = false := by cases b <;> rfl

theorem tn_cases (t : TName) : ∃ s, (ostr t.schema, str t.name) = (ostr s, str t.name) := ⟨_, rfl⟩

theorem Stmt.der (s : Stmt) : D s.nt s.words s.r.v0 := by
  match s with
  | .query q => exact Der.up 10 rfl rfl ev q.der
  | .createFile i t w ok p =>
    refine Der.up 11 rfl rfl ev (Der.any_node 55 rfl rfl (DL.kw (DL.kw (DL.top (ine_der i) (DL.top t.der (DL.kw (DL.id (DL.kw (DL.last (path_der p).d))))))) ) ?_)
    cases i <;> exact ev55 ok p
  | .createTable i t l => exact Der.up 11 rfl rfl ev (Der.any_node 56 rfl rfl (DL.kw (DL.kw (DL.top (ine_der i) (DL.top t.der (DL.kw (DL.top l.der DL.kw1)))))) ev56)
  | .createAs i t q => exact Der.up 11 rfl rfl ev (Der.any_node 57 rfl rfl (DL.kw (DL.kw (DL.top (ine_der i) (DL.top t.der (DL.kw (DL.last q.der)))))) evo)
  | .createIndex i n t l => exact Der.up 11 rfl rfl ev (Der.any_node 58 rfl rfl (DL.kw (DL.kw (DL.top (ine_der i) (DL.top (nameW_der n) (DL.kw (DL.top t.der (DL.kw (DL.top l.der DL.kw1)))))))) evo)
  | .createView i t c q => exact Der.up 11 rfl rfl ev (Der.any_node 59 rfl rfl (DL.kw (DL.kw (DL.top (ine_der i) (DL.top t.der (DL.top (cols_der c) (DL.kw (DL.last q.der))))))) evo)
  | .insertValues t c l => exact Der.up 12 rfl rfl ev (Der.any_node 115 rfl rfl (DL.kw (DL.kw (DL.top t.der (DL.top (cols_der c) (DL.kw (DL.kw (DL.top l.der DL.kw1))))))) evo)
  | .insertQuery t c q => exact Der.up 12 rfl rfl ev (Der.any_node 116 rfl rfl (DL.kw (DL.kw (DL.top t.der (DL.top (cols_der c) (DL.last q.der))))) evo)
  | .delete t w => exact Der.up 13 rfl rfl ev (Der.any_node 113 rfl rfl (DL.kw (DL.kw (DL.top t.der (DL.last (whereW_der w))))) evo)
  | .truncate t => exact Der.up 14 rfl rfl ev (Der.any_node 114 rfl rfl (DL.kw (DerL.last t.der.d)) evo)
  | .update t l w => exact Der.up 15 rfl rfl ev (Der.any_node 119 rfl rfl (DL.kw (DL.top (Der.any_node 308 rfl rfl (DerL.last t.der) evo) (DL.kw (DL.cons l.der (DL.last (whereW_der w)) (whereW_saf w))))) evo)
  | .dropTable i t => exact Der.up 16 rfl rfl ev (Der.any_node 104 rfl rfl (DL.kw (DL.kw (DL.top (ie_der i) (DerL.last t.der.d)))) evo)
  | .dropView i t => exact Der.up 16 rfl rfl ev (Der.any_node 105 rfl rfl (DL.kw (DL.kw (DL.top (ie_der i) (DerL.last t.der.d)))) evo)
  | .deallocate n => exact Der.up 16 rfl rfl ev (Der.any_node 106 rfl rfl (DL.kw (DL.kw DL.id1)) ev)
  | .dropIndex i n => exact Der.up 16 rfl rfl ev (Der.any_node 107 rfl rfl (DL.kw (DL.kw (DL.top (ie_der i) DL.id1))) evo)
  | .alterDrop i t j c => exact Der.up 17 rfl rfl ev (Der.any_node 110 rfl rfl (DL.kw (DL.kw (DL.top (ie_der i) (DL.top t.der (DL.last (Der.up 111 rfl rfl ev (Der.any_node 112 rfl rfl (DL.kw (DL.kw (DL.top (ie_der j) DL.id1))) evo))))))) evo)
  | .execute n => exact Der.up 18 rfl rfl ev (Der.any_node 33 rfl rfl (DL.kw DL.id1) ev)
  | .executeArgs n l => exact Der.up 18 rfl rfl ev (Der.any_node 34 rfl rfl (DL.kw (DL.id (DL.kw (DL.top (xlits_der l) DL.kw1)))) evo)
  | .transaction c w => exact Der.up 19 rfl rfl ev (tx_der c w).d
  | .prepare n q => exact Der.any_node 31 rfl rfl (DL.kw (DL.id (DL.kw (DerL.last (Der.any_node 32 rfl rfl DL.str1 (v := str q) ev))))) ev

theorem ev6 {s : StmtV} {h : Hints} (n : Nat) : evRule 6 [s.v0, h.v] ⟨n, false⟩ = some (s.v h.v .undef, ⟨n, false⟩) := by
  cases h <;> exact ev_of rfl rfl
theorem ev5 {s : StmtV} {h : Hints} (n : Nat) : evRule 5 [s.v0, h.v] ⟨n, false⟩ = some (s.v h.v .undef, ⟨n, false⟩) := by
  cases h <;> exact ev_of rfl rfl

theorem csvV_cases (c : Option Csv) : csvV c = .null ∨ ∃ fs, csvV c = .obj 0 .CsvOptions fs := by
  cases c
  · exact .inl rfl
  · exact .inr ⟨_, rfl⟩

set_option maxHeartbeats 2000000 in
theorem ev36 {t : TName} {p : Bytes} {o : CopyV} {w : V} (hw : w.isUndef = false) (n : Nat) : evRule 36 [.undef, .tup [ostr t.schema, str t.name], .undef, str p, o.o, w] ⟨n, false⟩ =
    some (StmtV.v0 ⟨.ImportStatement, [.int StatementType.kStmtImport, .int o.format, str p, ostr t.schema, str t.name, w, o.encodingV, o.csvV]⟩, ⟨n, false⟩) := by
  unfold CopyV.encodingV
  rw [CopyV.csvV_eq, obytes_eq]
  unfold CopyV.o ieo
  rcases o with ⟨f, e, c⟩
  rcases e with _ | e <;> rcases csvV_cases c with hc | ⟨fs, hc⟩ <;> simp only [hc, optStr] <;> exact ev_op rfl rfl (by simp [V.isNumber, hw] <;> rfl)

set_option maxHeartbeats 2000000 in
theorem ev50 {t : TName} {p : Bytes} {o : CopyV} (n : Nat) : evRule 50 [.undef, .tup [ostr t.schema, str t.name], .undef, str p, o.o] ⟨n, false⟩ =
    some (StmtV.v0 ⟨.ExportStatement, [.int StatementType.kStmtExport, .int o.format, str p, ostr t.schema, str t.name, .null, o.encodingV, o.csvV]⟩, ⟨n, false⟩) := by
  unfold CopyV.encodingV
  rw [CopyV.csvV_eq, obytes_eq]
  unfold CopyV.o ieo
  rcases o with ⟨f, e, c⟩
  rcases e with _ | e <;> rcases csvV_cases c with hc | ⟨fs, hc⟩ <;> simp only [hc, optStr] <;> exact ev_op rfl rfl (by simp [V.isNumber] <;> rfl)

set_option maxHeartbeats 2000000 in
theorem ev51 {q : V} {p : Bytes} {o : CopyV} (hq : q.isUndef = false) (n : Nat) : evRule 51 [.undef, q, .undef, str p, o.o] ⟨n, false⟩ =
    some (StmtV.v0 ⟨.ExportStatement, [.int StatementType.kStmtExport, .int o.format, str p, .null, .null, q, o.encodingV, o.csvV]⟩, ⟨n, false⟩) := by
  unfold CopyV.encodingV
  rw [CopyV.csvV_eq, obytes_eq]
  unfold CopyV.o ieo
  rcases o with ⟨f, e, c⟩
  rcases e with _ | e <;> rcases csvV_cases c with hc | ⟨fs, hc⟩ <;> simp only [hc, optStr] <;> exact ev_op rfl rfl (by simp [V.isNumber, hq] <;> rfl)

theorem Item.der (i : Item) : D N.statement i.words (i.v .undef) := by
  match i with
  | .stmt (.prepare n q) h => exact Der.any_node 5 rfl rfl (DL.cons (Stmt.prepare n q).der (DL.last h.der.d) h.saf) ev5
  | .stmt (.query x1) h => exact Der.any_node 6 rfl rfl (DL.cons (Stmt.query x1).der (DL.last h.der.d) h.saf) ev6
  | .stmt (.createFile x1 x2 x3 x4 x5) h => exact Der.any_node 6 rfl rfl (DL.cons (Stmt.createFile x1 x2 x3 x4 x5).der (DL.last h.der.d) h.saf) ev6
  | .stmt (.createTable x1 x2 x3) h => exact Der.any_node 6 rfl rfl (DL.cons (Stmt.createTable x1 x2 x3).der (DL.last h.der.d) h.saf) ev6
  | .stmt (.createAs x1 x2 x3) h => exact Der.any_node 6 rfl rfl (DL.cons (Stmt.createAs x1 x2 x3).der (DL.last h.der.d) h.saf) ev6
  | .stmt (.createIndex x1 x2 x3 x4) h => exact Der.any_node 6 rfl rfl (DL.cons (Stmt.createIndex x1 x2 x3 x4).der (DL.last h.der.d) h.saf) ev6
  | .stmt (.createView x1 x2 x3 x4) h => exact Der.any_node 6 rfl rfl (DL.cons (Stmt.createView x1 x2 x3 x4).der (DL.last h.der.d) h.saf) ev6
  | .stmt (.insertValues x1 x2 x3) h => exact Der.any_node 6 rfl rfl (DL.cons (Stmt.insertValues x1 x2 x3).der (DL.last h.der.d) h.saf) ev6
  | .stmt (.insertQuery x1 x2 x3) h => exact Der.any_node 6 rfl rfl (DL.cons (Stmt.insertQuery x1 x2 x3).der (DL.last h.der.d) h.saf) ev6
  | .stmt (.delete x1 x2) h => exact Der.any_node 6 rfl rfl (DL.cons (Stmt.delete x1 x2).der (DL.last h.der.d) h.saf) ev6
  | .stmt (.truncate x1) h => exact Der.any_node 6 rfl rfl (DL.cons (Stmt.truncate x1).der (DL.last h.der.d) h.saf) ev6
  | .stmt (.update x1 x2 x3) h => exact Der.any_node 6 rfl rfl (DL.cons (Stmt.update x1 x2 x3).der (DL.last h.der.d) h.saf) ev6
  | .stmt (.dropTable x1 x2) h => exact Der.any_node 6 rfl rfl (DL.cons (Stmt.dropTable x1 x2).der (DL.last h.der.d) h.saf) ev6
  | .stmt (.dropView x1 x2) h => exact Der.any_node 6 rfl rfl (DL.cons (Stmt.dropView x1 x2).der (DL.last h.der.d) h.saf) ev6
  | .stmt (.deallocate x1) h => exact Der.any_node 6 rfl rfl (DL.cons (Stmt.deallocate x1).der (DL.last h.der.d) h.saf) ev6
  | .stmt (.dropIndex x1 x2) h => exact Der.any_node 6 rfl rfl (DL.cons (Stmt.dropIndex x1 x2).der (DL.last h.der.d) h.saf) ev6
  | .stmt (.alterDrop x1 x2 x3 x4) h => exact Der.any_node 6 rfl rfl (DL.cons (Stmt.alterDrop x1 x2 x3 x4).der (DL.last h.der.d) h.saf) ev6
  | .stmt (.execute x1) h => exact Der.any_node 6 rfl rfl (DL.cons (Stmt.execute x1).der (DL.last h.der.d) h.saf) ev6
  | .stmt (.executeArgs x1 x2) h => exact Der.any_node 6 rfl rfl (DL.cons (Stmt.executeArgs x1 x2).der (DL.last h.der.d) h.saf) ev6
  | .stmt (.transaction x1 x2) h => exact Der.any_node 6 rfl rfl (DL.cons (Stmt.transaction x1 x2).der (DL.last h.der.d) h.saf) ev6
  | .showTables => exact Der.up 7 rfl rfl ev (Der.any_node 52 rfl rfl (DL.kw DL.kw1) ev)
  | .showColumns t => exact Der.up 7 rfl rfl ev (Der.any_node 53 rfl rfl (DL.kw (DL.kw (DL.last t.der.d))) evo)
  | .describe t => exact Der.up 7 rfl rfl ev (Der.any_node 54 rfl rfl (DL.kw (DL.last t.der.d)) evo)
  | .importFile w f ok p t => exact Der.up 8 rfl rfl ev (Der.any_node 35 rfl rfl (DL.kw (DL.kw (DL.top (file_type ok) (DL.kw (DL.top (path_der p) (DL.kw (DL.last t.der.d))))))) evo)
  | .copyFrom t p o w => exact Der.up 8 rfl rfl ev (Der.any_node 36 rfl rfl (DL.kw (DL.top t.der (DL.kw (DL.top (path_der p) (DL.top o.der (DL.last (whereW_der w))))))) (ev36 w.nu))
  | .copyTo t p o => exact Der.up 9 rfl rfl ev (Der.any_node 50 rfl rfl (DL.kw (DL.top t.der (DL.kw (DL.top (path_der p) (DL.last o.der.d))))) ev50)
  | .copyQuery s p o => exact Der.up 9 rfl rfl ev (Der.any_node 51 rfl rfl (DL.kw (DL.ck s.der (DL.kw (DL.top (path_der p) (DL.last o.der.d))))) (ev51 s.r.nu))

end Verif.Sql

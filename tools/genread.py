#!/usr/bin/env python3
"""Generates lean/Verif/Sql/ReadIs.lean and lean/Verif/Sql/ReadRules{1,2,3}.lean: every derivation tree spells some abstract SQL."""
import re
G = open('/verif/lean/Verif/LR/Grammar.lean').read()
rules = []
for m in re.finditer(r'^  \((\S+), \[(.*?)\]\),?  -- (\d+)', G, re.M):
    rules.append((m.group(1), [x.strip() for x in m.group(2).split(',') if x.strip()], int(m.group(3))))
R = {n: (l, r) for l, r, n in rules}
nts = [m.group(1) for m in re.finditer(r'^abbrev (N\.\w+) : Nat := (\d+)', G, re.M)]
nts.sort(key=lambda n: int(re.search(r'^abbrev %s : Nat := (\d+)' % re.escape(n), G, re.M).group(1)))
assert len(nts) == 136, len(nts)
# nonterminal: (binders, words, extra facts)
NT = {}
def nt(name, binders, words, *extra): NT['N.' + name] = ([tuple(b.split(':')) for b in binders.split(';') if b], words, list(extra))
def ty(name, T): nt(name, 'x:' + T, '{x}.words')
for n, T in dict(statement_list='Script', statement='Item', preparable_statement='Stmt', prepare_statement='Stmt', opt_hints='Hints', hint_list='HintList', hint='Hint',
    transaction_statement='Stmt', execute_statement='Stmt', import_statement='Item', export_statement='Item', show_statement='Item', create_statement='Stmt',
    opt_import_export_options='CopyWith', drop_statement='Stmt', alter_statement='Stmt',
    delete_statement='Stmt', truncate_statement='Stmt', insert_statement='Stmt', update_statement='Stmt', update_clause_commalist='Updates', select_statement='Query',
    select_within_set_operation='Within', select_within_set_operation_no_parentheses='Within', select_with_paren='PSel', select_no_paren='Sel', set_operator='SetOp',
    select_clause='Clause', select_list='Items', opt_from_clause='From', from_clause='From', opt_group='Group', opt_order='Order', order_list='Orders', opt_order_type='Dir',
    opt_null_ordering='Nulls', opt_limit='Limit', expr_list='Items', extended_literal_list='XLits', casted_extended_literal='XLit', extended_literal='Ext', case_list='Whens',
    opt_window='Window', opt_partition='Partition', opt_frame_clause='Frame', frame_bound='Bound', string_literal='Lit', bool_literal='Lit', num_literal='Num', null_literal='Lit',
    date_literal='Lit', interval_literal='Interval', table_ref_atomic='Table', nonjoin_table_ref_atomic='TableN', table_ref_commalist='Tables', table_ref_name='TableN',
    table_alias='TAlias', opt_table_alias='TAlias', alias='Alias', opt_alias='Alias', opt_locking_clause='Locks', opt_locking_clause_list='LockList', locking_clause='Lock',
    row_lock_mode='LockMode', opt_row_lock_policy='LockWait', opt_with_clause='With', with_clause='With', with_description_list='Withs', join_clause='Table', opt_join_type='JoinType',
    join_condition='Expr', table_constraint='TableElem').items(): ty(n, T)
nt('opt_transaction_keyword', 'x:Bool', 'txW {x}')
nt('prepare_target_query', 'x:Bytes', '[.str {x}]')
nt('file_path', 'x:Bytes', '[.str {x}]', 'v = str {x}')
nt('file_type', 'x:Name;f:Int', 'nm {x}', 'fileType {x} = some {f}', 'v = .int {f}')
nt('import_export_options', 'x:CopyOpts', '{x}.words', '{x}.OK', 'v = {x}.r.o')
nt('csv_option', 'x:CopyOpt;d:CsvKind;y:Bytes', '{x}.words', 'csvOf {x} = some ({d}, {y})', 'v = csvPair {d} {y}')
nt('opt_not_exists', 'x:Bool', 'ifNotExists {x}', 'v = flag {x}')
nt('opt_exists', 'x:Bool', 'ifExists {x}')
for n, T in (('table_elem_commalist', 'TableElems'), ('table_elem', 'TableElem'), ('column_def', 'TableElem')): NT['N.' + n] = ('cond', T)
nt('column_type', 'x:ColType', '{x}.words', 'tup4 v')
nt('opt_time_precision', 'x:Option Int', 'timeW {x}', '∃ i, v = .int i')
nt('opt_decimal_specification', 'x:Option (Int × Option Int)', 'decW {x}', '∃ i j, v = .obj 0 .IntPair [.int i, .int j]')
nt('opt_column_constraints', 'x:ColCons', '{x}.words', '∃ rs, v = consV {x}.kinds rs')
nt('column_constraints', 'x:Constraints', '{x}.words', '∃ rs, v = consV {x}.kinds rs')
nt('column_constraint', 'x:Constraint', '{x}.words', 'v = .int {x}.kind')
nt('references_spec', 'x:TName;y:Option Names', 'cat [kw T.REFERENCES, {x}.words, colsWords {y}]', 'v = refV {x} {y}')
nt('alter_action', 'i:Bool;x:Name', 'cat [kw T.DROP, kw T.COLUMN, ifExists {i}, nm {x}]')
nt('drop_action', 'i:Bool;x:Name', 'cat [kw T.DROP, kw T.COLUMN, ifExists {i}, nm {x}]')
nt('opt_column_list', 'x:Option Names', 'colsWords {x}', 'v = colsV {x}')
nt('update_clause', 'x:Name;y:Expr', 'cat [nm {x}, kw T.EQ, {y}.words]')
nt('set_type', 'x:SetType', 'Sql.kw {x}.kw')
nt('opt_all', 'x:Bool', 'allW {x}')
nt('opt_distinct', 'x:Bool', 'distinctKw {x}')
nt('opt_where', 'x:OExpr', 'whereW {x}')
nt('opt_having', 'x:OExpr', 'havingW {x}')
nt('order_desc', 'x:Expr;d:Dir;n:Nulls', 'cat [{x}.words, {d}.words, {n}.words]')
nt('opt_top', 'x:Option Int', 'topWords {x}')
nt('opt_extended_literal_list', 'x:Option XLits', 'xlitsW {x}')
nt('expr_alias', 'x:Expr;a:Alias', 'cat [{x}.words, {a}.words]')
for n in 'operand scalar_expr unary_expr binary_expr comp_expr case_expr function_expr extract_expr cast_expr array_expr array_index column_name'.split(): nt(n, 'x:Expr', '{x}.words', 'OpE {x} t')
for n in 'expr between_expr logic_expr in_expr exists_expr'.split(): nt(n, 'x:Expr', '{x}.words', 'ExE {x} t')
nt('frame_type', 'x:FrameType', 'Sql.kw {x}.kw')
nt('datetime_field', 'x:Field', 'Sql.kw {x}.kw')
nt('datetime_field_plural', 'x:Field', 'Sql.kw {x}.kws')
nt('duration_field', 'x:Field;p:Bool', 'durW {x} {p}')
nt('literal', 'x:Lit ⊕ Nat', 'litW {x}', '∀ j, {x} = .inr j → ∃ m, v = paramV 0 (.pos 0) m')
nt('int_literal', 'x:Int', '[.int {x}]')
nt('param_expr', 'x:Nat', '[.par {x}]', '∃ m, v = paramV 0 (.pos 0) m')
nt('table_ref', 'x:From', '{x}.words.tail', '{x} ≠ .none')
nt('table_ref_name_no_alias', 'x:TName', '{x}.words')
nt('table_name', 'x:TName', '{x}.words', 'v = .tup [ostr {x}.schema, str {x}.name]')
nt('opt_index_name', 'x:Option Name', 'nameW {x}')
nt('with_description', 'x:Name;y:PSel', 'cat [nm {x}, kw T.AS, {y}.words]')
nt('opt_semicolon', 'x:Bool', 'semiW {x}')
nt('ident_commalist', 'x:Names', '{x}.words', 'v = {x}.v')
def prop(X):
    """the predicate of a symbol on t k v e"""
    if X in ('N.accept', 'N.input'): return 'True'
    if X == 'T.IDENTIFIER': return '∃ x : Name, t.ws k = nm x ∧ v = .str 0 x'
    if X == 'T.STRING': return '∃ x : Bytes, t.ws k = [.str x] ∧ v = .str 0 x'
    if X == 'T.INTVAL': return '∃ x : Int, t.ws k = [.int x] ∧ v = .int x'
    if X == 'T.FLOATVAL': return '∃ x : Bytes, t.ws k = [.flt x]'
    if X == 'T.QMARK': return 't.ws k = [.par k]'
    if X.startswith('T.'): return 't.ws k = [.kw %s] ∧ v = .undef' % X
    d = NT[X]
    if d[0] == 'cond': return 'e = false → ∃ x : %s, t.ws k = x.words' % d[1]
    bs, w, ex = d
    nm = {b: b for b, _ in bs}
    return '∃ ' + ' '.join('(%s : %s)' % b for b in bs) + ', ' + ' ∧ '.join(['t.ws k = ' + w.format(**nm)] + [x.format(**nm) for x in ex])
for n in nts:
    if n not in NT and n not in ('N.accept', 'N.input'): print('missing', n)
IS = '''import Verif.Sql.Read
/-! GENERATED by tools/genread.py. What the words of a tree are, symbol by symbol. Proof-internal. -/
set_option linter.all false
namespace Verif.Sql
open Verif.Lex Verif.LR Verif.Sem

def txW : Bool → List Word
  | false => []
  | true => kw T.TRANSACTION
def allW : Bool → List Word
  | false => []
  | true => kw T.ALL
def semiW : Bool → List Word
  | false => []
  | true => kw T.SEMI
def timeW : Option Int → List Word
  | none => []
  | some p => cat [kw T.LPAREN, [.int p], kw T.RPAREN]
def decW : Option (Int × Option Int) → List Word
  | none => []
  | some (p, none) => cat [kw T.LPAREN, [.int p], kw T.RPAREN]
  | some (p, some s) => cat [kw T.LPAREN, [.int p], kw T.COMMA, [.int s], kw T.RPAREN]
def durW (f : Field) : Bool → List Word
  | false => Sql.kw f.kw
  | true => Sql.kw f.kws
def havingW : OExpr → List Word
  | .none => []
  | .some e => cat [kw T.HAVING, e.words]
def litW : Lit ⊕ Nat → List Word
  | .inl l => l.words
  | .inr j => [.par j]
def csvOf : CopyOpt → Option (CsvKind × Bytes)
  | .delimiter _ _ b => some (.delimiter, b)
  | .quote _ _ b => some (.quote, b)
  | .null b => some (.null, b)
  | _ => none
def tup4 (v : V) : Prop := ∃ a b c d, v = .tup [a, b, c, d] ∧ a.isUndef = false ∧ b.isUndef = false ∧ c.isUndef = false ∧ d.isUndef = false

/-- What is to be proved of the trees of a symbol. -/
abbrev Pr := Tree → Nat → V → Bool → Prop

def IsTok (a : Nat) : Pr := fun t k v _ =>
  bif Nat.beq a T.IDENTIFIER then ∃ x : Name, t.ws k = nm x ∧ v = .str 0 x
  else bif Nat.beq a T.STRING then ∃ x : Bytes, t.ws k = [.str x] ∧ v = .str 0 x
  else bif Nat.beq a T.INTVAL then ∃ x : Int, t.ws k = [.int x] ∧ v = .int x
  else bif Nat.beq a T.FLOATVAL then ∃ x : Bytes, t.ws k = [.flt x]
  else bif Nat.beq a T.QMARK then t.ws k = [.par k]
  else t.ws k = [.kw a] ∧ v = .undef

'''
short = lambda n: 'Is_' + n[2:]
for n in nts: IS += 'def %s : Pr := fun t k v e => %s\n' % (short(n), prop(n))
IS += '\ndef tab : List Pr := [' + ', '.join(short(n) for n in nts) + ']\n'
IS += '''
def Is (X : Nat) : Pr := bif Nat.ble 199 X then tab.getD (X - 199) (fun _ _ _ _ => True) else IsTok X

def IsL : List Nat → List Tree → Nat → List V → Bool → Prop
  | [], cs, _, vs, _ => cs = [] ∧ vs = []
  | X :: Xs, cs, k, vs, e => ∃ c cs' v vs', cs = c :: cs' ∧ vs = v :: vs' ∧ Is X c k v e ∧ IsL Xs cs' (k + qmarks c.yield) vs' e

/-- The step for a rule. -/
def RuleOK (r : Nat) : Prop := 2 ≤ r → ∀ cs k vs s v s' b e, (Tree.node r cs).PrecOK b → (∀ e, (s.err = true → e = true) → IsL (rhs r) cs k vs e) → evRule r vs s = some (v, s') → (s.err = true → e = true) → (s'.err = true → e = true) →
  Is (lhs r) (.node r cs) k v e

theorem leaf_is {t : Tok} (h : Fits t) (k : Nat) (s : PS) {v : V} {s' : PS} (hd : den (.leaf t) s = some (v, s')) (e : Bool) : Is (tsym t) (.leaf t) k v e := by
  obtain ⟨h1, h2, h3⟩ := h
  rw [den] at hd
  simp only [Option.some.injEq, Prod.mk.injEq] at hd
  obtain ⟨hd, _⟩ := hd
  have hlt : tsym t < 199 := tsym_lt t
  have hb : Nat.ble 199 (tsym t) = false := by
    cases hb : Nat.ble 199 (tsym t) with
    | false => rfl
    | true => exact absurd (Nat.le_of_ble_eq_true hb) (by omega)
  unfold Is
  rw [hb, cond_false]
  have hw : (Tree.leaf t).ws k = [wordOf k t] := by simp [Tree.ws, Tree.yield, toWords]
  unfold IsTok
  rw [hw]
  unfold TokShape at h1
  unfold wordOf
  cases hv : t.val with
  | none =>
    rw [hv] at h1 hd
    obtain ⟨g1, g2, g3, g4⟩ := h1
    have f : ∀ a, tsym t ≠ a → Nat.beq (tsym t) a = false := fun a ha => by
      cases hh : Nat.beq (tsym t) a with
      | false => rfl
      | true => exact absurd (Nat.eq_of_beq_eq_true hh) ha
    rw [f _ g1, f _ g2, f _ g3, f _ g4]
    simp only [cond_false]
    by_cases hq : tsym t = T.QMARK
    · rw [hq, if_pos rfl]; rfl
    · rw [f _ hq, if_neg hq]; exact ⟨rfl, hd.symm⟩
  | ival n =>
    rw [hv] at h1 hd
    simp only [h2, h3, or_false] at h1
    rw [h1]; exact ⟨n, rfl, hd.symm⟩
  | fval b =>
    rw [hv] at h1 hd
    have h1 : tsym t = T.FLOATVAL := h1
    rw [h1]; exact ⟨b, rfl⟩
  | sval b =>
    rw [hv] at h1 hd
    by_cases hq : tsym t = T.STRING
    · rw [hq]; exact ⟨b, rfl, hd.symm⟩
    · have h1 : tsym t = T.IDENTIFIER := by rcases h1 with h | h; exact h; exact absurd h hq
      rw [h1]; exact ⟨b, rfl, hd.symm⟩

mutual
theorem tree_is (all : ∀ r, r < 358 → RuleOK r) : ∀ (t : Tree), t.WF → (∀ m ∈ t.yield, Fits m) → ∀ (k : Nat) (s : PS) {v : V} {s' : PS} {b : Nat} {e : Bool}, t.PrecOK b → den t s = some (v, s') →
    (s'.err = true → e = true) → Is t.sym t k v e
  | .leaf t, _, hf, k, s, v, s', b, e, _, hd, _ => leaf_is (hf t (by simp [Tree.yield])) k s hd e
  | .node r cs, hw, hf, k, s, v, s', b, e, hp, hd, he => by
    rw [den] at hd
    have h2 : r < 358 := by have := hw.2.1; rwa [rules_len] at this
    cases hc : denL cs s with
    | none => rw [hc] at hd; cases hd
    | some x =>
      obtain ⟨vs, s1⟩ := x
      rw [hc] at hd
      simp only [] at hd
      have h3 := fun e he => list_is all cs hw.2.2.2 (by rw [Tree.yield] at hf; exact hf) k s hp.2.2 hc (e := e) he
      rw [hw.2.2.1] at h3
      exact all r h2 hw.1 cs k vs s1 v s' b e hp h3 hd (fun h => he (evRule_mono hw.1 h2 hd h)) he
theorem list_is (all : ∀ r, r < 358 → RuleOK r) : ∀ (cs : List Tree), WFL cs → (∀ m ∈ yieldL cs, Fits m) → ∀ (k : Nat) (s : PS) {vs : List V} {s' : PS} {b : Nat} {e : Bool}, PrecOKL cs b → denL cs s = some (vs, s') →
    (s'.err = true → e = true) → IsL (cs.map Tree.sym) cs k vs e
  | [], _, _, k, s, vs, s', b, e, _, hd, _ => by rw [denL] at hd; cases hd; exact ⟨rfl, rfl⟩
  | c :: cs, hw, hf, k, s, vs, s', b, e, hp, hd, he => by
    rw [denL] at hd
    cases hc : den c s with
    | none => rw [hc] at hd; cases hd
    | some x =>
      obtain ⟨v, s1⟩ := x
      rw [hc] at hd
      simp only [] at hd
      cases hl : denL cs s1 with
      | none => rw [hl] at hd; cases hd
      | some y =>
        obtain ⟨vs1, s2⟩ := y
        rw [hl] at hd
        simp only [Option.some.injEq, Prod.mk.injEq] at hd
        obtain ⟨rfl, rfl⟩ := hd
        rw [yieldL] at hf
        refine ⟨c, cs, v, vs1, rfl, rfl, ?_, ?_⟩
        · exact tree_is all c hw.1 (fun m hm => hf m (by simp [hm])) k s hp.1 hc (fun h => he (denL_mono cs hw.2 hl h))
        · exact list_is all cs hw.2 (fun m hm => hf m (by simp [hm])) _ s1 hp.2 hl he
end

theorem lt_step {P : Nat → Prop} {n : Nat} (h : ∀ r, r < n → P r) (hn : P n) : ∀ r, r < n + 1 → P r := fun r hr => by
  rcases Nat.lt_succ_iff_lt_or_eq.1 hr with h1 | rfl
  · exact h r h1
  · exact hn

end Verif.Sql
'''
open('/verif/lean/Verif/Sql/ReadIs.lean', 'w').write(IS)
exec(open('/verif/tools/genread_rules.py').read())

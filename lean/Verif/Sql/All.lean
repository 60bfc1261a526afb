import Verif.Sql.Steps2
/-! Every abstract expression and query is derived from the grammar, with its AST as value. Proof-internal. -/
namespace Verif.Sql
open Verif.Lex Verif.LR Verif.Sem

mutual
theorem Expr.good : ∀ e : Expr, Good e
  | .lit l => lit_good l
  | .param k => param_good k
  | .col t n => col_good t n
  | .star t => star_good t
  | .paren e => paren_good e.good
  | .query s => query_good s.der
  | .neg e => neg_good e.good
  | .not e => not_good e.good
  | .isNull _ e => isNull_good e.good
  | .isNotNull e => isNotNull_good e.good
  | .bin _ a b => bin_good a.good b.good
  | .logic _ a b => logic_good a.good b.good
  | .inList _ e l => inList_good e.good l.der
  | .inQuery _ e s => inQuery_good e.good s.der
  | .between e lo hi => between_good e.good lo.good hi.good
  | .exist _ s => exist_good s.der
  | .case x l e => case_good x.good l.der e.good
  | .call _ _ a w => call_good a.good w.der
  | .extract _ e => extract_good e.good
  | .cast e _ => cast_good e.good
  | .array l => array_good l.der
  | .index e _ => index_good e.good
theorem OExpr.good : ∀ e : OExpr, OGood e
  | .none => trivial
  | .some e => e.good
theorem Items.der : ∀ l : Items, D N.expr_list l.words (.vec 0 l.vals)
  | .one e _ => items_one e.good
  | .snoc l e _ => items_snoc l.der e.good
theorem Whens.der : ∀ l : Whens, D N.case_list l.words l.v
  | .one w t => whens_one w.good t.good
  | .snoc l w t => whens_snoc l.der w.good t.good
theorem Args.good : ∀ a : Args, AGood a
  | .none => trivial
  | .some _ l => l.der
theorem Window.der : ∀ w : Window, DT N.opt_window w.words w.v
  | .none => window_none
  | .over p o _ => window_over p.der o.der
theorem Partition.der : ∀ p : Partition, D N.opt_partition p.words p.v
  | .none => part_none
  | .by l => part_by l.der
theorem Order.der : ∀ o : Order, D N.opt_order o.words o.v
  | .none => order_none
  | .by l => order_by l.der
theorem Orders.der : ∀ l : Orders, D N.order_list l.words (.vec 0 l.vals)
  | .one e _ _ => orders_one e.good
  | .snoc l e _ _ => orders_snoc l.der e.good
theorem Sel.der : ∀ s : Sel, D N.select_no_paren s.words s.r.v
  | .plain c o l _ => sel_plain c.der o.der l.der
  | .set c _ r o l _ => sel_set c.der r.der o.der l.der
theorem PSel.der : ∀ s : PSel, D N.select_with_paren s.words s.r.v
  | .one s => psel_one s.der
  | .more s => psel_more s.der
theorem Within.der : ∀ s : Within, D N.select_within_set_operation s.words s.r.v
  | .paren s => within_paren s.der
  | .clause c => within_clause c.der
  | .set c _ r => within_set c.der r.der
theorem Clause.der : ∀ c : Clause, D N.select_clause c.words c.r.v
  | .mk _ _ l f w g => clause_der l.der f.der w.good g.der
theorem Group.der : ∀ g : Group, D N.opt_group g.words g.v
  | .none => group_none
  | .by l h => group_by l.der h.good
theorem Limit.der : ∀ l : Limit, D N.opt_limit l.words l.v
  | .none => limit_none
  | .limit e => limit_limit e.good
  | .offset e => limit_offset e.good
  | .both l o => limit_both l.good o.good
  | .all => limit_all
  | .allOffset e => limit_allOffset e.good
theorem From.der : ∀ f : From, D N.opt_from_clause f.words f.v
  | .none => from_none
  | .one t => from_one t.der
  | .many l t => from_many l.der t.der
theorem Tables.der : ∀ l : Tables, D N.table_ref_commalist l.words (.vec 0 l.vals)
  | .one t => tables_one t.der
  | .snoc l t => tables_snoc l.der t.der
theorem TableN.der : ∀ t : TableN, D N.nonjoin_table_ref_atomic t.words t.r.v
  | .name _ _ => tn_name
  | .query s _ => tn_query s.der
theorem Table.der : ∀ t : Table, D N.table_ref_atomic t.words t.r.v
  | .base t => table_base t.der
  | .natural l r => table_natural l.der r.der
  | .on l _ r c => table_on l.der r.der c.good
  | .using l _ r _ => table_using l.der r.der
theorem Query.der : ∀ q : Query, D N.select_statement q.words q.r.v
  | .paren w s => query_paren w.der s.der
  | .plain w s => query_plain w.der s.der
  | .set w s _ r o l => query_set w.der s.der r.der o.der l.der
theorem With.der : ∀ w : With, D N.opt_with_clause w.words w.v
  | .none => with_none
  | .some l => with_some l.der
theorem Withs.der : ∀ l : Withs, D N.with_description_list l.words (.vec 0 l.vals)
  | .one _ s => withs_one s.der
  | .snoc l _ s => withs_snoc l.der s.der
end

end Verif.Sql

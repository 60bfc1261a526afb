import Verif.Sql.ReadTools
/-! GENERATED by tools/genread.py. The words of a tree, rule by rule. Proof-internal. -/
set_option linter.all false
set_option maxRecDepth 20000
namespace Verif.Sql.Read
open Verif.Lex Verif.LR Verif.Sem

theorem r120 : RuleOK 120 := by
  intro _ cs k vs s v s' b e hp hi he hs hE
  obtain ⟨c1, _, v1, _, rfl, rfl, i1, rfl, rfl⟩ : IsL [N.update_clause] cs k vs e := hi e hs
  obtain ⟨x1, y1, w1⟩ : ∃ (x : Name) (y : Expr), c1.ws _ = cat [nm x, kw T.EQ, y.words] := i1
  show ∃ (x : Updates), (Tree.node 120 [c1]).ws k = x.words
  exact ⟨.one x1 y1, by rw [ws_node]; simp only [wsL, w1] <;> first | rfl | simp [havingW, Group.words, cat]⟩

theorem r121 : RuleOK 121 := by
  intro _ cs k vs s v s' b e hp hi he hs hE
  obtain ⟨c1, _, v1, _, rfl, rfl, i1, c2, _, v2, _, rfl, rfl, i2, c3, _, v3, _, rfl, rfl, i3, rfl, rfl⟩ : IsL [N.update_clause_commalist, T.COMMA, N.update_clause] cs k vs e := hi e hs
  obtain ⟨x1, w1⟩ : ∃ (x : Updates), c1.ws _ = x.words := i1
  obtain ⟨w2, rfl⟩ : c2.ws _ = [.kw T.COMMA] ∧ v2 = .undef := i2
  obtain ⟨x3, y3, w3⟩ : ∃ (x : Name) (y : Expr), c3.ws _ = cat [nm x, kw T.EQ, y.words] := i3
  show ∃ (x : Updates), (Tree.node 121 [c1, c2, c3]).ws k = x.words
  exact ⟨.snoc x1 x3 y3, by rw [ws_node]; simp only [wsL, w1, w2, w3] <;> first | rfl | simp [havingW, Group.words, cat]⟩

theorem r122 : RuleOK 122 := by
  intro _ cs k vs s v s' b e hp hi he hs hE
  obtain ⟨c1, _, v1, _, rfl, rfl, i1, c2, _, v2, _, rfl, rfl, i2, c3, _, v3, _, rfl, rfl, i3, rfl, rfl⟩ : IsL [T.IDENTIFIER, T.EQ, N.expr] cs k vs e := hi e hs
  obtain ⟨x1, w1, rfl⟩ : ∃ x : Name, c1.ws _ = nm x ∧ v1 = .str 0 x := i1
  obtain ⟨w2, rfl⟩ : c2.ws _ = [.kw T.EQ] ∧ v2 = .undef := i2
  obtain ⟨x3, w3, h3⟩ : ∃ (x : Expr), c3.ws _ = x.words ∧ ExE x c3 := i3
  show ∃ (x : Name) (y : Expr), (Tree.node 122 [c1, c2, c3]).ws k = cat [nm x, kw T.EQ, y.words]
  exact ⟨x1, x3, by rw [ws_node]; simp only [wsL, w1, w2, w3] <;> first | rfl | simp [havingW, Group.words, cat]⟩

theorem r123 : RuleOK 123 := by
  intro _ cs k vs s v s' b e hp hi he hs hE
  obtain ⟨c1, _, v1, _, rfl, rfl, i1, c2, _, v2, _, rfl, rfl, i2, rfl, rfl⟩ : IsL [N.opt_with_clause, N.select_with_paren] cs k vs e := hi e hs
  obtain ⟨x1, w1⟩ : ∃ (x : With), c1.ws _ = x.words := i1
  obtain ⟨x2, w2⟩ : ∃ (x : PSel), c2.ws _ = x.words := i2
  show ∃ (x : Query), (Tree.node 123 [c1, c2]).ws k = x.words
  exact ⟨.paren x1 x2, by rw [ws_node]; simp only [wsL, w1, w2] <;> first | rfl | simp [havingW, Group.words, cat]⟩

theorem r124 : RuleOK 124 := by
  intro _ cs k vs s v s' b e hp hi he hs hE
  obtain ⟨c1, _, v1, _, rfl, rfl, i1, c2, _, v2, _, rfl, rfl, i2, rfl, rfl⟩ : IsL [N.opt_with_clause, N.select_no_paren] cs k vs e := hi e hs
  obtain ⟨x1, w1⟩ : ∃ (x : With), c1.ws _ = x.words := i1
  obtain ⟨x2, w2⟩ : ∃ (x : Sel), c2.ws _ = x.words := i2
  show ∃ (x : Query), (Tree.node 124 [c1, c2]).ws k = x.words
  exact ⟨.plain x1 x2, by rw [ws_node]; simp only [wsL, w1, w2] <;> first | rfl | simp [havingW, Group.words, cat]⟩

theorem r125 : RuleOK 125 := by
  intro _ cs k vs s v s' b e hp hi he hs hE
  obtain ⟨c1, _, v1, _, rfl, rfl, i1, c2, _, v2, _, rfl, rfl, i2, c3, _, v3, _, rfl, rfl, i3, c4, _, v4, _, rfl, rfl, i4, c5, _, v5, _, rfl, rfl, i5, c6, _, v6, _, rfl, rfl, i6, rfl, rfl⟩ : IsL [N.opt_with_clause, N.select_with_paren, N.set_operator, N.select_within_set_operation, N.opt_order, N.opt_limit] cs k vs e := hi e hs
  obtain ⟨x1, w1⟩ : ∃ (x : With), c1.ws _ = x.words := i1
  obtain ⟨x2, w2⟩ : ∃ (x : PSel), c2.ws _ = x.words := i2
  obtain ⟨x3, w3⟩ : ∃ (x : SetOp), c3.ws _ = x.words := i3
  obtain ⟨x4, w4⟩ : ∃ (x : Within), c4.ws _ = x.words := i4
  obtain ⟨x5, w5⟩ : ∃ (x : Order), c5.ws _ = x.words := i5
  obtain ⟨x6, w6⟩ : ∃ (x : Limit), c6.ws _ = x.words := i6
  show ∃ (x : Query), (Tree.node 125 [c1, c2, c3, c4, c5, c6]).ws k = x.words
  exact ⟨.set x1 x2 x3 x4 x5 x6, by rw [ws_node]; simp only [wsL, w1, w2, w3, w4, w5, w6] <;> first | rfl | simp [havingW, Group.words, cat]⟩

theorem r126 : RuleOK 126 := by
  intro _ cs k vs s v s' b e hp hi he hs hE
  obtain ⟨c1, _, v1, _, rfl, rfl, i1, rfl, rfl⟩ : IsL [N.select_with_paren] cs k vs e := hi e hs
  obtain ⟨x1, w1⟩ : ∃ (x : PSel), c1.ws _ = x.words := i1
  show ∃ (x : Within), (Tree.node 126 [c1]).ws k = x.words
  exact ⟨.paren x1, by rw [ws_node]; simp only [wsL, w1] <;> first | rfl | simp [havingW, Group.words, cat]⟩

theorem r127 : RuleOK 127 := by
  intro _ cs k vs s v s' b e hp hi he hs hE
  obtain ⟨c1, _, v1, _, rfl, rfl, i1, rfl, rfl⟩ : IsL [N.select_within_set_operation_no_parentheses] cs k vs e := hi e hs
  obtain ⟨x1, w1⟩ : ∃ (x : Within), c1.ws _ = x.words := i1
  show ∃ (x : Within), (Tree.node 127 [c1]).ws k = x.words
  exact ⟨x1, by rw [ws_node]; simp only [wsL, w1] <;> first | rfl | simp [havingW, Group.words, cat]⟩

theorem r128 : RuleOK 128 := by
  intro _ cs k vs s v s' b e hp hi he hs hE
  obtain ⟨c1, _, v1, _, rfl, rfl, i1, rfl, rfl⟩ : IsL [N.select_clause] cs k vs e := hi e hs
  obtain ⟨x1, w1⟩ : ∃ (x : Clause), c1.ws _ = x.words := i1
  show ∃ (x : Within), (Tree.node 128 [c1]).ws k = x.words
  exact ⟨.clause x1, by rw [ws_node]; simp only [wsL, w1] <;> first | rfl | simp [havingW, Group.words, cat]⟩

theorem r129 : RuleOK 129 := by
  intro _ cs k vs s v s' b e hp hi he hs hE
  obtain ⟨c1, _, v1, _, rfl, rfl, i1, c2, _, v2, _, rfl, rfl, i2, c3, _, v3, _, rfl, rfl, i3, rfl, rfl⟩ : IsL [N.select_clause, N.set_operator, N.select_within_set_operation] cs k vs e := hi e hs
  obtain ⟨x1, w1⟩ : ∃ (x : Clause), c1.ws _ = x.words := i1
  obtain ⟨x2, w2⟩ : ∃ (x : SetOp), c2.ws _ = x.words := i2
  obtain ⟨x3, w3⟩ : ∃ (x : Within), c3.ws _ = x.words := i3
  show ∃ (x : Within), (Tree.node 129 [c1, c2, c3]).ws k = x.words
  exact ⟨.set x1 x2 x3, by rw [ws_node]; simp only [wsL, w1, w2, w3] <;> first | rfl | simp [havingW, Group.words, cat]⟩

theorem r130 : RuleOK 130 := by
  intro _ cs k vs s v s' b e hp hi he hs hE
  obtain ⟨c1, _, v1, _, rfl, rfl, i1, c2, _, v2, _, rfl, rfl, i2, c3, _, v3, _, rfl, rfl, i3, rfl, rfl⟩ : IsL [T.LPAREN, N.select_no_paren, T.RPAREN] cs k vs e := hi e hs
  obtain ⟨w1, rfl⟩ : c1.ws _ = [.kw T.LPAREN] ∧ v1 = .undef := i1
  obtain ⟨x2, w2⟩ : ∃ (x : Sel), c2.ws _ = x.words := i2
  obtain ⟨w3, rfl⟩ : c3.ws _ = [.kw T.RPAREN] ∧ v3 = .undef := i3
  show ∃ (x : PSel), (Tree.node 130 [c1, c2, c3]).ws k = x.words
  exact ⟨.one x2, by rw [ws_node]; simp only [wsL, w1, w2, w3] <;> first | rfl | simp [havingW, Group.words, cat]⟩

theorem r131 : RuleOK 131 := by
  intro _ cs k vs s v s' b e hp hi he hs hE
  obtain ⟨c1, _, v1, _, rfl, rfl, i1, c2, _, v2, _, rfl, rfl, i2, c3, _, v3, _, rfl, rfl, i3, rfl, rfl⟩ : IsL [T.LPAREN, N.select_with_paren, T.RPAREN] cs k vs e := hi e hs
  obtain ⟨w1, rfl⟩ : c1.ws _ = [.kw T.LPAREN] ∧ v1 = .undef := i1
  obtain ⟨x2, w2⟩ : ∃ (x : PSel), c2.ws _ = x.words := i2
  obtain ⟨w3, rfl⟩ : c3.ws _ = [.kw T.RPAREN] ∧ v3 = .undef := i3
  show ∃ (x : PSel), (Tree.node 131 [c1, c2, c3]).ws k = x.words
  exact ⟨.more x2, by rw [ws_node]; simp only [wsL, w1, w2, w3] <;> first | rfl | simp [havingW, Group.words, cat]⟩

theorem r132 : RuleOK 132 := by
  intro _ cs k vs s v s' b e hp hi he hs hE
  obtain ⟨c1, _, v1, _, rfl, rfl, i1, c2, _, v2, _, rfl, rfl, i2, c3, _, v3, _, rfl, rfl, i3, c4, _, v4, _, rfl, rfl, i4, rfl, rfl⟩ : IsL [N.select_clause, N.opt_order, N.opt_limit, N.opt_locking_clause] cs k vs e := hi e hs
  obtain ⟨x1, w1⟩ : ∃ (x : Clause), c1.ws _ = x.words := i1
  obtain ⟨x2, w2⟩ : ∃ (x : Order), c2.ws _ = x.words := i2
  obtain ⟨x3, w3⟩ : ∃ (x : Limit), c3.ws _ = x.words := i3
  obtain ⟨x4, w4⟩ : ∃ (x : Locks), c4.ws _ = x.words := i4
  show ∃ (x : Sel), (Tree.node 132 [c1, c2, c3, c4]).ws k = x.words
  exact ⟨.plain x1 x2 x3 x4, by rw [ws_node]; simp only [wsL, w1, w2, w3, w4] <;> first | rfl | simp [havingW, Group.words, cat]⟩

theorem r133 : RuleOK 133 := by
  intro _ cs k vs s v s' b e hp hi he hs hE
  obtain ⟨c1, _, v1, _, rfl, rfl, i1, c2, _, v2, _, rfl, rfl, i2, c3, _, v3, _, rfl, rfl, i3, c4, _, v4, _, rfl, rfl, i4, c5, _, v5, _, rfl, rfl, i5, c6, _, v6, _, rfl, rfl, i6, rfl, rfl⟩ : IsL [N.select_clause, N.set_operator, N.select_within_set_operation, N.opt_order, N.opt_limit, N.opt_locking_clause] cs k vs e := hi e hs
  obtain ⟨x1, w1⟩ : ∃ (x : Clause), c1.ws _ = x.words := i1
  obtain ⟨x2, w2⟩ : ∃ (x : SetOp), c2.ws _ = x.words := i2
  obtain ⟨x3, w3⟩ : ∃ (x : Within), c3.ws _ = x.words := i3
  obtain ⟨x4, w4⟩ : ∃ (x : Order), c4.ws _ = x.words := i4
  obtain ⟨x5, w5⟩ : ∃ (x : Limit), c5.ws _ = x.words := i5
  obtain ⟨x6, w6⟩ : ∃ (x : Locks), c6.ws _ = x.words := i6
  show ∃ (x : Sel), (Tree.node 133 [c1, c2, c3, c4, c5, c6]).ws k = x.words
  exact ⟨.set x1 x2 x3 x4 x5 x6, by rw [ws_node]; simp only [wsL, w1, w2, w3, w4, w5, w6] <;> first | rfl | simp [havingW, Group.words, cat]⟩

theorem r134 : RuleOK 134 := by
  intro _ cs k vs s v s' b e hp hi he hs hE
  obtain ⟨c1, _, v1, _, rfl, rfl, i1, c2, _, v2, _, rfl, rfl, i2, rfl, rfl⟩ : IsL [N.set_type, N.opt_all] cs k vs e := hi e hs
  obtain ⟨x1, w1⟩ : ∃ (x : SetType), c1.ws _ = Sql.kw x.kw := i1
  obtain ⟨x2, w2⟩ : ∃ (x : Bool), c2.ws _ = allW x := i2
  show ∃ (x : SetOp), (Tree.node 134 [c1, c2]).ws k = x.words
  exact ⟨⟨x1, x2⟩, by rw [ws_node]; cases x2 <;> simp only [wsL, w1, w2] <;> first | rfl | simp [havingW, Group.words, cat]⟩

theorem r135 : RuleOK 135 := by
  intro _ cs k vs s v s' b e hp hi he hs hE
  obtain ⟨c1, _, v1, _, rfl, rfl, i1, rfl, rfl⟩ : IsL [T.UNION] cs k vs e := hi e hs
  obtain ⟨w1, rfl⟩ : c1.ws _ = [.kw T.UNION] ∧ v1 = .undef := i1
  show ∃ (x : SetType), (Tree.node 135 [c1]).ws k = Sql.kw x.kw
  exact ⟨.union, by rw [ws_node]; simp only [wsL, w1] <;> first | rfl | simp [havingW, Group.words, cat]⟩

theorem r136 : RuleOK 136 := by
  intro _ cs k vs s v s' b e hp hi he hs hE
  obtain ⟨c1, _, v1, _, rfl, rfl, i1, rfl, rfl⟩ : IsL [T.INTERSECT] cs k vs e := hi e hs
  obtain ⟨w1, rfl⟩ : c1.ws _ = [.kw T.INTERSECT] ∧ v1 = .undef := i1
  show ∃ (x : SetType), (Tree.node 136 [c1]).ws k = Sql.kw x.kw
  exact ⟨.intersect, by rw [ws_node]; simp only [wsL, w1] <;> first | rfl | simp [havingW, Group.words, cat]⟩

theorem r137 : RuleOK 137 := by
  intro _ cs k vs s v s' b e hp hi he hs hE
  obtain ⟨c1, _, v1, _, rfl, rfl, i1, rfl, rfl⟩ : IsL [T.EXCEPT] cs k vs e := hi e hs
  obtain ⟨w1, rfl⟩ : c1.ws _ = [.kw T.EXCEPT] ∧ v1 = .undef := i1
  show ∃ (x : SetType), (Tree.node 137 [c1]).ws k = Sql.kw x.kw
  exact ⟨.except, by rw [ws_node]; simp only [wsL, w1] <;> first | rfl | simp [havingW, Group.words, cat]⟩

theorem r138 : RuleOK 138 := by
  intro _ cs k vs s v s' b e hp hi he hs hE
  obtain ⟨c1, _, v1, _, rfl, rfl, i1, rfl, rfl⟩ : IsL [T.ALL] cs k vs e := hi e hs
  obtain ⟨w1, rfl⟩ : c1.ws _ = [.kw T.ALL] ∧ v1 = .undef := i1
  show ∃ (x : Bool), (Tree.node 138 [c1]).ws k = allW x
  exact ⟨true, by rw [ws_node]; simp only [wsL, w1] <;> first | rfl | simp [havingW, Group.words, cat]⟩

theorem r139 : RuleOK 139 := by
  intro _ cs k vs s v s' b e hp hi he hs hE
  obtain ⟨rfl, rfl⟩ : IsL [] cs k vs e := hi e hs
  show ∃ (x : Bool), (Tree.node 139 []).ws k = allW x
  exact ⟨false, by rw [ws_node]; simp only [wsL] <;> first | rfl | simp [havingW, Group.words, cat]⟩

theorem r140 : RuleOK 140 := by
  intro _ cs k vs s v s' b e hp hi he hs hE
  obtain ⟨c1, _, v1, _, rfl, rfl, i1, c2, _, v2, _, rfl, rfl, i2, c3, _, v3, _, rfl, rfl, i3, c4, _, v4, _, rfl, rfl, i4, c5, _, v5, _, rfl, rfl, i5, c6, _, v6, _, rfl, rfl, i6, c7, _, v7, _, rfl, rfl, i7, rfl, rfl⟩ : IsL [T.SELECT, N.opt_top, N.opt_distinct, N.select_list, N.opt_from_clause, N.opt_where, N.opt_group] cs k vs e := hi e hs
  obtain ⟨w1, rfl⟩ : c1.ws _ = [.kw T.SELECT] ∧ v1 = .undef := i1
  obtain ⟨x2, w2⟩ : ∃ (x : Option Int), c2.ws _ = topWords x := i2
  obtain ⟨x3, w3⟩ : ∃ (x : Bool), c3.ws _ = distinctKw x := i3
  obtain ⟨x4, w4⟩ : ∃ (x : Items), c4.ws _ = x.words := i4
  obtain ⟨x5, w5⟩ : ∃ (x : From), c5.ws _ = x.words := i5
  obtain ⟨x6, w6⟩ : ∃ (x : OExpr), c6.ws _ = whereW x := i6
  obtain ⟨x7, w7⟩ : ∃ (x : Group), c7.ws _ = x.words := i7
  show ∃ (x : Clause), (Tree.node 140 [c1, c2, c3, c4, c5, c6, c7]).ws k = x.words
  exact ⟨.mk x2 x3 x4 x5 x6 x7, by rw [ws_node]; cases x6 <;> simp only [wsL, w1, w2, w3, w4, w5, w6, w7] <;> first | rfl | simp [havingW, Group.words, cat]⟩

theorem r141 : RuleOK 141 := by
  intro _ cs k vs s v s' b e hp hi he hs hE
  obtain ⟨c1, _, v1, _, rfl, rfl, i1, rfl, rfl⟩ : IsL [T.DISTINCT] cs k vs e := hi e hs
  obtain ⟨w1, rfl⟩ : c1.ws _ = [.kw T.DISTINCT] ∧ v1 = .undef := i1
  show ∃ (x : Bool), (Tree.node 141 [c1]).ws k = distinctKw x
  exact ⟨true, by rw [ws_node]; simp only [wsL, w1] <;> first | rfl | simp [havingW, Group.words, cat]⟩

theorem r142 : RuleOK 142 := by
  intro _ cs k vs s v s' b e hp hi he hs hE
  obtain ⟨rfl, rfl⟩ : IsL [] cs k vs e := hi e hs
  show ∃ (x : Bool), (Tree.node 142 []).ws k = distinctKw x
  exact ⟨false, by rw [ws_node]; simp only [wsL] <;> first | rfl | simp [havingW, Group.words, cat]⟩

theorem r143 : RuleOK 143 := by
  intro _ cs k vs s v s' b e hp hi he hs hE
  obtain ⟨c1, _, v1, _, rfl, rfl, i1, rfl, rfl⟩ : IsL [N.expr_list] cs k vs e := hi e hs
  obtain ⟨x1, w1⟩ : ∃ (x : Items), c1.ws _ = x.words := i1
  show ∃ (x : Items), (Tree.node 143 [c1]).ws k = x.words
  exact ⟨x1, by rw [ws_node]; simp only [wsL, w1] <;> first | rfl | simp [havingW, Group.words, cat]⟩

theorem r144 : RuleOK 144 := by
  intro _ cs k vs s v s' b e hp hi he hs hE
  obtain ⟨c1, _, v1, _, rfl, rfl, i1, rfl, rfl⟩ : IsL [N.from_clause] cs k vs e := hi e hs
  obtain ⟨x1, w1⟩ : ∃ (x : From), c1.ws _ = x.words := i1
  show ∃ (x : From), (Tree.node 144 [c1]).ws k = x.words
  exact ⟨x1, by rw [ws_node]; simp only [wsL, w1] <;> first | rfl | simp [havingW, Group.words, cat]⟩

theorem r145 : RuleOK 145 := by
  intro _ cs k vs s v s' b e hp hi he hs hE
  obtain ⟨rfl, rfl⟩ : IsL [] cs k vs e := hi e hs
  show ∃ (x : From), (Tree.node 145 []).ws k = x.words
  exact ⟨.none, by rw [ws_node]; simp only [wsL] <;> first | rfl | simp [havingW, Group.words, cat]⟩

theorem r146 : RuleOK 146 := by
  intro _ cs k vs s v s' b e hp hi he hs hE
  obtain ⟨c1, _, v1, _, rfl, rfl, i1, c2, _, v2, _, rfl, rfl, i2, rfl, rfl⟩ : IsL [T.FROM, N.table_ref] cs k vs e := hi e hs
  obtain ⟨w1, rfl⟩ : c1.ws _ = [.kw T.FROM] ∧ v1 = .undef := i1
  obtain ⟨x2, w2, h2⟩ : ∃ (x : From), c2.ws _ = x.words.tail ∧ x ≠ .none := i2
  show ∃ (x : From), (Tree.node 146 [c1, c2]).ws k = x.words
  cases x2 with
  | none => exact absurd rfl h2
  | one t => exact ⟨.one t, by rw [ws_node]; simp only [wsL, w1, w2] <;> first | rfl | simp [havingW, Group.words, cat]⟩
  | many l t => exact ⟨.many l t, by rw [ws_node]; simp only [wsL, w1, w2] <;> first | rfl | simp [havingW, Group.words, cat]⟩

theorem r147 : RuleOK 147 := by
  intro _ cs k vs s v s' b e hp hi he hs hE
  obtain ⟨c1, _, v1, _, rfl, rfl, i1, c2, _, v2, _, rfl, rfl, i2, rfl, rfl⟩ : IsL [T.WHERE, N.expr] cs k vs e := hi e hs
  obtain ⟨w1, rfl⟩ : c1.ws _ = [.kw T.WHERE] ∧ v1 = .undef := i1
  obtain ⟨x2, w2, h2⟩ : ∃ (x : Expr), c2.ws _ = x.words ∧ ExE x c2 := i2
  show ∃ (x : OExpr), (Tree.node 147 [c1, c2]).ws k = whereW x
  exact ⟨.some x2, by rw [ws_node]; simp only [wsL, w1, w2] <;> first | rfl | simp [havingW, Group.words, cat]⟩

theorem r148 : RuleOK 148 := by
  intro _ cs k vs s v s' b e hp hi he hs hE
  obtain ⟨rfl, rfl⟩ : IsL [] cs k vs e := hi e hs
  show ∃ (x : OExpr), (Tree.node 148 []).ws k = whereW x
  exact ⟨.none, by rw [ws_node]; simp only [wsL] <;> first | rfl | simp [havingW, Group.words, cat]⟩

theorem r149 : RuleOK 149 := by
  intro _ cs k vs s v s' b e hp hi he hs hE
  obtain ⟨c1, _, v1, _, rfl, rfl, i1, c2, _, v2, _, rfl, rfl, i2, c3, _, v3, _, rfl, rfl, i3, c4, _, v4, _, rfl, rfl, i4, rfl, rfl⟩ : IsL [T.GROUP, T.BY, N.expr_list, N.opt_having] cs k vs e := hi e hs
  obtain ⟨w1, rfl⟩ : c1.ws _ = [.kw T.GROUP] ∧ v1 = .undef := i1
  obtain ⟨w2, rfl⟩ : c2.ws _ = [.kw T.BY] ∧ v2 = .undef := i2
  obtain ⟨x3, w3⟩ : ∃ (x : Items), c3.ws _ = x.words := i3
  obtain ⟨x4, w4⟩ : ∃ (x : OExpr), c4.ws _ = havingW x := i4
  show ∃ (x : Group), (Tree.node 149 [c1, c2, c3, c4]).ws k = x.words
  exact ⟨.by x3 x4, by rw [ws_node]; cases x4 <;> simp only [wsL, w1, w2, w3, w4] <;> first | rfl | simp [havingW, Group.words, cat]⟩

theorem r150 : RuleOK 150 := by
  intro _ cs k vs s v s' b e hp hi he hs hE
  obtain ⟨rfl, rfl⟩ : IsL [] cs k vs e := hi e hs
  show ∃ (x : Group), (Tree.node 150 []).ws k = x.words
  exact ⟨.none, by rw [ws_node]; simp only [wsL] <;> first | rfl | simp [havingW, Group.words, cat]⟩

theorem r151 : RuleOK 151 := by
  intro _ cs k vs s v s' b e hp hi he hs hE
  obtain ⟨c1, _, v1, _, rfl, rfl, i1, c2, _, v2, _, rfl, rfl, i2, rfl, rfl⟩ : IsL [T.HAVING, N.expr] cs k vs e := hi e hs
  obtain ⟨w1, rfl⟩ : c1.ws _ = [.kw T.HAVING] ∧ v1 = .undef := i1
  obtain ⟨x2, w2, h2⟩ : ∃ (x : Expr), c2.ws _ = x.words ∧ ExE x c2 := i2
  show ∃ (x : OExpr), (Tree.node 151 [c1, c2]).ws k = havingW x
  exact ⟨.some x2, by rw [ws_node]; simp only [wsL, w1, w2] <;> first | rfl | simp [havingW, Group.words, cat]⟩

theorem r152 : RuleOK 152 := by
  intro _ cs k vs s v s' b e hp hi he hs hE
  obtain ⟨rfl, rfl⟩ : IsL [] cs k vs e := hi e hs
  show ∃ (x : OExpr), (Tree.node 152 []).ws k = havingW x
  exact ⟨.none, by rw [ws_node]; simp only [wsL] <;> first | rfl | simp [havingW, Group.words, cat]⟩

theorem r153 : RuleOK 153 := by
  intro _ cs k vs s v s' b e hp hi he hs hE
  obtain ⟨c1, _, v1, _, rfl, rfl, i1, c2, _, v2, _, rfl, rfl, i2, c3, _, v3, _, rfl, rfl, i3, rfl, rfl⟩ : IsL [T.ORDER, T.BY, N.order_list] cs k vs e := hi e hs
  obtain ⟨w1, rfl⟩ : c1.ws _ = [.kw T.ORDER] ∧ v1 = .undef := i1
  obtain ⟨w2, rfl⟩ : c2.ws _ = [.kw T.BY] ∧ v2 = .undef := i2
  obtain ⟨x3, w3⟩ : ∃ (x : Orders), c3.ws _ = x.words := i3
  show ∃ (x : Order), (Tree.node 153 [c1, c2, c3]).ws k = x.words
  exact ⟨.by x3, by rw [ws_node]; simp only [wsL, w1, w2, w3] <;> first | rfl | simp [havingW, Group.words, cat]⟩

theorem r154 : RuleOK 154 := by
  intro _ cs k vs s v s' b e hp hi he hs hE
  obtain ⟨rfl, rfl⟩ : IsL [] cs k vs e := hi e hs
  show ∃ (x : Order), (Tree.node 154 []).ws k = x.words
  exact ⟨.none, by rw [ws_node]; simp only [wsL] <;> first | rfl | simp [havingW, Group.words, cat]⟩

theorem r155 : RuleOK 155 := by
  intro _ cs k vs s v s' b e hp hi he hs hE
  obtain ⟨c1, _, v1, _, rfl, rfl, i1, rfl, rfl⟩ : IsL [N.order_desc] cs k vs e := hi e hs
  obtain ⟨x1, d1, n1, w1⟩ : ∃ (x : Expr) (d : Dir) (n : Nulls), c1.ws _ = cat [x.words, d.words, n.words] := i1
  show ∃ (x : Orders), (Tree.node 155 [c1]).ws k = x.words
  exact ⟨.one x1 d1 n1, by rw [ws_node]; simp only [wsL, w1] <;> first | rfl | simp [havingW, Group.words, cat]⟩

theorem r156 : RuleOK 156 := by
  intro _ cs k vs s v s' b e hp hi he hs hE
  obtain ⟨c1, _, v1, _, rfl, rfl, i1, c2, _, v2, _, rfl, rfl, i2, c3, _, v3, _, rfl, rfl, i3, rfl, rfl⟩ : IsL [N.order_list, T.COMMA, N.order_desc] cs k vs e := hi e hs
  obtain ⟨x1, w1⟩ : ∃ (x : Orders), c1.ws _ = x.words := i1
  obtain ⟨w2, rfl⟩ : c2.ws _ = [.kw T.COMMA] ∧ v2 = .undef := i2
  obtain ⟨x3, d3, n3, w3⟩ : ∃ (x : Expr) (d : Dir) (n : Nulls), c3.ws _ = cat [x.words, d.words, n.words] := i3
  show ∃ (x : Orders), (Tree.node 156 [c1, c2, c3]).ws k = x.words
  exact ⟨.snoc x1 x3 d3 n3, by rw [ws_node]; simp only [wsL, w1, w2, w3] <;> first | rfl | simp [havingW, Group.words, cat]⟩

theorem r157 : RuleOK 157 := by
  intro _ cs k vs s v s' b e hp hi he hs hE
  obtain ⟨c1, _, v1, _, rfl, rfl, i1, c2, _, v2, _, rfl, rfl, i2, c3, _, v3, _, rfl, rfl, i3, rfl, rfl⟩ : IsL [N.expr, N.opt_order_type, N.opt_null_ordering] cs k vs e := hi e hs
  obtain ⟨x1, w1, h1⟩ : ∃ (x : Expr), c1.ws _ = x.words ∧ ExE x c1 := i1
  obtain ⟨x2, w2⟩ : ∃ (x : Dir), c2.ws _ = x.words := i2
  obtain ⟨x3, w3⟩ : ∃ (x : Nulls), c3.ws _ = x.words := i3
  show ∃ (x : Expr) (d : Dir) (n : Nulls), (Tree.node 157 [c1, c2, c3]).ws k = cat [x.words, d.words, n.words]
  exact ⟨x1, x2, x3, by rw [ws_node]; simp only [wsL, w1, w2, w3] <;> first | rfl | simp [havingW, Group.words, cat]⟩

theorem r158 : RuleOK 158 := by
  intro _ cs k vs s v s' b e hp hi he hs hE
  obtain ⟨c1, _, v1, _, rfl, rfl, i1, rfl, rfl⟩ : IsL [T.ASC] cs k vs e := hi e hs
  obtain ⟨w1, rfl⟩ : c1.ws _ = [.kw T.ASC] ∧ v1 = .undef := i1
  show ∃ (x : Dir), (Tree.node 158 [c1]).ws k = x.words
  exact ⟨.asc, by rw [ws_node]; simp only [wsL, w1] <;> first | rfl | simp [havingW, Group.words, cat]⟩

theorem r159 : RuleOK 159 := by
  intro _ cs k vs s v s' b e hp hi he hs hE
  obtain ⟨c1, _, v1, _, rfl, rfl, i1, rfl, rfl⟩ : IsL [T.DESC] cs k vs e := hi e hs
  obtain ⟨w1, rfl⟩ : c1.ws _ = [.kw T.DESC] ∧ v1 = .undef := i1
  show ∃ (x : Dir), (Tree.node 159 [c1]).ws k = x.words
  exact ⟨.desc, by rw [ws_node]; simp only [wsL, w1] <;> first | rfl | simp [havingW, Group.words, cat]⟩

theorem r160 : RuleOK 160 := by
  intro _ cs k vs s v s' b e hp hi he hs hE
  obtain ⟨rfl, rfl⟩ : IsL [] cs k vs e := hi e hs
  show ∃ (x : Dir), (Tree.node 160 []).ws k = x.words
  exact ⟨.none, by rw [ws_node]; simp only [wsL] <;> first | rfl | simp [havingW, Group.words, cat]⟩

theorem r161 : RuleOK 161 := by
  intro _ cs k vs s v s' b e hp hi he hs hE
  obtain ⟨rfl, rfl⟩ : IsL [] cs k vs e := hi e hs
  show ∃ (x : Nulls), (Tree.node 161 []).ws k = x.words
  exact ⟨.none, by rw [ws_node]; simp only [wsL] <;> first | rfl | simp [havingW, Group.words, cat]⟩

theorem r162 : RuleOK 162 := by
  intro _ cs k vs s v s' b e hp hi he hs hE
  obtain ⟨c1, _, v1, _, rfl, rfl, i1, c2, _, v2, _, rfl, rfl, i2, rfl, rfl⟩ : IsL [T.IDENTIFIER, T.IDENTIFIER] cs k vs e := hi e hs
  obtain ⟨x1, w1, rfl⟩ : ∃ x : Name, c1.ws _ = nm x ∧ v1 = .str 0 x := i1
  obtain ⟨x2, w2, rfl⟩ : ∃ x : Name, c2.ws _ = nm x ∧ v2 = .str 0 x := i2
  show ∃ (x : Nulls), (Tree.node 162 [c1, c2]).ws k = x.words
  obtain ⟨n, er⟩ := s
  rw [ev162] at he
  split at he
  · rename_i ha
    split at he
    · rename_i hb; exact ⟨.first x1 x2 ha hb, by rw [ws_node]; simp only [wsL, w1, w2] <;> first | rfl | simp [havingW, Group.words, cat]⟩
    · split at he
      · rename_i hb; exact ⟨.last x1 x2 ha hb, by rw [ws_node]; simp only [wsL, w1, w2] <;> first | rfl | simp [havingW, Group.words, cat]⟩
      · cases he
  · cases he

theorem r163 : RuleOK 163 := by
  intro _ cs k vs s v s' b e hp hi he hs hE
  obtain ⟨c1, _, v1, _, rfl, rfl, i1, c2, _, v2, _, rfl, rfl, i2, rfl, rfl⟩ : IsL [T.TOP, N.int_literal] cs k vs e := hi e hs
  obtain ⟨w1, rfl⟩ : c1.ws _ = [.kw T.TOP] ∧ v1 = .undef := i1
  obtain ⟨x2, w2⟩ : ∃ (x : Int), c2.ws _ = [.int x] := i2
  show ∃ (x : Option Int), (Tree.node 163 [c1, c2]).ws k = topWords x
  exact ⟨some x2, by rw [ws_node]; simp only [wsL, w1, w2] <;> first | rfl | simp [havingW, Group.words, cat]⟩

theorem r164 : RuleOK 164 := by
  intro _ cs k vs s v s' b e hp hi he hs hE
  obtain ⟨rfl, rfl⟩ : IsL [] cs k vs e := hi e hs
  show ∃ (x : Option Int), (Tree.node 164 []).ws k = topWords x
  exact ⟨none, by rw [ws_node]; simp only [wsL] <;> first | rfl | simp [havingW, Group.words, cat]⟩

theorem r165 : RuleOK 165 := by
  intro _ cs k vs s v s' b e hp hi he hs hE
  obtain ⟨c1, _, v1, _, rfl, rfl, i1, c2, _, v2, _, rfl, rfl, i2, rfl, rfl⟩ : IsL [T.LIMIT, N.expr] cs k vs e := hi e hs
  obtain ⟨w1, rfl⟩ : c1.ws _ = [.kw T.LIMIT] ∧ v1 = .undef := i1
  obtain ⟨x2, w2, h2⟩ : ∃ (x : Expr), c2.ws _ = x.words ∧ ExE x c2 := i2
  show ∃ (x : Limit), (Tree.node 165 [c1, c2]).ws k = x.words
  exact ⟨.limit x2, by rw [ws_node]; simp only [wsL, w1, w2] <;> first | rfl | simp [havingW, Group.words, cat]⟩

theorem r166 : RuleOK 166 := by
  intro _ cs k vs s v s' b e hp hi he hs hE
  obtain ⟨c1, _, v1, _, rfl, rfl, i1, c2, _, v2, _, rfl, rfl, i2, rfl, rfl⟩ : IsL [T.OFFSET, N.expr] cs k vs e := hi e hs
  obtain ⟨w1, rfl⟩ : c1.ws _ = [.kw T.OFFSET] ∧ v1 = .undef := i1
  obtain ⟨x2, w2, h2⟩ : ∃ (x : Expr), c2.ws _ = x.words ∧ ExE x c2 := i2
  show ∃ (x : Limit), (Tree.node 166 [c1, c2]).ws k = x.words
  exact ⟨.offset x2, by rw [ws_node]; simp only [wsL, w1, w2] <;> first | rfl | simp [havingW, Group.words, cat]⟩

theorem r167 : RuleOK 167 := by
  intro _ cs k vs s v s' b e hp hi he hs hE
  obtain ⟨c1, _, v1, _, rfl, rfl, i1, c2, _, v2, _, rfl, rfl, i2, c3, _, v3, _, rfl, rfl, i3, c4, _, v4, _, rfl, rfl, i4, rfl, rfl⟩ : IsL [T.LIMIT, N.expr, T.OFFSET, N.expr] cs k vs e := hi e hs
  obtain ⟨w1, rfl⟩ : c1.ws _ = [.kw T.LIMIT] ∧ v1 = .undef := i1
  obtain ⟨x2, w2, h2⟩ : ∃ (x : Expr), c2.ws _ = x.words ∧ ExE x c2 := i2
  obtain ⟨w3, rfl⟩ : c3.ws _ = [.kw T.OFFSET] ∧ v3 = .undef := i3
  obtain ⟨x4, w4, h4⟩ : ∃ (x : Expr), c4.ws _ = x.words ∧ ExE x c4 := i4
  show ∃ (x : Limit), (Tree.node 167 [c1, c2, c3, c4]).ws k = x.words
  exact ⟨.both x2 x4, by rw [ws_node]; simp only [wsL, w1, w2, w3, w4] <;> first | rfl | simp [havingW, Group.words, cat]⟩

theorem r168 : RuleOK 168 := by
  intro _ cs k vs s v s' b e hp hi he hs hE
  obtain ⟨c1, _, v1, _, rfl, rfl, i1, c2, _, v2, _, rfl, rfl, i2, rfl, rfl⟩ : IsL [T.LIMIT, T.ALL] cs k vs e := hi e hs
  obtain ⟨w1, rfl⟩ : c1.ws _ = [.kw T.LIMIT] ∧ v1 = .undef := i1
  obtain ⟨w2, rfl⟩ : c2.ws _ = [.kw T.ALL] ∧ v2 = .undef := i2
  show ∃ (x : Limit), (Tree.node 168 [c1, c2]).ws k = x.words
  exact ⟨.all, by rw [ws_node]; simp only [wsL, w1, w2] <;> first | rfl | simp [havingW, Group.words, cat]⟩

theorem r169 : RuleOK 169 := by
  intro _ cs k vs s v s' b e hp hi he hs hE
  obtain ⟨c1, _, v1, _, rfl, rfl, i1, c2, _, v2, _, rfl, rfl, i2, c3, _, v3, _, rfl, rfl, i3, c4, _, v4, _, rfl, rfl, i4, rfl, rfl⟩ : IsL [T.LIMIT, T.ALL, T.OFFSET, N.expr] cs k vs e := hi e hs
  obtain ⟨w1, rfl⟩ : c1.ws _ = [.kw T.LIMIT] ∧ v1 = .undef := i1
  obtain ⟨w2, rfl⟩ : c2.ws _ = [.kw T.ALL] ∧ v2 = .undef := i2
  obtain ⟨w3, rfl⟩ : c3.ws _ = [.kw T.OFFSET] ∧ v3 = .undef := i3
  obtain ⟨x4, w4, h4⟩ : ∃ (x : Expr), c4.ws _ = x.words ∧ ExE x c4 := i4
  show ∃ (x : Limit), (Tree.node 169 [c1, c2, c3, c4]).ws k = x.words
  exact ⟨.allOffset x4, by rw [ws_node]; simp only [wsL, w1, w2, w3, w4] <;> first | rfl | simp [havingW, Group.words, cat]⟩

theorem r170 : RuleOK 170 := by
  intro _ cs k vs s v s' b e hp hi he hs hE
  obtain ⟨rfl, rfl⟩ : IsL [] cs k vs e := hi e hs
  show ∃ (x : Limit), (Tree.node 170 []).ws k = x.words
  exact ⟨.none, by rw [ws_node]; simp only [wsL] <;> first | rfl | simp [havingW, Group.words, cat]⟩

theorem r171 : RuleOK 171 := by
  intro _ cs k vs s v s' b e hp hi he hs hE
  obtain ⟨c1, _, v1, _, rfl, rfl, i1, rfl, rfl⟩ : IsL [N.expr_alias] cs k vs e := hi e hs
  obtain ⟨x1, a1, w1⟩ : ∃ (x : Expr) (a : Alias), c1.ws _ = cat [x.words, a.words] := i1
  show ∃ (x : Items), (Tree.node 171 [c1]).ws k = x.words
  exact ⟨.one x1 a1, by rw [ws_node]; simp only [wsL, w1] <;> first | rfl | simp [havingW, Group.words, cat]⟩

theorem r172 : RuleOK 172 := by
  intro _ cs k vs s v s' b e hp hi he hs hE
  obtain ⟨c1, _, v1, _, rfl, rfl, i1, c2, _, v2, _, rfl, rfl, i2, c3, _, v3, _, rfl, rfl, i3, rfl, rfl⟩ : IsL [N.expr_list, T.COMMA, N.expr_alias] cs k vs e := hi e hs
  obtain ⟨x1, w1⟩ : ∃ (x : Items), c1.ws _ = x.words := i1
  obtain ⟨w2, rfl⟩ : c2.ws _ = [.kw T.COMMA] ∧ v2 = .undef := i2
  obtain ⟨x3, a3, w3⟩ : ∃ (x : Expr) (a : Alias), c3.ws _ = cat [x.words, a.words] := i3
  show ∃ (x : Items), (Tree.node 172 [c1, c2, c3]).ws k = x.words
  exact ⟨.snoc x1 x3 a3, by rw [ws_node]; simp only [wsL, w1, w2, w3] <;> first | rfl | simp [havingW, Group.words, cat]⟩

theorem r173 : RuleOK 173 := by
  intro _ cs k vs s v s' b e hp hi he hs hE
  obtain ⟨c1, _, v1, _, rfl, rfl, i1, rfl, rfl⟩ : IsL [N.extended_literal_list] cs k vs e := hi e hs
  obtain ⟨x1, w1⟩ : ∃ (x : XLits), c1.ws _ = x.words := i1
  show ∃ (x : Option XLits), (Tree.node 173 [c1]).ws k = xlitsW x
  exact ⟨some x1, by rw [ws_node]; simp only [wsL, w1] <;> first | rfl | simp [havingW, Group.words, cat]⟩

theorem r174 : RuleOK 174 := by
  intro _ cs k vs s v s' b e hp hi he hs hE
  obtain ⟨rfl, rfl⟩ : IsL [] cs k vs e := hi e hs
  show ∃ (x : Option XLits), (Tree.node 174 []).ws k = xlitsW x
  exact ⟨none, by rw [ws_node]; simp only [wsL] <;> first | rfl | simp [havingW, Group.words, cat]⟩

theorem r175 : RuleOK 175 := by
  intro _ cs k vs s v s' b e hp hi he hs hE
  obtain ⟨c1, _, v1, _, rfl, rfl, i1, rfl, rfl⟩ : IsL [N.casted_extended_literal] cs k vs e := hi e hs
  obtain ⟨x1, w1⟩ : ∃ (x : XLit), c1.ws _ = x.words := i1
  show ∃ (x : XLits), (Tree.node 175 [c1]).ws k = x.words
  exact ⟨.one x1, by rw [ws_node]; simp only [wsL, w1] <;> first | rfl | simp [havingW, Group.words, cat]⟩

theorem r176 : RuleOK 176 := by
  intro _ cs k vs s v s' b e hp hi he hs hE
  obtain ⟨c1, _, v1, _, rfl, rfl, i1, c2, _, v2, _, rfl, rfl, i2, c3, _, v3, _, rfl, rfl, i3, rfl, rfl⟩ : IsL [N.extended_literal_list, T.COMMA, N.casted_extended_literal] cs k vs e := hi e hs
  obtain ⟨x1, w1⟩ : ∃ (x : XLits), c1.ws _ = x.words := i1
  obtain ⟨w2, rfl⟩ : c2.ws _ = [.kw T.COMMA] ∧ v2 = .undef := i2
  obtain ⟨x3, w3⟩ : ∃ (x : XLit), c3.ws _ = x.words := i3
  show ∃ (x : XLits), (Tree.node 176 [c1, c2, c3]).ws k = x.words
  exact ⟨.snoc x1 x3, by rw [ws_node]; simp only [wsL, w1, w2, w3] <;> first | rfl | simp [havingW, Group.words, cat]⟩

theorem r177 : RuleOK 177 := by
  intro _ cs k vs s v s' b e hp hi he hs hE
  obtain ⟨c1, _, v1, _, rfl, rfl, i1, rfl, rfl⟩ : IsL [N.extended_literal] cs k vs e := hi e hs
  obtain ⟨x1, w1⟩ : ∃ (x : Ext), c1.ws _ = x.words := i1
  show ∃ (x : XLit), (Tree.node 177 [c1]).ws k = x.words
  exact ⟨.plain x1, by rw [ws_node]; simp only [wsL, w1] <;> first | rfl | simp [havingW, Group.words, cat]⟩

theorem r178 : RuleOK 178 := by
  intro _ cs k vs s v s' b e hp hi he hs hE
  obtain ⟨c1, _, v1, _, rfl, rfl, i1, c2, _, v2, _, rfl, rfl, i2, c3, _, v3, _, rfl, rfl, i3, c4, _, v4, _, rfl, rfl, i4, c5, _, v5, _, rfl, rfl, i5, c6, _, v6, _, rfl, rfl, i6, rfl, rfl⟩ : IsL [T.CAST, T.LPAREN, N.extended_literal, T.AS, N.column_type, T.RPAREN] cs k vs e := hi e hs
  obtain ⟨w1, rfl⟩ : c1.ws _ = [.kw T.CAST] ∧ v1 = .undef := i1
  obtain ⟨w2, rfl⟩ : c2.ws _ = [.kw T.LPAREN] ∧ v2 = .undef := i2
  obtain ⟨x3, w3⟩ : ∃ (x : Ext), c3.ws _ = x.words := i3
  obtain ⟨w4, rfl⟩ : c4.ws _ = [.kw T.AS] ∧ v4 = .undef := i4
  obtain ⟨x5, w5, h5⟩ : ∃ (x : ColType), c5.ws _ = x.words ∧ tup4 v5 := i5
  obtain ⟨w6, rfl⟩ : c6.ws _ = [.kw T.RPAREN] ∧ v6 = .undef := i6
  show ∃ (x : XLit), (Tree.node 178 [c1, c2, c3, c4, c5, c6]).ws k = x.words
  exact ⟨.cast x3 x5, by rw [ws_node]; simp only [wsL, w1, w2, w3, w4, w5, w6] <;> first | rfl | simp [havingW, Group.words, cat]⟩

theorem r179 : RuleOK 179 := by
  intro _ cs k vs s v s' b e hp hi he hs hE
  obtain ⟨c1, _, v1, _, rfl, rfl, i1, rfl, rfl⟩ : IsL [N.literal] cs k vs e := hi e hs
  obtain ⟨x1, w1, h1⟩ : ∃ (x : Lit ⊕ Nat), c1.ws _ = litW x ∧ ∀ j, x = .inr j → ∃ m, v1 = paramV 0 (.pos 0) m := i1
  show ∃ (x : Ext), (Tree.node 179 [c1]).ws k = x.words
  rcases x1 with l | j
  · exact ⟨.lit l, by rw [ws_node]; simp only [wsL, w1] <;> first | rfl | simp [havingW, Group.words, cat]⟩
  · obtain ⟨m, rfl⟩ := h1 j rfl
    exact (inv179 he).elim

theorem r180 : RuleOK 180 := by
  intro _ cs k vs s v s' b e hp hi he hs hE
  obtain ⟨c1, _, v1, _, rfl, rfl, i1, c2, _, v2, _, rfl, rfl, i2, rfl, rfl⟩ : IsL [T.HYPHEN, N.num_literal] cs k vs e := hi e hs
  obtain ⟨w1, rfl⟩ : c1.ws _ = [.kw T.HYPHEN] ∧ v1 = .undef := i1
  obtain ⟨x2, w2⟩ : ∃ (x : Num), c2.ws _ = x.words := i2
  show ∃ (x : Ext), (Tree.node 180 [c1, c2]).ws k = x.words
  exact ⟨.negNum x2, by rw [ws_node]; simp only [wsL, w1, w2] <;> first | rfl | simp [havingW, Group.words, cat]⟩

theorem r181 : RuleOK 181 := by
  intro _ cs k vs s v s' b e hp hi he hs hE
  obtain ⟨c1, _, v1, _, rfl, rfl, i1, c2, _, v2, _, rfl, rfl, i2, rfl, rfl⟩ : IsL [T.HYPHEN, N.interval_literal] cs k vs e := hi e hs
  obtain ⟨w1, rfl⟩ : c1.ws _ = [.kw T.HYPHEN] ∧ v1 = .undef := i1
  obtain ⟨x2, w2⟩ : ∃ (x : Interval), c2.ws _ = x.words := i2
  show ∃ (x : Ext), (Tree.node 181 [c1, c2]).ws k = x.words
  exact ⟨.negInterval x2, by rw [ws_node]; simp only [wsL, w1, w2] <;> first | rfl | simp [havingW, Group.words, cat]⟩

theorem r182 : RuleOK 182 := by
  intro _ cs k vs s v s' b e hp hi he hs hE
  obtain ⟨c1, _, v1, _, rfl, rfl, i1, c2, _, v2, _, rfl, rfl, i2, rfl, rfl⟩ : IsL [N.expr, N.opt_alias] cs k vs e := hi e hs
  obtain ⟨x1, w1, h1⟩ : ∃ (x : Expr), c1.ws _ = x.words ∧ ExE x c1 := i1
  obtain ⟨x2, w2⟩ : ∃ (x : Alias), c2.ws _ = x.words := i2
  show ∃ (x : Expr) (a : Alias), (Tree.node 182 [c1, c2]).ws k = cat [x.words, a.words]
  exact ⟨x1, x2, by rw [ws_node]; simp only [wsL, w1, w2] <;> first | rfl | simp [havingW, Group.words, cat]⟩

theorem r183 : RuleOK 183 := by
  intro _ cs k vs s v s' b e hp hi he hs hE
  obtain ⟨c1, _, v1, _, rfl, rfl, i1, rfl, rfl⟩ : IsL [N.operand] cs k vs e := hi e hs
  obtain ⟨x1, w1, h1⟩ : ∃ (x : Expr), c1.ws _ = x.words ∧ OpE x c1 := i1
  show ∃ (x : Expr), (Tree.node 183 [c1]).ws k = x.words ∧ ExE x (Tree.node 183 [c1])
  exact ⟨x1, by rw [ws_node]; simp only [wsL, w1] <;> first | rfl | simp [havingW, Group.words, cat], h1.ex _⟩

theorem r184 : RuleOK 184 := by
  intro _ cs k vs s v s' b e hp hi he hs hE
  obtain ⟨c1, _, v1, _, rfl, rfl, i1, rfl, rfl⟩ : IsL [N.between_expr] cs k vs e := hi e hs
  obtain ⟨x1, w1, h1⟩ : ∃ (x : Expr), c1.ws _ = x.words ∧ ExE x c1 := i1
  show ∃ (x : Expr), (Tree.node 184 [c1]).ws k = x.words ∧ ExE x (Tree.node 184 [c1])
  exact ⟨x1, by rw [ws_node]; simp only [wsL, w1] <;> first | rfl | simp [havingW, Group.words, cat], h1.up _⟩

theorem r185 : RuleOK 185 := by
  intro _ cs k vs s v s' b e hp hi he hs hE
  obtain ⟨c1, _, v1, _, rfl, rfl, i1, rfl, rfl⟩ : IsL [N.logic_expr] cs k vs e := hi e hs
  obtain ⟨x1, w1, h1⟩ : ∃ (x : Expr), c1.ws _ = x.words ∧ ExE x c1 := i1
  show ∃ (x : Expr), (Tree.node 185 [c1]).ws k = x.words ∧ ExE x (Tree.node 185 [c1])
  exact ⟨x1, by rw [ws_node]; simp only [wsL, w1] <;> first | rfl | simp [havingW, Group.words, cat], h1.up _⟩

theorem r186 : RuleOK 186 := by
  intro _ cs k vs s v s' b e hp hi he hs hE
  obtain ⟨c1, _, v1, _, rfl, rfl, i1, rfl, rfl⟩ : IsL [N.exists_expr] cs k vs e := hi e hs
  obtain ⟨x1, w1, h1⟩ : ∃ (x : Expr), c1.ws _ = x.words ∧ ExE x c1 := i1
  show ∃ (x : Expr), (Tree.node 186 [c1]).ws k = x.words ∧ ExE x (Tree.node 186 [c1])
  exact ⟨x1, by rw [ws_node]; simp only [wsL, w1] <;> first | rfl | simp [havingW, Group.words, cat], h1.up _⟩

theorem r187 : RuleOK 187 := by
  intro _ cs k vs s v s' b e hp hi he hs hE
  obtain ⟨c1, _, v1, _, rfl, rfl, i1, rfl, rfl⟩ : IsL [N.in_expr] cs k vs e := hi e hs
  obtain ⟨x1, w1, h1⟩ : ∃ (x : Expr), c1.ws _ = x.words ∧ ExE x c1 := i1
  show ∃ (x : Expr), (Tree.node 187 [c1]).ws k = x.words ∧ ExE x (Tree.node 187 [c1])
  exact ⟨x1, by rw [ws_node]; simp only [wsL, w1] <;> first | rfl | simp [havingW, Group.words, cat], h1.up _⟩

theorem r188 : RuleOK 188 := by
  intro _ cs k vs s v s' b e hp hi he hs hE
  obtain ⟨c1, _, v1, _, rfl, rfl, i1, c2, _, v2, _, rfl, rfl, i2, c3, _, v3, _, rfl, rfl, i3, rfl, rfl⟩ : IsL [T.LPAREN, N.expr, T.RPAREN] cs k vs e := hi e hs
  obtain ⟨w1, rfl⟩ : c1.ws _ = [.kw T.LPAREN] ∧ v1 = .undef := i1
  obtain ⟨x2, w2, h2⟩ : ∃ (x : Expr), c2.ws _ = x.words ∧ ExE x c2 := i2
  obtain ⟨w3, rfl⟩ : c3.ws _ = [.kw T.RPAREN] ∧ v3 = .undef := i3
  show ∃ (x : Expr), (Tree.node 188 [c1, c2, c3]).ws k = x.words ∧ OpE x (Tree.node 188 [c1, c2, c3])
  exact ⟨.paren x2, by rw [ws_node]; simp only [wsL, w1, w2, w3] <;> first | rfl | simp [havingW, Group.words, cat], .atom rfl rfl⟩

theorem r189 : RuleOK 189 := by
  intro _ cs k vs s v s' b e hp hi he hs hE
  obtain ⟨c1, _, v1, _, rfl, rfl, i1, rfl, rfl⟩ : IsL [N.array_index] cs k vs e := hi e hs
  obtain ⟨x1, w1, h1⟩ : ∃ (x : Expr), c1.ws _ = x.words ∧ OpE x c1 := i1
  show ∃ (x : Expr), (Tree.node 189 [c1]).ws k = x.words ∧ OpE x (Tree.node 189 [c1])
  exact ⟨x1, by rw [ws_node]; simp only [wsL, w1] <;> first | rfl | simp [havingW, Group.words, cat], h1.up _⟩

theorem r190 : RuleOK 190 := by
  intro _ cs k vs s v s' b e hp hi he hs hE
  obtain ⟨c1, _, v1, _, rfl, rfl, i1, rfl, rfl⟩ : IsL [N.scalar_expr] cs k vs e := hi e hs
  obtain ⟨x1, w1, h1⟩ : ∃ (x : Expr), c1.ws _ = x.words ∧ OpE x c1 := i1
  show ∃ (x : Expr), (Tree.node 190 [c1]).ws k = x.words ∧ OpE x (Tree.node 190 [c1])
  exact ⟨x1, by rw [ws_node]; simp only [wsL, w1] <;> first | rfl | simp [havingW, Group.words, cat], h1.up _⟩

theorem r191 : RuleOK 191 := by
  intro _ cs k vs s v s' b e hp hi he hs hE
  obtain ⟨c1, _, v1, _, rfl, rfl, i1, rfl, rfl⟩ : IsL [N.unary_expr] cs k vs e := hi e hs
  obtain ⟨x1, w1, h1⟩ : ∃ (x : Expr), c1.ws _ = x.words ∧ OpE x c1 := i1
  show ∃ (x : Expr), (Tree.node 191 [c1]).ws k = x.words ∧ OpE x (Tree.node 191 [c1])
  exact ⟨x1, by rw [ws_node]; simp only [wsL, w1] <;> first | rfl | simp [havingW, Group.words, cat], h1.up _⟩

theorem r192 : RuleOK 192 := by
  intro _ cs k vs s v s' b e hp hi he hs hE
  obtain ⟨c1, _, v1, _, rfl, rfl, i1, rfl, rfl⟩ : IsL [N.binary_expr] cs k vs e := hi e hs
  obtain ⟨x1, w1, h1⟩ : ∃ (x : Expr), c1.ws _ = x.words ∧ OpE x c1 := i1
  show ∃ (x : Expr), (Tree.node 192 [c1]).ws k = x.words ∧ OpE x (Tree.node 192 [c1])
  exact ⟨x1, by rw [ws_node]; simp only [wsL, w1] <;> first | rfl | simp [havingW, Group.words, cat], h1.up _⟩

theorem r193 : RuleOK 193 := by
  intro _ cs k vs s v s' b e hp hi he hs hE
  obtain ⟨c1, _, v1, _, rfl, rfl, i1, rfl, rfl⟩ : IsL [N.case_expr] cs k vs e := hi e hs
  obtain ⟨x1, w1, h1⟩ : ∃ (x : Expr), c1.ws _ = x.words ∧ OpE x c1 := i1
  show ∃ (x : Expr), (Tree.node 193 [c1]).ws k = x.words ∧ OpE x (Tree.node 193 [c1])
  exact ⟨x1, by rw [ws_node]; simp only [wsL, w1] <;> first | rfl | simp [havingW, Group.words, cat], h1.up _⟩

theorem r194 : RuleOK 194 := by
  intro _ cs k vs s v s' b e hp hi he hs hE
  obtain ⟨c1, _, v1, _, rfl, rfl, i1, rfl, rfl⟩ : IsL [N.function_expr] cs k vs e := hi e hs
  obtain ⟨x1, w1, h1⟩ : ∃ (x : Expr), c1.ws _ = x.words ∧ OpE x c1 := i1
  show ∃ (x : Expr), (Tree.node 194 [c1]).ws k = x.words ∧ OpE x (Tree.node 194 [c1])
  exact ⟨x1, by rw [ws_node]; simp only [wsL, w1] <;> first | rfl | simp [havingW, Group.words, cat], h1.up _⟩

theorem r195 : RuleOK 195 := by
  intro _ cs k vs s v s' b e hp hi he hs hE
  obtain ⟨c1, _, v1, _, rfl, rfl, i1, rfl, rfl⟩ : IsL [N.extract_expr] cs k vs e := hi e hs
  obtain ⟨x1, w1, h1⟩ : ∃ (x : Expr), c1.ws _ = x.words ∧ OpE x c1 := i1
  show ∃ (x : Expr), (Tree.node 195 [c1]).ws k = x.words ∧ OpE x (Tree.node 195 [c1])
  exact ⟨x1, by rw [ws_node]; simp only [wsL, w1] <;> first | rfl | simp [havingW, Group.words, cat], h1.up _⟩

theorem r196 : RuleOK 196 := by
  intro _ cs k vs s v s' b e hp hi he hs hE
  obtain ⟨c1, _, v1, _, rfl, rfl, i1, rfl, rfl⟩ : IsL [N.cast_expr] cs k vs e := hi e hs
  obtain ⟨x1, w1, h1⟩ : ∃ (x : Expr), c1.ws _ = x.words ∧ OpE x c1 := i1
  show ∃ (x : Expr), (Tree.node 196 [c1]).ws k = x.words ∧ OpE x (Tree.node 196 [c1])
  exact ⟨x1, by rw [ws_node]; simp only [wsL, w1] <;> first | rfl | simp [havingW, Group.words, cat], h1.up _⟩

theorem r197 : RuleOK 197 := by
  intro _ cs k vs s v s' b e hp hi he hs hE
  obtain ⟨c1, _, v1, _, rfl, rfl, i1, rfl, rfl⟩ : IsL [N.array_expr] cs k vs e := hi e hs
  obtain ⟨x1, w1, h1⟩ : ∃ (x : Expr), c1.ws _ = x.words ∧ OpE x c1 := i1
  show ∃ (x : Expr), (Tree.node 197 [c1]).ws k = x.words ∧ OpE x (Tree.node 197 [c1])
  exact ⟨x1, by rw [ws_node]; simp only [wsL, w1] <;> first | rfl | simp [havingW, Group.words, cat], h1.up _⟩

theorem r198 : RuleOK 198 := by
  intro _ cs k vs s v s' b e hp hi he hs hE
  obtain ⟨c1, _, v1, _, rfl, rfl, i1, c2, _, v2, _, rfl, rfl, i2, c3, _, v3, _, rfl, rfl, i3, rfl, rfl⟩ : IsL [T.LPAREN, N.select_no_paren, T.RPAREN] cs k vs e := hi e hs
  obtain ⟨w1, rfl⟩ : c1.ws _ = [.kw T.LPAREN] ∧ v1 = .undef := i1
  obtain ⟨x2, w2⟩ : ∃ (x : Sel), c2.ws _ = x.words := i2
  obtain ⟨w3, rfl⟩ : c3.ws _ = [.kw T.RPAREN] ∧ v3 = .undef := i3
  show ∃ (x : Expr), (Tree.node 198 [c1, c2, c3]).ws k = x.words ∧ OpE x (Tree.node 198 [c1, c2, c3])
  exact ⟨.query x2, by rw [ws_node]; simp only [wsL, w1, w2, w3] <;> first | rfl | simp [havingW, Group.words, cat], .atom rfl rfl⟩

theorem r199 : RuleOK 199 := by
  intro _ cs k vs s v s' b e hp hi he hs hE
  obtain ⟨c1, _, v1, _, rfl, rfl, i1, rfl, rfl⟩ : IsL [N.column_name] cs k vs e := hi e hs
  obtain ⟨x1, w1, h1⟩ : ∃ (x : Expr), c1.ws _ = x.words ∧ OpE x c1 := i1
  show ∃ (x : Expr), (Tree.node 199 [c1]).ws k = x.words ∧ OpE x (Tree.node 199 [c1])
  exact ⟨x1, by rw [ws_node]; simp only [wsL, w1] <;> first | rfl | simp [havingW, Group.words, cat], h1.up _⟩

theorem r200 : RuleOK 200 := by
  intro _ cs k vs s v s' b e hp hi he hs hE
  obtain ⟨c1, _, v1, _, rfl, rfl, i1, rfl, rfl⟩ : IsL [N.literal] cs k vs e := hi e hs
  obtain ⟨x1, w1, h1⟩ : ∃ (x : Lit ⊕ Nat), c1.ws _ = litW x ∧ ∀ j, x = .inr j → ∃ m, v1 = paramV 0 (.pos 0) m := i1
  show ∃ (x : Expr), (Tree.node 200 [c1]).ws k = x.words ∧ OpE x (Tree.node 200 [c1])
  rcases x1 with l | j
  · exact ⟨.lit l, by rw [ws_node]; simp only [wsL, w1] <;> first | rfl | simp [havingW, Group.words, cat], .atom rfl rfl⟩
  · exact ⟨.param j, by rw [ws_node]; simp only [wsL, w1] <;> first | rfl | simp [havingW, Group.words, cat], .atom rfl rfl⟩

theorem r201 : RuleOK 201 := by
  intro _ cs k vs s v s' b e hp hi he hs hE
  obtain ⟨c1, _, v1, _, rfl, rfl, i1, c2, _, v2, _, rfl, rfl, i2, rfl, rfl⟩ : IsL [T.HYPHEN, N.operand] cs k vs e := hi e hs
  obtain ⟨w1, rfl⟩ : c1.ws _ = [.kw T.HYPHEN] ∧ v1 = .undef := i1
  obtain ⟨x2, w2, h2⟩ : ∃ (x : Expr), c2.ws _ = x.words ∧ OpE x c2 := i2
  show ∃ (x : Expr), (Tree.node 201 [c1, c2]).ws k = x.words ∧ OpE x (Tree.node 201 [c1, c2])
  exact pre_is (p := 8) .neg (fun _ => by rw [Expr.words]) (fun _ => rfl) (fun _ => by rw [Expr.lev]) (by decide) (by decide +kernel) rfl hp w1 w2 h2

theorem r202 : RuleOK 202 := by
  intro _ cs k vs s v s' b e hp hi he hs hE
  obtain ⟨c1, _, v1, _, rfl, rfl, i1, c2, _, v2, _, rfl, rfl, i2, rfl, rfl⟩ : IsL [T.NOT, N.operand] cs k vs e := hi e hs
  obtain ⟨w1, rfl⟩ : c1.ws _ = [.kw T.NOT] ∧ v1 = .undef := i1
  obtain ⟨x2, w2, h2⟩ : ∃ (x : Expr), c2.ws _ = x.words ∧ OpE x c2 := i2
  show ∃ (x : Expr), (Tree.node 202 [c1, c2]).ws k = x.words ∧ OpE x (Tree.node 202 [c1, c2])
  exact pre_is (p := 2) .not (fun _ => by rw [Expr.words]) (fun _ => rfl) (fun _ => by rw [Expr.lev]) (by decide) (by decide +kernel) rfl hp w1 w2 h2

theorem r203 : RuleOK 203 := by
  intro _ cs k vs s v s' b e hp hi he hs hE
  obtain ⟨c1, _, v1, _, rfl, rfl, i1, c2, _, v2, _, rfl, rfl, i2, rfl, rfl⟩ : IsL [N.operand, T.ISNULL] cs k vs e := hi e hs
  obtain ⟨x1, w1, h1⟩ : ∃ (x : Expr), c1.ws _ = x.words ∧ OpE x c1 := i1
  obtain ⟨w2, rfl⟩ : c2.ws _ = [.kw T.ISNULL] ∧ v2 = .undef := i2
  show ∃ (x : Expr), (Tree.node 203 [c1, c2]).ws k = x.words ∧ OpE x (Tree.node 203 [c1, c2])
  exact post_is (p := 6) (.isNull true) (kw T.ISNULL) (fun _ => by simp only [Expr.words, cat]) (fun _ => rfl) (fun _ => by rw [Expr.lev]) (by decide) (by decide +kernel) (by decide +kernel) rfl hp w1 h1 w2 (by simp only [wsL, w2, cat])

theorem r204 : RuleOK 204 := by
  intro _ cs k vs s v s' b e hp hi he hs hE
  obtain ⟨c1, _, v1, _, rfl, rfl, i1, c2, _, v2, _, rfl, rfl, i2, c3, _, v3, _, rfl, rfl, i3, rfl, rfl⟩ : IsL [N.operand, T.IS, T.NULL] cs k vs e := hi e hs
  obtain ⟨x1, w1, h1⟩ : ∃ (x : Expr), c1.ws _ = x.words ∧ OpE x c1 := i1
  obtain ⟨w2, rfl⟩ : c2.ws _ = [.kw T.IS] ∧ v2 = .undef := i2
  obtain ⟨w3, rfl⟩ : c3.ws _ = [.kw T.NULL] ∧ v3 = .undef := i3
  show ∃ (x : Expr), (Tree.node 204 [c1, c2, c3]).ws k = x.words ∧ OpE x (Tree.node 204 [c1, c2, c3])
  exact post_is (p := 7) (.isNull false) (cat [kw T.IS, kw T.NULL]) (fun _ => by simp only [Expr.words, cat]) (fun _ => rfl) (fun _ => by rw [Expr.lev]) (by decide) (by decide +kernel) (by decide +kernel) rfl hp w1 h1 w2 (by simp only [wsL, w2, w3, cat])

theorem r205 : RuleOK 205 := by
  intro _ cs k vs s v s' b e hp hi he hs hE
  obtain ⟨c1, _, v1, _, rfl, rfl, i1, c2, _, v2, _, rfl, rfl, i2, c3, _, v3, _, rfl, rfl, i3, c4, _, v4, _, rfl, rfl, i4, rfl, rfl⟩ : IsL [N.operand, T.IS, T.NOT, T.NULL] cs k vs e := hi e hs
  obtain ⟨x1, w1, h1⟩ : ∃ (x : Expr), c1.ws _ = x.words ∧ OpE x c1 := i1
  obtain ⟨w2, rfl⟩ : c2.ws _ = [.kw T.IS] ∧ v2 = .undef := i2
  obtain ⟨w3, rfl⟩ : c3.ws _ = [.kw T.NOT] ∧ v3 = .undef := i3
  obtain ⟨w4, rfl⟩ : c4.ws _ = [.kw T.NULL] ∧ v4 = .undef := i4
  show ∃ (x : Expr), (Tree.node 205 [c1, c2, c3, c4]).ws k = x.words ∧ OpE x (Tree.node 205 [c1, c2, c3, c4])
  exact post_is (p := 7) .isNotNull (cat [kw T.IS, kw T.NOT, kw T.NULL]) (fun _ => by simp only [Expr.words, cat]) (fun _ => rfl) (fun _ => by rw [Expr.lev]) (by decide) (by decide +kernel) (by decide +kernel) rfl hp w1 h1 w2 (by simp only [wsL, w2, w3, w4, cat])

theorem r206 : RuleOK 206 := by
  intro _ cs k vs s v s' b e hp hi he hs hE
  obtain ⟨c1, _, v1, _, rfl, rfl, i1, rfl, rfl⟩ : IsL [N.comp_expr] cs k vs e := hi e hs
  obtain ⟨x1, w1, h1⟩ : ∃ (x : Expr), c1.ws _ = x.words ∧ OpE x c1 := i1
  show ∃ (x : Expr), (Tree.node 206 [c1]).ws k = x.words ∧ OpE x (Tree.node 206 [c1])
  exact ⟨x1, by rw [ws_node]; simp only [wsL, w1] <;> first | rfl | simp [havingW, Group.words, cat], h1.up _⟩

theorem r207 : RuleOK 207 := by
  intro _ cs k vs s v s' b e hp hi he hs hE
  obtain ⟨c1, _, v1, _, rfl, rfl, i1, c2, _, v2, _, rfl, rfl, i2, c3, _, v3, _, rfl, rfl, i3, rfl, rfl⟩ : IsL [N.operand, T.HYPHEN, N.operand] cs k vs e := hi e hs
  obtain ⟨x1, w1, h1⟩ : ∃ (x : Expr), c1.ws _ = x.words ∧ OpE x c1 := i1
  obtain ⟨w2, rfl⟩ : c2.ws _ = [.kw T.HYPHEN] ∧ v2 = .undef := i2
  obtain ⟨x3, w3, h3⟩ : ∃ (x : Expr), c3.ws _ = x.words ∧ OpE x c3 := i3
  show ∃ (x : Expr), (Tree.node 207 [c1, c2, c3]).ws k = x.words ∧ OpE x (Tree.node 207 [c1, c2, c3])
  exact bin_is .minus (by decide) (by decide +kernel) rfl rfl (by decide +kernel) (by decide +kernel) rfl rfl hp w1 h1 w2 w3 h3

theorem r208 : RuleOK 208 := by
  intro _ cs k vs s v s' b e hp hi he hs hE
  obtain ⟨c1, _, v1, _, rfl, rfl, i1, c2, _, v2, _, rfl, rfl, i2, c3, _, v3, _, rfl, rfl, i3, rfl, rfl⟩ : IsL [N.operand, T.PLUS, N.operand] cs k vs e := hi e hs
  obtain ⟨x1, w1, h1⟩ : ∃ (x : Expr), c1.ws _ = x.words ∧ OpE x c1 := i1
  obtain ⟨w2, rfl⟩ : c2.ws _ = [.kw T.PLUS] ∧ v2 = .undef := i2
  obtain ⟨x3, w3, h3⟩ : ∃ (x : Expr), c3.ws _ = x.words ∧ OpE x c3 := i3
  show ∃ (x : Expr), (Tree.node 208 [c1, c2, c3]).ws k = x.words ∧ OpE x (Tree.node 208 [c1, c2, c3])
  exact bin_is .plus (by decide) (by decide +kernel) rfl rfl (by decide +kernel) (by decide +kernel) rfl rfl hp w1 h1 w2 w3 h3

theorem r209 : RuleOK 209 := by
  intro _ cs k vs s v s' b e hp hi he hs hE
  obtain ⟨c1, _, v1, _, rfl, rfl, i1, c2, _, v2, _, rfl, rfl, i2, c3, _, v3, _, rfl, rfl, i3, rfl, rfl⟩ : IsL [N.operand, T.SLASH, N.operand] cs k vs e := hi e hs
  obtain ⟨x1, w1, h1⟩ : ∃ (x : Expr), c1.ws _ = x.words ∧ OpE x c1 := i1
  obtain ⟨w2, rfl⟩ : c2.ws _ = [.kw T.SLASH] ∧ v2 = .undef := i2
  obtain ⟨x3, w3, h3⟩ : ∃ (x : Expr), c3.ws _ = x.words ∧ OpE x c3 := i3
  show ∃ (x : Expr), (Tree.node 209 [c1, c2, c3]).ws k = x.words ∧ OpE x (Tree.node 209 [c1, c2, c3])
  exact bin_is .slash (by decide) (by decide +kernel) rfl rfl (by decide +kernel) (by decide +kernel) rfl rfl hp w1 h1 w2 w3 h3

theorem r210 : RuleOK 210 := by
  intro _ cs k vs s v s' b e hp hi he hs hE
  obtain ⟨c1, _, v1, _, rfl, rfl, i1, c2, _, v2, _, rfl, rfl, i2, c3, _, v3, _, rfl, rfl, i3, rfl, rfl⟩ : IsL [N.operand, T.STAR, N.operand] cs k vs e := hi e hs
  obtain ⟨x1, w1, h1⟩ : ∃ (x : Expr), c1.ws _ = x.words ∧ OpE x c1 := i1
  obtain ⟨w2, rfl⟩ : c2.ws _ = [.kw T.STAR] ∧ v2 = .undef := i2
  obtain ⟨x3, w3, h3⟩ : ∃ (x : Expr), c3.ws _ = x.words ∧ OpE x c3 := i3
  show ∃ (x : Expr), (Tree.node 210 [c1, c2, c3]).ws k = x.words ∧ OpE x (Tree.node 210 [c1, c2, c3])
  exact bin_is .star (by decide) (by decide +kernel) rfl rfl (by decide +kernel) (by decide +kernel) rfl rfl hp w1 h1 w2 w3 h3

theorem r211 : RuleOK 211 := by
  intro _ cs k vs s v s' b e hp hi he hs hE
  obtain ⟨c1, _, v1, _, rfl, rfl, i1, c2, _, v2, _, rfl, rfl, i2, c3, _, v3, _, rfl, rfl, i3, rfl, rfl⟩ : IsL [N.operand, T.PERCENT, N.operand] cs k vs e := hi e hs
  obtain ⟨x1, w1, h1⟩ : ∃ (x : Expr), c1.ws _ = x.words ∧ OpE x c1 := i1
  obtain ⟨w2, rfl⟩ : c2.ws _ = [.kw T.PERCENT] ∧ v2 = .undef := i2
  obtain ⟨x3, w3, h3⟩ : ∃ (x : Expr), c3.ws _ = x.words ∧ OpE x c3 := i3
  show ∃ (x : Expr), (Tree.node 211 [c1, c2, c3]).ws k = x.words ∧ OpE x (Tree.node 211 [c1, c2, c3])
  exact bin_is .percent (by decide) (by decide +kernel) rfl rfl (by decide +kernel) (by decide +kernel) rfl rfl hp w1 h1 w2 w3 h3

theorem r212 : RuleOK 212 := by
  intro _ cs k vs s v s' b e hp hi he hs hE
  obtain ⟨c1, _, v1, _, rfl, rfl, i1, c2, _, v2, _, rfl, rfl, i2, c3, _, v3, _, rfl, rfl, i3, rfl, rfl⟩ : IsL [N.operand, T.CARET, N.operand] cs k vs e := hi e hs
  obtain ⟨x1, w1, h1⟩ : ∃ (x : Expr), c1.ws _ = x.words ∧ OpE x c1 := i1
  obtain ⟨w2, rfl⟩ : c2.ws _ = [.kw T.CARET] ∧ v2 = .undef := i2
  obtain ⟨x3, w3, h3⟩ : ∃ (x : Expr), c3.ws _ = x.words ∧ OpE x c3 := i3
  show ∃ (x : Expr), (Tree.node 212 [c1, c2, c3]).ws k = x.words ∧ OpE x (Tree.node 212 [c1, c2, c3])
  exact bin_is .caret (by decide) (by decide +kernel) rfl rfl (by decide +kernel) (by decide +kernel) rfl rfl hp w1 h1 w2 w3 h3

theorem r213 : RuleOK 213 := by
  intro _ cs k vs s v s' b e hp hi he hs hE
  obtain ⟨c1, _, v1, _, rfl, rfl, i1, c2, _, v2, _, rfl, rfl, i2, c3, _, v3, _, rfl, rfl, i3, rfl, rfl⟩ : IsL [N.operand, T.LIKE, N.operand] cs k vs e := hi e hs
  obtain ⟨x1, w1, h1⟩ : ∃ (x : Expr), c1.ws _ = x.words ∧ OpE x c1 := i1
  obtain ⟨w2, rfl⟩ : c2.ws _ = [.kw T.LIKE] ∧ v2 = .undef := i2
  obtain ⟨x3, w3, h3⟩ : ∃ (x : Expr), c3.ws _ = x.words ∧ OpE x c3 := i3
  show ∃ (x : Expr), (Tree.node 213 [c1, c2, c3]).ws k = x.words ∧ OpE x (Tree.node 213 [c1, c2, c3])
  exact bin_is .like (by decide) (by decide +kernel) rfl rfl (by decide +kernel) (by decide +kernel) rfl rfl hp w1 h1 w2 w3 h3

theorem r214 : RuleOK 214 := by
  intro _ cs k vs s v s' b e hp hi he hs hE
  obtain ⟨c1, _, v1, _, rfl, rfl, i1, c2, _, v2, _, rfl, rfl, i2, c3, _, v3, _, rfl, rfl, i3, c4, _, v4, _, rfl, rfl, i4, rfl, rfl⟩ : IsL [N.operand, T.NOT, T.LIKE, N.operand] cs k vs e := hi e hs
  obtain ⟨x1, w1, h1⟩ : ∃ (x : Expr), c1.ws _ = x.words ∧ OpE x c1 := i1
  obtain ⟨w2, rfl⟩ : c2.ws _ = [.kw T.NOT] ∧ v2 = .undef := i2
  obtain ⟨w3, rfl⟩ : c3.ws _ = [.kw T.LIKE] ∧ v3 = .undef := i3
  obtain ⟨x4, w4, h4⟩ : ∃ (x : Expr), c4.ws _ = x.words ∧ OpE x c4 := i4
  show ∃ (x : Expr), (Tree.node 214 [c1, c2, c3, c4]).ws k = x.words ∧ OpE x (Tree.node 214 [c1, c2, c3, c4])
  exact notLike_is rfl rfl rfl hp w1 h1 w2 w3 w4 h4

theorem r215 : RuleOK 215 := by
  intro _ cs k vs s v s' b e hp hi he hs hE
  obtain ⟨c1, _, v1, _, rfl, rfl, i1, c2, _, v2, _, rfl, rfl, i2, c3, _, v3, _, rfl, rfl, i3, rfl, rfl⟩ : IsL [N.operand, T.ILIKE, N.operand] cs k vs e := hi e hs
  obtain ⟨x1, w1, h1⟩ : ∃ (x : Expr), c1.ws _ = x.words ∧ OpE x c1 := i1
  obtain ⟨w2, rfl⟩ : c2.ws _ = [.kw T.ILIKE] ∧ v2 = .undef := i2
  obtain ⟨x3, w3, h3⟩ : ∃ (x : Expr), c3.ws _ = x.words ∧ OpE x c3 := i3
  show ∃ (x : Expr), (Tree.node 215 [c1, c2, c3]).ws k = x.words ∧ OpE x (Tree.node 215 [c1, c2, c3])
  exact bin_is .ilike (by decide) (by decide +kernel) rfl rfl (by decide +kernel) (by decide +kernel) rfl rfl hp w1 h1 w2 w3 h3

theorem r216 : RuleOK 216 := by
  intro _ cs k vs s v s' b e hp hi he hs hE
  obtain ⟨c1, _, v1, _, rfl, rfl, i1, c2, _, v2, _, rfl, rfl, i2, c3, _, v3, _, rfl, rfl, i3, rfl, rfl⟩ : IsL [N.operand, T.CONCAT, N.operand] cs k vs e := hi e hs
  obtain ⟨x1, w1, h1⟩ : ∃ (x : Expr), c1.ws _ = x.words ∧ OpE x c1 := i1
  obtain ⟨w2, rfl⟩ : c2.ws _ = [.kw T.CONCAT] ∧ v2 = .undef := i2
  obtain ⟨x3, w3, h3⟩ : ∃ (x : Expr), c3.ws _ = x.words ∧ OpE x c3 := i3
  show ∃ (x : Expr), (Tree.node 216 [c1, c2, c3]).ws k = x.words ∧ OpE x (Tree.node 216 [c1, c2, c3])
  exact bin_is .concat (by decide) (by decide +kernel) rfl rfl (by decide +kernel) (by decide +kernel) rfl rfl hp w1 h1 w2 w3 h3

theorem r217 : RuleOK 217 := by
  intro _ cs k vs s v s' b e hp hi he hs hE
  obtain ⟨c1, _, v1, _, rfl, rfl, i1, c2, _, v2, _, rfl, rfl, i2, c3, _, v3, _, rfl, rfl, i3, rfl, rfl⟩ : IsL [N.expr, T.AND, N.expr] cs k vs e := hi e hs
  obtain ⟨x1, w1, h1⟩ : ∃ (x : Expr), c1.ws _ = x.words ∧ ExE x c1 := i1
  obtain ⟨w2, rfl⟩ : c2.ws _ = [.kw T.AND] ∧ v2 = .undef := i2
  obtain ⟨x3, w3, h3⟩ : ∃ (x : Expr), c3.ws _ = x.words ∧ ExE x c3 := i3
  show ∃ (x : Expr), (Tree.node 217 [c1, c2, c3]).ws k = x.words ∧ ExE x (Tree.node 217 [c1, c2, c3])
  exact logic_is .and (by decide) rfl (by decide +kernel) (by decide +kernel) (by decide +kernel) rfl rfl hp w1 h1 w2 w3 h3

theorem r218 : RuleOK 218 := by
  intro _ cs k vs s v s' b e hp hi he hs hE
  obtain ⟨c1, _, v1, _, rfl, rfl, i1, c2, _, v2, _, rfl, rfl, i2, c3, _, v3, _, rfl, rfl, i3, rfl, rfl⟩ : IsL [N.expr, T.OR, N.expr] cs k vs e := hi e hs
  obtain ⟨x1, w1, h1⟩ : ∃ (x : Expr), c1.ws _ = x.words ∧ ExE x c1 := i1
  obtain ⟨w2, rfl⟩ : c2.ws _ = [.kw T.OR] ∧ v2 = .undef := i2
  obtain ⟨x3, w3, h3⟩ : ∃ (x : Expr), c3.ws _ = x.words ∧ ExE x c3 := i3
  show ∃ (x : Expr), (Tree.node 218 [c1, c2, c3]).ws k = x.words ∧ ExE x (Tree.node 218 [c1, c2, c3])
  exact logic_is .or (by decide) rfl (by decide +kernel) (by decide +kernel) (by decide +kernel) rfl rfl hp w1 h1 w2 w3 h3

theorem r219 : RuleOK 219 := by
  intro _ cs k vs s v s' b e hp hi he hs hE
  obtain ⟨c1, _, v1, _, rfl, rfl, i1, c2, _, v2, _, rfl, rfl, i2, c3, _, v3, _, rfl, rfl, i3, c4, _, v4, _, rfl, rfl, i4, c5, _, v5, _, rfl, rfl, i5, rfl, rfl⟩ : IsL [N.operand, T.IN, T.LPAREN, N.expr_list, T.RPAREN] cs k vs e := hi e hs
  obtain ⟨x1, w1, h1⟩ : ∃ (x : Expr), c1.ws _ = x.words ∧ OpE x c1 := i1
  obtain ⟨w2, rfl⟩ : c2.ws _ = [.kw T.IN] ∧ v2 = .undef := i2
  obtain ⟨w3, rfl⟩ : c3.ws _ = [.kw T.LPAREN] ∧ v3 = .undef := i3
  obtain ⟨x4, w4⟩ : ∃ (x : Items), c4.ws _ = x.words := i4
  obtain ⟨w5, rfl⟩ : c5.ws _ = [.kw T.RPAREN] ∧ v5 = .undef := i5
  show ∃ (x : Expr), (Tree.node 219 [c1, c2, c3, c4, c5]).ws k = x.words ∧ ExE x (Tree.node 219 [c1, c2, c3, c4, c5])
  refine ⟨.inList false x1 x4, by rw [ws_node]; simp only [wsL, w1, w2, w3, w4, w5, Expr.words, par, h1.op, cond_true, cat], .two ?_ ?_⟩
  · simp only [Expr.lev, h1.op, cond_true]; exact opnd_lev1 x1 h1.op
  · simp only [Expr.lev]; decide

theorem r220 : RuleOK 220 := by
  intro _ cs k vs s v s' b e hp hi he hs hE
  obtain ⟨c1, _, v1, _, rfl, rfl, i1, c2, _, v2, _, rfl, rfl, i2, c3, _, v3, _, rfl, rfl, i3, c4, _, v4, _, rfl, rfl, i4, c5, _, v5, _, rfl, rfl, i5, c6, _, v6, _, rfl, rfl, i6, rfl, rfl⟩ : IsL [N.operand, T.NOT, T.IN, T.LPAREN, N.expr_list, T.RPAREN] cs k vs e := hi e hs
  obtain ⟨x1, w1, h1⟩ : ∃ (x : Expr), c1.ws _ = x.words ∧ OpE x c1 := i1
  obtain ⟨w2, rfl⟩ : c2.ws _ = [.kw T.NOT] ∧ v2 = .undef := i2
  obtain ⟨w3, rfl⟩ : c3.ws _ = [.kw T.IN] ∧ v3 = .undef := i3
  obtain ⟨w4, rfl⟩ : c4.ws _ = [.kw T.LPAREN] ∧ v4 = .undef := i4
  obtain ⟨x5, w5⟩ : ∃ (x : Items), c5.ws _ = x.words := i5
  obtain ⟨w6, rfl⟩ : c6.ws _ = [.kw T.RPAREN] ∧ v6 = .undef := i6
  show ∃ (x : Expr), (Tree.node 220 [c1, c2, c3, c4, c5, c6]).ws k = x.words ∧ ExE x (Tree.node 220 [c1, c2, c3, c4, c5, c6])
  have f1 : x1.fitL 2 = true := h1.fitL (a := T.NOT) (by decide) (prec_first hp w2)
  have g1 := f1
  unfold Expr.fitL at g1
  refine ⟨.inList true x1 x5, by rw [ws_node]; simp only [wsL, w1, w2, w3, w4, w5, w6, Expr.words, par, f1, cond_true, cat], .two ?_ ?_⟩
  · simp only [Expr.lev, g1, cond_true]; have := opnd_lev1 x1 h1.op; omega
  · simp only [Expr.lev]; decide

theorem r221 : RuleOK 221 := by
  intro _ cs k vs s v s' b e hp hi he hs hE
  obtain ⟨c1, _, v1, _, rfl, rfl, i1, c2, _, v2, _, rfl, rfl, i2, c3, _, v3, _, rfl, rfl, i3, c4, _, v4, _, rfl, rfl, i4, c5, _, v5, _, rfl, rfl, i5, rfl, rfl⟩ : IsL [N.operand, T.IN, T.LPAREN, N.select_no_paren, T.RPAREN] cs k vs e := hi e hs
  obtain ⟨x1, w1, h1⟩ : ∃ (x : Expr), c1.ws _ = x.words ∧ OpE x c1 := i1
  obtain ⟨w2, rfl⟩ : c2.ws _ = [.kw T.IN] ∧ v2 = .undef := i2
  obtain ⟨w3, rfl⟩ : c3.ws _ = [.kw T.LPAREN] ∧ v3 = .undef := i3
  obtain ⟨x4, w4⟩ : ∃ (x : Sel), c4.ws _ = x.words := i4
  obtain ⟨w5, rfl⟩ : c5.ws _ = [.kw T.RPAREN] ∧ v5 = .undef := i5
  show ∃ (x : Expr), (Tree.node 221 [c1, c2, c3, c4, c5]).ws k = x.words ∧ ExE x (Tree.node 221 [c1, c2, c3, c4, c5])
  refine ⟨.inQuery false x1 x4, by rw [ws_node]; simp only [wsL, w1, w2, w3, w4, w5, Expr.words, par, h1.op, cond_true, cat], .two ?_ ?_⟩
  · simp only [Expr.lev, h1.op, cond_true]; exact opnd_lev1 x1 h1.op
  · simp only [Expr.lev]; decide

theorem r222 : RuleOK 222 := by
  intro _ cs k vs s v s' b e hp hi he hs hE
  obtain ⟨c1, _, v1, _, rfl, rfl, i1, c2, _, v2, _, rfl, rfl, i2, c3, _, v3, _, rfl, rfl, i3, c4, _, v4, _, rfl, rfl, i4, c5, _, v5, _, rfl, rfl, i5, c6, _, v6, _, rfl, rfl, i6, rfl, rfl⟩ : IsL [N.operand, T.NOT, T.IN, T.LPAREN, N.select_no_paren, T.RPAREN] cs k vs e := hi e hs
  obtain ⟨x1, w1, h1⟩ : ∃ (x : Expr), c1.ws _ = x.words ∧ OpE x c1 := i1
  obtain ⟨w2, rfl⟩ : c2.ws _ = [.kw T.NOT] ∧ v2 = .undef := i2
  obtain ⟨w3, rfl⟩ : c3.ws _ = [.kw T.IN] ∧ v3 = .undef := i3
  obtain ⟨w4, rfl⟩ : c4.ws _ = [.kw T.LPAREN] ∧ v4 = .undef := i4
  obtain ⟨x5, w5⟩ : ∃ (x : Sel), c5.ws _ = x.words := i5
  obtain ⟨w6, rfl⟩ : c6.ws _ = [.kw T.RPAREN] ∧ v6 = .undef := i6
  show ∃ (x : Expr), (Tree.node 222 [c1, c2, c3, c4, c5, c6]).ws k = x.words ∧ ExE x (Tree.node 222 [c1, c2, c3, c4, c5, c6])
  have f1 : x1.fitL 2 = true := h1.fitL (a := T.NOT) (by decide) (prec_first hp w2)
  have g1 := f1
  unfold Expr.fitL at g1
  refine ⟨.inQuery true x1 x5, by rw [ws_node]; simp only [wsL, w1, w2, w3, w4, w5, w6, Expr.words, par, f1, cond_true, cat], .two ?_ ?_⟩
  · simp only [Expr.lev, g1, cond_true]; have := opnd_lev1 x1 h1.op; omega
  · simp only [Expr.lev]; decide

theorem r223 : RuleOK 223 := by
  intro _ cs k vs s v s' b e hp hi he hs hE
  obtain ⟨c1, _, v1, _, rfl, rfl, i1, c2, _, v2, _, rfl, rfl, i2, c3, _, v3, _, rfl, rfl, i3, c4, _, v4, _, rfl, rfl, i4, rfl, rfl⟩ : IsL [T.CASE, N.expr, N.case_list, T.END] cs k vs e := hi e hs
  obtain ⟨w1, rfl⟩ : c1.ws _ = [.kw T.CASE] ∧ v1 = .undef := i1
  obtain ⟨x2, w2, h2⟩ : ∃ (x : Expr), c2.ws _ = x.words ∧ ExE x c2 := i2
  obtain ⟨x3, w3⟩ : ∃ (x : Whens), c3.ws _ = x.words := i3
  obtain ⟨w4, rfl⟩ : c4.ws _ = [.kw T.END] ∧ v4 = .undef := i4
  show ∃ (x : Expr), (Tree.node 223 [c1, c2, c3, c4]).ws k = x.words ∧ OpE x (Tree.node 223 [c1, c2, c3, c4])
  exact ⟨.case (.some x2) x3 .none, by rw [ws_node]; simp only [wsL, w1, w2, w3, w4] <;> first | rfl | simp [havingW, Group.words, cat], .atom rfl rfl⟩

theorem r224 : RuleOK 224 := by
  intro _ cs k vs s v s' b e hp hi he hs hE
  obtain ⟨c1, _, v1, _, rfl, rfl, i1, c2, _, v2, _, rfl, rfl, i2, c3, _, v3, _, rfl, rfl, i3, c4, _, v4, _, rfl, rfl, i4, c5, _, v5, _, rfl, rfl, i5, c6, _, v6, _, rfl, rfl, i6, rfl, rfl⟩ : IsL [T.CASE, N.expr, N.case_list, T.ELSE, N.expr, T.END] cs k vs e := hi e hs
  obtain ⟨w1, rfl⟩ : c1.ws _ = [.kw T.CASE] ∧ v1 = .undef := i1
  obtain ⟨x2, w2, h2⟩ : ∃ (x : Expr), c2.ws _ = x.words ∧ ExE x c2 := i2
  obtain ⟨x3, w3⟩ : ∃ (x : Whens), c3.ws _ = x.words := i3
  obtain ⟨w4, rfl⟩ : c4.ws _ = [.kw T.ELSE] ∧ v4 = .undef := i4
  obtain ⟨x5, w5, h5⟩ : ∃ (x : Expr), c5.ws _ = x.words ∧ ExE x c5 := i5
  obtain ⟨w6, rfl⟩ : c6.ws _ = [.kw T.END] ∧ v6 = .undef := i6
  show ∃ (x : Expr), (Tree.node 224 [c1, c2, c3, c4, c5, c6]).ws k = x.words ∧ OpE x (Tree.node 224 [c1, c2, c3, c4, c5, c6])
  exact ⟨.case (.some x2) x3 (.some x5), by rw [ws_node]; simp only [wsL, w1, w2, w3, w4, w5, w6] <;> first | rfl | simp [havingW, Group.words, cat], .atom rfl rfl⟩

theorem r225 : RuleOK 225 := by
  intro _ cs k vs s v s' b e hp hi he hs hE
  obtain ⟨c1, _, v1, _, rfl, rfl, i1, c2, _, v2, _, rfl, rfl, i2, c3, _, v3, _, rfl, rfl, i3, rfl, rfl⟩ : IsL [T.CASE, N.case_list, T.END] cs k vs e := hi e hs
  obtain ⟨w1, rfl⟩ : c1.ws _ = [.kw T.CASE] ∧ v1 = .undef := i1
  obtain ⟨x2, w2⟩ : ∃ (x : Whens), c2.ws _ = x.words := i2
  obtain ⟨w3, rfl⟩ : c3.ws _ = [.kw T.END] ∧ v3 = .undef := i3
  show ∃ (x : Expr), (Tree.node 225 [c1, c2, c3]).ws k = x.words ∧ OpE x (Tree.node 225 [c1, c2, c3])
  exact ⟨.case .none x2 .none, by rw [ws_node]; simp only [wsL, w1, w2, w3] <;> first | rfl | simp [havingW, Group.words, cat], .atom rfl rfl⟩

theorem r226 : RuleOK 226 := by
  intro _ cs k vs s v s' b e hp hi he hs hE
  obtain ⟨c1, _, v1, _, rfl, rfl, i1, c2, _, v2, _, rfl, rfl, i2, c3, _, v3, _, rfl, rfl, i3, c4, _, v4, _, rfl, rfl, i4, c5, _, v5, _, rfl, rfl, i5, rfl, rfl⟩ : IsL [T.CASE, N.case_list, T.ELSE, N.expr, T.END] cs k vs e := hi e hs
  obtain ⟨w1, rfl⟩ : c1.ws _ = [.kw T.CASE] ∧ v1 = .undef := i1
  obtain ⟨x2, w2⟩ : ∃ (x : Whens), c2.ws _ = x.words := i2
  obtain ⟨w3, rfl⟩ : c3.ws _ = [.kw T.ELSE] ∧ v3 = .undef := i3
  obtain ⟨x4, w4, h4⟩ : ∃ (x : Expr), c4.ws _ = x.words ∧ ExE x c4 := i4
  obtain ⟨w5, rfl⟩ : c5.ws _ = [.kw T.END] ∧ v5 = .undef := i5
  show ∃ (x : Expr), (Tree.node 226 [c1, c2, c3, c4, c5]).ws k = x.words ∧ OpE x (Tree.node 226 [c1, c2, c3, c4, c5])
  exact ⟨.case .none x2 (.some x4), by rw [ws_node]; simp only [wsL, w1, w2, w3, w4, w5] <;> first | rfl | simp [havingW, Group.words, cat], .atom rfl rfl⟩

theorem r227 : RuleOK 227 := by
  intro _ cs k vs s v s' b e hp hi he hs hE
  obtain ⟨c1, _, v1, _, rfl, rfl, i1, c2, _, v2, _, rfl, rfl, i2, c3, _, v3, _, rfl, rfl, i3, c4, _, v4, _, rfl, rfl, i4, rfl, rfl⟩ : IsL [T.WHEN, N.expr, T.THEN, N.expr] cs k vs e := hi e hs
  obtain ⟨w1, rfl⟩ : c1.ws _ = [.kw T.WHEN] ∧ v1 = .undef := i1
  obtain ⟨x2, w2, h2⟩ : ∃ (x : Expr), c2.ws _ = x.words ∧ ExE x c2 := i2
  obtain ⟨w3, rfl⟩ : c3.ws _ = [.kw T.THEN] ∧ v3 = .undef := i3
  obtain ⟨x4, w4, h4⟩ : ∃ (x : Expr), c4.ws _ = x.words ∧ ExE x c4 := i4
  show ∃ (x : Whens), (Tree.node 227 [c1, c2, c3, c4]).ws k = x.words
  exact ⟨.one x2 x4, by rw [ws_node]; simp only [wsL, w1, w2, w3, w4] <;> first | rfl | simp [havingW, Group.words, cat]⟩

theorem r228 : RuleOK 228 := by
  intro _ cs k vs s v s' b e hp hi he hs hE
  obtain ⟨c1, _, v1, _, rfl, rfl, i1, c2, _, v2, _, rfl, rfl, i2, c3, _, v3, _, rfl, rfl, i3, c4, _, v4, _, rfl, rfl, i4, c5, _, v5, _, rfl, rfl, i5, rfl, rfl⟩ : IsL [N.case_list, T.WHEN, N.expr, T.THEN, N.expr] cs k vs e := hi e hs
  obtain ⟨x1, w1⟩ : ∃ (x : Whens), c1.ws _ = x.words := i1
  obtain ⟨w2, rfl⟩ : c2.ws _ = [.kw T.WHEN] ∧ v2 = .undef := i2
  obtain ⟨x3, w3, h3⟩ : ∃ (x : Expr), c3.ws _ = x.words ∧ ExE x c3 := i3
  obtain ⟨w4, rfl⟩ : c4.ws _ = [.kw T.THEN] ∧ v4 = .undef := i4
  obtain ⟨x5, w5, h5⟩ : ∃ (x : Expr), c5.ws _ = x.words ∧ ExE x c5 := i5
  show ∃ (x : Whens), (Tree.node 228 [c1, c2, c3, c4, c5]).ws k = x.words
  exact ⟨.snoc x1 x3 x5, by rw [ws_node]; simp only [wsL, w1, w2, w3, w4, w5] <;> first | rfl | simp [havingW, Group.words, cat]⟩

theorem r229 : RuleOK 229 := by
  intro _ cs k vs s v s' b e hp hi he hs hE
  obtain ⟨c1, _, v1, _, rfl, rfl, i1, c2, _, v2, _, rfl, rfl, i2, c3, _, v3, _, rfl, rfl, i3, c4, _, v4, _, rfl, rfl, i4, rfl, rfl⟩ : IsL [T.EXISTS, T.LPAREN, N.select_no_paren, T.RPAREN] cs k vs e := hi e hs
  obtain ⟨w1, rfl⟩ : c1.ws _ = [.kw T.EXISTS] ∧ v1 = .undef := i1
  obtain ⟨w2, rfl⟩ : c2.ws _ = [.kw T.LPAREN] ∧ v2 = .undef := i2
  obtain ⟨x3, w3⟩ : ∃ (x : Sel), c3.ws _ = x.words := i3
  obtain ⟨w4, rfl⟩ : c4.ws _ = [.kw T.RPAREN] ∧ v4 = .undef := i4
  show ∃ (x : Expr), (Tree.node 229 [c1, c2, c3, c4]).ws k = x.words ∧ ExE x (Tree.node 229 [c1, c2, c3, c4])
  exact ⟨.exist false x3, by rw [ws_node]; simp only [wsL, w1, w2, w3, w4] <;> first | rfl | simp [havingW, Group.words, cat], .two (by simp only [Expr.lev]; decide) (by simp only [Expr.lev]; decide)⟩

theorem r230 : RuleOK 230 := by
  intro _ cs k vs s v s' b e hp hi he hs hE
  obtain ⟨c1, _, v1, _, rfl, rfl, i1, c2, _, v2, _, rfl, rfl, i2, c3, _, v3, _, rfl, rfl, i3, c4, _, v4, _, rfl, rfl, i4, c5, _, v5, _, rfl, rfl, i5, rfl, rfl⟩ : IsL [T.NOT, T.EXISTS, T.LPAREN, N.select_no_paren, T.RPAREN] cs k vs e := hi e hs
  obtain ⟨w1, rfl⟩ : c1.ws _ = [.kw T.NOT] ∧ v1 = .undef := i1
  obtain ⟨w2, rfl⟩ : c2.ws _ = [.kw T.EXISTS] ∧ v2 = .undef := i2
  obtain ⟨w3, rfl⟩ : c3.ws _ = [.kw T.LPAREN] ∧ v3 = .undef := i3
  obtain ⟨x4, w4⟩ : ∃ (x : Sel), c4.ws _ = x.words := i4
  obtain ⟨w5, rfl⟩ : c5.ws _ = [.kw T.RPAREN] ∧ v5 = .undef := i5
  show ∃ (x : Expr), (Tree.node 230 [c1, c2, c3, c4, c5]).ws k = x.words ∧ ExE x (Tree.node 230 [c1, c2, c3, c4, c5])
  exact ⟨.exist true x4, by rw [ws_node]; simp only [wsL, w1, w2, w3, w4, w5] <;> first | rfl | simp [havingW, Group.words, cat], .two (by simp only [Expr.lev]; decide) (by simp only [Expr.lev]; decide)⟩

theorem r231 : RuleOK 231 := by
  intro _ cs k vs s v s' b e hp hi he hs hE
  obtain ⟨c1, _, v1, _, rfl, rfl, i1, c2, _, v2, _, rfl, rfl, i2, c3, _, v3, _, rfl, rfl, i3, rfl, rfl⟩ : IsL [N.operand, T.EQ, N.operand] cs k vs e := hi e hs
  obtain ⟨x1, w1, h1⟩ : ∃ (x : Expr), c1.ws _ = x.words ∧ OpE x c1 := i1
  obtain ⟨w2, rfl⟩ : c2.ws _ = [.kw T.EQ] ∧ v2 = .undef := i2
  obtain ⟨x3, w3, h3⟩ : ∃ (x : Expr), c3.ws _ = x.words ∧ OpE x c3 := i3
  show ∃ (x : Expr), (Tree.node 231 [c1, c2, c3]).ws k = x.words ∧ OpE x (Tree.node 231 [c1, c2, c3])
  exact bin_is .eq (by decide) (by decide +kernel) rfl rfl (by decide +kernel) (by decide +kernel) rfl rfl hp w1 h1 w2 w3 h3

theorem r232 : RuleOK 232 := by
  intro _ cs k vs s v s' b e hp hi he hs hE
  obtain ⟨c1, _, v1, _, rfl, rfl, i1, c2, _, v2, _, rfl, rfl, i2, c3, _, v3, _, rfl, rfl, i3, rfl, rfl⟩ : IsL [N.operand, T.EQUALS, N.operand] cs k vs e := hi e hs
  obtain ⟨x1, w1, h1⟩ : ∃ (x : Expr), c1.ws _ = x.words ∧ OpE x c1 := i1
  obtain ⟨w2, rfl⟩ : c2.ws _ = [.kw T.EQUALS] ∧ v2 = .undef := i2
  obtain ⟨x3, w3, h3⟩ : ∃ (x : Expr), c3.ws _ = x.words ∧ OpE x c3 := i3
  show ∃ (x : Expr), (Tree.node 232 [c1, c2, c3]).ws k = x.words ∧ OpE x (Tree.node 232 [c1, c2, c3])
  exact bin_is .eq2 (by decide) (by decide +kernel) rfl rfl (by decide +kernel) (by decide +kernel) rfl rfl hp w1 h1 w2 w3 h3

theorem r233 : RuleOK 233 := by
  intro _ cs k vs s v s' b e hp hi he hs hE
  obtain ⟨c1, _, v1, _, rfl, rfl, i1, c2, _, v2, _, rfl, rfl, i2, c3, _, v3, _, rfl, rfl, i3, rfl, rfl⟩ : IsL [N.operand, T.NOTEQUALS, N.operand] cs k vs e := hi e hs
  obtain ⟨x1, w1, h1⟩ : ∃ (x : Expr), c1.ws _ = x.words ∧ OpE x c1 := i1
  obtain ⟨w2, rfl⟩ : c2.ws _ = [.kw T.NOTEQUALS] ∧ v2 = .undef := i2
  obtain ⟨x3, w3, h3⟩ : ∃ (x : Expr), c3.ws _ = x.words ∧ OpE x c3 := i3
  show ∃ (x : Expr), (Tree.node 233 [c1, c2, c3]).ws k = x.words ∧ OpE x (Tree.node 233 [c1, c2, c3])
  exact bin_is .ne (by decide) (by decide +kernel) rfl rfl (by decide +kernel) (by decide +kernel) rfl rfl hp w1 h1 w2 w3 h3

theorem r234 : RuleOK 234 := by
  intro _ cs k vs s v s' b e hp hi he hs hE
  obtain ⟨c1, _, v1, _, rfl, rfl, i1, c2, _, v2, _, rfl, rfl, i2, c3, _, v3, _, rfl, rfl, i3, rfl, rfl⟩ : IsL [N.operand, T.LT, N.operand] cs k vs e := hi e hs
  obtain ⟨x1, w1, h1⟩ : ∃ (x : Expr), c1.ws _ = x.words ∧ OpE x c1 := i1
  obtain ⟨w2, rfl⟩ : c2.ws _ = [.kw T.LT] ∧ v2 = .undef := i2
  obtain ⟨x3, w3, h3⟩ : ∃ (x : Expr), c3.ws _ = x.words ∧ OpE x c3 := i3
  show ∃ (x : Expr), (Tree.node 234 [c1, c2, c3]).ws k = x.words ∧ OpE x (Tree.node 234 [c1, c2, c3])
  exact bin_is .lt (by decide) (by decide +kernel) rfl rfl (by decide +kernel) (by decide +kernel) rfl rfl hp w1 h1 w2 w3 h3

theorem r235 : RuleOK 235 := by
  intro _ cs k vs s v s' b e hp hi he hs hE
  obtain ⟨c1, _, v1, _, rfl, rfl, i1, c2, _, v2, _, rfl, rfl, i2, c3, _, v3, _, rfl, rfl, i3, rfl, rfl⟩ : IsL [N.operand, T.GT, N.operand] cs k vs e := hi e hs
  obtain ⟨x1, w1, h1⟩ : ∃ (x : Expr), c1.ws _ = x.words ∧ OpE x c1 := i1
  obtain ⟨w2, rfl⟩ : c2.ws _ = [.kw T.GT] ∧ v2 = .undef := i2
  obtain ⟨x3, w3, h3⟩ : ∃ (x : Expr), c3.ws _ = x.words ∧ OpE x c3 := i3
  show ∃ (x : Expr), (Tree.node 235 [c1, c2, c3]).ws k = x.words ∧ OpE x (Tree.node 235 [c1, c2, c3])
  exact bin_is .gt (by decide) (by decide +kernel) rfl rfl (by decide +kernel) (by decide +kernel) rfl rfl hp w1 h1 w2 w3 h3

theorem r236 : RuleOK 236 := by
  intro _ cs k vs s v s' b e hp hi he hs hE
  obtain ⟨c1, _, v1, _, rfl, rfl, i1, c2, _, v2, _, rfl, rfl, i2, c3, _, v3, _, rfl, rfl, i3, rfl, rfl⟩ : IsL [N.operand, T.LESSEQ, N.operand] cs k vs e := hi e hs
  obtain ⟨x1, w1, h1⟩ : ∃ (x : Expr), c1.ws _ = x.words ∧ OpE x c1 := i1
  obtain ⟨w2, rfl⟩ : c2.ws _ = [.kw T.LESSEQ] ∧ v2 = .undef := i2
  obtain ⟨x3, w3, h3⟩ : ∃ (x : Expr), c3.ws _ = x.words ∧ OpE x c3 := i3
  show ∃ (x : Expr), (Tree.node 236 [c1, c2, c3]).ws k = x.words ∧ OpE x (Tree.node 236 [c1, c2, c3])
  exact bin_is .le (by decide) (by decide +kernel) rfl rfl (by decide +kernel) (by decide +kernel) rfl rfl hp w1 h1 w2 w3 h3

theorem r237 : RuleOK 237 := by
  intro _ cs k vs s v s' b e hp hi he hs hE
  obtain ⟨c1, _, v1, _, rfl, rfl, i1, c2, _, v2, _, rfl, rfl, i2, c3, _, v3, _, rfl, rfl, i3, rfl, rfl⟩ : IsL [N.operand, T.GREATEREQ, N.operand] cs k vs e := hi e hs
  obtain ⟨x1, w1, h1⟩ : ∃ (x : Expr), c1.ws _ = x.words ∧ OpE x c1 := i1
  obtain ⟨w2, rfl⟩ : c2.ws _ = [.kw T.GREATEREQ] ∧ v2 = .undef := i2
  obtain ⟨x3, w3, h3⟩ : ∃ (x : Expr), c3.ws _ = x.words ∧ OpE x c3 := i3
  show ∃ (x : Expr), (Tree.node 237 [c1, c2, c3]).ws k = x.words ∧ OpE x (Tree.node 237 [c1, c2, c3])
  exact bin_is .ge (by decide) (by decide +kernel) rfl rfl (by decide +kernel) (by decide +kernel) rfl rfl hp w1 h1 w2 w3 h3

theorem r238 : RuleOK 238 := by
  intro _ cs k vs s v s' b e hp hi he hs hE
  obtain ⟨c1, _, v1, _, rfl, rfl, i1, c2, _, v2, _, rfl, rfl, i2, c3, _, v3, _, rfl, rfl, i3, c4, _, v4, _, rfl, rfl, i4, rfl, rfl⟩ : IsL [T.IDENTIFIER, T.LPAREN, T.RPAREN, N.opt_window] cs k vs e := hi e hs
  obtain ⟨x1, w1, rfl⟩ : ∃ x : Name, c1.ws _ = nm x ∧ v1 = .str 0 x := i1
  obtain ⟨w2, rfl⟩ : c2.ws _ = [.kw T.LPAREN] ∧ v2 = .undef := i2
  obtain ⟨w3, rfl⟩ : c3.ws _ = [.kw T.RPAREN] ∧ v3 = .undef := i3
  obtain ⟨x4, w4⟩ : ∃ (x : Window), c4.ws _ = x.words := i4
  show ∃ (x : Expr), (Tree.node 238 [c1, c2, c3, c4]).ws k = x.words ∧ OpE x (Tree.node 238 [c1, c2, c3, c4])
  exact ⟨.call none x1 .none x4, by rw [ws_node]; simp only [wsL, w1, w2, w3, w4] <;> first | rfl | simp [havingW, Group.words, cat], .atom rfl rfl⟩

theorem r239 : RuleOK 239 := by
  intro _ cs k vs s v s' b e hp hi he hs hE
  obtain ⟨c1, _, v1, _, rfl, rfl, i1, c2, _, v2, _, rfl, rfl, i2, c3, _, v3, _, rfl, rfl, i3, c4, _, v4, _, rfl, rfl, i4, c5, _, v5, _, rfl, rfl, i5, c6, _, v6, _, rfl, rfl, i6, rfl, rfl⟩ : IsL [T.IDENTIFIER, T.LPAREN, N.opt_distinct, N.expr_list, T.RPAREN, N.opt_window] cs k vs e := hi e hs
  obtain ⟨x1, w1, rfl⟩ : ∃ x : Name, c1.ws _ = nm x ∧ v1 = .str 0 x := i1
  obtain ⟨w2, rfl⟩ : c2.ws _ = [.kw T.LPAREN] ∧ v2 = .undef := i2
  obtain ⟨x3, w3⟩ : ∃ (x : Bool), c3.ws _ = distinctKw x := i3
  obtain ⟨x4, w4⟩ : ∃ (x : Items), c4.ws _ = x.words := i4
  obtain ⟨w5, rfl⟩ : c5.ws _ = [.kw T.RPAREN] ∧ v5 = .undef := i5
  obtain ⟨x6, w6⟩ : ∃ (x : Window), c6.ws _ = x.words := i6
  show ∃ (x : Expr), (Tree.node 239 [c1, c2, c3, c4, c5, c6]).ws k = x.words ∧ OpE x (Tree.node 239 [c1, c2, c3, c4, c5, c6])
  exact ⟨.call none x1 (.some x3 x4) x6, by rw [ws_node]; cases x3 <;> simp only [wsL, w1, w2, w3, w4, w5, w6] <;> first | rfl | simp [havingW, Group.words, cat], .atom rfl rfl⟩

end Verif.Sql.Read

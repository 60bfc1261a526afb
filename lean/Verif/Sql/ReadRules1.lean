import Verif.Sql.ReadTools
/-! GENERATED by tools/genread.py. The words of a tree, rule by rule. Proof-internal. -/
set_option linter.all false
set_option maxRecDepth 20000
namespace Verif.Sql.Read
open Verif.Lex Verif.LR Verif.Sem

theorem r0 : RuleOK 0 := fun h => absurd h (by omega)

theorem r1 : RuleOK 1 := fun h => absurd h (by omega)

theorem r2 : RuleOK 2 := fun _ _ _ _ _ _ _ _ _ _ _ _ _ _ => trivial

theorem r3 : RuleOK 3 := by
  intro _ cs k vs s v s' b e hp hi he hs hE
  obtain ⟨c1, _, v1, _, rfl, rfl, i1, rfl, rfl⟩ : IsL [N.statement] cs k vs e := hi e hs
  obtain ⟨x1, w1⟩ : ∃ (x : Item), c1.ws _ = x.words := i1
  show ∃ (x : Script), (Tree.node 3 [c1]).ws k = x.words
  exact ⟨.one x1, by rw [ws_node]; simp only [wsL, w1] <;> first | rfl | simp [havingW, Group.words, cat]⟩

theorem r4 : RuleOK 4 := by
  intro _ cs k vs s v s' b e hp hi he hs hE
  obtain ⟨c1, _, v1, _, rfl, rfl, i1, c2, _, v2, _, rfl, rfl, i2, c3, _, v3, _, rfl, rfl, i3, rfl, rfl⟩ : IsL [N.statement_list, T.SEMI, N.statement] cs k vs e := hi e hs
  obtain ⟨x1, w1⟩ : ∃ (x : Script), c1.ws _ = x.words := i1
  obtain ⟨w2, rfl⟩ : c2.ws _ = [.kw T.SEMI] ∧ v2 = .undef := i2
  obtain ⟨x3, w3⟩ : ∃ (x : Item), c3.ws _ = x.words := i3
  show ∃ (x : Script), (Tree.node 4 [c1, c2, c3]).ws k = x.words
  exact ⟨.snoc x1 x3, by rw [ws_node]; simp only [wsL, w1, w2, w3] <;> first | rfl | simp [havingW, Group.words, cat]⟩

theorem r5 : RuleOK 5 := by
  intro _ cs k vs s v s' b e hp hi he hs hE
  obtain ⟨c1, _, v1, _, rfl, rfl, i1, c2, _, v2, _, rfl, rfl, i2, rfl, rfl⟩ : IsL [N.prepare_statement, N.opt_hints] cs k vs e := hi e hs
  obtain ⟨x1, w1⟩ : ∃ (x : Stmt), c1.ws _ = x.words := i1
  obtain ⟨x2, w2⟩ : ∃ (x : Hints), c2.ws _ = x.words := i2
  show ∃ (x : Item), (Tree.node 5 [c1, c2]).ws k = x.words
  exact ⟨.stmt x1 x2, by rw [ws_node]; simp only [wsL, w1, w2] <;> first | rfl | simp [havingW, Group.words, cat]⟩

theorem r6 : RuleOK 6 := by
  intro _ cs k vs s v s' b e hp hi he hs hE
  obtain ⟨c1, _, v1, _, rfl, rfl, i1, c2, _, v2, _, rfl, rfl, i2, rfl, rfl⟩ : IsL [N.preparable_statement, N.opt_hints] cs k vs e := hi e hs
  obtain ⟨x1, w1⟩ : ∃ (x : Stmt), c1.ws _ = x.words := i1
  obtain ⟨x2, w2⟩ : ∃ (x : Hints), c2.ws _ = x.words := i2
  show ∃ (x : Item), (Tree.node 6 [c1, c2]).ws k = x.words
  exact ⟨.stmt x1 x2, by rw [ws_node]; simp only [wsL, w1, w2] <;> first | rfl | simp [havingW, Group.words, cat]⟩

theorem r7 : RuleOK 7 := by
  intro _ cs k vs s v s' b e hp hi he hs hE
  obtain ⟨c1, _, v1, _, rfl, rfl, i1, rfl, rfl⟩ : IsL [N.show_statement] cs k vs e := hi e hs
  obtain ⟨x1, w1⟩ : ∃ (x : Item), c1.ws _ = x.words := i1
  show ∃ (x : Item), (Tree.node 7 [c1]).ws k = x.words
  exact ⟨x1, by rw [ws_node]; simp only [wsL, w1] <;> first | rfl | simp [havingW, Group.words, cat]⟩

theorem r8 : RuleOK 8 := by
  intro _ cs k vs s v s' b e hp hi he hs hE
  obtain ⟨c1, _, v1, _, rfl, rfl, i1, rfl, rfl⟩ : IsL [N.import_statement] cs k vs e := hi e hs
  obtain ⟨x1, w1⟩ : ∃ (x : Item), c1.ws _ = x.words := i1
  show ∃ (x : Item), (Tree.node 8 [c1]).ws k = x.words
  exact ⟨x1, by rw [ws_node]; simp only [wsL, w1] <;> first | rfl | simp [havingW, Group.words, cat]⟩

theorem r9 : RuleOK 9 := by
  intro _ cs k vs s v s' b e hp hi he hs hE
  obtain ⟨c1, _, v1, _, rfl, rfl, i1, rfl, rfl⟩ : IsL [N.export_statement] cs k vs e := hi e hs
  obtain ⟨x1, w1⟩ : ∃ (x : Item), c1.ws _ = x.words := i1
  show ∃ (x : Item), (Tree.node 9 [c1]).ws k = x.words
  exact ⟨x1, by rw [ws_node]; simp only [wsL, w1] <;> first | rfl | simp [havingW, Group.words, cat]⟩

theorem r10 : RuleOK 10 := by
  intro _ cs k vs s v s' b e hp hi he hs hE
  obtain ⟨c1, _, v1, _, rfl, rfl, i1, rfl, rfl⟩ : IsL [N.select_statement] cs k vs e := hi e hs
  obtain ⟨x1, w1⟩ : ∃ (x : Query), c1.ws _ = x.words := i1
  show ∃ (x : Stmt), (Tree.node 10 [c1]).ws k = x.words
  exact ⟨.query x1, by rw [ws_node]; simp only [wsL, w1] <;> first | rfl | simp [havingW, Group.words, cat]⟩

theorem r11 : RuleOK 11 := by
  intro _ cs k vs s v s' b e hp hi he hs hE
  obtain ⟨c1, _, v1, _, rfl, rfl, i1, rfl, rfl⟩ : IsL [N.create_statement] cs k vs e := hi e hs
  obtain ⟨x1, w1⟩ : ∃ (x : Stmt), c1.ws _ = x.words := i1
  show ∃ (x : Stmt), (Tree.node 11 [c1]).ws k = x.words
  exact ⟨x1, by rw [ws_node]; simp only [wsL, w1] <;> first | rfl | simp [havingW, Group.words, cat]⟩

theorem r12 : RuleOK 12 := by
  intro _ cs k vs s v s' b e hp hi he hs hE
  obtain ⟨c1, _, v1, _, rfl, rfl, i1, rfl, rfl⟩ : IsL [N.insert_statement] cs k vs e := hi e hs
  obtain ⟨x1, w1⟩ : ∃ (x : Stmt), c1.ws _ = x.words := i1
  show ∃ (x : Stmt), (Tree.node 12 [c1]).ws k = x.words
  exact ⟨x1, by rw [ws_node]; simp only [wsL, w1] <;> first | rfl | simp [havingW, Group.words, cat]⟩

theorem r13 : RuleOK 13 := by
  intro _ cs k vs s v s' b e hp hi he hs hE
  obtain ⟨c1, _, v1, _, rfl, rfl, i1, rfl, rfl⟩ : IsL [N.delete_statement] cs k vs e := hi e hs
  obtain ⟨x1, w1⟩ : ∃ (x : Stmt), c1.ws _ = x.words := i1
  show ∃ (x : Stmt), (Tree.node 13 [c1]).ws k = x.words
  exact ⟨x1, by rw [ws_node]; simp only [wsL, w1] <;> first | rfl | simp [havingW, Group.words, cat]⟩

theorem r14 : RuleOK 14 := by
  intro _ cs k vs s v s' b e hp hi he hs hE
  obtain ⟨c1, _, v1, _, rfl, rfl, i1, rfl, rfl⟩ : IsL [N.truncate_statement] cs k vs e := hi e hs
  obtain ⟨x1, w1⟩ : ∃ (x : Stmt), c1.ws _ = x.words := i1
  show ∃ (x : Stmt), (Tree.node 14 [c1]).ws k = x.words
  exact ⟨x1, by rw [ws_node]; simp only [wsL, w1] <;> first | rfl | simp [havingW, Group.words, cat]⟩

theorem r15 : RuleOK 15 := by
  intro _ cs k vs s v s' b e hp hi he hs hE
  obtain ⟨c1, _, v1, _, rfl, rfl, i1, rfl, rfl⟩ : IsL [N.update_statement] cs k vs e := hi e hs
  obtain ⟨x1, w1⟩ : ∃ (x : Stmt), c1.ws _ = x.words := i1
  show ∃ (x : Stmt), (Tree.node 15 [c1]).ws k = x.words
  exact ⟨x1, by rw [ws_node]; simp only [wsL, w1] <;> first | rfl | simp [havingW, Group.words, cat]⟩

theorem r16 : RuleOK 16 := by
  intro _ cs k vs s v s' b e hp hi he hs hE
  obtain ⟨c1, _, v1, _, rfl, rfl, i1, rfl, rfl⟩ : IsL [N.drop_statement] cs k vs e := hi e hs
  obtain ⟨x1, w1⟩ : ∃ (x : Stmt), c1.ws _ = x.words := i1
  show ∃ (x : Stmt), (Tree.node 16 [c1]).ws k = x.words
  exact ⟨x1, by rw [ws_node]; simp only [wsL, w1] <;> first | rfl | simp [havingW, Group.words, cat]⟩

theorem r17 : RuleOK 17 := by
  intro _ cs k vs s v s' b e hp hi he hs hE
  obtain ⟨c1, _, v1, _, rfl, rfl, i1, rfl, rfl⟩ : IsL [N.alter_statement] cs k vs e := hi e hs
  obtain ⟨x1, w1⟩ : ∃ (x : Stmt), c1.ws _ = x.words := i1
  show ∃ (x : Stmt), (Tree.node 17 [c1]).ws k = x.words
  exact ⟨x1, by rw [ws_node]; simp only [wsL, w1] <;> first | rfl | simp [havingW, Group.words, cat]⟩

theorem r18 : RuleOK 18 := by
  intro _ cs k vs s v s' b e hp hi he hs hE
  obtain ⟨c1, _, v1, _, rfl, rfl, i1, rfl, rfl⟩ : IsL [N.execute_statement] cs k vs e := hi e hs
  obtain ⟨x1, w1⟩ : ∃ (x : Stmt), c1.ws _ = x.words := i1
  show ∃ (x : Stmt), (Tree.node 18 [c1]).ws k = x.words
  exact ⟨x1, by rw [ws_node]; simp only [wsL, w1] <;> first | rfl | simp [havingW, Group.words, cat]⟩

theorem r19 : RuleOK 19 := by
  intro _ cs k vs s v s' b e hp hi he hs hE
  obtain ⟨c1, _, v1, _, rfl, rfl, i1, rfl, rfl⟩ : IsL [N.transaction_statement] cs k vs e := hi e hs
  obtain ⟨x1, w1⟩ : ∃ (x : Stmt), c1.ws _ = x.words := i1
  show ∃ (x : Stmt), (Tree.node 19 [c1]).ws k = x.words
  exact ⟨x1, by rw [ws_node]; simp only [wsL, w1] <;> first | rfl | simp [havingW, Group.words, cat]⟩

theorem r20 : RuleOK 20 := by
  intro _ cs k vs s v s' b e hp hi he hs hE
  obtain ⟨c1, _, v1, _, rfl, rfl, i1, c2, _, v2, _, rfl, rfl, i2, c3, _, v3, _, rfl, rfl, i3, c4, _, v4, _, rfl, rfl, i4, c5, _, v5, _, rfl, rfl, i5, rfl, rfl⟩ : IsL [T.WITH, T.HINT, T.LPAREN, N.hint_list, T.RPAREN] cs k vs e := hi e hs
  obtain ⟨w1, rfl⟩ : c1.ws _ = [.kw T.WITH] ∧ v1 = .undef := i1
  obtain ⟨w2, rfl⟩ : c2.ws _ = [.kw T.HINT] ∧ v2 = .undef := i2
  obtain ⟨w3, rfl⟩ : c3.ws _ = [.kw T.LPAREN] ∧ v3 = .undef := i3
  obtain ⟨x4, w4⟩ : ∃ (x : HintList), c4.ws _ = x.words := i4
  obtain ⟨w5, rfl⟩ : c5.ws _ = [.kw T.RPAREN] ∧ v5 = .undef := i5
  show ∃ (x : Hints), (Tree.node 20 [c1, c2, c3, c4, c5]).ws k = x.words
  exact ⟨.some x4, by rw [ws_node]; simp only [wsL, w1, w2, w3, w4, w5] <;> first | rfl | simp [havingW, Group.words, cat]⟩

theorem r21 : RuleOK 21 := by
  intro _ cs k vs s v s' b e hp hi he hs hE
  obtain ⟨rfl, rfl⟩ : IsL [] cs k vs e := hi e hs
  show ∃ (x : Hints), (Tree.node 21 []).ws k = x.words
  exact ⟨.none, by rw [ws_node]; simp only [wsL] <;> first | rfl | simp [havingW, Group.words, cat]⟩

theorem r22 : RuleOK 22 := by
  intro _ cs k vs s v s' b e hp hi he hs hE
  obtain ⟨c1, _, v1, _, rfl, rfl, i1, rfl, rfl⟩ : IsL [N.hint] cs k vs e := hi e hs
  obtain ⟨x1, w1⟩ : ∃ (x : Hint), c1.ws _ = x.words := i1
  show ∃ (x : HintList), (Tree.node 22 [c1]).ws k = x.words
  exact ⟨.one x1, by rw [ws_node]; simp only [wsL, w1] <;> first | rfl | simp [havingW, Group.words, cat]⟩

theorem r23 : RuleOK 23 := by
  intro _ cs k vs s v s' b e hp hi he hs hE
  obtain ⟨c1, _, v1, _, rfl, rfl, i1, c2, _, v2, _, rfl, rfl, i2, c3, _, v3, _, rfl, rfl, i3, rfl, rfl⟩ : IsL [N.hint_list, T.COMMA, N.hint] cs k vs e := hi e hs
  obtain ⟨x1, w1⟩ : ∃ (x : HintList), c1.ws _ = x.words := i1
  obtain ⟨w2, rfl⟩ : c2.ws _ = [.kw T.COMMA] ∧ v2 = .undef := i2
  obtain ⟨x3, w3⟩ : ∃ (x : Hint), c3.ws _ = x.words := i3
  show ∃ (x : HintList), (Tree.node 23 [c1, c2, c3]).ws k = x.words
  exact ⟨.snoc x1 x3, by rw [ws_node]; simp only [wsL, w1, w2, w3] <;> first | rfl | simp [havingW, Group.words, cat]⟩

theorem r24 : RuleOK 24 := by
  intro _ cs k vs s v s' b e hp hi he hs hE
  obtain ⟨c1, _, v1, _, rfl, rfl, i1, rfl, rfl⟩ : IsL [T.IDENTIFIER] cs k vs e := hi e hs
  obtain ⟨x1, w1, rfl⟩ : ∃ x : Name, c1.ws _ = nm x ∧ v1 = .str 0 x := i1
  show ∃ (x : Hint), (Tree.node 24 [c1]).ws k = x.words
  exact ⟨.name x1, by rw [ws_node]; simp only [wsL, w1] <;> first | rfl | simp [havingW, Group.words, cat]⟩

theorem r25 : RuleOK 25 := by
  intro _ cs k vs s v s' b e hp hi he hs hE
  obtain ⟨c1, _, v1, _, rfl, rfl, i1, c2, _, v2, _, rfl, rfl, i2, c3, _, v3, _, rfl, rfl, i3, c4, _, v4, _, rfl, rfl, i4, rfl, rfl⟩ : IsL [T.IDENTIFIER, T.LPAREN, N.extended_literal_list, T.RPAREN] cs k vs e := hi e hs
  obtain ⟨x1, w1, rfl⟩ : ∃ x : Name, c1.ws _ = nm x ∧ v1 = .str 0 x := i1
  obtain ⟨w2, rfl⟩ : c2.ws _ = [.kw T.LPAREN] ∧ v2 = .undef := i2
  obtain ⟨x3, w3⟩ : ∃ (x : XLits), c3.ws _ = x.words := i3
  obtain ⟨w4, rfl⟩ : c4.ws _ = [.kw T.RPAREN] ∧ v4 = .undef := i4
  show ∃ (x : Hint), (Tree.node 25 [c1, c2, c3, c4]).ws k = x.words
  exact ⟨.args x1 x3, by rw [ws_node]; simp only [wsL, w1, w2, w3, w4] <;> first | rfl | simp [havingW, Group.words, cat]⟩

theorem r26 : RuleOK 26 := by
  intro _ cs k vs s v s' b e hp hi he hs hE
  obtain ⟨c1, _, v1, _, rfl, rfl, i1, c2, _, v2, _, rfl, rfl, i2, rfl, rfl⟩ : IsL [T.BEGIN, N.opt_transaction_keyword] cs k vs e := hi e hs
  obtain ⟨w1, rfl⟩ : c1.ws _ = [.kw T.BEGIN] ∧ v1 = .undef := i1
  obtain ⟨x2, w2⟩ : ∃ (x : Bool), c2.ws _ = txW x := i2
  show ∃ (x : Stmt), (Tree.node 26 [c1, c2]).ws k = x.words
  exact ⟨.transaction .begin x2, by rw [ws_node]; cases x2 <;> simp only [wsL, w1, w2] <;> first | rfl | simp [havingW, Group.words, cat]⟩

theorem r27 : RuleOK 27 := by
  intro _ cs k vs s v s' b e hp hi he hs hE
  obtain ⟨c1, _, v1, _, rfl, rfl, i1, c2, _, v2, _, rfl, rfl, i2, rfl, rfl⟩ : IsL [T.ROLLBACK, N.opt_transaction_keyword] cs k vs e := hi e hs
  obtain ⟨w1, rfl⟩ : c1.ws _ = [.kw T.ROLLBACK] ∧ v1 = .undef := i1
  obtain ⟨x2, w2⟩ : ∃ (x : Bool), c2.ws _ = txW x := i2
  show ∃ (x : Stmt), (Tree.node 27 [c1, c2]).ws k = x.words
  exact ⟨.transaction .rollback x2, by rw [ws_node]; cases x2 <;> simp only [wsL, w1, w2] <;> first | rfl | simp [havingW, Group.words, cat]⟩

theorem r28 : RuleOK 28 := by
  intro _ cs k vs s v s' b e hp hi he hs hE
  obtain ⟨c1, _, v1, _, rfl, rfl, i1, c2, _, v2, _, rfl, rfl, i2, rfl, rfl⟩ : IsL [T.COMMIT, N.opt_transaction_keyword] cs k vs e := hi e hs
  obtain ⟨w1, rfl⟩ : c1.ws _ = [.kw T.COMMIT] ∧ v1 = .undef := i1
  obtain ⟨x2, w2⟩ : ∃ (x : Bool), c2.ws _ = txW x := i2
  show ∃ (x : Stmt), (Tree.node 28 [c1, c2]).ws k = x.words
  exact ⟨.transaction .commit x2, by rw [ws_node]; cases x2 <;> simp only [wsL, w1, w2] <;> first | rfl | simp [havingW, Group.words, cat]⟩

theorem r29 : RuleOK 29 := by
  intro _ cs k vs s v s' b e hp hi he hs hE
  obtain ⟨c1, _, v1, _, rfl, rfl, i1, rfl, rfl⟩ : IsL [T.TRANSACTION] cs k vs e := hi e hs
  obtain ⟨w1, rfl⟩ : c1.ws _ = [.kw T.TRANSACTION] ∧ v1 = .undef := i1
  show ∃ (x : Bool), (Tree.node 29 [c1]).ws k = txW x
  exact ⟨true, by rw [ws_node]; simp only [wsL, w1] <;> first | rfl | simp [havingW, Group.words, cat]⟩

theorem r30 : RuleOK 30 := by
  intro _ cs k vs s v s' b e hp hi he hs hE
  obtain ⟨rfl, rfl⟩ : IsL [] cs k vs e := hi e hs
  show ∃ (x : Bool), (Tree.node 30 []).ws k = txW x
  exact ⟨false, by rw [ws_node]; simp only [wsL] <;> first | rfl | simp [havingW, Group.words, cat]⟩

theorem r31 : RuleOK 31 := by
  intro _ cs k vs s v s' b e hp hi he hs hE
  obtain ⟨c1, _, v1, _, rfl, rfl, i1, c2, _, v2, _, rfl, rfl, i2, c3, _, v3, _, rfl, rfl, i3, c4, _, v4, _, rfl, rfl, i4, rfl, rfl⟩ : IsL [T.PREPARE, T.IDENTIFIER, T.FROM, N.prepare_target_query] cs k vs e := hi e hs
  obtain ⟨w1, rfl⟩ : c1.ws _ = [.kw T.PREPARE] ∧ v1 = .undef := i1
  obtain ⟨x2, w2, rfl⟩ : ∃ x : Name, c2.ws _ = nm x ∧ v2 = .str 0 x := i2
  obtain ⟨w3, rfl⟩ : c3.ws _ = [.kw T.FROM] ∧ v3 = .undef := i3
  obtain ⟨x4, w4⟩ : ∃ (x : Bytes), c4.ws _ = [.str x] := i4
  show ∃ (x : Stmt), (Tree.node 31 [c1, c2, c3, c4]).ws k = x.words
  exact ⟨.prepare x2 x4, by rw [ws_node]; simp only [wsL, w1, w2, w3, w4] <;> first | rfl | simp [havingW, Group.words, cat]⟩

theorem r32 : RuleOK 32 := by
  intro _ cs k vs s v s' b e hp hi he hs hE
  obtain ⟨c1, _, v1, _, rfl, rfl, i1, rfl, rfl⟩ : IsL [T.STRING] cs k vs e := hi e hs
  obtain ⟨x1, w1, rfl⟩ : ∃ x : Bytes, c1.ws _ = [.str x] ∧ v1 = .str 0 x := i1
  show ∃ (x : Bytes), (Tree.node 32 [c1]).ws k = [.str x]
  exact ⟨x1, by rw [ws_node]; simp only [wsL, w1] <;> first | rfl | simp [havingW, Group.words, cat]⟩

theorem r33 : RuleOK 33 := by
  intro _ cs k vs s v s' b e hp hi he hs hE
  obtain ⟨c1, _, v1, _, rfl, rfl, i1, c2, _, v2, _, rfl, rfl, i2, rfl, rfl⟩ : IsL [T.EXECUTE, T.IDENTIFIER] cs k vs e := hi e hs
  obtain ⟨w1, rfl⟩ : c1.ws _ = [.kw T.EXECUTE] ∧ v1 = .undef := i1
  obtain ⟨x2, w2, rfl⟩ : ∃ x : Name, c2.ws _ = nm x ∧ v2 = .str 0 x := i2
  show ∃ (x : Stmt), (Tree.node 33 [c1, c2]).ws k = x.words
  exact ⟨.execute x2, by rw [ws_node]; simp only [wsL, w1, w2] <;> first | rfl | simp [havingW, Group.words, cat]⟩

theorem r34 : RuleOK 34 := by
  intro _ cs k vs s v s' b e hp hi he hs hE
  obtain ⟨c1, _, v1, _, rfl, rfl, i1, c2, _, v2, _, rfl, rfl, i2, c3, _, v3, _, rfl, rfl, i3, c4, _, v4, _, rfl, rfl, i4, c5, _, v5, _, rfl, rfl, i5, rfl, rfl⟩ : IsL [T.EXECUTE, T.IDENTIFIER, T.LPAREN, N.opt_extended_literal_list, T.RPAREN] cs k vs e := hi e hs
  obtain ⟨w1, rfl⟩ : c1.ws _ = [.kw T.EXECUTE] ∧ v1 = .undef := i1
  obtain ⟨x2, w2, rfl⟩ : ∃ x : Name, c2.ws _ = nm x ∧ v2 = .str 0 x := i2
  obtain ⟨w3, rfl⟩ : c3.ws _ = [.kw T.LPAREN] ∧ v3 = .undef := i3
  obtain ⟨x4, w4⟩ : ∃ (x : Option XLits), c4.ws _ = xlitsW x := i4
  obtain ⟨w5, rfl⟩ : c5.ws _ = [.kw T.RPAREN] ∧ v5 = .undef := i5
  show ∃ (x : Stmt), (Tree.node 34 [c1, c2, c3, c4, c5]).ws k = x.words
  exact ⟨.executeArgs x2 x4, by rw [ws_node]; simp only [wsL, w1, w2, w3, w4, w5] <;> first | rfl | simp [havingW, Group.words, cat]⟩

theorem r35 : RuleOK 35 := by
  intro _ cs k vs s v s' b e hp hi he hs hE
  obtain ⟨c1, _, v1, _, rfl, rfl, i1, c2, _, v2, _, rfl, rfl, i2, c3, _, v3, _, rfl, rfl, i3, c4, _, v4, _, rfl, rfl, i4, c5, _, v5, _, rfl, rfl, i5, c6, _, v6, _, rfl, rfl, i6, c7, _, v7, _, rfl, rfl, i7, rfl, rfl⟩ : IsL [T.IMPORT, T.FROM, N.file_type, T.FILE, N.file_path, T.INTO, N.table_name] cs k vs e := hi e hs
  obtain ⟨w1, rfl⟩ : c1.ws _ = [.kw T.IMPORT] ∧ v1 = .undef := i1
  obtain ⟨w2, rfl⟩ : c2.ws _ = [.kw T.FROM] ∧ v2 = .undef := i2
  obtain ⟨x3, f3, w3, h3, rfl⟩ : ∃ (x : Name) (f : Int), c3.ws _ = nm x ∧ fileType x = some f ∧ v3 = .int f := i3
  obtain ⟨w4, rfl⟩ : c4.ws _ = [.kw T.FILE] ∧ v4 = .undef := i4
  obtain ⟨x5, w5, rfl⟩ : ∃ (x : Bytes), c5.ws _ = [.str x] ∧ v5 = str x := i5
  obtain ⟨w6, rfl⟩ : c6.ws _ = [.kw T.INTO] ∧ v6 = .undef := i6
  obtain ⟨x7, w7, rfl⟩ : ∃ (x : TName), c7.ws _ = x.words ∧ v7 = .tup [ostr x.schema, str x.name] := i7
  show ∃ (x : Item), (Tree.node 35 [c1, c2, c3, c4, c5, c6, c7]).ws k = x.words
  exact ⟨.importFile x3 f3 h3 x5 x7, by rw [ws_node]; simp only [wsL, w1, w2, w3, w4, w5, w6, w7] <;> first | rfl | simp [havingW, Group.words, cat]⟩

theorem r36 : RuleOK 36 := by
  intro _ cs k vs s v s' b e hp hi he hs hE
  obtain ⟨c1, _, v1, _, rfl, rfl, i1, c2, _, v2, _, rfl, rfl, i2, c3, _, v3, _, rfl, rfl, i3, c4, _, v4, _, rfl, rfl, i4, c5, _, v5, _, rfl, rfl, i5, c6, _, v6, _, rfl, rfl, i6, rfl, rfl⟩ : IsL [T.COPY, N.table_name, T.FROM, N.file_path, N.opt_import_export_options, N.opt_where] cs k vs e := hi e hs
  obtain ⟨w1, rfl⟩ : c1.ws _ = [.kw T.COPY] ∧ v1 = .undef := i1
  obtain ⟨x2, w2, rfl⟩ : ∃ (x : TName), c2.ws _ = x.words ∧ v2 = .tup [ostr x.schema, str x.name] := i2
  obtain ⟨w3, rfl⟩ : c3.ws _ = [.kw T.FROM] ∧ v3 = .undef := i3
  obtain ⟨x4, w4, rfl⟩ : ∃ (x : Bytes), c4.ws _ = [.str x] ∧ v4 = str x := i4
  obtain ⟨x5, w5⟩ : ∃ (x : CopyWith), c5.ws _ = x.words := i5
  obtain ⟨x6, w6⟩ : ∃ (x : OExpr), c6.ws _ = whereW x := i6
  show ∃ (x : Item), (Tree.node 36 [c1, c2, c3, c4, c5, c6]).ws k = x.words
  exact ⟨.copyFrom x2 x4 x5 x6, by rw [ws_node]; simp only [wsL, w1, w2, w3, w4, w5, w6] <;> first | rfl | simp [havingW, Group.words, cat]⟩

theorem r37 : RuleOK 37 := by
  intro _ cs k vs s v s' b e hp hi he hs hE
  obtain ⟨c1, _, v1, _, rfl, rfl, i1, rfl, rfl⟩ : IsL [T.IDENTIFIER] cs k vs e := hi e hs
  obtain ⟨x1, w1, rfl⟩ : ∃ x : Name, c1.ws _ = nm x ∧ v1 = .str 0 x := i1
  show ∃ (x : Name) (f : Int), (Tree.node 37 [c1]).ws k = nm x ∧ fileType x = some f ∧ v = .int f
  obtain ⟨n, er⟩ := s
  rw [ev37] at he
  cases hf : fileType x1 with
  | none => rw [hf] at he; cases he
  | some f => rw [hf] at he; cases he; exact ⟨x1, f, by rw [ws_node]; simp only [wsL, w1] <;> first | rfl | simp [havingW, Group.words, cat], hf, rfl⟩

theorem r38 : RuleOK 38 := by
  intro _ cs k vs s v s' b e hp hi he hs hE
  obtain ⟨c1, _, v1, _, rfl, rfl, i1, rfl, rfl⟩ : IsL [T.STRING] cs k vs e := hi e hs
  obtain ⟨x1, w1, rfl⟩ : ∃ x : Bytes, c1.ws _ = [.str x] ∧ v1 = .str 0 x := i1
  show ∃ (x : Bytes), (Tree.node 38 [c1]).ws k = [.str x] ∧ v = str x
  obtain rfl := ev_inv rfl he rfl
  exact ⟨x1, by rw [ws_node]; simp only [wsL, w1] <;> first | rfl | simp [havingW, Group.words, cat], rfl⟩

theorem r39 : RuleOK 39 := by
  intro _ cs k vs s v s' b e hp hi he hs hE
  obtain ⟨c1, _, v1, _, rfl, rfl, i1, c2, _, v2, _, rfl, rfl, i2, c3, _, v3, _, rfl, rfl, i3, c4, _, v4, _, rfl, rfl, i4, rfl, rfl⟩ : IsL [T.WITH, T.LPAREN, N.import_export_options, T.RPAREN] cs k vs e := hi e hs
  obtain ⟨w1, rfl⟩ : c1.ws _ = [.kw T.WITH] ∧ v1 = .undef := i1
  obtain ⟨w2, rfl⟩ : c2.ws _ = [.kw T.LPAREN] ∧ v2 = .undef := i2
  obtain ⟨x3, w3, h3, rfl⟩ : ∃ (x : CopyOpts), c3.ws _ = x.words ∧ x.OK ∧ v3 = x.r.o := i3
  obtain ⟨w4, rfl⟩ : c4.ws _ = [.kw T.RPAREN] ∧ v4 = .undef := i4
  show ∃ (x : CopyWith), (Tree.node 39 [c1, c2, c3, c4]).ws k = x.words
  exact ⟨.opts true x3 h3, by rw [ws_node]; simp only [wsL, w1, w2, w3, w4] <;> first | rfl | simp [havingW, Group.words, cat]⟩

theorem r40 : RuleOK 40 := by
  intro _ cs k vs s v s' b e hp hi he hs hE
  obtain ⟨c1, _, v1, _, rfl, rfl, i1, c2, _, v2, _, rfl, rfl, i2, c3, _, v3, _, rfl, rfl, i3, rfl, rfl⟩ : IsL [T.LPAREN, N.import_export_options, T.RPAREN] cs k vs e := hi e hs
  obtain ⟨w1, rfl⟩ : c1.ws _ = [.kw T.LPAREN] ∧ v1 = .undef := i1
  obtain ⟨x2, w2, h2, rfl⟩ : ∃ (x : CopyOpts), c2.ws _ = x.words ∧ x.OK ∧ v2 = x.r.o := i2
  obtain ⟨w3, rfl⟩ : c3.ws _ = [.kw T.RPAREN] ∧ v3 = .undef := i3
  show ∃ (x : CopyWith), (Tree.node 40 [c1, c2, c3]).ws k = x.words
  exact ⟨.opts false x2 h2, by rw [ws_node]; simp only [wsL, w1, w2, w3] <;> first | rfl | simp [havingW, Group.words, cat]⟩

theorem r41 : RuleOK 41 := by
  intro _ cs k vs s v s' b e hp hi he hs hE
  obtain ⟨rfl, rfl⟩ : IsL [] cs k vs e := hi e hs
  show ∃ (x : CopyWith), (Tree.node 41 []).ws k = x.words
  exact ⟨.none, by rw [ws_node]; simp only [wsL] <;> first | rfl | simp [havingW, Group.words, cat]⟩

theorem r42 : RuleOK 42 := by
  intro _ cs k vs s v s' b e hp hi he hs hE
  obtain ⟨c1, _, v1, _, rfl, rfl, i1, c2, _, v2, _, rfl, rfl, i2, c3, _, v3, _, rfl, rfl, i3, c4, _, v4, _, rfl, rfl, i4, rfl, rfl⟩ : IsL [N.import_export_options, T.COMMA, T.FORMAT, N.file_type] cs k vs e := hi e hs
  obtain ⟨x1, w1, h1, rfl⟩ : ∃ (x : CopyOpts), c1.ws _ = x.words ∧ x.OK ∧ v1 = x.r.o := i1
  obtain ⟨w2, rfl⟩ : c2.ws _ = [.kw T.COMMA] ∧ v2 = .undef := i2
  obtain ⟨w3, rfl⟩ : c3.ws _ = [.kw T.FORMAT] ∧ v3 = .undef := i3
  obtain ⟨x4, f4, w4, h4, rfl⟩ : ∃ (x : Name) (f : Int), c4.ws _ = nm x ∧ fileType x = some f ∧ v4 = .int f := i4
  show ∃ (x : CopyOpts), (Tree.node 42 [c1, c2, c3, c4]).ws k = x.words ∧ x.OK ∧ v = x.r.o
  obtain ⟨n, er⟩ := s
  rw [CopyV.o, ev42 _ (fileType_auto h4)] at he
  split at he
  · rename_i hc; cases he
    exact ⟨.snoc x1 (.format x4 f4 h4), by rw [ws_node]; simp only [wsL, w1, w2, w3, w4] <;> first | rfl | simp [havingW, Group.words, cat], ⟨h1, hc⟩, rfl⟩
  · cases he

theorem r43 : RuleOK 43 := by
  intro _ cs k vs s v s' b e hp hi he hs hE
  obtain ⟨c1, _, v1, _, rfl, rfl, i1, c2, _, v2, _, rfl, rfl, i2, rfl, rfl⟩ : IsL [T.FORMAT, N.file_type] cs k vs e := hi e hs
  obtain ⟨w1, rfl⟩ : c1.ws _ = [.kw T.FORMAT] ∧ v1 = .undef := i1
  obtain ⟨x2, f2, w2, h2, rfl⟩ : ∃ (x : Name) (f : Int), c2.ws _ = nm x ∧ fileType x = some f ∧ v2 = .int f := i2
  show ∃ (x : CopyOpts), (Tree.node 43 [c1, c2]).ws k = x.words ∧ x.OK ∧ v = x.r.o
  obtain ⟨n, er⟩ := s
  rw [ev43] at he
  cases he
  exact ⟨.one (.format x2 f2 h2), by rw [ws_node]; simp only [wsL, w1, w2] <;> first | rfl | simp [havingW, Group.words, cat], trivial, rfl⟩

theorem r44 : RuleOK 44 := by
  intro _ cs k vs s v s' b e hp hi he hs hE
  obtain ⟨c1, _, v1, _, rfl, rfl, i1, c2, _, v2, _, rfl, rfl, i2, c3, _, v3, _, rfl, rfl, i3, c4, _, v4, _, rfl, rfl, i4, rfl, rfl⟩ : IsL [N.import_export_options, T.COMMA, T.ENCODING, T.STRING] cs k vs e := hi e hs
  obtain ⟨x1, w1, h1, rfl⟩ : ∃ (x : CopyOpts), c1.ws _ = x.words ∧ x.OK ∧ v1 = x.r.o := i1
  obtain ⟨w2, rfl⟩ : c2.ws _ = [.kw T.COMMA] ∧ v2 = .undef := i2
  obtain ⟨w3, rfl⟩ : c3.ws _ = [.kw T.ENCODING] ∧ v3 = .undef := i3
  obtain ⟨x4, w4, rfl⟩ : ∃ x : Bytes, c4.ws _ = [.str x] ∧ v4 = .str 0 x := i4
  show ∃ (x : CopyOpts), (Tree.node 44 [c1, c2, c3, c4]).ws k = x.words ∧ x.OK ∧ v = x.r.o
  obtain ⟨n, er⟩ := s
  rw [CopyV.o, ev44] at he
  split at he
  · rename_i hc; cases he
    exact ⟨.snoc x1 (.encoding x4), by rw [ws_node]; simp only [wsL, w1, w2, w3, w4] <;> first | rfl | simp [havingW, Group.words, cat], ⟨h1, hc⟩, rfl⟩
  · cases he

theorem r45 : RuleOK 45 := by
  intro _ cs k vs s v s' b e hp hi he hs hE
  obtain ⟨c1, _, v1, _, rfl, rfl, i1, c2, _, v2, _, rfl, rfl, i2, rfl, rfl⟩ : IsL [T.ENCODING, T.STRING] cs k vs e := hi e hs
  obtain ⟨w1, rfl⟩ : c1.ws _ = [.kw T.ENCODING] ∧ v1 = .undef := i1
  obtain ⟨x2, w2, rfl⟩ : ∃ x : Bytes, c2.ws _ = [.str x] ∧ v2 = .str 0 x := i2
  show ∃ (x : CopyOpts), (Tree.node 45 [c1, c2]).ws k = x.words ∧ x.OK ∧ v = x.r.o
  obtain ⟨n, er⟩ := s
  rw [ev45] at he
  cases he
  exact ⟨.one (.encoding x2), by rw [ws_node]; simp only [wsL, w1, w2] <;> first | rfl | simp [havingW, Group.words, cat], trivial, rfl⟩

theorem r46 : RuleOK 46 := by
  intro _ cs k vs s v s' b e hp hi he hs hE
  obtain ⟨c1, _, v1, _, rfl, rfl, i1, c2, _, v2, _, rfl, rfl, i2, c3, _, v3, _, rfl, rfl, i3, rfl, rfl⟩ : IsL [N.import_export_options, T.COMMA, N.csv_option] cs k vs e := hi e hs
  obtain ⟨x1, w1, h1, rfl⟩ : ∃ (x : CopyOpts), c1.ws _ = x.words ∧ x.OK ∧ v1 = x.r.o := i1
  obtain ⟨w2, rfl⟩ : c2.ws _ = [.kw T.COMMA] ∧ v2 = .undef := i2
  obtain ⟨x3, d3, y3, w3, h3, rfl⟩ : ∃ (x : CopyOpt) (d : CsvKind) (y : Bytes), c3.ws _ = x.words ∧ csvOf x = some (d, y) ∧ v3 = csvPair d y := i3
  show ∃ (x : CopyOpts), (Tree.node 46 [c1, c2, c3]).ws k = x.words ∧ x.OK ∧ v = x.r.o
  obtain ⟨n, er⟩ := s
  rw [CopyV.o, ev46] at he
  split at he
  · rename_i hc; cases he
    refine ⟨.snoc x1 x3, by rw [ws_node]; simp only [wsL, w1, w2, w3] <;> first | rfl | simp [havingW, Group.words, cat], ⟨h1, ?_⟩, ?_⟩
    · cases x3 <;> cases h3 <;> exact hc
    · cases x3 <;> cases h3 <;> rfl
  · cases he

theorem r47 : RuleOK 47 := by
  intro _ cs k vs s v s' b e hp hi he hs hE
  obtain ⟨c1, _, v1, _, rfl, rfl, i1, rfl, rfl⟩ : IsL [N.csv_option] cs k vs e := hi e hs
  obtain ⟨x1, d1, y1, w1, h1, rfl⟩ : ∃ (x : CopyOpt) (d : CsvKind) (y : Bytes), c1.ws _ = x.words ∧ csvOf x = some (d, y) ∧ v1 = csvPair d y := i1
  show ∃ (x : CopyOpts), (Tree.node 47 [c1]).ws k = x.words ∧ x.OK ∧ v = x.r.o
  obtain ⟨n, er⟩ := s
  rw [ev47] at he
  cases he
  refine ⟨.one x1, by rw [ws_node]; simp only [wsL, w1] <;> first | rfl | simp [havingW, Group.words, cat], trivial, ?_⟩
  cases x1 <;> cases h1 <;> rfl

theorem r48 : RuleOK 48 := by
  intro _ cs k vs s v s' b e hp hi he hs hE
  obtain ⟨c1, _, v1, _, rfl, rfl, i1, c2, _, v2, _, rfl, rfl, i2, rfl, rfl⟩ : IsL [T.IDENTIFIER, T.STRING] cs k vs e := hi e hs
  obtain ⟨x1, w1, rfl⟩ : ∃ x : Name, c1.ws _ = nm x ∧ v1 = .str 0 x := i1
  obtain ⟨x2, w2, rfl⟩ : ∃ x : Bytes, c2.ws _ = [.str x] ∧ v2 = .str 0 x := i2
  show ∃ (x : CopyOpt) (d : CsvKind) (y : Bytes), (Tree.node 48 [c1, c2]).ws k = x.words ∧ csvOf x = some (d, y) ∧ v = csvPair d y
  obtain ⟨n, er⟩ := s
  rw [ev48] at he
  split at he
  · rename_i hc; cases he
    exact ⟨.delimiter x1 hc x2, .delimiter, x2, by rw [ws_node]; simp only [wsL, w1, w2] <;> first | rfl | simp [havingW, Group.words, cat], rfl, rfl⟩
  · split at he
    · rename_i hc; cases he
      exact ⟨.quote x1 hc x2, .quote, x2, by rw [ws_node]; simp only [wsL, w1, w2] <;> first | rfl | simp [havingW, Group.words, cat], rfl, rfl⟩
    · cases he

theorem r49 : RuleOK 49 := by
  intro _ cs k vs s v s' b e hp hi he hs hE
  obtain ⟨c1, _, v1, _, rfl, rfl, i1, c2, _, v2, _, rfl, rfl, i2, rfl, rfl⟩ : IsL [T.NULL, T.STRING] cs k vs e := hi e hs
  obtain ⟨w1, rfl⟩ : c1.ws _ = [.kw T.NULL] ∧ v1 = .undef := i1
  obtain ⟨x2, w2, rfl⟩ : ∃ x : Bytes, c2.ws _ = [.str x] ∧ v2 = .str 0 x := i2
  show ∃ (x : CopyOpt) (d : CsvKind) (y : Bytes), (Tree.node 49 [c1, c2]).ws k = x.words ∧ csvOf x = some (d, y) ∧ v = csvPair d y
  obtain ⟨n, er⟩ := s
  rw [ev49] at he
  cases he
  exact ⟨.null x2, .null, x2, by rw [ws_node]; simp only [wsL, w1, w2] <;> first | rfl | simp [havingW, Group.words, cat], rfl, rfl⟩

theorem r50 : RuleOK 50 := by
  intro _ cs k vs s v s' b e hp hi he hs hE
  obtain ⟨c1, _, v1, _, rfl, rfl, i1, c2, _, v2, _, rfl, rfl, i2, c3, _, v3, _, rfl, rfl, i3, c4, _, v4, _, rfl, rfl, i4, c5, _, v5, _, rfl, rfl, i5, rfl, rfl⟩ : IsL [T.COPY, N.table_name, T.TO, N.file_path, N.opt_import_export_options] cs k vs e := hi e hs
  obtain ⟨w1, rfl⟩ : c1.ws _ = [.kw T.COPY] ∧ v1 = .undef := i1
  obtain ⟨x2, w2, rfl⟩ : ∃ (x : TName), c2.ws _ = x.words ∧ v2 = .tup [ostr x.schema, str x.name] := i2
  obtain ⟨w3, rfl⟩ : c3.ws _ = [.kw T.TO] ∧ v3 = .undef := i3
  obtain ⟨x4, w4, rfl⟩ : ∃ (x : Bytes), c4.ws _ = [.str x] ∧ v4 = str x := i4
  obtain ⟨x5, w5⟩ : ∃ (x : CopyWith), c5.ws _ = x.words := i5
  show ∃ (x : Item), (Tree.node 50 [c1, c2, c3, c4, c5]).ws k = x.words
  exact ⟨.copyTo x2 x4 x5, by rw [ws_node]; simp only [wsL, w1, w2, w3, w4, w5] <;> first | rfl | simp [havingW, Group.words, cat]⟩

theorem r51 : RuleOK 51 := by
  intro _ cs k vs s v s' b e hp hi he hs hE
  obtain ⟨c1, _, v1, _, rfl, rfl, i1, c2, _, v2, _, rfl, rfl, i2, c3, _, v3, _, rfl, rfl, i3, c4, _, v4, _, rfl, rfl, i4, c5, _, v5, _, rfl, rfl, i5, rfl, rfl⟩ : IsL [T.COPY, N.select_with_paren, T.TO, N.file_path, N.opt_import_export_options] cs k vs e := hi e hs
  obtain ⟨w1, rfl⟩ : c1.ws _ = [.kw T.COPY] ∧ v1 = .undef := i1
  obtain ⟨x2, w2⟩ : ∃ (x : PSel), c2.ws _ = x.words := i2
  obtain ⟨w3, rfl⟩ : c3.ws _ = [.kw T.TO] ∧ v3 = .undef := i3
  obtain ⟨x4, w4, rfl⟩ : ∃ (x : Bytes), c4.ws _ = [.str x] ∧ v4 = str x := i4
  obtain ⟨x5, w5⟩ : ∃ (x : CopyWith), c5.ws _ = x.words := i5
  show ∃ (x : Item), (Tree.node 51 [c1, c2, c3, c4, c5]).ws k = x.words
  exact ⟨.copyQuery x2 x4 x5, by rw [ws_node]; simp only [wsL, w1, w2, w3, w4, w5] <;> first | rfl | simp [havingW, Group.words, cat]⟩

theorem r52 : RuleOK 52 := by
  intro _ cs k vs s v s' b e hp hi he hs hE
  obtain ⟨c1, _, v1, _, rfl, rfl, i1, c2, _, v2, _, rfl, rfl, i2, rfl, rfl⟩ : IsL [T.SHOW, T.TABLES] cs k vs e := hi e hs
  obtain ⟨w1, rfl⟩ : c1.ws _ = [.kw T.SHOW] ∧ v1 = .undef := i1
  obtain ⟨w2, rfl⟩ : c2.ws _ = [.kw T.TABLES] ∧ v2 = .undef := i2
  show ∃ (x : Item), (Tree.node 52 [c1, c2]).ws k = x.words
  exact ⟨.showTables, by rw [ws_node]; simp only [wsL, w1, w2] <;> first | rfl | simp [havingW, Group.words, cat]⟩

theorem r53 : RuleOK 53 := by
  intro _ cs k vs s v s' b e hp hi he hs hE
  obtain ⟨c1, _, v1, _, rfl, rfl, i1, c2, _, v2, _, rfl, rfl, i2, c3, _, v3, _, rfl, rfl, i3, rfl, rfl⟩ : IsL [T.SHOW, T.COLUMNS, N.table_name] cs k vs e := hi e hs
  obtain ⟨w1, rfl⟩ : c1.ws _ = [.kw T.SHOW] ∧ v1 = .undef := i1
  obtain ⟨w2, rfl⟩ : c2.ws _ = [.kw T.COLUMNS] ∧ v2 = .undef := i2
  obtain ⟨x3, w3, rfl⟩ : ∃ (x : TName), c3.ws _ = x.words ∧ v3 = .tup [ostr x.schema, str x.name] := i3
  show ∃ (x : Item), (Tree.node 53 [c1, c2, c3]).ws k = x.words
  exact ⟨.showColumns x3, by rw [ws_node]; simp only [wsL, w1, w2, w3] <;> first | rfl | simp [havingW, Group.words, cat]⟩

theorem r54 : RuleOK 54 := by
  intro _ cs k vs s v s' b e hp hi he hs hE
  obtain ⟨c1, _, v1, _, rfl, rfl, i1, c2, _, v2, _, rfl, rfl, i2, rfl, rfl⟩ : IsL [T.DESCRIBE, N.table_name] cs k vs e := hi e hs
  obtain ⟨w1, rfl⟩ : c1.ws _ = [.kw T.DESCRIBE] ∧ v1 = .undef := i1
  obtain ⟨x2, w2, rfl⟩ : ∃ (x : TName), c2.ws _ = x.words ∧ v2 = .tup [ostr x.schema, str x.name] := i2
  show ∃ (x : Item), (Tree.node 54 [c1, c2]).ws k = x.words
  exact ⟨.describe x2, by rw [ws_node]; simp only [wsL, w1, w2] <;> first | rfl | simp [havingW, Group.words, cat]⟩

theorem r55 : RuleOK 55 := by
  intro _ cs k vs s v s' b e hp hi he hs hE
  obtain ⟨c1, _, v1, _, rfl, rfl, i1, c2, _, v2, _, rfl, rfl, i2, c3, _, v3, _, rfl, rfl, i3, c4, _, v4, _, rfl, rfl, i4, c5, _, v5, _, rfl, rfl, i5, c6, _, v6, _, rfl, rfl, i6, c7, _, v7, _, rfl, rfl, i7, c8, _, v8, _, rfl, rfl, i8, rfl, rfl⟩ : IsL [T.CREATE, T.TABLE, N.opt_not_exists, N.table_name, T.FROM, T.IDENTIFIER, T.FILE, N.file_path] cs k vs e := hi e hs
  obtain ⟨w1, rfl⟩ : c1.ws _ = [.kw T.CREATE] ∧ v1 = .undef := i1
  obtain ⟨w2, rfl⟩ : c2.ws _ = [.kw T.TABLE] ∧ v2 = .undef := i2
  obtain ⟨x3, w3, rfl⟩ : ∃ (x : Bool), c3.ws _ = ifNotExists x ∧ v3 = flag x := i3
  obtain ⟨x4, w4, rfl⟩ : ∃ (x : TName), c4.ws _ = x.words ∧ v4 = .tup [ostr x.schema, str x.name] := i4
  obtain ⟨w5, rfl⟩ : c5.ws _ = [.kw T.FROM] ∧ v5 = .undef := i5
  obtain ⟨x6, w6, rfl⟩ : ∃ x : Name, c6.ws _ = nm x ∧ v6 = .str 0 x := i6
  obtain ⟨w7, rfl⟩ : c7.ws _ = [.kw T.FILE] ∧ v7 = .undef := i7
  obtain ⟨x8, w8, rfl⟩ : ∃ (x : Bytes), c8.ws _ = [.str x] ∧ v8 = str x := i8
  show ∃ (x : Stmt), (Tree.node 55 [c1, c2, c3, c4, c5, c6, c7, c8]).ws k = x.words
  exact ⟨.createFile x3 x4 x6 (inv55 he) x8, by rw [ws_node]; simp only [wsL, w1, w2, w3, w4, w5, w6, w7, w8] <;> first | rfl | simp [havingW, Group.words, cat]⟩

theorem r56 : RuleOK 56 := by
  intro _ cs k vs s v s' b e hp hi he hs hE
  obtain ⟨c1, _, v1, _, rfl, rfl, i1, c2, _, v2, _, rfl, rfl, i2, c3, _, v3, _, rfl, rfl, i3, c4, _, v4, _, rfl, rfl, i4, c5, _, v5, _, rfl, rfl, i5, c6, _, v6, _, rfl, rfl, i6, c7, _, v7, _, rfl, rfl, i7, rfl, rfl⟩ : IsL [T.CREATE, T.TABLE, N.opt_not_exists, N.table_name, T.LPAREN, N.table_elem_commalist, T.RPAREN] cs k vs false := hi false (fun h => by rw [ev56_err he] at h; exact h)
  obtain ⟨w1, rfl⟩ : c1.ws _ = [.kw T.CREATE] ∧ v1 = .undef := i1
  obtain ⟨w2, rfl⟩ : c2.ws _ = [.kw T.TABLE] ∧ v2 = .undef := i2
  obtain ⟨x3, w3, rfl⟩ : ∃ (x : Bool), c3.ws _ = ifNotExists x ∧ v3 = flag x := i3
  obtain ⟨x4, w4, rfl⟩ : ∃ (x : TName), c4.ws _ = x.words ∧ v4 = .tup [ostr x.schema, str x.name] := i4
  obtain ⟨w5, rfl⟩ : c5.ws _ = [.kw T.LPAREN] ∧ v5 = .undef := i5
  have w6 : false = false → ∃ x : TableElems, c6.ws _ = x.words := i6
  obtain ⟨w7, rfl⟩ : c7.ws _ = [.kw T.RPAREN] ∧ v7 = .undef := i7
  show ∃ (x : Stmt), (Tree.node 56 [c1, c2, c3, c4, c5, c6, c7]).ws k = x.words
  obtain ⟨x6, w6⟩ := w6 rfl
  exact ⟨.createTable x3 x4 x6, by rw [ws_node]; simp only [wsL, w1, w2, w3, w4, w5, w6, w7] <;> first | rfl | simp [havingW, Group.words, cat]⟩

theorem r57 : RuleOK 57 := by
  intro _ cs k vs s v s' b e hp hi he hs hE
  obtain ⟨c1, _, v1, _, rfl, rfl, i1, c2, _, v2, _, rfl, rfl, i2, c3, _, v3, _, rfl, rfl, i3, c4, _, v4, _, rfl, rfl, i4, c5, _, v5, _, rfl, rfl, i5, c6, _, v6, _, rfl, rfl, i6, rfl, rfl⟩ : IsL [T.CREATE, T.TABLE, N.opt_not_exists, N.table_name, T.AS, N.select_statement] cs k vs e := hi e hs
  obtain ⟨w1, rfl⟩ : c1.ws _ = [.kw T.CREATE] ∧ v1 = .undef := i1
  obtain ⟨w2, rfl⟩ : c2.ws _ = [.kw T.TABLE] ∧ v2 = .undef := i2
  obtain ⟨x3, w3, rfl⟩ : ∃ (x : Bool), c3.ws _ = ifNotExists x ∧ v3 = flag x := i3
  obtain ⟨x4, w4, rfl⟩ : ∃ (x : TName), c4.ws _ = x.words ∧ v4 = .tup [ostr x.schema, str x.name] := i4
  obtain ⟨w5, rfl⟩ : c5.ws _ = [.kw T.AS] ∧ v5 = .undef := i5
  obtain ⟨x6, w6⟩ : ∃ (x : Query), c6.ws _ = x.words := i6
  show ∃ (x : Stmt), (Tree.node 57 [c1, c2, c3, c4, c5, c6]).ws k = x.words
  exact ⟨.createAs x3 x4 x6, by rw [ws_node]; simp only [wsL, w1, w2, w3, w4, w5, w6] <;> first | rfl | simp [havingW, Group.words, cat]⟩

theorem r58 : RuleOK 58 := by
  intro _ cs k vs s v s' b e hp hi he hs hE
  obtain ⟨c1, _, v1, _, rfl, rfl, i1, c2, _, v2, _, rfl, rfl, i2, c3, _, v3, _, rfl, rfl, i3, c4, _, v4, _, rfl, rfl, i4, c5, _, v5, _, rfl, rfl, i5, c6, _, v6, _, rfl, rfl, i6, c7, _, v7, _, rfl, rfl, i7, c8, _, v8, _, rfl, rfl, i8, c9, _, v9, _, rfl, rfl, i9, rfl, rfl⟩ : IsL [T.CREATE, T.INDEX, N.opt_not_exists, N.opt_index_name, T.ON, N.table_name, T.LPAREN, N.ident_commalist, T.RPAREN] cs k vs e := hi e hs
  obtain ⟨w1, rfl⟩ : c1.ws _ = [.kw T.CREATE] ∧ v1 = .undef := i1
  obtain ⟨w2, rfl⟩ : c2.ws _ = [.kw T.INDEX] ∧ v2 = .undef := i2
  obtain ⟨x3, w3, rfl⟩ : ∃ (x : Bool), c3.ws _ = ifNotExists x ∧ v3 = flag x := i3
  obtain ⟨x4, w4⟩ : ∃ (x : Option Name), c4.ws _ = nameW x := i4
  obtain ⟨w5, rfl⟩ : c5.ws _ = [.kw T.ON] ∧ v5 = .undef := i5
  obtain ⟨x6, w6, rfl⟩ : ∃ (x : TName), c6.ws _ = x.words ∧ v6 = .tup [ostr x.schema, str x.name] := i6
  obtain ⟨w7, rfl⟩ : c7.ws _ = [.kw T.LPAREN] ∧ v7 = .undef := i7
  obtain ⟨x8, w8, rfl⟩ : ∃ (x : Names), c8.ws _ = x.words ∧ v8 = x.v := i8
  obtain ⟨w9, rfl⟩ : c9.ws _ = [.kw T.RPAREN] ∧ v9 = .undef := i9
  show ∃ (x : Stmt), (Tree.node 58 [c1, c2, c3, c4, c5, c6, c7, c8, c9]).ws k = x.words
  exact ⟨.createIndex x3 x4 x6 x8, by rw [ws_node]; simp only [wsL, w1, w2, w3, w4, w5, w6, w7, w8, w9] <;> first | rfl | simp [havingW, Group.words, cat]⟩

theorem r59 : RuleOK 59 := by
  intro _ cs k vs s v s' b e hp hi he hs hE
  obtain ⟨c1, _, v1, _, rfl, rfl, i1, c2, _, v2, _, rfl, rfl, i2, c3, _, v3, _, rfl, rfl, i3, c4, _, v4, _, rfl, rfl, i4, c5, _, v5, _, rfl, rfl, i5, c6, _, v6, _, rfl, rfl, i6, c7, _, v7, _, rfl, rfl, i7, rfl, rfl⟩ : IsL [T.CREATE, T.VIEW, N.opt_not_exists, N.table_name, N.opt_column_list, T.AS, N.select_statement] cs k vs e := hi e hs
  obtain ⟨w1, rfl⟩ : c1.ws _ = [.kw T.CREATE] ∧ v1 = .undef := i1
  obtain ⟨w2, rfl⟩ : c2.ws _ = [.kw T.VIEW] ∧ v2 = .undef := i2
  obtain ⟨x3, w3, rfl⟩ : ∃ (x : Bool), c3.ws _ = ifNotExists x ∧ v3 = flag x := i3
  obtain ⟨x4, w4, rfl⟩ : ∃ (x : TName), c4.ws _ = x.words ∧ v4 = .tup [ostr x.schema, str x.name] := i4
  obtain ⟨x5, w5, rfl⟩ : ∃ (x : Option Names), c5.ws _ = colsWords x ∧ v5 = colsV x := i5
  obtain ⟨w6, rfl⟩ : c6.ws _ = [.kw T.AS] ∧ v6 = .undef := i6
  obtain ⟨x7, w7⟩ : ∃ (x : Query), c7.ws _ = x.words := i7
  show ∃ (x : Stmt), (Tree.node 59 [c1, c2, c3, c4, c5, c6, c7]).ws k = x.words
  exact ⟨.createView x3 x4 x5 x7, by rw [ws_node]; simp only [wsL, w1, w2, w3, w4, w5, w6, w7] <;> first | rfl | simp [havingW, Group.words, cat]⟩

theorem r60 : RuleOK 60 := by
  intro _ cs k vs s v s' b e hp hi he hs hE
  obtain ⟨c1, _, v1, _, rfl, rfl, i1, c2, _, v2, _, rfl, rfl, i2, c3, _, v3, _, rfl, rfl, i3, rfl, rfl⟩ : IsL [T.IF, T.NOT, T.EXISTS] cs k vs e := hi e hs
  obtain ⟨w1, rfl⟩ : c1.ws _ = [.kw T.IF] ∧ v1 = .undef := i1
  obtain ⟨w2, rfl⟩ : c2.ws _ = [.kw T.NOT] ∧ v2 = .undef := i2
  obtain ⟨w3, rfl⟩ : c3.ws _ = [.kw T.EXISTS] ∧ v3 = .undef := i3
  show ∃ (x : Bool), (Tree.node 60 [c1, c2, c3]).ws k = ifNotExists x ∧ v = flag x
  obtain rfl := ev_inv rfl he rfl
  exact ⟨true, by rw [ws_node]; simp only [wsL, w1, w2, w3] <;> first | rfl | simp [havingW, Group.words, cat], rfl⟩

theorem r61 : RuleOK 61 := by
  intro _ cs k vs s v s' b e hp hi he hs hE
  obtain ⟨rfl, rfl⟩ : IsL [] cs k vs e := hi e hs
  show ∃ (x : Bool), (Tree.node 61 []).ws k = ifNotExists x ∧ v = flag x
  obtain rfl := ev_inv rfl he rfl
  exact ⟨false, by rw [ws_node]; simp only [wsL] <;> first | rfl | simp [havingW, Group.words, cat], rfl⟩

theorem r62 : RuleOK 62 := by
  intro _ cs k vs s v s' b e hp hi he hs hE
  obtain ⟨c1, _, v1, _, rfl, rfl, i1, rfl, rfl⟩ : IsL [N.table_elem] cs k vs e := hi e hs
  have w1 : e = false → ∃ x : TableElem, c1.ws _ = x.words := i1
  show e = false → ∃ x : TableElems, (Tree.node 62 [c1]).ws k = x.words
  intro h
  obtain ⟨x1, w1⟩ := w1 h
  exact ⟨.one x1, by rw [ws_node]; simp only [wsL, w1] <;> first | rfl | simp [havingW, Group.words, cat]⟩

theorem r63 : RuleOK 63 := by
  intro _ cs k vs s v s' b e hp hi he hs hE
  obtain ⟨c1, _, v1, _, rfl, rfl, i1, c2, _, v2, _, rfl, rfl, i2, c3, _, v3, _, rfl, rfl, i3, rfl, rfl⟩ : IsL [N.table_elem_commalist, T.COMMA, N.table_elem] cs k vs e := hi e hs
  have w1 : e = false → ∃ x : TableElems, c1.ws _ = x.words := i1
  obtain ⟨w2, rfl⟩ : c2.ws _ = [.kw T.COMMA] ∧ v2 = .undef := i2
  have w3 : e = false → ∃ x : TableElem, c3.ws _ = x.words := i3
  show e = false → ∃ x : TableElems, (Tree.node 63 [c1, c2, c3]).ws k = x.words
  intro h
  obtain ⟨x1, w1⟩ := w1 h
  obtain ⟨x3, w3⟩ := w3 h
  exact ⟨.snoc x1 x3, by rw [ws_node]; simp only [wsL, w1, w2, w3] <;> first | rfl | simp [havingW, Group.words, cat]⟩

theorem r64 : RuleOK 64 := by
  intro _ cs k vs s v s' b e hp hi he hs hE
  obtain ⟨c1, _, v1, _, rfl, rfl, i1, rfl, rfl⟩ : IsL [N.column_def] cs k vs e := hi e hs
  have w1 : e = false → ∃ x : TableElem, c1.ws _ = x.words := i1
  show e = false → ∃ x : TableElem, (Tree.node 64 [c1]).ws k = x.words
  intro h
  obtain ⟨x1, w1⟩ := w1 h
  exact ⟨x1, by rw [ws_node]; simp only [wsL, w1] <;> first | rfl | simp [havingW, Group.words, cat]⟩

theorem r65 : RuleOK 65 := by
  intro _ cs k vs s v s' b e hp hi he hs hE
  obtain ⟨c1, _, v1, _, rfl, rfl, i1, rfl, rfl⟩ : IsL [N.table_constraint] cs k vs e := hi e hs
  obtain ⟨x1, w1⟩ : ∃ (x : TableElem), c1.ws _ = x.words := i1
  show e = false → ∃ x : TableElem, (Tree.node 65 [c1]).ws k = x.words
  intro _
  exact ⟨x1, by rw [ws_node]; simp only [wsL, w1] <;> first | rfl | simp [havingW, Group.words, cat]⟩

theorem r66 : RuleOK 66 := by
  intro _ cs k vs s v s' b e hp hi he hs hE
  obtain ⟨c1, _, v1, _, rfl, rfl, i1, c2, _, v2, _, rfl, rfl, i2, c3, _, v3, _, rfl, rfl, i3, rfl, rfl⟩ : IsL [T.IDENTIFIER, N.column_type, N.opt_column_constraints] cs k vs e := hi e hs
  obtain ⟨x1, w1, rfl⟩ : ∃ x : Name, c1.ws _ = nm x ∧ v1 = .str 0 x := i1
  obtain ⟨x2, w2, h2⟩ : ∃ (x : ColType), c2.ws _ = x.words ∧ tup4 v2 := i2
  obtain ⟨x3, w3, h3⟩ : ∃ (x : ColCons), c3.ws _ = x.words ∧ ∃ rs, v3 = consV x.kinds rs := i3
  show e = false → ∃ x : TableElem, (Tree.node 66 [c1, c2, c3]).ws k = x.words
  intro h
  obtain ⟨a, b', c, d, rfl, _⟩ := h2
  obtain ⟨rs, rfl⟩ := h3
  have hf : s'.err = false := by
    cases hq : s'.err with
    | false => rfl
    | true => rw [hE hq] at h; cases h
  exact ⟨.column x1 x2 x3 (inv66 he hf), by rw [ws_node]; simp only [wsL, w1, w2, w3] <;> first | rfl | simp [havingW, Group.words, cat]⟩

theorem r67 : RuleOK 67 := by
  intro _ cs k vs s v s' b e hp hi he hs hE
  obtain ⟨c1, _, v1, _, rfl, rfl, i1, rfl, rfl⟩ : IsL [T.BIGINT] cs k vs e := hi e hs
  obtain ⟨w1, rfl⟩ : c1.ws _ = [.kw T.BIGINT] ∧ v1 = .undef := i1
  show ∃ (x : ColType), (Tree.node 67 [c1]).ws k = x.words ∧ tup4 v
  obtain rfl := ev_inv rfl he rfl
  exact ⟨.simple .bigint, by rw [ws_node]; simp only [wsL, w1] <;> first | rfl | simp [havingW, Group.words, cat], ⟨_, _, _, _, rfl, rfl, rfl, rfl, rfl⟩⟩

theorem r68 : RuleOK 68 := by
  intro _ cs k vs s v s' b e hp hi he hs hE
  obtain ⟨c1, _, v1, _, rfl, rfl, i1, rfl, rfl⟩ : IsL [T.BOOLEAN] cs k vs e := hi e hs
  obtain ⟨w1, rfl⟩ : c1.ws _ = [.kw T.BOOLEAN] ∧ v1 = .undef := i1
  show ∃ (x : ColType), (Tree.node 68 [c1]).ws k = x.words ∧ tup4 v
  obtain rfl := ev_inv rfl he rfl
  exact ⟨.simple .boolean, by rw [ws_node]; simp only [wsL, w1] <;> first | rfl | simp [havingW, Group.words, cat], ⟨_, _, _, _, rfl, rfl, rfl, rfl, rfl⟩⟩

theorem r69 : RuleOK 69 := by
  intro _ cs k vs s v s' b e hp hi he hs hE
  obtain ⟨c1, _, v1, _, rfl, rfl, i1, c2, _, v2, _, rfl, rfl, i2, c3, _, v3, _, rfl, rfl, i3, c4, _, v4, _, rfl, rfl, i4, rfl, rfl⟩ : IsL [T.CHAR, T.LPAREN, T.INTVAL, T.RPAREN] cs k vs e := hi e hs
  obtain ⟨w1, rfl⟩ : c1.ws _ = [.kw T.CHAR] ∧ v1 = .undef := i1
  obtain ⟨w2, rfl⟩ : c2.ws _ = [.kw T.LPAREN] ∧ v2 = .undef := i2
  obtain ⟨x3, w3, rfl⟩ : ∃ x : Int, c3.ws _ = [.int x] ∧ v3 = .int x := i3
  obtain ⟨w4, rfl⟩ : c4.ws _ = [.kw T.RPAREN] ∧ v4 = .undef := i4
  show ∃ (x : ColType), (Tree.node 69 [c1, c2, c3, c4]).ws k = x.words ∧ tup4 v
  obtain rfl := ev_inv rfl he rfl
  exact ⟨.char x3, by rw [ws_node]; simp only [wsL, w1, w2, w3, w4] <;> first | rfl | simp [havingW, Group.words, cat], ⟨_, _, _, _, rfl, rfl, rfl, rfl, rfl⟩⟩

theorem r70 : RuleOK 70 := by
  intro _ cs k vs s v s' b e hp hi he hs hE
  obtain ⟨c1, _, v1, _, rfl, rfl, i1, c2, _, v2, _, rfl, rfl, i2, c3, _, v3, _, rfl, rfl, i3, c4, _, v4, _, rfl, rfl, i4, rfl, rfl⟩ : IsL [T.CHARACTER_VARYING, T.LPAREN, T.INTVAL, T.RPAREN] cs k vs e := hi e hs
  obtain ⟨w1, rfl⟩ : c1.ws _ = [.kw T.CHARACTER_VARYING] ∧ v1 = .undef := i1
  obtain ⟨w2, rfl⟩ : c2.ws _ = [.kw T.LPAREN] ∧ v2 = .undef := i2
  obtain ⟨x3, w3, rfl⟩ : ∃ x : Int, c3.ws _ = [.int x] ∧ v3 = .int x := i3
  obtain ⟨w4, rfl⟩ : c4.ws _ = [.kw T.RPAREN] ∧ v4 = .undef := i4
  show ∃ (x : ColType), (Tree.node 70 [c1, c2, c3, c4]).ws k = x.words ∧ tup4 v
  obtain rfl := ev_inv rfl he rfl
  exact ⟨.characterVarying x3, by rw [ws_node]; simp only [wsL, w1, w2, w3, w4] <;> first | rfl | simp [havingW, Group.words, cat], ⟨_, _, _, _, rfl, rfl, rfl, rfl, rfl⟩⟩

theorem r71 : RuleOK 71 := by
  intro _ cs k vs s v s' b e hp hi he hs hE
  obtain ⟨c1, _, v1, _, rfl, rfl, i1, rfl, rfl⟩ : IsL [T.DATE] cs k vs e := hi e hs
  obtain ⟨w1, rfl⟩ : c1.ws _ = [.kw T.DATE] ∧ v1 = .undef := i1
  show ∃ (x : ColType), (Tree.node 71 [c1]).ws k = x.words ∧ tup4 v
  obtain rfl := ev_inv rfl he rfl
  exact ⟨.simple .date, by rw [ws_node]; simp only [wsL, w1] <;> first | rfl | simp [havingW, Group.words, cat], ⟨_, _, _, _, rfl, rfl, rfl, rfl, rfl⟩⟩

theorem r72 : RuleOK 72 := by
  intro _ cs k vs s v s' b e hp hi he hs hE
  obtain ⟨c1, _, v1, _, rfl, rfl, i1, rfl, rfl⟩ : IsL [T.DATETIME] cs k vs e := hi e hs
  obtain ⟨w1, rfl⟩ : c1.ws _ = [.kw T.DATETIME] ∧ v1 = .undef := i1
  show ∃ (x : ColType), (Tree.node 72 [c1]).ws k = x.words ∧ tup4 v
  obtain rfl := ev_inv rfl he rfl
  exact ⟨.simple .datetime, by rw [ws_node]; simp only [wsL, w1] <;> first | rfl | simp [havingW, Group.words, cat], ⟨_, _, _, _, rfl, rfl, rfl, rfl, rfl⟩⟩

theorem r73 : RuleOK 73 := by
  intro _ cs k vs s v s' b e hp hi he hs hE
  obtain ⟨c1, _, v1, _, rfl, rfl, i1, c2, _, v2, _, rfl, rfl, i2, rfl, rfl⟩ : IsL [T.DECIMAL, N.opt_decimal_specification] cs k vs e := hi e hs
  obtain ⟨w1, rfl⟩ : c1.ws _ = [.kw T.DECIMAL] ∧ v1 = .undef := i1
  obtain ⟨x2, w2, h2⟩ : ∃ (x : Option (Int × Option Int)), c2.ws _ = decW x ∧ ∃ i j, v2 = .obj 0 .IntPair [.int i, .int j] := i2
  show ∃ (x : ColType), (Tree.node 73 [c1, c2]).ws k = x.words ∧ tup4 v
  obtain ⟨i, j, rfl⟩ := h2
  obtain rfl := ev_inv rfl he rfl
  rcases x2 with _ | ⟨p, _ | q⟩
  · exact ⟨.decimal, by rw [ws_node]; simp only [wsL, w1, w2] <;> first | rfl | simp [havingW, Group.words, cat], ⟨_, _, _, _, rfl, rfl, rfl, rfl, rfl⟩⟩
  · exact ⟨.decimal1 p, by rw [ws_node]; simp only [wsL, w1, w2] <;> first | rfl | simp [havingW, Group.words, cat], ⟨_, _, _, _, rfl, rfl, rfl, rfl, rfl⟩⟩
  · exact ⟨.decimal2 p q, by rw [ws_node]; simp only [wsL, w1, w2] <;> first | rfl | simp [havingW, Group.words, cat], ⟨_, _, _, _, rfl, rfl, rfl, rfl, rfl⟩⟩

theorem r74 : RuleOK 74 := by
  intro _ cs k vs s v s' b e hp hi he hs hE
  obtain ⟨c1, _, v1, _, rfl, rfl, i1, rfl, rfl⟩ : IsL [T.DOUBLE] cs k vs e := hi e hs
  obtain ⟨w1, rfl⟩ : c1.ws _ = [.kw T.DOUBLE] ∧ v1 = .undef := i1
  show ∃ (x : ColType), (Tree.node 74 [c1]).ws k = x.words ∧ tup4 v
  obtain rfl := ev_inv rfl he rfl
  exact ⟨.simple .double, by rw [ws_node]; simp only [wsL, w1] <;> first | rfl | simp [havingW, Group.words, cat], ⟨_, _, _, _, rfl, rfl, rfl, rfl, rfl⟩⟩

theorem r75 : RuleOK 75 := by
  intro _ cs k vs s v s' b e hp hi he hs hE
  obtain ⟨c1, _, v1, _, rfl, rfl, i1, rfl, rfl⟩ : IsL [T.FLOAT] cs k vs e := hi e hs
  obtain ⟨w1, rfl⟩ : c1.ws _ = [.kw T.FLOAT] ∧ v1 = .undef := i1
  show ∃ (x : ColType), (Tree.node 75 [c1]).ws k = x.words ∧ tup4 v
  obtain rfl := ev_inv rfl he rfl
  exact ⟨.simple .float, by rw [ws_node]; simp only [wsL, w1] <;> first | rfl | simp [havingW, Group.words, cat], ⟨_, _, _, _, rfl, rfl, rfl, rfl, rfl⟩⟩

theorem r76 : RuleOK 76 := by
  intro _ cs k vs s v s' b e hp hi he hs hE
  obtain ⟨c1, _, v1, _, rfl, rfl, i1, rfl, rfl⟩ : IsL [T.INT] cs k vs e := hi e hs
  obtain ⟨w1, rfl⟩ : c1.ws _ = [.kw T.INT] ∧ v1 = .undef := i1
  show ∃ (x : ColType), (Tree.node 76 [c1]).ws k = x.words ∧ tup4 v
  obtain rfl := ev_inv rfl he rfl
  exact ⟨.simple .int, by rw [ws_node]; simp only [wsL, w1] <;> first | rfl | simp [havingW, Group.words, cat], ⟨_, _, _, _, rfl, rfl, rfl, rfl, rfl⟩⟩

theorem r77 : RuleOK 77 := by
  intro _ cs k vs s v s' b e hp hi he hs hE
  obtain ⟨c1, _, v1, _, rfl, rfl, i1, rfl, rfl⟩ : IsL [T.INTEGER] cs k vs e := hi e hs
  obtain ⟨w1, rfl⟩ : c1.ws _ = [.kw T.INTEGER] ∧ v1 = .undef := i1
  show ∃ (x : ColType), (Tree.node 77 [c1]).ws k = x.words ∧ tup4 v
  obtain rfl := ev_inv rfl he rfl
  exact ⟨.simple .integer, by rw [ws_node]; simp only [wsL, w1] <;> first | rfl | simp [havingW, Group.words, cat], ⟨_, _, _, _, rfl, rfl, rfl, rfl, rfl⟩⟩

theorem r78 : RuleOK 78 := by
  intro _ cs k vs s v s' b e hp hi he hs hE
  obtain ⟨c1, _, v1, _, rfl, rfl, i1, rfl, rfl⟩ : IsL [T.LONG] cs k vs e := hi e hs
  obtain ⟨w1, rfl⟩ : c1.ws _ = [.kw T.LONG] ∧ v1 = .undef := i1
  show ∃ (x : ColType), (Tree.node 78 [c1]).ws k = x.words ∧ tup4 v
  obtain rfl := ev_inv rfl he rfl
  exact ⟨.simple .long, by rw [ws_node]; simp only [wsL, w1] <;> first | rfl | simp [havingW, Group.words, cat], ⟨_, _, _, _, rfl, rfl, rfl, rfl, rfl⟩⟩

theorem r79 : RuleOK 79 := by
  intro _ cs k vs s v s' b e hp hi he hs hE
  obtain ⟨c1, _, v1, _, rfl, rfl, i1, rfl, rfl⟩ : IsL [T.REAL] cs k vs e := hi e hs
  obtain ⟨w1, rfl⟩ : c1.ws _ = [.kw T.REAL] ∧ v1 = .undef := i1
  show ∃ (x : ColType), (Tree.node 79 [c1]).ws k = x.words ∧ tup4 v
  obtain rfl := ev_inv rfl he rfl
  exact ⟨.simple .real, by rw [ws_node]; simp only [wsL, w1] <;> first | rfl | simp [havingW, Group.words, cat], ⟨_, _, _, _, rfl, rfl, rfl, rfl, rfl⟩⟩

theorem r80 : RuleOK 80 := by
  intro _ cs k vs s v s' b e hp hi he hs hE
  obtain ⟨c1, _, v1, _, rfl, rfl, i1, rfl, rfl⟩ : IsL [T.SMALLINT] cs k vs e := hi e hs
  obtain ⟨w1, rfl⟩ : c1.ws _ = [.kw T.SMALLINT] ∧ v1 = .undef := i1
  show ∃ (x : ColType), (Tree.node 80 [c1]).ws k = x.words ∧ tup4 v
  obtain rfl := ev_inv rfl he rfl
  exact ⟨.simple .smallint, by rw [ws_node]; simp only [wsL, w1] <;> first | rfl | simp [havingW, Group.words, cat], ⟨_, _, _, _, rfl, rfl, rfl, rfl, rfl⟩⟩

theorem r81 : RuleOK 81 := by
  intro _ cs k vs s v s' b e hp hi he hs hE
  obtain ⟨c1, _, v1, _, rfl, rfl, i1, rfl, rfl⟩ : IsL [T.TEXT] cs k vs e := hi e hs
  obtain ⟨w1, rfl⟩ : c1.ws _ = [.kw T.TEXT] ∧ v1 = .undef := i1
  show ∃ (x : ColType), (Tree.node 81 [c1]).ws k = x.words ∧ tup4 v
  obtain rfl := ev_inv rfl he rfl
  exact ⟨.simple .text, by rw [ws_node]; simp only [wsL, w1] <;> first | rfl | simp [havingW, Group.words, cat], ⟨_, _, _, _, rfl, rfl, rfl, rfl, rfl⟩⟩

theorem r82 : RuleOK 82 := by
  intro _ cs k vs s v s' b e hp hi he hs hE
  obtain ⟨c1, _, v1, _, rfl, rfl, i1, c2, _, v2, _, rfl, rfl, i2, rfl, rfl⟩ : IsL [T.TIME, N.opt_time_precision] cs k vs e := hi e hs
  obtain ⟨w1, rfl⟩ : c1.ws _ = [.kw T.TIME] ∧ v1 = .undef := i1
  obtain ⟨x2, w2, h2⟩ : ∃ (x : Option Int), c2.ws _ = timeW x ∧ ∃ i, v2 = .int i := i2
  show ∃ (x : ColType), (Tree.node 82 [c1, c2]).ws k = x.words ∧ tup4 v
  obtain ⟨i, rfl⟩ := h2
  obtain rfl := ev_inv rfl he rfl
  rcases x2 with _ | p
  · exact ⟨.time, by rw [ws_node]; simp only [wsL, w1, w2] <;> first | rfl | simp [havingW, Group.words, cat], ⟨_, _, _, _, rfl, rfl, rfl, rfl, rfl⟩⟩
  · exact ⟨.time1 p, by rw [ws_node]; simp only [wsL, w1, w2] <;> first | rfl | simp [havingW, Group.words, cat], ⟨_, _, _, _, rfl, rfl, rfl, rfl, rfl⟩⟩

theorem r83 : RuleOK 83 := by
  intro _ cs k vs s v s' b e hp hi he hs hE
  obtain ⟨c1, _, v1, _, rfl, rfl, i1, rfl, rfl⟩ : IsL [T.TIMESTAMP] cs k vs e := hi e hs
  obtain ⟨w1, rfl⟩ : c1.ws _ = [.kw T.TIMESTAMP] ∧ v1 = .undef := i1
  show ∃ (x : ColType), (Tree.node 83 [c1]).ws k = x.words ∧ tup4 v
  obtain rfl := ev_inv rfl he rfl
  exact ⟨.simple .timestamp, by rw [ws_node]; simp only [wsL, w1] <;> first | rfl | simp [havingW, Group.words, cat], ⟨_, _, _, _, rfl, rfl, rfl, rfl, rfl⟩⟩

theorem r84 : RuleOK 84 := by
  intro _ cs k vs s v s' b e hp hi he hs hE
  obtain ⟨c1, _, v1, _, rfl, rfl, i1, c2, _, v2, _, rfl, rfl, i2, c3, _, v3, _, rfl, rfl, i3, c4, _, v4, _, rfl, rfl, i4, rfl, rfl⟩ : IsL [T.VARCHAR, T.LPAREN, T.INTVAL, T.RPAREN] cs k vs e := hi e hs
  obtain ⟨w1, rfl⟩ : c1.ws _ = [.kw T.VARCHAR] ∧ v1 = .undef := i1
  obtain ⟨w2, rfl⟩ : c2.ws _ = [.kw T.LPAREN] ∧ v2 = .undef := i2
  obtain ⟨x3, w3, rfl⟩ : ∃ x : Int, c3.ws _ = [.int x] ∧ v3 = .int x := i3
  obtain ⟨w4, rfl⟩ : c4.ws _ = [.kw T.RPAREN] ∧ v4 = .undef := i4
  show ∃ (x : ColType), (Tree.node 84 [c1, c2, c3, c4]).ws k = x.words ∧ tup4 v
  obtain rfl := ev_inv rfl he rfl
  exact ⟨.varchar x3, by rw [ws_node]; simp only [wsL, w1, w2, w3, w4] <;> first | rfl | simp [havingW, Group.words, cat], ⟨_, _, _, _, rfl, rfl, rfl, rfl, rfl⟩⟩

theorem r85 : RuleOK 85 := by
  intro _ cs k vs s v s' b e hp hi he hs hE
  obtain ⟨c1, _, v1, _, rfl, rfl, i1, c2, _, v2, _, rfl, rfl, i2, c3, _, v3, _, rfl, rfl, i3, rfl, rfl⟩ : IsL [T.LPAREN, T.INTVAL, T.RPAREN] cs k vs e := hi e hs
  obtain ⟨w1, rfl⟩ : c1.ws _ = [.kw T.LPAREN] ∧ v1 = .undef := i1
  obtain ⟨x2, w2, rfl⟩ : ∃ x : Int, c2.ws _ = [.int x] ∧ v2 = .int x := i2
  obtain ⟨w3, rfl⟩ : c3.ws _ = [.kw T.RPAREN] ∧ v3 = .undef := i3
  show ∃ (x : Option Int), (Tree.node 85 [c1, c2, c3]).ws k = timeW x ∧ ∃ i, v = .int i
  obtain rfl := ev_inv rfl he rfl
  exact ⟨some x2, by rw [ws_node]; simp only [wsL, w1, w2, w3] <;> first | rfl | simp [havingW, Group.words, cat], _, rfl⟩

theorem r86 : RuleOK 86 := by
  intro _ cs k vs s v s' b e hp hi he hs hE
  obtain ⟨rfl, rfl⟩ : IsL [] cs k vs e := hi e hs
  show ∃ (x : Option Int), (Tree.node 86 []).ws k = timeW x ∧ ∃ i, v = .int i
  obtain rfl := ev_inv rfl he rfl
  exact ⟨none, by rw [ws_node]; simp only [wsL] <;> first | rfl | simp [havingW, Group.words, cat], _, rfl⟩

theorem r87 : RuleOK 87 := by
  intro _ cs k vs s v s' b e hp hi he hs hE
  obtain ⟨c1, _, v1, _, rfl, rfl, i1, c2, _, v2, _, rfl, rfl, i2, c3, _, v3, _, rfl, rfl, i3, c4, _, v4, _, rfl, rfl, i4, c5, _, v5, _, rfl, rfl, i5, rfl, rfl⟩ : IsL [T.LPAREN, T.INTVAL, T.COMMA, T.INTVAL, T.RPAREN] cs k vs e := hi e hs
  obtain ⟨w1, rfl⟩ : c1.ws _ = [.kw T.LPAREN] ∧ v1 = .undef := i1
  obtain ⟨x2, w2, rfl⟩ : ∃ x : Int, c2.ws _ = [.int x] ∧ v2 = .int x := i2
  obtain ⟨w3, rfl⟩ : c3.ws _ = [.kw T.COMMA] ∧ v3 = .undef := i3
  obtain ⟨x4, w4, rfl⟩ : ∃ x : Int, c4.ws _ = [.int x] ∧ v4 = .int x := i4
  obtain ⟨w5, rfl⟩ : c5.ws _ = [.kw T.RPAREN] ∧ v5 = .undef := i5
  show ∃ (x : Option (Int × Option Int)), (Tree.node 87 [c1, c2, c3, c4, c5]).ws k = decW x ∧ ∃ i j, v = .obj 0 .IntPair [.int i, .int j]
  obtain rfl := ev_inv rfl he rfl
  exact ⟨some (x2, some x4), by rw [ws_node]; simp only [wsL, w1, w2, w3, w4, w5] <;> first | rfl | simp [havingW, Group.words, cat], _, _, rfl⟩

theorem r88 : RuleOK 88 := by
  intro _ cs k vs s v s' b e hp hi he hs hE
  obtain ⟨c1, _, v1, _, rfl, rfl, i1, c2, _, v2, _, rfl, rfl, i2, c3, _, v3, _, rfl, rfl, i3, rfl, rfl⟩ : IsL [T.LPAREN, T.INTVAL, T.RPAREN] cs k vs e := hi e hs
  obtain ⟨w1, rfl⟩ : c1.ws _ = [.kw T.LPAREN] ∧ v1 = .undef := i1
  obtain ⟨x2, w2, rfl⟩ : ∃ x : Int, c2.ws _ = [.int x] ∧ v2 = .int x := i2
  obtain ⟨w3, rfl⟩ : c3.ws _ = [.kw T.RPAREN] ∧ v3 = .undef := i3
  show ∃ (x : Option (Int × Option Int)), (Tree.node 88 [c1, c2, c3]).ws k = decW x ∧ ∃ i j, v = .obj 0 .IntPair [.int i, .int j]
  obtain rfl := ev_inv rfl he rfl
  exact ⟨some (x2, none), by rw [ws_node]; simp only [wsL, w1, w2, w3] <;> first | rfl | simp [havingW, Group.words, cat], _, _, rfl⟩

theorem r89 : RuleOK 89 := by
  intro _ cs k vs s v s' b e hp hi he hs hE
  obtain ⟨rfl, rfl⟩ : IsL [] cs k vs e := hi e hs
  show ∃ (x : Option (Int × Option Int)), (Tree.node 89 []).ws k = decW x ∧ ∃ i j, v = .obj 0 .IntPair [.int i, .int j]
  obtain rfl := ev_inv rfl he rfl
  exact ⟨none, by rw [ws_node]; simp only [wsL] <;> first | rfl | simp [havingW, Group.words, cat], _, _, rfl⟩

theorem r90 : RuleOK 90 := by
  intro _ cs k vs s v s' b e hp hi he hs hE
  obtain ⟨c1, _, v1, _, rfl, rfl, i1, rfl, rfl⟩ : IsL [N.column_constraints] cs k vs e := hi e hs
  obtain ⟨x1, w1, h1⟩ : ∃ (x : Constraints), c1.ws _ = x.words ∧ ∃ rs, v1 = consV x.kinds rs := i1
  show ∃ (x : ColCons), (Tree.node 90 [c1]).ws k = x.words ∧ ∃ rs, v = consV x.kinds rs
  obtain ⟨rs, rfl⟩ := h1
  obtain rfl := ev_inv rfl he rfl
  exact ⟨.some x1, by rw [ws_node]; simp only [wsL, w1] <;> first | rfl | simp [havingW, Group.words, cat], rs, rfl⟩

theorem r91 : RuleOK 91 := by
  intro _ cs k vs s v s' b e hp hi he hs hE
  obtain ⟨rfl, rfl⟩ : IsL [] cs k vs e := hi e hs
  show ∃ (x : ColCons), (Tree.node 91 []).ws k = x.words ∧ ∃ rs, v = consV x.kinds rs
  obtain rfl := ev_inv rfl he rfl
  exact ⟨.none, by rw [ws_node]; simp only [wsL] <;> first | rfl | simp [havingW, Group.words, cat], [], rfl⟩

theorem r92 : RuleOK 92 := by
  intro _ cs k vs s v s' b e hp hi he hs hE
  obtain ⟨c1, _, v1, _, rfl, rfl, i1, rfl, rfl⟩ : IsL [N.column_constraint] cs k vs e := hi e hs
  obtain ⟨x1, w1, rfl⟩ : ∃ (x : Constraint), c1.ws _ = x.words ∧ v1 = .int x.kind := i1
  show ∃ (x : Constraints), (Tree.node 92 [c1]).ws k = x.words ∧ ∃ rs, v = consV x.kinds rs
  obtain rfl := ev_inv rfl he rfl
  exact ⟨.one x1, by rw [ws_node]; simp only [wsL, w1] <;> first | rfl | simp [havingW, Group.words, cat], [], rfl⟩

theorem r93 : RuleOK 93 := by
  intro _ cs k vs s v s' b e hp hi he hs hE
  obtain ⟨c1, _, v1, _, rfl, rfl, i1, c2, _, v2, _, rfl, rfl, i2, rfl, rfl⟩ : IsL [N.column_constraints, N.column_constraint] cs k vs e := hi e hs
  obtain ⟨x1, w1, h1⟩ : ∃ (x : Constraints), c1.ws _ = x.words ∧ ∃ rs, v1 = consV x.kinds rs := i1
  obtain ⟨x2, w2, rfl⟩ : ∃ (x : Constraint), c2.ws _ = x.words ∧ v2 = .int x.kind := i2
  show ∃ (x : Constraints), (Tree.node 93 [c1, c2]).ws k = x.words ∧ ∃ rs, v = consV x.kinds rs
  obtain ⟨rs, rfl⟩ := h1
  obtain rfl := inv93 he
  exact ⟨.snoc x1 x2, by rw [ws_node]; simp only [wsL, w1, w2] <;> first | rfl | simp [havingW, Group.words, cat], rs, rfl⟩

theorem r94 : RuleOK 94 := by
  intro _ cs k vs s v s' b e hp hi he hs hE
  obtain ⟨c1, _, v1, _, rfl, rfl, i1, rfl, rfl⟩ : IsL [N.references_spec] cs k vs e := hi e hs
  obtain ⟨x1, y1, w1, rfl⟩ : ∃ (x : TName) (y : Option Names), c1.ws _ = cat [kw T.REFERENCES, x.words, colsWords y] ∧ v1 = refV x y := i1
  show ∃ (x : Constraints), (Tree.node 94 [c1]).ws k = x.words ∧ ∃ rs, v = consV x.kinds rs
  obtain rfl := ev_inv rfl he rfl
  exact ⟨.one (.references x1 y1), by rw [ws_node]; simp only [wsL, w1] <;> first | rfl | simp [havingW, Group.words, cat], [refV x1 y1], rfl⟩

theorem r95 : RuleOK 95 := by
  intro _ cs k vs s v s' b e hp hi he hs hE
  obtain ⟨c1, _, v1, _, rfl, rfl, i1, c2, _, v2, _, rfl, rfl, i2, rfl, rfl⟩ : IsL [N.column_constraints, N.references_spec] cs k vs e := hi e hs
  obtain ⟨x1, w1, h1⟩ : ∃ (x : Constraints), c1.ws _ = x.words ∧ ∃ rs, v1 = consV x.kinds rs := i1
  obtain ⟨x2, y2, w2, rfl⟩ : ∃ (x : TName) (y : Option Names), c2.ws _ = cat [kw T.REFERENCES, x.words, colsWords y] ∧ v2 = refV x y := i2
  show ∃ (x : Constraints), (Tree.node 95 [c1, c2]).ws k = x.words ∧ ∃ rs, v = consV x.kinds rs
  obtain ⟨rs, rfl⟩ := h1
  obtain rfl := inv95 he
  exact ⟨.snoc x1 (.references x2 y2), by rw [ws_node]; simp only [wsL, w1, w2] <;> first | rfl | simp [havingW, Group.words, cat], _, rfl⟩

theorem r96 : RuleOK 96 := by
  intro _ cs k vs s v s' b e hp hi he hs hE
  obtain ⟨c1, _, v1, _, rfl, rfl, i1, c2, _, v2, _, rfl, rfl, i2, rfl, rfl⟩ : IsL [T.PRIMARY, T.KEY] cs k vs e := hi e hs
  obtain ⟨w1, rfl⟩ : c1.ws _ = [.kw T.PRIMARY] ∧ v1 = .undef := i1
  obtain ⟨w2, rfl⟩ : c2.ws _ = [.kw T.KEY] ∧ v2 = .undef := i2
  show ∃ (x : Constraint), (Tree.node 96 [c1, c2]).ws k = x.words ∧ v = .int x.kind
  obtain rfl := ev_inv rfl he rfl
  exact ⟨.primaryKey, by rw [ws_node]; simp only [wsL, w1, w2] <;> first | rfl | simp [havingW, Group.words, cat], rfl⟩

theorem r97 : RuleOK 97 := by
  intro _ cs k vs s v s' b e hp hi he hs hE
  obtain ⟨c1, _, v1, _, rfl, rfl, i1, rfl, rfl⟩ : IsL [T.UNIQUE] cs k vs e := hi e hs
  obtain ⟨w1, rfl⟩ : c1.ws _ = [.kw T.UNIQUE] ∧ v1 = .undef := i1
  show ∃ (x : Constraint), (Tree.node 97 [c1]).ws k = x.words ∧ v = .int x.kind
  obtain rfl := ev_inv rfl he rfl
  exact ⟨.unique, by rw [ws_node]; simp only [wsL, w1] <;> first | rfl | simp [havingW, Group.words, cat], rfl⟩

theorem r98 : RuleOK 98 := by
  intro _ cs k vs s v s' b e hp hi he hs hE
  obtain ⟨c1, _, v1, _, rfl, rfl, i1, rfl, rfl⟩ : IsL [T.NULL] cs k vs e := hi e hs
  obtain ⟨w1, rfl⟩ : c1.ws _ = [.kw T.NULL] ∧ v1 = .undef := i1
  show ∃ (x : Constraint), (Tree.node 98 [c1]).ws k = x.words ∧ v = .int x.kind
  obtain rfl := ev_inv rfl he rfl
  exact ⟨.null, by rw [ws_node]; simp only [wsL, w1] <;> first | rfl | simp [havingW, Group.words, cat], rfl⟩

theorem r99 : RuleOK 99 := by
  intro _ cs k vs s v s' b e hp hi he hs hE
  obtain ⟨c1, _, v1, _, rfl, rfl, i1, c2, _, v2, _, rfl, rfl, i2, rfl, rfl⟩ : IsL [T.NOT, T.NULL] cs k vs e := hi e hs
  obtain ⟨w1, rfl⟩ : c1.ws _ = [.kw T.NOT] ∧ v1 = .undef := i1
  obtain ⟨w2, rfl⟩ : c2.ws _ = [.kw T.NULL] ∧ v2 = .undef := i2
  show ∃ (x : Constraint), (Tree.node 99 [c1, c2]).ws k = x.words ∧ v = .int x.kind
  obtain rfl := ev_inv rfl he rfl
  exact ⟨.notNull, by rw [ws_node]; simp only [wsL, w1, w2] <;> first | rfl | simp [havingW, Group.words, cat], rfl⟩

theorem r100 : RuleOK 100 := by
  intro _ cs k vs s v s' b e hp hi he hs hE
  obtain ⟨c1, _, v1, _, rfl, rfl, i1, c2, _, v2, _, rfl, rfl, i2, c3, _, v3, _, rfl, rfl, i3, c4, _, v4, _, rfl, rfl, i4, c5, _, v5, _, rfl, rfl, i5, rfl, rfl⟩ : IsL [T.PRIMARY, T.KEY, T.LPAREN, N.ident_commalist, T.RPAREN] cs k vs e := hi e hs
  obtain ⟨w1, rfl⟩ : c1.ws _ = [.kw T.PRIMARY] ∧ v1 = .undef := i1
  obtain ⟨w2, rfl⟩ : c2.ws _ = [.kw T.KEY] ∧ v2 = .undef := i2
  obtain ⟨w3, rfl⟩ : c3.ws _ = [.kw T.LPAREN] ∧ v3 = .undef := i3
  obtain ⟨x4, w4, rfl⟩ : ∃ (x : Names), c4.ws _ = x.words ∧ v4 = x.v := i4
  obtain ⟨w5, rfl⟩ : c5.ws _ = [.kw T.RPAREN] ∧ v5 = .undef := i5
  show ∃ (x : TableElem), (Tree.node 100 [c1, c2, c3, c4, c5]).ws k = x.words
  exact ⟨.primaryKey x4, by rw [ws_node]; simp only [wsL, w1, w2, w3, w4, w5] <;> first | rfl | simp [havingW, Group.words, cat]⟩

theorem r101 : RuleOK 101 := by
  intro _ cs k vs s v s' b e hp hi he hs hE
  obtain ⟨c1, _, v1, _, rfl, rfl, i1, c2, _, v2, _, rfl, rfl, i2, c3, _, v3, _, rfl, rfl, i3, c4, _, v4, _, rfl, rfl, i4, rfl, rfl⟩ : IsL [T.UNIQUE, T.LPAREN, N.ident_commalist, T.RPAREN] cs k vs e := hi e hs
  obtain ⟨w1, rfl⟩ : c1.ws _ = [.kw T.UNIQUE] ∧ v1 = .undef := i1
  obtain ⟨w2, rfl⟩ : c2.ws _ = [.kw T.LPAREN] ∧ v2 = .undef := i2
  obtain ⟨x3, w3, rfl⟩ : ∃ (x : Names), c3.ws _ = x.words ∧ v3 = x.v := i3
  obtain ⟨w4, rfl⟩ : c4.ws _ = [.kw T.RPAREN] ∧ v4 = .undef := i4
  show ∃ (x : TableElem), (Tree.node 101 [c1, c2, c3, c4]).ws k = x.words
  exact ⟨.unique x3, by rw [ws_node]; simp only [wsL, w1, w2, w3, w4] <;> first | rfl | simp [havingW, Group.words, cat]⟩

theorem r102 : RuleOK 102 := by
  intro _ cs k vs s v s' b e hp hi he hs hE
  obtain ⟨c1, _, v1, _, rfl, rfl, i1, c2, _, v2, _, rfl, rfl, i2, c3, _, v3, _, rfl, rfl, i3, c4, _, v4, _, rfl, rfl, i4, c5, _, v5, _, rfl, rfl, i5, c6, _, v6, _, rfl, rfl, i6, rfl, rfl⟩ : IsL [T.FOREIGN, T.KEY, T.LPAREN, N.ident_commalist, T.RPAREN, N.references_spec] cs k vs e := hi e hs
  obtain ⟨w1, rfl⟩ : c1.ws _ = [.kw T.FOREIGN] ∧ v1 = .undef := i1
  obtain ⟨w2, rfl⟩ : c2.ws _ = [.kw T.KEY] ∧ v2 = .undef := i2
  obtain ⟨w3, rfl⟩ : c3.ws _ = [.kw T.LPAREN] ∧ v3 = .undef := i3
  obtain ⟨x4, w4, rfl⟩ : ∃ (x : Names), c4.ws _ = x.words ∧ v4 = x.v := i4
  obtain ⟨w5, rfl⟩ : c5.ws _ = [.kw T.RPAREN] ∧ v5 = .undef := i5
  obtain ⟨x6, y6, w6, rfl⟩ : ∃ (x : TName) (y : Option Names), c6.ws _ = cat [kw T.REFERENCES, x.words, colsWords y] ∧ v6 = refV x y := i6
  show ∃ (x : TableElem), (Tree.node 102 [c1, c2, c3, c4, c5, c6]).ws k = x.words
  exact ⟨.foreignKey x4 x6 y6, by rw [ws_node]; simp only [wsL, w1, w2, w3, w4, w5, w6] <;> first | rfl | simp [havingW, Group.words, cat]⟩

theorem r103 : RuleOK 103 := by
  intro _ cs k vs s v s' b e hp hi he hs hE
  obtain ⟨c1, _, v1, _, rfl, rfl, i1, c2, _, v2, _, rfl, rfl, i2, c3, _, v3, _, rfl, rfl, i3, rfl, rfl⟩ : IsL [T.REFERENCES, N.table_name, N.opt_column_list] cs k vs e := hi e hs
  obtain ⟨w1, rfl⟩ : c1.ws _ = [.kw T.REFERENCES] ∧ v1 = .undef := i1
  obtain ⟨x2, w2, rfl⟩ : ∃ (x : TName), c2.ws _ = x.words ∧ v2 = .tup [ostr x.schema, str x.name] := i2
  obtain ⟨x3, w3, rfl⟩ : ∃ (x : Option Names), c3.ws _ = colsWords x ∧ v3 = colsV x := i3
  show ∃ (x : TName) (y : Option Names), (Tree.node 103 [c1, c2, c3]).ws k = cat [kw T.REFERENCES, x.words, colsWords y] ∧ v = refV x y
  have hv : v = refV x2 x3 := by
    obtain ⟨sc, n⟩ := x2
    cases sc <;> cases x3 <;> exact ev_inv rfl he rfl
  exact ⟨x2, x3, by rw [ws_node]; simp only [wsL, w1, w2, w3] <;> first | rfl | simp [havingW, Group.words, cat], hv⟩

theorem r104 : RuleOK 104 := by
  intro _ cs k vs s v s' b e hp hi he hs hE
  obtain ⟨c1, _, v1, _, rfl, rfl, i1, c2, _, v2, _, rfl, rfl, i2, c3, _, v3, _, rfl, rfl, i3, c4, _, v4, _, rfl, rfl, i4, rfl, rfl⟩ : IsL [T.DROP, T.TABLE, N.opt_exists, N.table_name] cs k vs e := hi e hs
  obtain ⟨w1, rfl⟩ : c1.ws _ = [.kw T.DROP] ∧ v1 = .undef := i1
  obtain ⟨w2, rfl⟩ : c2.ws _ = [.kw T.TABLE] ∧ v2 = .undef := i2
  obtain ⟨x3, w3⟩ : ∃ (x : Bool), c3.ws _ = ifExists x := i3
  obtain ⟨x4, w4, rfl⟩ : ∃ (x : TName), c4.ws _ = x.words ∧ v4 = .tup [ostr x.schema, str x.name] := i4
  show ∃ (x : Stmt), (Tree.node 104 [c1, c2, c3, c4]).ws k = x.words
  exact ⟨.dropTable x3 x4, by rw [ws_node]; simp only [wsL, w1, w2, w3, w4] <;> first | rfl | simp [havingW, Group.words, cat]⟩

theorem r105 : RuleOK 105 := by
  intro _ cs k vs s v s' b e hp hi he hs hE
  obtain ⟨c1, _, v1, _, rfl, rfl, i1, c2, _, v2, _, rfl, rfl, i2, c3, _, v3, _, rfl, rfl, i3, c4, _, v4, _, rfl, rfl, i4, rfl, rfl⟩ : IsL [T.DROP, T.VIEW, N.opt_exists, N.table_name] cs k vs e := hi e hs
  obtain ⟨w1, rfl⟩ : c1.ws _ = [.kw T.DROP] ∧ v1 = .undef := i1
  obtain ⟨w2, rfl⟩ : c2.ws _ = [.kw T.VIEW] ∧ v2 = .undef := i2
  obtain ⟨x3, w3⟩ : ∃ (x : Bool), c3.ws _ = ifExists x := i3
  obtain ⟨x4, w4, rfl⟩ : ∃ (x : TName), c4.ws _ = x.words ∧ v4 = .tup [ostr x.schema, str x.name] := i4
  show ∃ (x : Stmt), (Tree.node 105 [c1, c2, c3, c4]).ws k = x.words
  exact ⟨.dropView x3 x4, by rw [ws_node]; simp only [wsL, w1, w2, w3, w4] <;> first | rfl | simp [havingW, Group.words, cat]⟩

theorem r106 : RuleOK 106 := by
  intro _ cs k vs s v s' b e hp hi he hs hE
  obtain ⟨c1, _, v1, _, rfl, rfl, i1, c2, _, v2, _, rfl, rfl, i2, c3, _, v3, _, rfl, rfl, i3, rfl, rfl⟩ : IsL [T.DEALLOCATE, T.PREPARE, T.IDENTIFIER] cs k vs e := hi e hs
  obtain ⟨w1, rfl⟩ : c1.ws _ = [.kw T.DEALLOCATE] ∧ v1 = .undef := i1
  obtain ⟨w2, rfl⟩ : c2.ws _ = [.kw T.PREPARE] ∧ v2 = .undef := i2
  obtain ⟨x3, w3, rfl⟩ : ∃ x : Name, c3.ws _ = nm x ∧ v3 = .str 0 x := i3
  show ∃ (x : Stmt), (Tree.node 106 [c1, c2, c3]).ws k = x.words
  exact ⟨.deallocate x3, by rw [ws_node]; simp only [wsL, w1, w2, w3] <;> first | rfl | simp [havingW, Group.words, cat]⟩

theorem r107 : RuleOK 107 := by
  intro _ cs k vs s v s' b e hp hi he hs hE
  obtain ⟨c1, _, v1, _, rfl, rfl, i1, c2, _, v2, _, rfl, rfl, i2, c3, _, v3, _, rfl, rfl, i3, c4, _, v4, _, rfl, rfl, i4, rfl, rfl⟩ : IsL [T.DROP, T.INDEX, N.opt_exists, T.IDENTIFIER] cs k vs e := hi e hs
  obtain ⟨w1, rfl⟩ : c1.ws _ = [.kw T.DROP] ∧ v1 = .undef := i1
  obtain ⟨w2, rfl⟩ : c2.ws _ = [.kw T.INDEX] ∧ v2 = .undef := i2
  obtain ⟨x3, w3⟩ : ∃ (x : Bool), c3.ws _ = ifExists x := i3
  obtain ⟨x4, w4, rfl⟩ : ∃ x : Name, c4.ws _ = nm x ∧ v4 = .str 0 x := i4
  show ∃ (x : Stmt), (Tree.node 107 [c1, c2, c3, c4]).ws k = x.words
  exact ⟨.dropIndex x3 x4, by rw [ws_node]; simp only [wsL, w1, w2, w3, w4] <;> first | rfl | simp [havingW, Group.words, cat]⟩

theorem r108 : RuleOK 108 := by
  intro _ cs k vs s v s' b e hp hi he hs hE
  obtain ⟨c1, _, v1, _, rfl, rfl, i1, c2, _, v2, _, rfl, rfl, i2, rfl, rfl⟩ : IsL [T.IF, T.EXISTS] cs k vs e := hi e hs
  obtain ⟨w1, rfl⟩ : c1.ws _ = [.kw T.IF] ∧ v1 = .undef := i1
  obtain ⟨w2, rfl⟩ : c2.ws _ = [.kw T.EXISTS] ∧ v2 = .undef := i2
  show ∃ (x : Bool), (Tree.node 108 [c1, c2]).ws k = ifExists x
  exact ⟨true, by rw [ws_node]; simp only [wsL, w1, w2] <;> first | rfl | simp [havingW, Group.words, cat]⟩

theorem r109 : RuleOK 109 := by
  intro _ cs k vs s v s' b e hp hi he hs hE
  obtain ⟨rfl, rfl⟩ : IsL [] cs k vs e := hi e hs
  show ∃ (x : Bool), (Tree.node 109 []).ws k = ifExists x
  exact ⟨false, by rw [ws_node]; simp only [wsL] <;> first | rfl | simp [havingW, Group.words, cat]⟩

theorem r110 : RuleOK 110 := by
  intro _ cs k vs s v s' b e hp hi he hs hE
  obtain ⟨c1, _, v1, _, rfl, rfl, i1, c2, _, v2, _, rfl, rfl, i2, c3, _, v3, _, rfl, rfl, i3, c4, _, v4, _, rfl, rfl, i4, c5, _, v5, _, rfl, rfl, i5, rfl, rfl⟩ : IsL [T.ALTER, T.TABLE, N.opt_exists, N.table_name, N.alter_action] cs k vs e := hi e hs
  obtain ⟨w1, rfl⟩ : c1.ws _ = [.kw T.ALTER] ∧ v1 = .undef := i1
  obtain ⟨w2, rfl⟩ : c2.ws _ = [.kw T.TABLE] ∧ v2 = .undef := i2
  obtain ⟨x3, w3⟩ : ∃ (x : Bool), c3.ws _ = ifExists x := i3
  obtain ⟨x4, w4, rfl⟩ : ∃ (x : TName), c4.ws _ = x.words ∧ v4 = .tup [ostr x.schema, str x.name] := i4
  obtain ⟨i5, x5, w5⟩ : ∃ (i : Bool) (x : Name), c5.ws _ = cat [kw T.DROP, kw T.COLUMN, ifExists i, nm x] := i5
  show ∃ (x : Stmt), (Tree.node 110 [c1, c2, c3, c4, c5]).ws k = x.words
  exact ⟨.alterDrop x3 x4 i5 x5, by rw [ws_node]; simp only [wsL, w1, w2, w3, w4, w5] <;> first | rfl | simp [havingW, Group.words, cat]⟩

theorem r111 : RuleOK 111 := by
  intro _ cs k vs s v s' b e hp hi he hs hE
  obtain ⟨c1, _, v1, _, rfl, rfl, i1, rfl, rfl⟩ : IsL [N.drop_action] cs k vs e := hi e hs
  obtain ⟨i1, x1, w1⟩ : ∃ (i : Bool) (x : Name), c1.ws _ = cat [kw T.DROP, kw T.COLUMN, ifExists i, nm x] := i1
  show ∃ (i : Bool) (x : Name), (Tree.node 111 [c1]).ws k = cat [kw T.DROP, kw T.COLUMN, ifExists i, nm x]
  exact ⟨i1, x1, by rw [ws_node]; simp only [wsL, w1] <;> first | rfl | simp [havingW, Group.words, cat]⟩

theorem r112 : RuleOK 112 := by
  intro _ cs k vs s v s' b e hp hi he hs hE
  obtain ⟨c1, _, v1, _, rfl, rfl, i1, c2, _, v2, _, rfl, rfl, i2, c3, _, v3, _, rfl, rfl, i3, c4, _, v4, _, rfl, rfl, i4, rfl, rfl⟩ : IsL [T.DROP, T.COLUMN, N.opt_exists, T.IDENTIFIER] cs k vs e := hi e hs
  obtain ⟨w1, rfl⟩ : c1.ws _ = [.kw T.DROP] ∧ v1 = .undef := i1
  obtain ⟨w2, rfl⟩ : c2.ws _ = [.kw T.COLUMN] ∧ v2 = .undef := i2
  obtain ⟨x3, w3⟩ : ∃ (x : Bool), c3.ws _ = ifExists x := i3
  obtain ⟨x4, w4, rfl⟩ : ∃ x : Name, c4.ws _ = nm x ∧ v4 = .str 0 x := i4
  show ∃ (i : Bool) (x : Name), (Tree.node 112 [c1, c2, c3, c4]).ws k = cat [kw T.DROP, kw T.COLUMN, ifExists i, nm x]
  exact ⟨x3, x4, by rw [ws_node]; simp only [wsL, w1, w2, w3, w4] <;> first | rfl | simp [havingW, Group.words, cat]⟩

theorem r113 : RuleOK 113 := by
  intro _ cs k vs s v s' b e hp hi he hs hE
  obtain ⟨c1, _, v1, _, rfl, rfl, i1, c2, _, v2, _, rfl, rfl, i2, c3, _, v3, _, rfl, rfl, i3, c4, _, v4, _, rfl, rfl, i4, rfl, rfl⟩ : IsL [T.DELETE, T.FROM, N.table_name, N.opt_where] cs k vs e := hi e hs
  obtain ⟨w1, rfl⟩ : c1.ws _ = [.kw T.DELETE] ∧ v1 = .undef := i1
  obtain ⟨w2, rfl⟩ : c2.ws _ = [.kw T.FROM] ∧ v2 = .undef := i2
  obtain ⟨x3, w3, rfl⟩ : ∃ (x : TName), c3.ws _ = x.words ∧ v3 = .tup [ostr x.schema, str x.name] := i3
  obtain ⟨x4, w4⟩ : ∃ (x : OExpr), c4.ws _ = whereW x := i4
  show ∃ (x : Stmt), (Tree.node 113 [c1, c2, c3, c4]).ws k = x.words
  exact ⟨.delete x3 x4, by rw [ws_node]; simp only [wsL, w1, w2, w3, w4] <;> first | rfl | simp [havingW, Group.words, cat]⟩

theorem r114 : RuleOK 114 := by
  intro _ cs k vs s v s' b e hp hi he hs hE
  obtain ⟨c1, _, v1, _, rfl, rfl, i1, c2, _, v2, _, rfl, rfl, i2, rfl, rfl⟩ : IsL [T.TRUNCATE, N.table_name] cs k vs e := hi e hs
  obtain ⟨w1, rfl⟩ : c1.ws _ = [.kw T.TRUNCATE] ∧ v1 = .undef := i1
  obtain ⟨x2, w2, rfl⟩ : ∃ (x : TName), c2.ws _ = x.words ∧ v2 = .tup [ostr x.schema, str x.name] := i2
  show ∃ (x : Stmt), (Tree.node 114 [c1, c2]).ws k = x.words
  exact ⟨.truncate x2, by rw [ws_node]; simp only [wsL, w1, w2] <;> first | rfl | simp [havingW, Group.words, cat]⟩

theorem r115 : RuleOK 115 := by
  intro _ cs k vs s v s' b e hp hi he hs hE
  obtain ⟨c1, _, v1, _, rfl, rfl, i1, c2, _, v2, _, rfl, rfl, i2, c3, _, v3, _, rfl, rfl, i3, c4, _, v4, _, rfl, rfl, i4, c5, _, v5, _, rfl, rfl, i5, c6, _, v6, _, rfl, rfl, i6, c7, _, v7, _, rfl, rfl, i7, c8, _, v8, _, rfl, rfl, i8, rfl, rfl⟩ : IsL [T.INSERT, T.INTO, N.table_name, N.opt_column_list, T.VALUES, T.LPAREN, N.extended_literal_list, T.RPAREN] cs k vs e := hi e hs
  obtain ⟨w1, rfl⟩ : c1.ws _ = [.kw T.INSERT] ∧ v1 = .undef := i1
  obtain ⟨w2, rfl⟩ : c2.ws _ = [.kw T.INTO] ∧ v2 = .undef := i2
  obtain ⟨x3, w3, rfl⟩ : ∃ (x : TName), c3.ws _ = x.words ∧ v3 = .tup [ostr x.schema, str x.name] := i3
  obtain ⟨x4, w4, rfl⟩ : ∃ (x : Option Names), c4.ws _ = colsWords x ∧ v4 = colsV x := i4
  obtain ⟨w5, rfl⟩ : c5.ws _ = [.kw T.VALUES] ∧ v5 = .undef := i5
  obtain ⟨w6, rfl⟩ : c6.ws _ = [.kw T.LPAREN] ∧ v6 = .undef := i6
  obtain ⟨x7, w7⟩ : ∃ (x : XLits), c7.ws _ = x.words := i7
  obtain ⟨w8, rfl⟩ : c8.ws _ = [.kw T.RPAREN] ∧ v8 = .undef := i8
  show ∃ (x : Stmt), (Tree.node 115 [c1, c2, c3, c4, c5, c6, c7, c8]).ws k = x.words
  exact ⟨.insertValues x3 x4 x7, by rw [ws_node]; simp only [wsL, w1, w2, w3, w4, w5, w6, w7, w8] <;> first | rfl | simp [havingW, Group.words, cat]⟩

theorem r116 : RuleOK 116 := by
  intro _ cs k vs s v s' b e hp hi he hs hE
  obtain ⟨c1, _, v1, _, rfl, rfl, i1, c2, _, v2, _, rfl, rfl, i2, c3, _, v3, _, rfl, rfl, i3, c4, _, v4, _, rfl, rfl, i4, c5, _, v5, _, rfl, rfl, i5, rfl, rfl⟩ : IsL [T.INSERT, T.INTO, N.table_name, N.opt_column_list, N.select_no_paren] cs k vs e := hi e hs
  obtain ⟨w1, rfl⟩ : c1.ws _ = [.kw T.INSERT] ∧ v1 = .undef := i1
  obtain ⟨w2, rfl⟩ : c2.ws _ = [.kw T.INTO] ∧ v2 = .undef := i2
  obtain ⟨x3, w3, rfl⟩ : ∃ (x : TName), c3.ws _ = x.words ∧ v3 = .tup [ostr x.schema, str x.name] := i3
  obtain ⟨x4, w4, rfl⟩ : ∃ (x : Option Names), c4.ws _ = colsWords x ∧ v4 = colsV x := i4
  obtain ⟨x5, w5⟩ : ∃ (x : Sel), c5.ws _ = x.words := i5
  show ∃ (x : Stmt), (Tree.node 116 [c1, c2, c3, c4, c5]).ws k = x.words
  exact ⟨.insertQuery x3 x4 x5, by rw [ws_node]; simp only [wsL, w1, w2, w3, w4, w5] <;> first | rfl | simp [havingW, Group.words, cat]⟩

theorem r117 : RuleOK 117 := by
  intro _ cs k vs s v s' b e hp hi he hs hE
  obtain ⟨c1, _, v1, _, rfl, rfl, i1, c2, _, v2, _, rfl, rfl, i2, c3, _, v3, _, rfl, rfl, i3, rfl, rfl⟩ : IsL [T.LPAREN, N.ident_commalist, T.RPAREN] cs k vs e := hi e hs
  obtain ⟨w1, rfl⟩ : c1.ws _ = [.kw T.LPAREN] ∧ v1 = .undef := i1
  obtain ⟨x2, w2, rfl⟩ : ∃ (x : Names), c2.ws _ = x.words ∧ v2 = x.v := i2
  obtain ⟨w3, rfl⟩ : c3.ws _ = [.kw T.RPAREN] ∧ v3 = .undef := i3
  show ∃ (x : Option Names), (Tree.node 117 [c1, c2, c3]).ws k = colsWords x ∧ v = colsV x
  obtain rfl := ev_inv rfl he rfl
  exact ⟨some x2, by rw [ws_node]; simp only [wsL, w1, w2, w3] <;> first | rfl | simp [havingW, Group.words, cat], rfl⟩

theorem r118 : RuleOK 118 := by
  intro _ cs k vs s v s' b e hp hi he hs hE
  obtain ⟨rfl, rfl⟩ : IsL [] cs k vs e := hi e hs
  show ∃ (x : Option Names), (Tree.node 118 []).ws k = colsWords x ∧ v = colsV x
  obtain rfl := ev_inv rfl he rfl
  exact ⟨none, by rw [ws_node]; simp only [wsL] <;> first | rfl | simp [havingW, Group.words, cat], rfl⟩

theorem r119 : RuleOK 119 := by
  intro _ cs k vs s v s' b e hp hi he hs hE
  obtain ⟨c1, _, v1, _, rfl, rfl, i1, c2, _, v2, _, rfl, rfl, i2, c3, _, v3, _, rfl, rfl, i3, c4, _, v4, _, rfl, rfl, i4, c5, _, v5, _, rfl, rfl, i5, rfl, rfl⟩ : IsL [T.UPDATE, N.table_ref_name_no_alias, T.SET, N.update_clause_commalist, N.opt_where] cs k vs e := hi e hs
  obtain ⟨w1, rfl⟩ : c1.ws _ = [.kw T.UPDATE] ∧ v1 = .undef := i1
  obtain ⟨x2, w2⟩ : ∃ (x : TName), c2.ws _ = x.words := i2
  obtain ⟨w3, rfl⟩ : c3.ws _ = [.kw T.SET] ∧ v3 = .undef := i3
  obtain ⟨x4, w4⟩ : ∃ (x : Updates), c4.ws _ = x.words := i4
  obtain ⟨x5, w5⟩ : ∃ (x : OExpr), c5.ws _ = whereW x := i5
  show ∃ (x : Stmt), (Tree.node 119 [c1, c2, c3, c4, c5]).ws k = x.words
  exact ⟨.update x2 x4 x5, by rw [ws_node]; simp only [wsL, w1, w2, w3, w4, w5] <;> first | rfl | simp [havingW, Group.words, cat]⟩

end Verif.Sql.Read

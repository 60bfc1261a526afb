import Verif.Sql.ReadTools
/-! GENERATED by tools/genread.py. The words of a tree, rule by rule. Proof-internal. -/
set_option linter.all false
set_option maxRecDepth 20000
namespace Verif.Sql.Read
open Verif.Lex Verif.LR Verif.Sem

theorem r240 : RuleOK 240 := by
  intro _ cs k vs s v s' b e hp hi he hs hE
  obtain ⟨c1, _, v1, _, rfl, rfl, i1, c2, _, v2, _, rfl, rfl, i2, c3, _, v3, _, rfl, rfl, i3, c4, _, v4, _, rfl, rfl, i4, c5, _, v5, _, rfl, rfl, i5, c6, _, v6, _, rfl, rfl, i6, rfl, rfl⟩ : IsL [T.IDENTIFIER, T.DOT, T.IDENTIFIER, T.LPAREN, T.RPAREN, N.opt_window] cs k vs e := hi e hs
  obtain ⟨x1, w1, rfl⟩ : ∃ x : Name, c1.ws _ = nm x ∧ v1 = .str 0 x := i1
  obtain ⟨w2, rfl⟩ : c2.ws _ = [.kw T.DOT] ∧ v2 = .undef := i2
  obtain ⟨x3, w3, rfl⟩ : ∃ x : Name, c3.ws _ = nm x ∧ v3 = .str 0 x := i3
  obtain ⟨w4, rfl⟩ : c4.ws _ = [.kw T.LPAREN] ∧ v4 = .undef := i4
  obtain ⟨w5, rfl⟩ : c5.ws _ = [.kw T.RPAREN] ∧ v5 = .undef := i5
  obtain ⟨x6, w6⟩ : ∃ (x : Window), c6.ws _ = x.words := i6
  show ∃ (x : Expr), (Tree.node 240 [c1, c2, c3, c4, c5, c6]).ws k = x.words ∧ OpE x (Tree.node 240 [c1, c2, c3, c4, c5, c6])
  exact ⟨.call (some x1) x3 .none x6, by rw [ws_node]; simp only [wsL, w1, w2, w3, w4, w5, w6] <;> first | rfl | simp [havingW, Group.words, cat], .atom rfl rfl⟩

theorem r241 : RuleOK 241 := by
  intro _ cs k vs s v s' b e hp hi he hs hE
  obtain ⟨c1, _, v1, _, rfl, rfl, i1, c2, _, v2, _, rfl, rfl, i2, c3, _, v3, _, rfl, rfl, i3, c4, _, v4, _, rfl, rfl, i4, c5, _, v5, _, rfl, rfl, i5, c6, _, v6, _, rfl, rfl, i6, c7, _, v7, _, rfl, rfl, i7, c8, _, v8, _, rfl, rfl, i8, rfl, rfl⟩ : IsL [T.IDENTIFIER, T.DOT, T.IDENTIFIER, T.LPAREN, N.opt_distinct, N.expr_list, T.RPAREN, N.opt_window] cs k vs e := hi e hs
  obtain ⟨x1, w1, rfl⟩ : ∃ x : Name, c1.ws _ = nm x ∧ v1 = .str 0 x := i1
  obtain ⟨w2, rfl⟩ : c2.ws _ = [.kw T.DOT] ∧ v2 = .undef := i2
  obtain ⟨x3, w3, rfl⟩ : ∃ x : Name, c3.ws _ = nm x ∧ v3 = .str 0 x := i3
  obtain ⟨w4, rfl⟩ : c4.ws _ = [.kw T.LPAREN] ∧ v4 = .undef := i4
  obtain ⟨x5, w5⟩ : ∃ (x : Bool), c5.ws _ = distinctKw x := i5
  obtain ⟨x6, w6⟩ : ∃ (x : Items), c6.ws _ = x.words := i6
  obtain ⟨w7, rfl⟩ : c7.ws _ = [.kw T.RPAREN] ∧ v7 = .undef := i7
  obtain ⟨x8, w8⟩ : ∃ (x : Window), c8.ws _ = x.words := i8
  show ∃ (x : Expr), (Tree.node 241 [c1, c2, c3, c4, c5, c6, c7, c8]).ws k = x.words ∧ OpE x (Tree.node 241 [c1, c2, c3, c4, c5, c6, c7, c8])
  exact ⟨.call (some x1) x3 (.some x5 x6) x8, by rw [ws_node]; cases x5 <;> simp only [wsL, w1, w2, w3, w4, w5, w6, w7, w8] <;> first | rfl | simp [havingW, Group.words, cat], .atom rfl rfl⟩

theorem r242 : RuleOK 242 := by
  intro _ cs k vs s v s' b e hp hi he hs hE
  obtain ⟨c1, _, v1, _, rfl, rfl, i1, c2, _, v2, _, rfl, rfl, i2, c3, _, v3, _, rfl, rfl, i3, c4, _, v4, _, rfl, rfl, i4, c5, _, v5, _, rfl, rfl, i5, c6, _, v6, _, rfl, rfl, i6, rfl, rfl⟩ : IsL [T.OVER, T.LPAREN, N.opt_partition, N.opt_order, N.opt_frame_clause, T.RPAREN] cs k vs e := hi e hs
  obtain ⟨w1, rfl⟩ : c1.ws _ = [.kw T.OVER] ∧ v1 = .undef := i1
  obtain ⟨w2, rfl⟩ : c2.ws _ = [.kw T.LPAREN] ∧ v2 = .undef := i2
  obtain ⟨x3, w3⟩ : ∃ (x : Partition), c3.ws _ = x.words := i3
  obtain ⟨x4, w4⟩ : ∃ (x : Order), c4.ws _ = x.words := i4
  obtain ⟨x5, w5⟩ : ∃ (x : Frame), c5.ws _ = x.words := i5
  obtain ⟨w6, rfl⟩ : c6.ws _ = [.kw T.RPAREN] ∧ v6 = .undef := i6
  show ∃ (x : Window), (Tree.node 242 [c1, c2, c3, c4, c5, c6]).ws k = x.words
  exact ⟨.over x3 x4 x5, by rw [ws_node]; simp only [wsL, w1, w2, w3, w4, w5, w6] <;> first | rfl | simp [havingW, Group.words, cat]⟩

theorem r243 : RuleOK 243 := by
  intro _ cs k vs s v s' b e hp hi he hs hE
  obtain ⟨rfl, rfl⟩ : IsL [] cs k vs e := hi e hs
  show ∃ (x : Window), (Tree.node 243 []).ws k = x.words
  exact ⟨.none, by rw [ws_node]; simp only [wsL] <;> first | rfl | simp [havingW, Group.words, cat]⟩

theorem r244 : RuleOK 244 := by
  intro _ cs k vs s v s' b e hp hi he hs hE
  obtain ⟨c1, _, v1, _, rfl, rfl, i1, c2, _, v2, _, rfl, rfl, i2, c3, _, v3, _, rfl, rfl, i3, rfl, rfl⟩ : IsL [T.PARTITION, T.BY, N.expr_list] cs k vs e := hi e hs
  obtain ⟨w1, rfl⟩ : c1.ws _ = [.kw T.PARTITION] ∧ v1 = .undef := i1
  obtain ⟨w2, rfl⟩ : c2.ws _ = [.kw T.BY] ∧ v2 = .undef := i2
  obtain ⟨x3, w3⟩ : ∃ (x : Items), c3.ws _ = x.words := i3
  show ∃ (x : Partition), (Tree.node 244 [c1, c2, c3]).ws k = x.words
  exact ⟨.by x3, by rw [ws_node]; simp only [wsL, w1, w2, w3] <;> first | rfl | simp [havingW, Group.words, cat]⟩

theorem r245 : RuleOK 245 := by
  intro _ cs k vs s v s' b e hp hi he hs hE
  obtain ⟨rfl, rfl⟩ : IsL [] cs k vs e := hi e hs
  show ∃ (x : Partition), (Tree.node 245 []).ws k = x.words
  exact ⟨.none, by rw [ws_node]; simp only [wsL] <;> first | rfl | simp [havingW, Group.words, cat]⟩

theorem r246 : RuleOK 246 := by
  intro _ cs k vs s v s' b e hp hi he hs hE
  obtain ⟨c1, _, v1, _, rfl, rfl, i1, c2, _, v2, _, rfl, rfl, i2, rfl, rfl⟩ : IsL [N.frame_type, N.frame_bound] cs k vs e := hi e hs
  obtain ⟨x1, w1⟩ : ∃ (x : FrameType), c1.ws _ = Sql.kw x.kw := i1
  obtain ⟨x2, w2⟩ : ∃ (x : Bound), c2.ws _ = x.words := i2
  show ∃ (x : Frame), (Tree.node 246 [c1, c2]).ws k = x.words
  exact ⟨.start x1 x2, by rw [ws_node]; simp only [wsL, w1, w2] <;> first | rfl | simp [havingW, Group.words, cat]⟩

theorem r247 : RuleOK 247 := by
  intro _ cs k vs s v s' b e hp hi he hs hE
  obtain ⟨c1, _, v1, _, rfl, rfl, i1, c2, _, v2, _, rfl, rfl, i2, c3, _, v3, _, rfl, rfl, i3, c4, _, v4, _, rfl, rfl, i4, c5, _, v5, _, rfl, rfl, i5, rfl, rfl⟩ : IsL [N.frame_type, T.BETWEEN, N.frame_bound, T.AND, N.frame_bound] cs k vs e := hi e hs
  obtain ⟨x1, w1⟩ : ∃ (x : FrameType), c1.ws _ = Sql.kw x.kw := i1
  obtain ⟨w2, rfl⟩ : c2.ws _ = [.kw T.BETWEEN] ∧ v2 = .undef := i2
  obtain ⟨x3, w3⟩ : ∃ (x : Bound), c3.ws _ = x.words := i3
  obtain ⟨w4, rfl⟩ : c4.ws _ = [.kw T.AND] ∧ v4 = .undef := i4
  obtain ⟨x5, w5⟩ : ∃ (x : Bound), c5.ws _ = x.words := i5
  show ∃ (x : Frame), (Tree.node 247 [c1, c2, c3, c4, c5]).ws k = x.words
  exact ⟨.between x1 x3 x5, by rw [ws_node]; simp only [wsL, w1, w2, w3, w4, w5] <;> first | rfl | simp [havingW, Group.words, cat]⟩

theorem r248 : RuleOK 248 := by
  intro _ cs k vs s v s' b e hp hi he hs hE
  obtain ⟨rfl, rfl⟩ : IsL [] cs k vs e := hi e hs
  show ∃ (x : Frame), (Tree.node 248 []).ws k = x.words
  exact ⟨.none, by rw [ws_node]; simp only [wsL] <;> first | rfl | simp [havingW, Group.words, cat]⟩

theorem r249 : RuleOK 249 := by
  intro _ cs k vs s v s' b e hp hi he hs hE
  obtain ⟨c1, _, v1, _, rfl, rfl, i1, rfl, rfl⟩ : IsL [T.RANGE] cs k vs e := hi e hs
  obtain ⟨w1, rfl⟩ : c1.ws _ = [.kw T.RANGE] ∧ v1 = .undef := i1
  show ∃ (x : FrameType), (Tree.node 249 [c1]).ws k = Sql.kw x.kw
  exact ⟨.range, by rw [ws_node]; simp only [wsL, w1] <;> first | rfl | simp [havingW, Group.words, cat]⟩

theorem r250 : RuleOK 250 := by
  intro _ cs k vs s v s' b e hp hi he hs hE
  obtain ⟨c1, _, v1, _, rfl, rfl, i1, rfl, rfl⟩ : IsL [T.ROWS] cs k vs e := hi e hs
  obtain ⟨w1, rfl⟩ : c1.ws _ = [.kw T.ROWS] ∧ v1 = .undef := i1
  show ∃ (x : FrameType), (Tree.node 250 [c1]).ws k = Sql.kw x.kw
  exact ⟨.rows, by rw [ws_node]; simp only [wsL, w1] <;> first | rfl | simp [havingW, Group.words, cat]⟩

theorem r251 : RuleOK 251 := by
  intro _ cs k vs s v s' b e hp hi he hs hE
  obtain ⟨c1, _, v1, _, rfl, rfl, i1, rfl, rfl⟩ : IsL [T.GROUPS] cs k vs e := hi e hs
  obtain ⟨w1, rfl⟩ : c1.ws _ = [.kw T.GROUPS] ∧ v1 = .undef := i1
  show ∃ (x : FrameType), (Tree.node 251 [c1]).ws k = Sql.kw x.kw
  exact ⟨.groups, by rw [ws_node]; simp only [wsL, w1] <;> first | rfl | simp [havingW, Group.words, cat]⟩

theorem r252 : RuleOK 252 := by
  intro _ cs k vs s v s' b e hp hi he hs hE
  obtain ⟨c1, _, v1, _, rfl, rfl, i1, c2, _, v2, _, rfl, rfl, i2, rfl, rfl⟩ : IsL [T.UNBOUNDED, T.PRECEDING] cs k vs e := hi e hs
  obtain ⟨w1, rfl⟩ : c1.ws _ = [.kw T.UNBOUNDED] ∧ v1 = .undef := i1
  obtain ⟨w2, rfl⟩ : c2.ws _ = [.kw T.PRECEDING] ∧ v2 = .undef := i2
  show ∃ (x : Bound), (Tree.node 252 [c1, c2]).ws k = x.words
  exact ⟨.unboundedPreceding, by rw [ws_node]; simp only [wsL, w1, w2] <;> first | rfl | simp [havingW, Group.words, cat]⟩

theorem r253 : RuleOK 253 := by
  intro _ cs k vs s v s' b e hp hi he hs hE
  obtain ⟨c1, _, v1, _, rfl, rfl, i1, c2, _, v2, _, rfl, rfl, i2, rfl, rfl⟩ : IsL [T.INTVAL, T.PRECEDING] cs k vs e := hi e hs
  obtain ⟨x1, w1, rfl⟩ : ∃ x : Int, c1.ws _ = [.int x] ∧ v1 = .int x := i1
  obtain ⟨w2, rfl⟩ : c2.ws _ = [.kw T.PRECEDING] ∧ v2 = .undef := i2
  show ∃ (x : Bound), (Tree.node 253 [c1, c2]).ws k = x.words
  exact ⟨.preceding x1, by rw [ws_node]; simp only [wsL, w1, w2] <;> first | rfl | simp [havingW, Group.words, cat]⟩

theorem r254 : RuleOK 254 := by
  intro _ cs k vs s v s' b e hp hi he hs hE
  obtain ⟨c1, _, v1, _, rfl, rfl, i1, c2, _, v2, _, rfl, rfl, i2, rfl, rfl⟩ : IsL [T.UNBOUNDED, T.FOLLOWING] cs k vs e := hi e hs
  obtain ⟨w1, rfl⟩ : c1.ws _ = [.kw T.UNBOUNDED] ∧ v1 = .undef := i1
  obtain ⟨w2, rfl⟩ : c2.ws _ = [.kw T.FOLLOWING] ∧ v2 = .undef := i2
  show ∃ (x : Bound), (Tree.node 254 [c1, c2]).ws k = x.words
  exact ⟨.unboundedFollowing, by rw [ws_node]; simp only [wsL, w1, w2] <;> first | rfl | simp [havingW, Group.words, cat]⟩

theorem r255 : RuleOK 255 := by
  intro _ cs k vs s v s' b e hp hi he hs hE
  obtain ⟨c1, _, v1, _, rfl, rfl, i1, c2, _, v2, _, rfl, rfl, i2, rfl, rfl⟩ : IsL [T.INTVAL, T.FOLLOWING] cs k vs e := hi e hs
  obtain ⟨x1, w1, rfl⟩ : ∃ x : Int, c1.ws _ = [.int x] ∧ v1 = .int x := i1
  obtain ⟨w2, rfl⟩ : c2.ws _ = [.kw T.FOLLOWING] ∧ v2 = .undef := i2
  show ∃ (x : Bound), (Tree.node 255 [c1, c2]).ws k = x.words
  exact ⟨.following x1, by rw [ws_node]; simp only [wsL, w1, w2] <;> first | rfl | simp [havingW, Group.words, cat]⟩

theorem r256 : RuleOK 256 := by
  intro _ cs k vs s v s' b e hp hi he hs hE
  obtain ⟨c1, _, v1, _, rfl, rfl, i1, rfl, rfl⟩ : IsL [T.CURRENT_ROW] cs k vs e := hi e hs
  obtain ⟨w1, rfl⟩ : c1.ws _ = [.kw T.CURRENT_ROW] ∧ v1 = .undef := i1
  show ∃ (x : Bound), (Tree.node 256 [c1]).ws k = x.words
  exact ⟨.currentRow, by rw [ws_node]; simp only [wsL, w1] <;> first | rfl | simp [havingW, Group.words, cat]⟩

theorem r257 : RuleOK 257 := by
  intro _ cs k vs s v s' b e hp hi he hs hE
  obtain ⟨c1, _, v1, _, rfl, rfl, i1, c2, _, v2, _, rfl, rfl, i2, c3, _, v3, _, rfl, rfl, i3, c4, _, v4, _, rfl, rfl, i4, c5, _, v5, _, rfl, rfl, i5, c6, _, v6, _, rfl, rfl, i6, rfl, rfl⟩ : IsL [T.EXTRACT, T.LPAREN, N.datetime_field, T.FROM, N.expr, T.RPAREN] cs k vs e := hi e hs
  obtain ⟨w1, rfl⟩ : c1.ws _ = [.kw T.EXTRACT] ∧ v1 = .undef := i1
  obtain ⟨w2, rfl⟩ : c2.ws _ = [.kw T.LPAREN] ∧ v2 = .undef := i2
  obtain ⟨x3, w3⟩ : ∃ (x : Field), c3.ws _ = Sql.kw x.kw := i3
  obtain ⟨w4, rfl⟩ : c4.ws _ = [.kw T.FROM] ∧ v4 = .undef := i4
  obtain ⟨x5, w5, h5⟩ : ∃ (x : Expr), c5.ws _ = x.words ∧ ExE x c5 := i5
  obtain ⟨w6, rfl⟩ : c6.ws _ = [.kw T.RPAREN] ∧ v6 = .undef := i6
  show ∃ (x : Expr), (Tree.node 257 [c1, c2, c3, c4, c5, c6]).ws k = x.words ∧ OpE x (Tree.node 257 [c1, c2, c3, c4, c5, c6])
  exact ⟨.extract x3 x5, by rw [ws_node]; simp only [wsL, w1, w2, w3, w4, w5, w6] <;> first | rfl | simp [havingW, Group.words, cat], .atom rfl rfl⟩

theorem r258 : RuleOK 258 := by
  intro _ cs k vs s v s' b e hp hi he hs hE
  obtain ⟨c1, _, v1, _, rfl, rfl, i1, c2, _, v2, _, rfl, rfl, i2, c3, _, v3, _, rfl, rfl, i3, c4, _, v4, _, rfl, rfl, i4, c5, _, v5, _, rfl, rfl, i5, c6, _, v6, _, rfl, rfl, i6, rfl, rfl⟩ : IsL [T.CAST, T.LPAREN, N.expr, T.AS, N.column_type, T.RPAREN] cs k vs e := hi e hs
  obtain ⟨w1, rfl⟩ : c1.ws _ = [.kw T.CAST] ∧ v1 = .undef := i1
  obtain ⟨w2, rfl⟩ : c2.ws _ = [.kw T.LPAREN] ∧ v2 = .undef := i2
  obtain ⟨x3, w3, h3⟩ : ∃ (x : Expr), c3.ws _ = x.words ∧ ExE x c3 := i3
  obtain ⟨w4, rfl⟩ : c4.ws _ = [.kw T.AS] ∧ v4 = .undef := i4
  obtain ⟨x5, w5, h5⟩ : ∃ (x : ColType), c5.ws _ = x.words ∧ tup4 v5 := i5
  obtain ⟨w6, rfl⟩ : c6.ws _ = [.kw T.RPAREN] ∧ v6 = .undef := i6
  show ∃ (x : Expr), (Tree.node 258 [c1, c2, c3, c4, c5, c6]).ws k = x.words ∧ OpE x (Tree.node 258 [c1, c2, c3, c4, c5, c6])
  exact ⟨.cast x3 x5, by rw [ws_node]; simp only [wsL, w1, w2, w3, w4, w5, w6] <;> first | rfl | simp [havingW, Group.words, cat], .atom rfl rfl⟩

theorem r259 : RuleOK 259 := by
  intro _ cs k vs s v s' b e hp hi he hs hE
  obtain ⟨c1, _, v1, _, rfl, rfl, i1, rfl, rfl⟩ : IsL [T.SECOND] cs k vs e := hi e hs
  obtain ⟨w1, rfl⟩ : c1.ws _ = [.kw T.SECOND] ∧ v1 = .undef := i1
  show ∃ (x : Field), (Tree.node 259 [c1]).ws k = Sql.kw x.kw
  exact ⟨.second, by rw [ws_node]; simp only [wsL, w1] <;> first | rfl | simp [havingW, Group.words, cat]⟩

theorem r260 : RuleOK 260 := by
  intro _ cs k vs s v s' b e hp hi he hs hE
  obtain ⟨c1, _, v1, _, rfl, rfl, i1, rfl, rfl⟩ : IsL [T.MINUTE] cs k vs e := hi e hs
  obtain ⟨w1, rfl⟩ : c1.ws _ = [.kw T.MINUTE] ∧ v1 = .undef := i1
  show ∃ (x : Field), (Tree.node 260 [c1]).ws k = Sql.kw x.kw
  exact ⟨.minute, by rw [ws_node]; simp only [wsL, w1] <;> first | rfl | simp [havingW, Group.words, cat]⟩

theorem r261 : RuleOK 261 := by
  intro _ cs k vs s v s' b e hp hi he hs hE
  obtain ⟨c1, _, v1, _, rfl, rfl, i1, rfl, rfl⟩ : IsL [T.HOUR] cs k vs e := hi e hs
  obtain ⟨w1, rfl⟩ : c1.ws _ = [.kw T.HOUR] ∧ v1 = .undef := i1
  show ∃ (x : Field), (Tree.node 261 [c1]).ws k = Sql.kw x.kw
  exact ⟨.hour, by rw [ws_node]; simp only [wsL, w1] <;> first | rfl | simp [havingW, Group.words, cat]⟩

theorem r262 : RuleOK 262 := by
  intro _ cs k vs s v s' b e hp hi he hs hE
  obtain ⟨c1, _, v1, _, rfl, rfl, i1, rfl, rfl⟩ : IsL [T.DAY] cs k vs e := hi e hs
  obtain ⟨w1, rfl⟩ : c1.ws _ = [.kw T.DAY] ∧ v1 = .undef := i1
  show ∃ (x : Field), (Tree.node 262 [c1]).ws k = Sql.kw x.kw
  exact ⟨.day, by rw [ws_node]; simp only [wsL, w1] <;> first | rfl | simp [havingW, Group.words, cat]⟩

theorem r263 : RuleOK 263 := by
  intro _ cs k vs s v s' b e hp hi he hs hE
  obtain ⟨c1, _, v1, _, rfl, rfl, i1, rfl, rfl⟩ : IsL [T.MONTH] cs k vs e := hi e hs
  obtain ⟨w1, rfl⟩ : c1.ws _ = [.kw T.MONTH] ∧ v1 = .undef := i1
  show ∃ (x : Field), (Tree.node 263 [c1]).ws k = Sql.kw x.kw
  exact ⟨.month, by rw [ws_node]; simp only [wsL, w1] <;> first | rfl | simp [havingW, Group.words, cat]⟩

theorem r264 : RuleOK 264 := by
  intro _ cs k vs s v s' b e hp hi he hs hE
  obtain ⟨c1, _, v1, _, rfl, rfl, i1, rfl, rfl⟩ : IsL [T.YEAR] cs k vs e := hi e hs
  obtain ⟨w1, rfl⟩ : c1.ws _ = [.kw T.YEAR] ∧ v1 = .undef := i1
  show ∃ (x : Field), (Tree.node 264 [c1]).ws k = Sql.kw x.kw
  exact ⟨.year, by rw [ws_node]; simp only [wsL, w1] <;> first | rfl | simp [havingW, Group.words, cat]⟩

theorem r265 : RuleOK 265 := by
  intro _ cs k vs s v s' b e hp hi he hs hE
  obtain ⟨c1, _, v1, _, rfl, rfl, i1, rfl, rfl⟩ : IsL [T.SECONDS] cs k vs e := hi e hs
  obtain ⟨w1, rfl⟩ : c1.ws _ = [.kw T.SECONDS] ∧ v1 = .undef := i1
  show ∃ (x : Field), (Tree.node 265 [c1]).ws k = Sql.kw x.kws
  exact ⟨.second, by rw [ws_node]; simp only [wsL, w1] <;> first | rfl | simp [havingW, Group.words, cat]⟩

theorem r266 : RuleOK 266 := by
  intro _ cs k vs s v s' b e hp hi he hs hE
  obtain ⟨c1, _, v1, _, rfl, rfl, i1, rfl, rfl⟩ : IsL [T.MINUTES] cs k vs e := hi e hs
  obtain ⟨w1, rfl⟩ : c1.ws _ = [.kw T.MINUTES] ∧ v1 = .undef := i1
  show ∃ (x : Field), (Tree.node 266 [c1]).ws k = Sql.kw x.kws
  exact ⟨.minute, by rw [ws_node]; simp only [wsL, w1] <;> first | rfl | simp [havingW, Group.words, cat]⟩

theorem r267 : RuleOK 267 := by
  intro _ cs k vs s v s' b e hp hi he hs hE
  obtain ⟨c1, _, v1, _, rfl, rfl, i1, rfl, rfl⟩ : IsL [T.HOURS] cs k vs e := hi e hs
  obtain ⟨w1, rfl⟩ : c1.ws _ = [.kw T.HOURS] ∧ v1 = .undef := i1
  show ∃ (x : Field), (Tree.node 267 [c1]).ws k = Sql.kw x.kws
  exact ⟨.hour, by rw [ws_node]; simp only [wsL, w1] <;> first | rfl | simp [havingW, Group.words, cat]⟩

theorem r268 : RuleOK 268 := by
  intro _ cs k vs s v s' b e hp hi he hs hE
  obtain ⟨c1, _, v1, _, rfl, rfl, i1, rfl, rfl⟩ : IsL [T.DAYS] cs k vs e := hi e hs
  obtain ⟨w1, rfl⟩ : c1.ws _ = [.kw T.DAYS] ∧ v1 = .undef := i1
  show ∃ (x : Field), (Tree.node 268 [c1]).ws k = Sql.kw x.kws
  exact ⟨.day, by rw [ws_node]; simp only [wsL, w1] <;> first | rfl | simp [havingW, Group.words, cat]⟩

theorem r269 : RuleOK 269 := by
  intro _ cs k vs s v s' b e hp hi he hs hE
  obtain ⟨c1, _, v1, _, rfl, rfl, i1, rfl, rfl⟩ : IsL [T.MONTHS] cs k vs e := hi e hs
  obtain ⟨w1, rfl⟩ : c1.ws _ = [.kw T.MONTHS] ∧ v1 = .undef := i1
  show ∃ (x : Field), (Tree.node 269 [c1]).ws k = Sql.kw x.kws
  exact ⟨.month, by rw [ws_node]; simp only [wsL, w1] <;> first | rfl | simp [havingW, Group.words, cat]⟩

theorem r270 : RuleOK 270 := by
  intro _ cs k vs s v s' b e hp hi he hs hE
  obtain ⟨c1, _, v1, _, rfl, rfl, i1, rfl, rfl⟩ : IsL [T.YEARS] cs k vs e := hi e hs
  obtain ⟨w1, rfl⟩ : c1.ws _ = [.kw T.YEARS] ∧ v1 = .undef := i1
  show ∃ (x : Field), (Tree.node 270 [c1]).ws k = Sql.kw x.kws
  exact ⟨.year, by rw [ws_node]; simp only [wsL, w1] <;> first | rfl | simp [havingW, Group.words, cat]⟩

theorem r271 : RuleOK 271 := by
  intro _ cs k vs s v s' b e hp hi he hs hE
  obtain ⟨c1, _, v1, _, rfl, rfl, i1, rfl, rfl⟩ : IsL [N.datetime_field] cs k vs e := hi e hs
  obtain ⟨x1, w1⟩ : ∃ (x : Field), c1.ws _ = Sql.kw x.kw := i1
  show ∃ (x : Field) (p : Bool), (Tree.node 271 [c1]).ws k = durW x p
  exact ⟨x1, false, by rw [ws_node]; simp only [wsL, w1] <;> first | rfl | simp [havingW, Group.words, cat]⟩

theorem r272 : RuleOK 272 := by
  intro _ cs k vs s v s' b e hp hi he hs hE
  obtain ⟨c1, _, v1, _, rfl, rfl, i1, rfl, rfl⟩ : IsL [N.datetime_field_plural] cs k vs e := hi e hs
  obtain ⟨x1, w1⟩ : ∃ (x : Field), c1.ws _ = Sql.kw x.kws := i1
  show ∃ (x : Field) (p : Bool), (Tree.node 272 [c1]).ws k = durW x p
  exact ⟨x1, true, by rw [ws_node]; simp only [wsL, w1] <;> first | rfl | simp [havingW, Group.words, cat]⟩

theorem r273 : RuleOK 273 := by
  intro _ cs k vs s v s' b e hp hi he hs hE
  obtain ⟨c1, _, v1, _, rfl, rfl, i1, c2, _, v2, _, rfl, rfl, i2, c3, _, v3, _, rfl, rfl, i3, c4, _, v4, _, rfl, rfl, i4, rfl, rfl⟩ : IsL [T.ARRAY, T.LBRACKET, N.expr_list, T.RBRACKET] cs k vs e := hi e hs
  obtain ⟨w1, rfl⟩ : c1.ws _ = [.kw T.ARRAY] ∧ v1 = .undef := i1
  obtain ⟨w2, rfl⟩ : c2.ws _ = [.kw T.LBRACKET] ∧ v2 = .undef := i2
  obtain ⟨x3, w3⟩ : ∃ (x : Items), c3.ws _ = x.words := i3
  obtain ⟨w4, rfl⟩ : c4.ws _ = [.kw T.RBRACKET] ∧ v4 = .undef := i4
  show ∃ (x : Expr), (Tree.node 273 [c1, c2, c3, c4]).ws k = x.words ∧ OpE x (Tree.node 273 [c1, c2, c3, c4])
  exact ⟨.array x3, by rw [ws_node]; simp only [wsL, w1, w2, w3, w4] <;> first | rfl | simp [havingW, Group.words, cat], .atom rfl rfl⟩

theorem r274 : RuleOK 274 := by
  intro _ cs k vs s v s' b e hp hi he hs hE
  obtain ⟨c1, _, v1, _, rfl, rfl, i1, c2, _, v2, _, rfl, rfl, i2, c3, _, v3, _, rfl, rfl, i3, c4, _, v4, _, rfl, rfl, i4, rfl, rfl⟩ : IsL [N.operand, T.LBRACKET, N.int_literal, T.RBRACKET] cs k vs e := hi e hs
  obtain ⟨x1, w1, h1⟩ : ∃ (x : Expr), c1.ws _ = x.words ∧ OpE x c1 := i1
  obtain ⟨w2, rfl⟩ : c2.ws _ = [.kw T.LBRACKET] ∧ v2 = .undef := i2
  obtain ⟨x3, w3⟩ : ∃ (x : Int), c3.ws _ = [.int x] := i3
  obtain ⟨w4, rfl⟩ : c4.ws _ = [.kw T.RBRACKET] ∧ v4 = .undef := i4
  show ∃ (x : Expr), (Tree.node 274 [c1, c2, c3, c4]).ws k = x.words ∧ OpE x (Tree.node 274 [c1, c2, c3, c4])
  exact post_is (p := 13) (fun e => .index e x3) (cat [kw T.LBRACKET, [.int x3], kw T.RBRACKET]) (fun _ => by simp only [Expr.words, cat]) (fun _ => rfl) (fun _ => by rw [Expr.lev]) (by decide) (by decide +kernel) (by decide +kernel) rfl hp w1 h1 w2 (by simp only [wsL, w2, w3, w4, cat])

theorem r275 : RuleOK 275 := by
  intro _ cs k vs s v s' b e hp hi he hs hE
  obtain ⟨c1, _, v1, _, rfl, rfl, i1, c2, _, v2, _, rfl, rfl, i2, c3, _, v3, _, rfl, rfl, i3, c4, _, v4, _, rfl, rfl, i4, c5, _, v5, _, rfl, rfl, i5, rfl, rfl⟩ : IsL [N.operand, T.BETWEEN, N.operand, T.AND, N.operand] cs k vs e := hi e hs
  obtain ⟨x1, w1, h1⟩ : ∃ (x : Expr), c1.ws _ = x.words ∧ OpE x c1 := i1
  obtain ⟨w2, rfl⟩ : c2.ws _ = [.kw T.BETWEEN] ∧ v2 = .undef := i2
  obtain ⟨x3, w3, h3⟩ : ∃ (x : Expr), c3.ws _ = x.words ∧ OpE x c3 := i3
  obtain ⟨w4, rfl⟩ : c4.ws _ = [.kw T.AND] ∧ v4 = .undef := i4
  obtain ⟨x5, w5, h5⟩ : ∃ (x : Expr), c5.ws _ = x.words ∧ OpE x c5 := i5
  show ∃ (x : Expr), (Tree.node 275 [c1, c2, c3, c4, c5]).ws k = x.words ∧ ExE x (Tree.node 275 [c1, c2, c3, c4, c5])
  refine ⟨.between x1 x3 x5, by rw [ws_node]; simp only [wsL, w1, w2, w3, w4, w5, Expr.words, par, h1.op, h3.op, h5.op, cond_true, cat], .two ?_ ?_⟩
  · simp only [Expr.lev, h1.op, cond_true]; exact opnd_lev1 x1 h1.op
  · simp only [Expr.lev, h5.op, cond_true]; exact opnd_lev x5 h5.op

theorem r276 : RuleOK 276 := by
  intro _ cs k vs s v s' b e hp hi he hs hE
  obtain ⟨c1, _, v1, _, rfl, rfl, i1, rfl, rfl⟩ : IsL [T.IDENTIFIER] cs k vs e := hi e hs
  obtain ⟨x1, w1, rfl⟩ : ∃ x : Name, c1.ws _ = nm x ∧ v1 = .str 0 x := i1
  show ∃ (x : Expr), (Tree.node 276 [c1]).ws k = x.words ∧ OpE x (Tree.node 276 [c1])
  exact ⟨.col none x1, by rw [ws_node]; simp only [wsL, w1] <;> first | rfl | simp [havingW, Group.words, cat], .atom rfl rfl⟩

theorem r277 : RuleOK 277 := by
  intro _ cs k vs s v s' b e hp hi he hs hE
  obtain ⟨c1, _, v1, _, rfl, rfl, i1, c2, _, v2, _, rfl, rfl, i2, c3, _, v3, _, rfl, rfl, i3, rfl, rfl⟩ : IsL [T.IDENTIFIER, T.DOT, T.IDENTIFIER] cs k vs e := hi e hs
  obtain ⟨x1, w1, rfl⟩ : ∃ x : Name, c1.ws _ = nm x ∧ v1 = .str 0 x := i1
  obtain ⟨w2, rfl⟩ : c2.ws _ = [.kw T.DOT] ∧ v2 = .undef := i2
  obtain ⟨x3, w3, rfl⟩ : ∃ x : Name, c3.ws _ = nm x ∧ v3 = .str 0 x := i3
  show ∃ (x : Expr), (Tree.node 277 [c1, c2, c3]).ws k = x.words ∧ OpE x (Tree.node 277 [c1, c2, c3])
  exact ⟨.col (some x1) x3, by rw [ws_node]; simp only [wsL, w1, w2, w3] <;> first | rfl | simp [havingW, Group.words, cat], .atom rfl rfl⟩

theorem r278 : RuleOK 278 := by
  intro _ cs k vs s v s' b e hp hi he hs hE
  obtain ⟨c1, _, v1, _, rfl, rfl, i1, rfl, rfl⟩ : IsL [T.STAR] cs k vs e := hi e hs
  obtain ⟨w1, rfl⟩ : c1.ws _ = [.kw T.STAR] ∧ v1 = .undef := i1
  show ∃ (x : Expr), (Tree.node 278 [c1]).ws k = x.words ∧ OpE x (Tree.node 278 [c1])
  exact ⟨.star none, by rw [ws_node]; simp only [wsL, w1] <;> first | rfl | simp [havingW, Group.words, cat], .atom rfl rfl⟩

theorem r279 : RuleOK 279 := by
  intro _ cs k vs s v s' b e hp hi he hs hE
  obtain ⟨c1, _, v1, _, rfl, rfl, i1, c2, _, v2, _, rfl, rfl, i2, c3, _, v3, _, rfl, rfl, i3, rfl, rfl⟩ : IsL [T.IDENTIFIER, T.DOT, T.STAR] cs k vs e := hi e hs
  obtain ⟨x1, w1, rfl⟩ : ∃ x : Name, c1.ws _ = nm x ∧ v1 = .str 0 x := i1
  obtain ⟨w2, rfl⟩ : c2.ws _ = [.kw T.DOT] ∧ v2 = .undef := i2
  obtain ⟨w3, rfl⟩ : c3.ws _ = [.kw T.STAR] ∧ v3 = .undef := i3
  show ∃ (x : Expr), (Tree.node 279 [c1, c2, c3]).ws k = x.words ∧ OpE x (Tree.node 279 [c1, c2, c3])
  exact ⟨.star (some x1), by rw [ws_node]; simp only [wsL, w1, w2, w3] <;> first | rfl | simp [havingW, Group.words, cat], .atom rfl rfl⟩

theorem r280 : RuleOK 280 := by
  intro _ cs k vs s v s' b e hp hi he hs hE
  obtain ⟨c1, _, v1, _, rfl, rfl, i1, rfl, rfl⟩ : IsL [N.string_literal] cs k vs e := hi e hs
  obtain ⟨x1, w1⟩ : ∃ (x : Lit), c1.ws _ = x.words := i1
  show ∃ (x : Lit ⊕ Nat), (Tree.node 280 [c1]).ws k = litW x ∧ ∀ j, x = .inr j → ∃ m, v = paramV 0 (.pos 0) m
  exact ⟨.inl x1, by rw [ws_node]; simp only [wsL, w1] <;> first | rfl | simp [havingW, Group.words, cat], fun j h => by cases h⟩

theorem r281 : RuleOK 281 := by
  intro _ cs k vs s v s' b e hp hi he hs hE
  obtain ⟨c1, _, v1, _, rfl, rfl, i1, rfl, rfl⟩ : IsL [N.bool_literal] cs k vs e := hi e hs
  obtain ⟨x1, w1⟩ : ∃ (x : Lit), c1.ws _ = x.words := i1
  show ∃ (x : Lit ⊕ Nat), (Tree.node 281 [c1]).ws k = litW x ∧ ∀ j, x = .inr j → ∃ m, v = paramV 0 (.pos 0) m
  exact ⟨.inl x1, by rw [ws_node]; simp only [wsL, w1] <;> first | rfl | simp [havingW, Group.words, cat], fun j h => by cases h⟩

theorem r282 : RuleOK 282 := by
  intro _ cs k vs s v s' b e hp hi he hs hE
  obtain ⟨c1, _, v1, _, rfl, rfl, i1, rfl, rfl⟩ : IsL [N.num_literal] cs k vs e := hi e hs
  obtain ⟨x1, w1⟩ : ∃ (x : Num), c1.ws _ = x.words := i1
  show ∃ (x : Lit ⊕ Nat), (Tree.node 282 [c1]).ws k = litW x ∧ ∀ j, x = .inr j → ∃ m, v = paramV 0 (.pos 0) m
  exact ⟨.inl (.num x1), by rw [ws_node]; simp only [wsL, w1] <;> first | rfl | simp [havingW, Group.words, cat], fun j h => by cases h⟩

theorem r283 : RuleOK 283 := by
  intro _ cs k vs s v s' b e hp hi he hs hE
  obtain ⟨c1, _, v1, _, rfl, rfl, i1, rfl, rfl⟩ : IsL [N.null_literal] cs k vs e := hi e hs
  obtain ⟨x1, w1⟩ : ∃ (x : Lit), c1.ws _ = x.words := i1
  show ∃ (x : Lit ⊕ Nat), (Tree.node 283 [c1]).ws k = litW x ∧ ∀ j, x = .inr j → ∃ m, v = paramV 0 (.pos 0) m
  exact ⟨.inl x1, by rw [ws_node]; simp only [wsL, w1] <;> first | rfl | simp [havingW, Group.words, cat], fun j h => by cases h⟩

theorem r284 : RuleOK 284 := by
  intro _ cs k vs s v s' b e hp hi he hs hE
  obtain ⟨c1, _, v1, _, rfl, rfl, i1, rfl, rfl⟩ : IsL [N.date_literal] cs k vs e := hi e hs
  obtain ⟨x1, w1⟩ : ∃ (x : Lit), c1.ws _ = x.words := i1
  show ∃ (x : Lit ⊕ Nat), (Tree.node 284 [c1]).ws k = litW x ∧ ∀ j, x = .inr j → ∃ m, v = paramV 0 (.pos 0) m
  exact ⟨.inl x1, by rw [ws_node]; simp only [wsL, w1] <;> first | rfl | simp [havingW, Group.words, cat], fun j h => by cases h⟩

theorem r285 : RuleOK 285 := by
  intro _ cs k vs s v s' b e hp hi he hs hE
  obtain ⟨c1, _, v1, _, rfl, rfl, i1, rfl, rfl⟩ : IsL [N.interval_literal] cs k vs e := hi e hs
  obtain ⟨x1, w1⟩ : ∃ (x : Interval), c1.ws _ = x.words := i1
  show ∃ (x : Lit ⊕ Nat), (Tree.node 285 [c1]).ws k = litW x ∧ ∀ j, x = .inr j → ∃ m, v = paramV 0 (.pos 0) m
  exact ⟨.inl (.interval x1), by rw [ws_node]; simp only [wsL, w1] <;> first | rfl | simp [havingW, Group.words, cat], fun j h => by cases h⟩

theorem r286 : RuleOK 286 := by
  intro _ cs k vs s v s' b e hp hi he hs hE
  obtain ⟨c1, _, v1, _, rfl, rfl, i1, rfl, rfl⟩ : IsL [N.param_expr] cs k vs e := hi e hs
  obtain ⟨x1, w1, h1⟩ : ∃ (x : Nat), c1.ws _ = [.par x] ∧ ∃ m, v1 = paramV 0 (.pos 0) m := i1
  show ∃ (x : Lit ⊕ Nat), (Tree.node 286 [c1]).ws k = litW x ∧ ∀ j, x = .inr j → ∃ m, v = paramV 0 (.pos 0) m
  obtain ⟨m, rfl⟩ := h1
  obtain rfl := ev_inv rfl he rfl
  exact ⟨.inr x1, by rw [ws_node]; simp only [wsL, w1] <;> first | rfl | simp [havingW, Group.words, cat], fun j h => ⟨m, rfl⟩⟩

theorem r287 : RuleOK 287 := by
  intro _ cs k vs s v s' b e hp hi he hs hE
  obtain ⟨c1, _, v1, _, rfl, rfl, i1, rfl, rfl⟩ : IsL [T.STRING] cs k vs e := hi e hs
  obtain ⟨x1, w1, rfl⟩ : ∃ x : Bytes, c1.ws _ = [.str x] ∧ v1 = .str 0 x := i1
  show ∃ (x : Lit), (Tree.node 287 [c1]).ws k = x.words
  exact ⟨.str x1, by rw [ws_node]; simp only [wsL, w1] <;> first | rfl | simp [havingW, Group.words, cat]⟩

theorem r288 : RuleOK 288 := by
  intro _ cs k vs s v s' b e hp hi he hs hE
  obtain ⟨c1, _, v1, _, rfl, rfl, i1, rfl, rfl⟩ : IsL [T.TRUE] cs k vs e := hi e hs
  obtain ⟨w1, rfl⟩ : c1.ws _ = [.kw T.TRUE] ∧ v1 = .undef := i1
  show ∃ (x : Lit), (Tree.node 288 [c1]).ws k = x.words
  exact ⟨.bool true, by rw [ws_node]; simp only [wsL, w1] <;> first | rfl | simp [havingW, Group.words, cat]⟩

theorem r289 : RuleOK 289 := by
  intro _ cs k vs s v s' b e hp hi he hs hE
  obtain ⟨c1, _, v1, _, rfl, rfl, i1, rfl, rfl⟩ : IsL [T.FALSE] cs k vs e := hi e hs
  obtain ⟨w1, rfl⟩ : c1.ws _ = [.kw T.FALSE] ∧ v1 = .undef := i1
  show ∃ (x : Lit), (Tree.node 289 [c1]).ws k = x.words
  exact ⟨.bool false, by rw [ws_node]; simp only [wsL, w1] <;> first | rfl | simp [havingW, Group.words, cat]⟩

theorem r290 : RuleOK 290 := by
  intro _ cs k vs s v s' b e hp hi he hs hE
  obtain ⟨c1, _, v1, _, rfl, rfl, i1, rfl, rfl⟩ : IsL [T.FLOATVAL] cs k vs e := hi e hs
  obtain ⟨x1, w1⟩ : ∃ x : Bytes, c1.ws _ = [.flt x] := i1
  show ∃ (x : Num), (Tree.node 290 [c1]).ws k = x.words
  exact ⟨.float x1, by rw [ws_node]; simp only [wsL, w1] <;> first | rfl | simp [havingW, Group.words, cat]⟩

theorem r291 : RuleOK 291 := by
  intro _ cs k vs s v s' b e hp hi he hs hE
  obtain ⟨c1, _, v1, _, rfl, rfl, i1, rfl, rfl⟩ : IsL [N.int_literal] cs k vs e := hi e hs
  obtain ⟨x1, w1⟩ : ∃ (x : Int), c1.ws _ = [.int x] := i1
  show ∃ (x : Num), (Tree.node 291 [c1]).ws k = x.words
  exact ⟨.int x1, by rw [ws_node]; simp only [wsL, w1] <;> first | rfl | simp [havingW, Group.words, cat]⟩

theorem r292 : RuleOK 292 := by
  intro _ cs k vs s v s' b e hp hi he hs hE
  obtain ⟨c1, _, v1, _, rfl, rfl, i1, rfl, rfl⟩ : IsL [T.INTVAL] cs k vs e := hi e hs
  obtain ⟨x1, w1, rfl⟩ : ∃ x : Int, c1.ws _ = [.int x] ∧ v1 = .int x := i1
  show ∃ (x : Int), (Tree.node 292 [c1]).ws k = [.int x]
  exact ⟨x1, by rw [ws_node]; simp only [wsL, w1] <;> first | rfl | simp [havingW, Group.words, cat]⟩

theorem r293 : RuleOK 293 := by
  intro _ cs k vs s v s' b e hp hi he hs hE
  obtain ⟨c1, _, v1, _, rfl, rfl, i1, rfl, rfl⟩ : IsL [T.NULL] cs k vs e := hi e hs
  obtain ⟨w1, rfl⟩ : c1.ws _ = [.kw T.NULL] ∧ v1 = .undef := i1
  show ∃ (x : Lit), (Tree.node 293 [c1]).ws k = x.words
  exact ⟨.null, by rw [ws_node]; simp only [wsL, w1] <;> first | rfl | simp [havingW, Group.words, cat]⟩

theorem r294 : RuleOK 294 := by
  intro _ cs k vs s v s' b e hp hi he hs hE
  obtain ⟨c1, _, v1, _, rfl, rfl, i1, c2, _, v2, _, rfl, rfl, i2, rfl, rfl⟩ : IsL [T.DATE, T.STRING] cs k vs e := hi e hs
  obtain ⟨w1, rfl⟩ : c1.ws _ = [.kw T.DATE] ∧ v1 = .undef := i1
  obtain ⟨x2, w2, rfl⟩ : ∃ x : Bytes, c2.ws _ = [.str x] ∧ v2 = .str 0 x := i2
  show ∃ (x : Lit), (Tree.node 294 [c1, c2]).ws k = x.words
  exact ⟨.date x2 ((dateOk_iff x2).1 (inv294 he)), by rw [ws_node]; simp only [wsL, w1, w2] <;> first | rfl | simp [havingW, Group.words, cat]⟩

theorem r295 : RuleOK 295 := by
  intro _ cs k vs s v s' b e hp hi he hs hE
  obtain ⟨c1, _, v1, _, rfl, rfl, i1, c2, _, v2, _, rfl, rfl, i2, rfl, rfl⟩ : IsL [T.INTVAL, N.duration_field] cs k vs e := hi e hs
  obtain ⟨x1, w1, rfl⟩ : ∃ x : Int, c1.ws _ = [.int x] ∧ v1 = .int x := i1
  obtain ⟨x2, p2, w2⟩ : ∃ (x : Field) (p : Bool), c2.ws _ = durW x p := i2
  show ∃ (x : Interval), (Tree.node 295 [c1, c2]).ws k = x.words
  exact ⟨.short x1 x2 p2, by rw [ws_node]; cases p2 <;> simp only [wsL, w1, w2] <;> first | rfl | simp [havingW, Group.words, cat]⟩

theorem r296 : RuleOK 296 := by
  intro _ cs k vs s v s' b e hp hi he hs hE
  obtain ⟨c1, _, v1, _, rfl, rfl, i1, c2, _, v2, _, rfl, rfl, i2, c3, _, v3, _, rfl, rfl, i3, rfl, rfl⟩ : IsL [T.INTERVAL, T.STRING, N.datetime_field] cs k vs e := hi e hs
  obtain ⟨w1, rfl⟩ : c1.ws _ = [.kw T.INTERVAL] ∧ v1 = .undef := i1
  obtain ⟨x2, w2, rfl⟩ : ∃ x : Bytes, c2.ws _ = [.str x] ∧ v2 = .str 0 x := i2
  obtain ⟨x3, w3⟩ : ∃ (x : Field), c3.ws _ = Sql.kw x.kw := i3
  show ∃ (x : Interval), (Tree.node 296 [c1, c2, c3]).ws k = x.words
  obtain ⟨n, hn⟩ := (durOk_true x2).1 (inv296 he)
  exact ⟨.str x2 n x3 hn, by rw [ws_node]; simp only [wsL, w1, w2, w3] <;> first | rfl | simp [havingW, Group.words, cat]⟩

theorem r297 : RuleOK 297 := by
  intro _ cs k vs s v s' b e hp hi he hs hE
  obtain ⟨c1, _, v1, _, rfl, rfl, i1, c2, _, v2, _, rfl, rfl, i2, rfl, rfl⟩ : IsL [T.INTERVAL, T.STRING] cs k vs e := hi e hs
  obtain ⟨w1, rfl⟩ : c1.ws _ = [.kw T.INTERVAL] ∧ v1 = .undef := i1
  obtain ⟨x2, w2, rfl⟩ : ∃ x : Bytes, c2.ws _ = [.str x] ∧ v2 = .str 0 x := i2
  show ∃ (x : Interval), (Tree.node 297 [c1, c2]).ws k = x.words
  obtain ⟨h1, f, w, r, hw, hf⟩ := inv297 he
  obtain ⟨n, u, h2, h3, h4⟩ := (durUnitOk_true x2).1 h1
  rw [h4] at hw
  obtain ⟨rfl, -⟩ := Prod.mk.inj (Option.some.inj hw)
  exact ⟨.strUnit x2 n u f ⟨h2, h3⟩ hf, by rw [ws_node]; simp only [wsL, w1, w2] <;> first | rfl | simp [havingW, Group.words, cat]⟩

theorem r298 : RuleOK 298 := by
  intro _ cs k vs s v s' b e hp hi he hs hE
  obtain ⟨c1, _, v1, _, rfl, rfl, i1, rfl, rfl⟩ : IsL [T.QMARK] cs k vs e := hi e hs
  have w1 : c1.ws _ = [.par k] := i1
  show ∃ (x : Nat), (Tree.node 298 [c1]).ws k = [.par x] ∧ ∃ m, v = paramV 0 (.pos 0) m
  obtain ⟨n, er⟩ := s
  rw [evRule298] at he
  cases he
  exact ⟨k, by rw [ws_node]; simp only [wsL, w1] <;> first | rfl | simp [havingW, Group.words, cat], n, rfl⟩

theorem r299 : RuleOK 299 := by
  intro _ cs k vs s v s' b e hp hi he hs hE
  obtain ⟨c1, _, v1, _, rfl, rfl, i1, rfl, rfl⟩ : IsL [N.table_ref_atomic] cs k vs e := hi e hs
  obtain ⟨x1, w1⟩ : ∃ (x : Table), c1.ws _ = x.words := i1
  show ∃ (x : From), (Tree.node 299 [c1]).ws k = x.words.tail ∧ x ≠ .none
  exact ⟨.one x1, by rw [ws_node]; simp only [wsL, w1] <;> first | rfl | simp [havingW, Group.words, cat], fun h => by cases h⟩

theorem r300 : RuleOK 300 := by
  intro _ cs k vs s v s' b e hp hi he hs hE
  obtain ⟨c1, _, v1, _, rfl, rfl, i1, c2, _, v2, _, rfl, rfl, i2, c3, _, v3, _, rfl, rfl, i3, rfl, rfl⟩ : IsL [N.table_ref_commalist, T.COMMA, N.table_ref_atomic] cs k vs e := hi e hs
  obtain ⟨x1, w1⟩ : ∃ (x : Tables), c1.ws _ = x.words := i1
  obtain ⟨w2, rfl⟩ : c2.ws _ = [.kw T.COMMA] ∧ v2 = .undef := i2
  obtain ⟨x3, w3⟩ : ∃ (x : Table), c3.ws _ = x.words := i3
  show ∃ (x : From), (Tree.node 300 [c1, c2, c3]).ws k = x.words.tail ∧ x ≠ .none
  exact ⟨.many x1 x3, by rw [ws_node]; simp only [wsL, w1, w2, w3] <;> first | rfl | simp [havingW, Group.words, cat], fun h => by cases h⟩

theorem r301 : RuleOK 301 := by
  intro _ cs k vs s v s' b e hp hi he hs hE
  obtain ⟨c1, _, v1, _, rfl, rfl, i1, rfl, rfl⟩ : IsL [N.nonjoin_table_ref_atomic] cs k vs e := hi e hs
  obtain ⟨x1, w1⟩ : ∃ (x : TableN), c1.ws _ = x.words := i1
  show ∃ (x : Table), (Tree.node 301 [c1]).ws k = x.words
  exact ⟨.base x1, by rw [ws_node]; simp only [wsL, w1] <;> first | rfl | simp [havingW, Group.words, cat]⟩

theorem r302 : RuleOK 302 := by
  intro _ cs k vs s v s' b e hp hi he hs hE
  obtain ⟨c1, _, v1, _, rfl, rfl, i1, rfl, rfl⟩ : IsL [N.join_clause] cs k vs e := hi e hs
  obtain ⟨x1, w1⟩ : ∃ (x : Table), c1.ws _ = x.words := i1
  show ∃ (x : Table), (Tree.node 302 [c1]).ws k = x.words
  exact ⟨x1, by rw [ws_node]; simp only [wsL, w1] <;> first | rfl | simp [havingW, Group.words, cat]⟩

theorem r303 : RuleOK 303 := by
  intro _ cs k vs s v s' b e hp hi he hs hE
  obtain ⟨c1, _, v1, _, rfl, rfl, i1, rfl, rfl⟩ : IsL [N.table_ref_name] cs k vs e := hi e hs
  obtain ⟨x1, w1⟩ : ∃ (x : TableN), c1.ws _ = x.words := i1
  show ∃ (x : TableN), (Tree.node 303 [c1]).ws k = x.words
  exact ⟨x1, by rw [ws_node]; simp only [wsL, w1] <;> first | rfl | simp [havingW, Group.words, cat]⟩

theorem r304 : RuleOK 304 := by
  intro _ cs k vs s v s' b e hp hi he hs hE
  obtain ⟨c1, _, v1, _, rfl, rfl, i1, c2, _, v2, _, rfl, rfl, i2, c3, _, v3, _, rfl, rfl, i3, c4, _, v4, _, rfl, rfl, i4, rfl, rfl⟩ : IsL [T.LPAREN, N.select_statement, T.RPAREN, N.opt_table_alias] cs k vs e := hi e hs
  obtain ⟨w1, rfl⟩ : c1.ws _ = [.kw T.LPAREN] ∧ v1 = .undef := i1
  obtain ⟨x2, w2⟩ : ∃ (x : Query), c2.ws _ = x.words := i2
  obtain ⟨w3, rfl⟩ : c3.ws _ = [.kw T.RPAREN] ∧ v3 = .undef := i3
  obtain ⟨x4, w4⟩ : ∃ (x : TAlias), c4.ws _ = x.words := i4
  show ∃ (x : TableN), (Tree.node 304 [c1, c2, c3, c4]).ws k = x.words
  exact ⟨.query x2 x4, by rw [ws_node]; simp only [wsL, w1, w2, w3, w4] <;> first | rfl | simp [havingW, Group.words, cat]⟩

theorem r305 : RuleOK 305 := by
  intro _ cs k vs s v s' b e hp hi he hs hE
  obtain ⟨c1, _, v1, _, rfl, rfl, i1, rfl, rfl⟩ : IsL [N.table_ref_atomic] cs k vs e := hi e hs
  obtain ⟨x1, w1⟩ : ∃ (x : Table), c1.ws _ = x.words := i1
  show ∃ (x : Tables), (Tree.node 305 [c1]).ws k = x.words
  exact ⟨.one x1, by rw [ws_node]; simp only [wsL, w1] <;> first | rfl | simp [havingW, Group.words, cat]⟩

theorem r306 : RuleOK 306 := by
  intro _ cs k vs s v s' b e hp hi he hs hE
  obtain ⟨c1, _, v1, _, rfl, rfl, i1, c2, _, v2, _, rfl, rfl, i2, c3, _, v3, _, rfl, rfl, i3, rfl, rfl⟩ : IsL [N.table_ref_commalist, T.COMMA, N.table_ref_atomic] cs k vs e := hi e hs
  obtain ⟨x1, w1⟩ : ∃ (x : Tables), c1.ws _ = x.words := i1
  obtain ⟨w2, rfl⟩ : c2.ws _ = [.kw T.COMMA] ∧ v2 = .undef := i2
  obtain ⟨x3, w3⟩ : ∃ (x : Table), c3.ws _ = x.words := i3
  show ∃ (x : Tables), (Tree.node 306 [c1, c2, c3]).ws k = x.words
  exact ⟨.snoc x1 x3, by rw [ws_node]; simp only [wsL, w1, w2, w3] <;> first | rfl | simp [havingW, Group.words, cat]⟩

theorem r307 : RuleOK 307 := by
  intro _ cs k vs s v s' b e hp hi he hs hE
  obtain ⟨c1, _, v1, _, rfl, rfl, i1, c2, _, v2, _, rfl, rfl, i2, rfl, rfl⟩ : IsL [N.table_name, N.opt_table_alias] cs k vs e := hi e hs
  obtain ⟨x1, w1, rfl⟩ : ∃ (x : TName), c1.ws _ = x.words ∧ v1 = .tup [ostr x.schema, str x.name] := i1
  obtain ⟨x2, w2⟩ : ∃ (x : TAlias), c2.ws _ = x.words := i2
  show ∃ (x : TableN), (Tree.node 307 [c1, c2]).ws k = x.words
  exact ⟨.name x1 x2, by rw [ws_node]; simp only [wsL, w1, w2] <;> first | rfl | simp [havingW, Group.words, cat]⟩

theorem r308 : RuleOK 308 := by
  intro _ cs k vs s v s' b e hp hi he hs hE
  obtain ⟨c1, _, v1, _, rfl, rfl, i1, rfl, rfl⟩ : IsL [N.table_name] cs k vs e := hi e hs
  obtain ⟨x1, w1, rfl⟩ : ∃ (x : TName), c1.ws _ = x.words ∧ v1 = .tup [ostr x.schema, str x.name] := i1
  show ∃ (x : TName), (Tree.node 308 [c1]).ws k = x.words
  exact ⟨x1, by rw [ws_node]; simp only [wsL, w1] <;> first | rfl | simp [havingW, Group.words, cat]⟩

theorem r309 : RuleOK 309 := by
  intro _ cs k vs s v s' b e hp hi he hs hE
  obtain ⟨c1, _, v1, _, rfl, rfl, i1, rfl, rfl⟩ : IsL [T.IDENTIFIER] cs k vs e := hi e hs
  obtain ⟨x1, w1, rfl⟩ : ∃ x : Name, c1.ws _ = nm x ∧ v1 = .str 0 x := i1
  show ∃ (x : TName), (Tree.node 309 [c1]).ws k = x.words ∧ v = .tup [ostr x.schema, str x.name]
  obtain rfl := ev_inv rfl he rfl
  exact ⟨⟨none, x1⟩, by rw [ws_node]; simp only [wsL, w1] <;> first | rfl | simp [havingW, Group.words, cat], rfl⟩

theorem r310 : RuleOK 310 := by
  intro _ cs k vs s v s' b e hp hi he hs hE
  obtain ⟨c1, _, v1, _, rfl, rfl, i1, c2, _, v2, _, rfl, rfl, i2, c3, _, v3, _, rfl, rfl, i3, rfl, rfl⟩ : IsL [T.IDENTIFIER, T.DOT, T.IDENTIFIER] cs k vs e := hi e hs
  obtain ⟨x1, w1, rfl⟩ : ∃ x : Name, c1.ws _ = nm x ∧ v1 = .str 0 x := i1
  obtain ⟨w2, rfl⟩ : c2.ws _ = [.kw T.DOT] ∧ v2 = .undef := i2
  obtain ⟨x3, w3, rfl⟩ : ∃ x : Name, c3.ws _ = nm x ∧ v3 = .str 0 x := i3
  show ∃ (x : TName), (Tree.node 310 [c1, c2, c3]).ws k = x.words ∧ v = .tup [ostr x.schema, str x.name]
  obtain rfl := ev_inv rfl he rfl
  exact ⟨⟨some x1, x3⟩, by rw [ws_node]; simp only [wsL, w1, w2, w3] <;> first | rfl | simp [havingW, Group.words, cat], rfl⟩

theorem r311 : RuleOK 311 := by
  intro _ cs k vs s v s' b e hp hi he hs hE
  obtain ⟨c1, _, v1, _, rfl, rfl, i1, rfl, rfl⟩ : IsL [T.IDENTIFIER] cs k vs e := hi e hs
  obtain ⟨x1, w1, rfl⟩ : ∃ x : Name, c1.ws _ = nm x ∧ v1 = .str 0 x := i1
  show ∃ (x : Option Name), (Tree.node 311 [c1]).ws k = nameW x
  exact ⟨some x1, by rw [ws_node]; simp only [wsL, w1] <;> first | rfl | simp [havingW, Group.words, cat]⟩

theorem r312 : RuleOK 312 := by
  intro _ cs k vs s v s' b e hp hi he hs hE
  obtain ⟨rfl, rfl⟩ : IsL [] cs k vs e := hi e hs
  show ∃ (x : Option Name), (Tree.node 312 []).ws k = nameW x
  exact ⟨none, by rw [ws_node]; simp only [wsL] <;> first | rfl | simp [havingW, Group.words, cat]⟩

theorem r313 : RuleOK 313 := by
  intro _ cs k vs s v s' b e hp hi he hs hE
  obtain ⟨c1, _, v1, _, rfl, rfl, i1, rfl, rfl⟩ : IsL [N.alias] cs k vs e := hi e hs
  obtain ⟨x1, w1⟩ : ∃ (x : Alias), c1.ws _ = x.words := i1
  show ∃ (x : TAlias), (Tree.node 313 [c1]).ws k = x.words
  exact ⟨.plain x1, by rw [ws_node]; simp only [wsL, w1] <;> first | rfl | simp [havingW, Group.words, cat]⟩

theorem r314 : RuleOK 314 := by
  intro _ cs k vs s v s' b e hp hi he hs hE
  obtain ⟨c1, _, v1, _, rfl, rfl, i1, c2, _, v2, _, rfl, rfl, i2, c3, _, v3, _, rfl, rfl, i3, c4, _, v4, _, rfl, rfl, i4, c5, _, v5, _, rfl, rfl, i5, rfl, rfl⟩ : IsL [T.AS, T.IDENTIFIER, T.LPAREN, N.ident_commalist, T.RPAREN] cs k vs e := hi e hs
  obtain ⟨w1, rfl⟩ : c1.ws _ = [.kw T.AS] ∧ v1 = .undef := i1
  obtain ⟨x2, w2, rfl⟩ : ∃ x : Name, c2.ws _ = nm x ∧ v2 = .str 0 x := i2
  obtain ⟨w3, rfl⟩ : c3.ws _ = [.kw T.LPAREN] ∧ v3 = .undef := i3
  obtain ⟨x4, w4, rfl⟩ : ∃ (x : Names), c4.ws _ = x.words ∧ v4 = x.v := i4
  obtain ⟨w5, rfl⟩ : c5.ws _ = [.kw T.RPAREN] ∧ v5 = .undef := i5
  show ∃ (x : TAlias), (Tree.node 314 [c1, c2, c3, c4, c5]).ws k = x.words
  exact ⟨.cols x2 x4, by rw [ws_node]; simp only [wsL, w1, w2, w3, w4, w5] <;> first | rfl | simp [havingW, Group.words, cat]⟩

theorem r315 : RuleOK 315 := by
  intro _ cs k vs s v s' b e hp hi he hs hE
  obtain ⟨c1, _, v1, _, rfl, rfl, i1, rfl, rfl⟩ : IsL [N.table_alias] cs k vs e := hi e hs
  obtain ⟨x1, w1⟩ : ∃ (x : TAlias), c1.ws _ = x.words := i1
  show ∃ (x : TAlias), (Tree.node 315 [c1]).ws k = x.words
  exact ⟨x1, by rw [ws_node]; simp only [wsL, w1] <;> first | rfl | simp [havingW, Group.words, cat]⟩

theorem r316 : RuleOK 316 := by
  intro _ cs k vs s v s' b e hp hi he hs hE
  obtain ⟨rfl, rfl⟩ : IsL [] cs k vs e := hi e hs
  show ∃ (x : TAlias), (Tree.node 316 []).ws k = x.words
  exact ⟨.plain .none, by rw [ws_node]; simp only [wsL] <;> first | rfl | simp [havingW, Group.words, cat]⟩

theorem r317 : RuleOK 317 := by
  intro _ cs k vs s v s' b e hp hi he hs hE
  obtain ⟨c1, _, v1, _, rfl, rfl, i1, c2, _, v2, _, rfl, rfl, i2, rfl, rfl⟩ : IsL [T.AS, T.IDENTIFIER] cs k vs e := hi e hs
  obtain ⟨w1, rfl⟩ : c1.ws _ = [.kw T.AS] ∧ v1 = .undef := i1
  obtain ⟨x2, w2, rfl⟩ : ∃ x : Name, c2.ws _ = nm x ∧ v2 = .str 0 x := i2
  show ∃ (x : Alias), (Tree.node 317 [c1, c2]).ws k = x.words
  exact ⟨.as x2, by rw [ws_node]; simp only [wsL, w1, w2] <;> first | rfl | simp [havingW, Group.words, cat]⟩

theorem r318 : RuleOK 318 := by
  intro _ cs k vs s v s' b e hp hi he hs hE
  obtain ⟨c1, _, v1, _, rfl, rfl, i1, rfl, rfl⟩ : IsL [T.IDENTIFIER] cs k vs e := hi e hs
  obtain ⟨x1, w1, rfl⟩ : ∃ x : Name, c1.ws _ = nm x ∧ v1 = .str 0 x := i1
  show ∃ (x : Alias), (Tree.node 318 [c1]).ws k = x.words
  exact ⟨.bare x1, by rw [ws_node]; simp only [wsL, w1] <;> first | rfl | simp [havingW, Group.words, cat]⟩

theorem r319 : RuleOK 319 := by
  intro _ cs k vs s v s' b e hp hi he hs hE
  obtain ⟨c1, _, v1, _, rfl, rfl, i1, rfl, rfl⟩ : IsL [N.alias] cs k vs e := hi e hs
  obtain ⟨x1, w1⟩ : ∃ (x : Alias), c1.ws _ = x.words := i1
  show ∃ (x : Alias), (Tree.node 319 [c1]).ws k = x.words
  exact ⟨x1, by rw [ws_node]; simp only [wsL, w1] <;> first | rfl | simp [havingW, Group.words, cat]⟩

theorem r320 : RuleOK 320 := by
  intro _ cs k vs s v s' b e hp hi he hs hE
  obtain ⟨rfl, rfl⟩ : IsL [] cs k vs e := hi e hs
  show ∃ (x : Alias), (Tree.node 320 []).ws k = x.words
  exact ⟨.none, by rw [ws_node]; simp only [wsL] <;> first | rfl | simp [havingW, Group.words, cat]⟩

theorem r321 : RuleOK 321 := by
  intro _ cs k vs s v s' b e hp hi he hs hE
  obtain ⟨c1, _, v1, _, rfl, rfl, i1, rfl, rfl⟩ : IsL [N.opt_locking_clause_list] cs k vs e := hi e hs
  obtain ⟨x1, w1⟩ : ∃ (x : LockList), c1.ws _ = x.words := i1
  show ∃ (x : Locks), (Tree.node 321 [c1]).ws k = x.words
  exact ⟨.some x1, by rw [ws_node]; simp only [wsL, w1] <;> first | rfl | simp [havingW, Group.words, cat]⟩

theorem r322 : RuleOK 322 := by
  intro _ cs k vs s v s' b e hp hi he hs hE
  obtain ⟨rfl, rfl⟩ : IsL [] cs k vs e := hi e hs
  show ∃ (x : Locks), (Tree.node 322 []).ws k = x.words
  exact ⟨.none, by rw [ws_node]; simp only [wsL] <;> first | rfl | simp [havingW, Group.words, cat]⟩

theorem r323 : RuleOK 323 := by
  intro _ cs k vs s v s' b e hp hi he hs hE
  obtain ⟨c1, _, v1, _, rfl, rfl, i1, rfl, rfl⟩ : IsL [N.locking_clause] cs k vs e := hi e hs
  obtain ⟨x1, w1⟩ : ∃ (x : Lock), c1.ws _ = x.words := i1
  show ∃ (x : LockList), (Tree.node 323 [c1]).ws k = x.words
  exact ⟨.one x1, by rw [ws_node]; simp only [wsL, w1] <;> first | rfl | simp [havingW, Group.words, cat]⟩

theorem r324 : RuleOK 324 := by
  intro _ cs k vs s v s' b e hp hi he hs hE
  obtain ⟨c1, _, v1, _, rfl, rfl, i1, c2, _, v2, _, rfl, rfl, i2, rfl, rfl⟩ : IsL [N.opt_locking_clause_list, N.locking_clause] cs k vs e := hi e hs
  obtain ⟨x1, w1⟩ : ∃ (x : LockList), c1.ws _ = x.words := i1
  obtain ⟨x2, w2⟩ : ∃ (x : Lock), c2.ws _ = x.words := i2
  show ∃ (x : LockList), (Tree.node 324 [c1, c2]).ws k = x.words
  exact ⟨.snoc x1 x2, by rw [ws_node]; simp only [wsL, w1, w2] <;> first | rfl | simp [havingW, Group.words, cat]⟩

theorem r325 : RuleOK 325 := by
  intro _ cs k vs s v s' b e hp hi he hs hE
  obtain ⟨c1, _, v1, _, rfl, rfl, i1, c2, _, v2, _, rfl, rfl, i2, c3, _, v3, _, rfl, rfl, i3, rfl, rfl⟩ : IsL [T.FOR, N.row_lock_mode, N.opt_row_lock_policy] cs k vs e := hi e hs
  obtain ⟨w1, rfl⟩ : c1.ws _ = [.kw T.FOR] ∧ v1 = .undef := i1
  obtain ⟨x2, w2⟩ : ∃ (x : LockMode), c2.ws _ = x.words := i2
  obtain ⟨x3, w3⟩ : ∃ (x : LockWait), c3.ws _ = x.words := i3
  show ∃ (x : Lock), (Tree.node 325 [c1, c2, c3]).ws k = x.words
  exact ⟨⟨x2, none, x3⟩, by rw [ws_node]; simp only [wsL, w1, w2, w3] <;> first | rfl | simp [havingW, Group.words, cat]⟩

theorem r326 : RuleOK 326 := by
  intro _ cs k vs s v s' b e hp hi he hs hE
  obtain ⟨c1, _, v1, _, rfl, rfl, i1, c2, _, v2, _, rfl, rfl, i2, c3, _, v3, _, rfl, rfl, i3, c4, _, v4, _, rfl, rfl, i4, c5, _, v5, _, rfl, rfl, i5, rfl, rfl⟩ : IsL [T.FOR, N.row_lock_mode, T.OF, N.ident_commalist, N.opt_row_lock_policy] cs k vs e := hi e hs
  obtain ⟨w1, rfl⟩ : c1.ws _ = [.kw T.FOR] ∧ v1 = .undef := i1
  obtain ⟨x2, w2⟩ : ∃ (x : LockMode), c2.ws _ = x.words := i2
  obtain ⟨w3, rfl⟩ : c3.ws _ = [.kw T.OF] ∧ v3 = .undef := i3
  obtain ⟨x4, w4, rfl⟩ : ∃ (x : Names), c4.ws _ = x.words ∧ v4 = x.v := i4
  obtain ⟨x5, w5⟩ : ∃ (x : LockWait), c5.ws _ = x.words := i5
  show ∃ (x : Lock), (Tree.node 326 [c1, c2, c3, c4, c5]).ws k = x.words
  exact ⟨⟨x2, some x4, x5⟩, by rw [ws_node]; simp only [wsL, w1, w2, w3, w4, w5] <;> first | rfl | simp [havingW, Group.words, cat]⟩

theorem r327 : RuleOK 327 := by
  intro _ cs k vs s v s' b e hp hi he hs hE
  obtain ⟨c1, _, v1, _, rfl, rfl, i1, rfl, rfl⟩ : IsL [T.UPDATE] cs k vs e := hi e hs
  obtain ⟨w1, rfl⟩ : c1.ws _ = [.kw T.UPDATE] ∧ v1 = .undef := i1
  show ∃ (x : LockMode), (Tree.node 327 [c1]).ws k = x.words
  exact ⟨.update, by rw [ws_node]; simp only [wsL, w1] <;> first | rfl | simp [havingW, Group.words, cat]⟩

theorem r328 : RuleOK 328 := by
  intro _ cs k vs s v s' b e hp hi he hs hE
  obtain ⟨c1, _, v1, _, rfl, rfl, i1, c2, _, v2, _, rfl, rfl, i2, c3, _, v3, _, rfl, rfl, i3, rfl, rfl⟩ : IsL [T.NO, T.KEY, T.UPDATE] cs k vs e := hi e hs
  obtain ⟨w1, rfl⟩ : c1.ws _ = [.kw T.NO] ∧ v1 = .undef := i1
  obtain ⟨w2, rfl⟩ : c2.ws _ = [.kw T.KEY] ∧ v2 = .undef := i2
  obtain ⟨w3, rfl⟩ : c3.ws _ = [.kw T.UPDATE] ∧ v3 = .undef := i3
  show ∃ (x : LockMode), (Tree.node 328 [c1, c2, c3]).ws k = x.words
  exact ⟨.noKeyUpdate, by rw [ws_node]; simp only [wsL, w1, w2, w3] <;> first | rfl | simp [havingW, Group.words, cat]⟩

theorem r329 : RuleOK 329 := by
  intro _ cs k vs s v s' b e hp hi he hs hE
  obtain ⟨c1, _, v1, _, rfl, rfl, i1, rfl, rfl⟩ : IsL [T.SHARE] cs k vs e := hi e hs
  obtain ⟨w1, rfl⟩ : c1.ws _ = [.kw T.SHARE] ∧ v1 = .undef := i1
  show ∃ (x : LockMode), (Tree.node 329 [c1]).ws k = x.words
  exact ⟨.share, by rw [ws_node]; simp only [wsL, w1] <;> first | rfl | simp [havingW, Group.words, cat]⟩

theorem r330 : RuleOK 330 := by
  intro _ cs k vs s v s' b e hp hi he hs hE
  obtain ⟨c1, _, v1, _, rfl, rfl, i1, c2, _, v2, _, rfl, rfl, i2, rfl, rfl⟩ : IsL [T.KEY, T.SHARE] cs k vs e := hi e hs
  obtain ⟨w1, rfl⟩ : c1.ws _ = [.kw T.KEY] ∧ v1 = .undef := i1
  obtain ⟨w2, rfl⟩ : c2.ws _ = [.kw T.SHARE] ∧ v2 = .undef := i2
  show ∃ (x : LockMode), (Tree.node 330 [c1, c2]).ws k = x.words
  exact ⟨.keyShare, by rw [ws_node]; simp only [wsL, w1, w2] <;> first | rfl | simp [havingW, Group.words, cat]⟩

theorem r331 : RuleOK 331 := by
  intro _ cs k vs s v s' b e hp hi he hs hE
  obtain ⟨c1, _, v1, _, rfl, rfl, i1, c2, _, v2, _, rfl, rfl, i2, rfl, rfl⟩ : IsL [T.SKIP, T.LOCKED] cs k vs e := hi e hs
  obtain ⟨w1, rfl⟩ : c1.ws _ = [.kw T.SKIP] ∧ v1 = .undef := i1
  obtain ⟨w2, rfl⟩ : c2.ws _ = [.kw T.LOCKED] ∧ v2 = .undef := i2
  show ∃ (x : LockWait), (Tree.node 331 [c1, c2]).ws k = x.words
  exact ⟨.skipLocked, by rw [ws_node]; simp only [wsL, w1, w2] <;> first | rfl | simp [havingW, Group.words, cat]⟩

theorem r332 : RuleOK 332 := by
  intro _ cs k vs s v s' b e hp hi he hs hE
  obtain ⟨c1, _, v1, _, rfl, rfl, i1, rfl, rfl⟩ : IsL [T.NOWAIT] cs k vs e := hi e hs
  obtain ⟨w1, rfl⟩ : c1.ws _ = [.kw T.NOWAIT] ∧ v1 = .undef := i1
  show ∃ (x : LockWait), (Tree.node 332 [c1]).ws k = x.words
  exact ⟨.nowait, by rw [ws_node]; simp only [wsL, w1] <;> first | rfl | simp [havingW, Group.words, cat]⟩

theorem r333 : RuleOK 333 := by
  intro _ cs k vs s v s' b e hp hi he hs hE
  obtain ⟨rfl, rfl⟩ : IsL [] cs k vs e := hi e hs
  show ∃ (x : LockWait), (Tree.node 333 []).ws k = x.words
  exact ⟨.none, by rw [ws_node]; simp only [wsL] <;> first | rfl | simp [havingW, Group.words, cat]⟩

theorem r334 : RuleOK 334 := by
  intro _ cs k vs s v s' b e hp hi he hs hE
  obtain ⟨c1, _, v1, _, rfl, rfl, i1, rfl, rfl⟩ : IsL [N.with_clause] cs k vs e := hi e hs
  obtain ⟨x1, w1⟩ : ∃ (x : With), c1.ws _ = x.words := i1
  show ∃ (x : With), (Tree.node 334 [c1]).ws k = x.words
  exact ⟨x1, by rw [ws_node]; simp only [wsL, w1] <;> first | rfl | simp [havingW, Group.words, cat]⟩

theorem r335 : RuleOK 335 := by
  intro _ cs k vs s v s' b e hp hi he hs hE
  obtain ⟨rfl, rfl⟩ : IsL [] cs k vs e := hi e hs
  show ∃ (x : With), (Tree.node 335 []).ws k = x.words
  exact ⟨.none, by rw [ws_node]; simp only [wsL] <;> first | rfl | simp [havingW, Group.words, cat]⟩

theorem r336 : RuleOK 336 := by
  intro _ cs k vs s v s' b e hp hi he hs hE
  obtain ⟨c1, _, v1, _, rfl, rfl, i1, c2, _, v2, _, rfl, rfl, i2, rfl, rfl⟩ : IsL [T.WITH, N.with_description_list] cs k vs e := hi e hs
  obtain ⟨w1, rfl⟩ : c1.ws _ = [.kw T.WITH] ∧ v1 = .undef := i1
  obtain ⟨x2, w2⟩ : ∃ (x : Withs), c2.ws _ = x.words := i2
  show ∃ (x : With), (Tree.node 336 [c1, c2]).ws k = x.words
  exact ⟨.some x2, by rw [ws_node]; simp only [wsL, w1, w2] <;> first | rfl | simp [havingW, Group.words, cat]⟩

theorem r337 : RuleOK 337 := by
  intro _ cs k vs s v s' b e hp hi he hs hE
  obtain ⟨c1, _, v1, _, rfl, rfl, i1, rfl, rfl⟩ : IsL [N.with_description] cs k vs e := hi e hs
  obtain ⟨x1, y1, w1⟩ : ∃ (x : Name) (y : PSel), c1.ws _ = cat [nm x, kw T.AS, y.words] := i1
  show ∃ (x : Withs), (Tree.node 337 [c1]).ws k = x.words
  exact ⟨.one x1 y1, by rw [ws_node]; simp only [wsL, w1] <;> first | rfl | simp [havingW, Group.words, cat]⟩

theorem r338 : RuleOK 338 := by
  intro _ cs k vs s v s' b e hp hi he hs hE
  obtain ⟨c1, _, v1, _, rfl, rfl, i1, c2, _, v2, _, rfl, rfl, i2, c3, _, v3, _, rfl, rfl, i3, rfl, rfl⟩ : IsL [N.with_description_list, T.COMMA, N.with_description] cs k vs e := hi e hs
  obtain ⟨x1, w1⟩ : ∃ (x : Withs), c1.ws _ = x.words := i1
  obtain ⟨w2, rfl⟩ : c2.ws _ = [.kw T.COMMA] ∧ v2 = .undef := i2
  obtain ⟨x3, y3, w3⟩ : ∃ (x : Name) (y : PSel), c3.ws _ = cat [nm x, kw T.AS, y.words] := i3
  show ∃ (x : Withs), (Tree.node 338 [c1, c2, c3]).ws k = x.words
  exact ⟨.snoc x1 x3 y3, by rw [ws_node]; simp only [wsL, w1, w2, w3] <;> first | rfl | simp [havingW, Group.words, cat]⟩

theorem r339 : RuleOK 339 := by
  intro _ cs k vs s v s' b e hp hi he hs hE
  obtain ⟨c1, _, v1, _, rfl, rfl, i1, c2, _, v2, _, rfl, rfl, i2, c3, _, v3, _, rfl, rfl, i3, rfl, rfl⟩ : IsL [T.IDENTIFIER, T.AS, N.select_with_paren] cs k vs e := hi e hs
  obtain ⟨x1, w1, rfl⟩ : ∃ x : Name, c1.ws _ = nm x ∧ v1 = .str 0 x := i1
  obtain ⟨w2, rfl⟩ : c2.ws _ = [.kw T.AS] ∧ v2 = .undef := i2
  obtain ⟨x3, w3⟩ : ∃ (x : PSel), c3.ws _ = x.words := i3
  show ∃ (x : Name) (y : PSel), (Tree.node 339 [c1, c2, c3]).ws k = cat [nm x, kw T.AS, y.words]
  exact ⟨x1, x3, by rw [ws_node]; simp only [wsL, w1, w2, w3] <;> first | rfl | simp [havingW, Group.words, cat]⟩

theorem r340 : RuleOK 340 := by
  intro _ cs k vs s v s' b e hp hi he hs hE
  obtain ⟨c1, _, v1, _, rfl, rfl, i1, c2, _, v2, _, rfl, rfl, i2, c3, _, v3, _, rfl, rfl, i3, c4, _, v4, _, rfl, rfl, i4, rfl, rfl⟩ : IsL [N.table_ref_atomic, T.NATURAL, T.JOIN, N.nonjoin_table_ref_atomic] cs k vs e := hi e hs
  obtain ⟨x1, w1⟩ : ∃ (x : Table), c1.ws _ = x.words := i1
  obtain ⟨w2, rfl⟩ : c2.ws _ = [.kw T.NATURAL] ∧ v2 = .undef := i2
  obtain ⟨w3, rfl⟩ : c3.ws _ = [.kw T.JOIN] ∧ v3 = .undef := i3
  obtain ⟨x4, w4⟩ : ∃ (x : TableN), c4.ws _ = x.words := i4
  show ∃ (x : Table), (Tree.node 340 [c1, c2, c3, c4]).ws k = x.words
  exact ⟨.natural x1 x4, by rw [ws_node]; simp only [wsL, w1, w2, w3, w4] <;> first | rfl | simp [havingW, Group.words, cat]⟩

theorem r341 : RuleOK 341 := by
  intro _ cs k vs s v s' b e hp hi he hs hE
  obtain ⟨c1, _, v1, _, rfl, rfl, i1, c2, _, v2, _, rfl, rfl, i2, c3, _, v3, _, rfl, rfl, i3, c4, _, v4, _, rfl, rfl, i4, c5, _, v5, _, rfl, rfl, i5, c6, _, v6, _, rfl, rfl, i6, rfl, rfl⟩ : IsL [N.table_ref_atomic, N.opt_join_type, T.JOIN, N.table_ref_atomic, T.ON, N.join_condition] cs k vs e := hi e hs
  obtain ⟨x1, w1⟩ : ∃ (x : Table), c1.ws _ = x.words := i1
  obtain ⟨x2, w2⟩ : ∃ (x : JoinType), c2.ws _ = x.words := i2
  obtain ⟨w3, rfl⟩ : c3.ws _ = [.kw T.JOIN] ∧ v3 = .undef := i3
  obtain ⟨x4, w4⟩ : ∃ (x : Table), c4.ws _ = x.words := i4
  obtain ⟨w5, rfl⟩ : c5.ws _ = [.kw T.ON] ∧ v5 = .undef := i5
  obtain ⟨x6, w6⟩ : ∃ (x : Expr), c6.ws _ = x.words := i6
  show ∃ (x : Table), (Tree.node 341 [c1, c2, c3, c4, c5, c6]).ws k = x.words
  exact ⟨.on x1 x2 x4 x6, by rw [ws_node]; simp only [wsL, w1, w2, w3, w4, w5, w6] <;> first | rfl | simp [havingW, Group.words, cat]⟩

theorem r342 : RuleOK 342 := by
  intro _ cs k vs s v s' b e hp hi he hs hE
  obtain ⟨c1, _, v1, _, rfl, rfl, i1, c2, _, v2, _, rfl, rfl, i2, c3, _, v3, _, rfl, rfl, i3, c4, _, v4, _, rfl, rfl, i4, c5, _, v5, _, rfl, rfl, i5, c6, _, v6, _, rfl, rfl, i6, c7, _, v7, _, rfl, rfl, i7, c8, _, v8, _, rfl, rfl, i8, rfl, rfl⟩ : IsL [N.table_ref_atomic, N.opt_join_type, T.JOIN, N.table_ref_atomic, T.USING, T.LPAREN, N.ident_commalist, T.RPAREN] cs k vs e := hi e hs
  obtain ⟨x1, w1⟩ : ∃ (x : Table), c1.ws _ = x.words := i1
  obtain ⟨x2, w2⟩ : ∃ (x : JoinType), c2.ws _ = x.words := i2
  obtain ⟨w3, rfl⟩ : c3.ws _ = [.kw T.JOIN] ∧ v3 = .undef := i3
  obtain ⟨x4, w4⟩ : ∃ (x : Table), c4.ws _ = x.words := i4
  obtain ⟨w5, rfl⟩ : c5.ws _ = [.kw T.USING] ∧ v5 = .undef := i5
  obtain ⟨w6, rfl⟩ : c6.ws _ = [.kw T.LPAREN] ∧ v6 = .undef := i6
  obtain ⟨x7, w7, rfl⟩ : ∃ (x : Names), c7.ws _ = x.words ∧ v7 = x.v := i7
  obtain ⟨w8, rfl⟩ : c8.ws _ = [.kw T.RPAREN] ∧ v8 = .undef := i8
  show ∃ (x : Table), (Tree.node 342 [c1, c2, c3, c4, c5, c6, c7, c8]).ws k = x.words
  exact ⟨.using x1 x2 x4 x7, by rw [ws_node]; simp only [wsL, w1, w2, w3, w4, w5, w6, w7, w8] <;> first | rfl | simp [havingW, Group.words, cat]⟩

theorem r343 : RuleOK 343 := by
  intro _ cs k vs s v s' b e hp hi he hs hE
  obtain ⟨c1, _, v1, _, rfl, rfl, i1, rfl, rfl⟩ : IsL [T.INNER] cs k vs e := hi e hs
  obtain ⟨w1, rfl⟩ : c1.ws _ = [.kw T.INNER] ∧ v1 = .undef := i1
  show ∃ (x : JoinType), (Tree.node 343 [c1]).ws k = x.words
  exact ⟨.inner, by rw [ws_node]; simp only [wsL, w1] <;> first | rfl | simp [havingW, Group.words, cat]⟩

theorem r344 : RuleOK 344 := by
  intro _ cs k vs s v s' b e hp hi he hs hE
  obtain ⟨c1, _, v1, _, rfl, rfl, i1, c2, _, v2, _, rfl, rfl, i2, rfl, rfl⟩ : IsL [T.LEFT, T.OUTER] cs k vs e := hi e hs
  obtain ⟨w1, rfl⟩ : c1.ws _ = [.kw T.LEFT] ∧ v1 = .undef := i1
  obtain ⟨w2, rfl⟩ : c2.ws _ = [.kw T.OUTER] ∧ v2 = .undef := i2
  show ∃ (x : JoinType), (Tree.node 344 [c1, c2]).ws k = x.words
  exact ⟨.left true, by rw [ws_node]; simp only [wsL, w1, w2] <;> first | rfl | simp [havingW, Group.words, cat]⟩

theorem r345 : RuleOK 345 := by
  intro _ cs k vs s v s' b e hp hi he hs hE
  obtain ⟨c1, _, v1, _, rfl, rfl, i1, rfl, rfl⟩ : IsL [T.LEFT] cs k vs e := hi e hs
  obtain ⟨w1, rfl⟩ : c1.ws _ = [.kw T.LEFT] ∧ v1 = .undef := i1
  show ∃ (x : JoinType), (Tree.node 345 [c1]).ws k = x.words
  exact ⟨.left false, by rw [ws_node]; simp only [wsL, w1] <;> first | rfl | simp [havingW, Group.words, cat]⟩

theorem r346 : RuleOK 346 := by
  intro _ cs k vs s v s' b e hp hi he hs hE
  obtain ⟨c1, _, v1, _, rfl, rfl, i1, c2, _, v2, _, rfl, rfl, i2, rfl, rfl⟩ : IsL [T.RIGHT, T.OUTER] cs k vs e := hi e hs
  obtain ⟨w1, rfl⟩ : c1.ws _ = [.kw T.RIGHT] ∧ v1 = .undef := i1
  obtain ⟨w2, rfl⟩ : c2.ws _ = [.kw T.OUTER] ∧ v2 = .undef := i2
  show ∃ (x : JoinType), (Tree.node 346 [c1, c2]).ws k = x.words
  exact ⟨.right true, by rw [ws_node]; simp only [wsL, w1, w2] <;> first | rfl | simp [havingW, Group.words, cat]⟩

theorem r347 : RuleOK 347 := by
  intro _ cs k vs s v s' b e hp hi he hs hE
  obtain ⟨c1, _, v1, _, rfl, rfl, i1, rfl, rfl⟩ : IsL [T.RIGHT] cs k vs e := hi e hs
  obtain ⟨w1, rfl⟩ : c1.ws _ = [.kw T.RIGHT] ∧ v1 = .undef := i1
  show ∃ (x : JoinType), (Tree.node 347 [c1]).ws k = x.words
  exact ⟨.right false, by rw [ws_node]; simp only [wsL, w1] <;> first | rfl | simp [havingW, Group.words, cat]⟩

theorem r348 : RuleOK 348 := by
  intro _ cs k vs s v s' b e hp hi he hs hE
  obtain ⟨c1, _, v1, _, rfl, rfl, i1, c2, _, v2, _, rfl, rfl, i2, rfl, rfl⟩ : IsL [T.FULL, T.OUTER] cs k vs e := hi e hs
  obtain ⟨w1, rfl⟩ : c1.ws _ = [.kw T.FULL] ∧ v1 = .undef := i1
  obtain ⟨w2, rfl⟩ : c2.ws _ = [.kw T.OUTER] ∧ v2 = .undef := i2
  show ∃ (x : JoinType), (Tree.node 348 [c1, c2]).ws k = x.words
  exact ⟨.full true, by rw [ws_node]; simp only [wsL, w1, w2] <;> first | rfl | simp [havingW, Group.words, cat]⟩

theorem r349 : RuleOK 349 := by
  intro _ cs k vs s v s' b e hp hi he hs hE
  obtain ⟨c1, _, v1, _, rfl, rfl, i1, rfl, rfl⟩ : IsL [T.OUTER] cs k vs e := hi e hs
  obtain ⟨w1, rfl⟩ : c1.ws _ = [.kw T.OUTER] ∧ v1 = .undef := i1
  show ∃ (x : JoinType), (Tree.node 349 [c1]).ws k = x.words
  exact ⟨.outer, by rw [ws_node]; simp only [wsL, w1] <;> first | rfl | simp [havingW, Group.words, cat]⟩

theorem r350 : RuleOK 350 := by
  intro _ cs k vs s v s' b e hp hi he hs hE
  obtain ⟨c1, _, v1, _, rfl, rfl, i1, rfl, rfl⟩ : IsL [T.FULL] cs k vs e := hi e hs
  obtain ⟨w1, rfl⟩ : c1.ws _ = [.kw T.FULL] ∧ v1 = .undef := i1
  show ∃ (x : JoinType), (Tree.node 350 [c1]).ws k = x.words
  exact ⟨.full false, by rw [ws_node]; simp only [wsL, w1] <;> first | rfl | simp [havingW, Group.words, cat]⟩

theorem r351 : RuleOK 351 := by
  intro _ cs k vs s v s' b e hp hi he hs hE
  obtain ⟨c1, _, v1, _, rfl, rfl, i1, rfl, rfl⟩ : IsL [T.CROSS] cs k vs e := hi e hs
  obtain ⟨w1, rfl⟩ : c1.ws _ = [.kw T.CROSS] ∧ v1 = .undef := i1
  show ∃ (x : JoinType), (Tree.node 351 [c1]).ws k = x.words
  exact ⟨.cross, by rw [ws_node]; simp only [wsL, w1] <;> first | rfl | simp [havingW, Group.words, cat]⟩

theorem r352 : RuleOK 352 := by
  intro _ cs k vs s v s' b e hp hi he hs hE
  obtain ⟨rfl, rfl⟩ : IsL [] cs k vs e := hi e hs
  show ∃ (x : JoinType), (Tree.node 352 []).ws k = x.words
  exact ⟨.none, by rw [ws_node]; simp only [wsL] <;> first | rfl | simp [havingW, Group.words, cat]⟩

theorem r353 : RuleOK 353 := by
  intro _ cs k vs s v s' b e hp hi he hs hE
  obtain ⟨c1, _, v1, _, rfl, rfl, i1, rfl, rfl⟩ : IsL [N.expr] cs k vs e := hi e hs
  obtain ⟨x1, w1, h1⟩ : ∃ (x : Expr), c1.ws _ = x.words ∧ ExE x c1 := i1
  show ∃ (x : Expr), (Tree.node 353 [c1]).ws k = x.words
  exact ⟨x1, by rw [ws_node]; simp only [wsL, w1] <;> first | rfl | simp [havingW, Group.words, cat]⟩

theorem r354 : RuleOK 354 := by
  intro _ cs k vs s v s' b e hp hi he hs hE
  obtain ⟨c1, _, v1, _, rfl, rfl, i1, rfl, rfl⟩ : IsL [T.SEMI] cs k vs e := hi e hs
  obtain ⟨w1, rfl⟩ : c1.ws _ = [.kw T.SEMI] ∧ v1 = .undef := i1
  show ∃ (x : Bool), (Tree.node 354 [c1]).ws k = semiW x
  exact ⟨true, by rw [ws_node]; simp only [wsL, w1] <;> first | rfl | simp [havingW, Group.words, cat]⟩

theorem r355 : RuleOK 355 := by
  intro _ cs k vs s v s' b e hp hi he hs hE
  obtain ⟨rfl, rfl⟩ : IsL [] cs k vs e := hi e hs
  show ∃ (x : Bool), (Tree.node 355 []).ws k = semiW x
  exact ⟨false, by rw [ws_node]; simp only [wsL] <;> first | rfl | simp [havingW, Group.words, cat]⟩

theorem r356 : RuleOK 356 := by
  intro _ cs k vs s v s' b e hp hi he hs hE
  obtain ⟨c1, _, v1, _, rfl, rfl, i1, rfl, rfl⟩ : IsL [T.IDENTIFIER] cs k vs e := hi e hs
  obtain ⟨x1, w1, rfl⟩ : ∃ x : Name, c1.ws _ = nm x ∧ v1 = .str 0 x := i1
  show ∃ (x : Names), (Tree.node 356 [c1]).ws k = x.words ∧ v = x.v
  obtain rfl := ev_inv rfl he rfl
  exact ⟨.one x1, by rw [ws_node]; simp only [wsL, w1] <;> first | rfl | simp [havingW, Group.words, cat], rfl⟩

theorem r357 : RuleOK 357 := by
  intro _ cs k vs s v s' b e hp hi he hs hE
  obtain ⟨c1, _, v1, _, rfl, rfl, i1, c2, _, v2, _, rfl, rfl, i2, c3, _, v3, _, rfl, rfl, i3, rfl, rfl⟩ : IsL [N.ident_commalist, T.COMMA, T.IDENTIFIER] cs k vs e := hi e hs
  obtain ⟨x1, w1, rfl⟩ : ∃ (x : Names), c1.ws _ = x.words ∧ v1 = x.v := i1
  obtain ⟨w2, rfl⟩ : c2.ws _ = [.kw T.COMMA] ∧ v2 = .undef := i2
  obtain ⟨x3, w3, rfl⟩ : ∃ x : Name, c3.ws _ = nm x ∧ v3 = .str 0 x := i3
  show ∃ (x : Names), (Tree.node 357 [c1, c2, c3]).ws k = x.words ∧ v = x.v
  obtain rfl := ev_inv rfl he rfl
  exact ⟨.snoc x1 x3, by rw [ws_node]; simp only [wsL, w1, w2, w3] <;> first | rfl | simp [havingW, Group.words, cat], rfl⟩

end Verif.Sql.Read

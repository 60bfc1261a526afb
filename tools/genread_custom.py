# executed by genread_rules.py: rules with their own proofs
def put(r, body, **kw): TH[r] = head(r, **kw) + '  show %s\n' % goal(r) + body.replace('WORDS', words(r)) + '\n'
def inv(r): return '  obtain rfl := ev_inv rfl he rfl\n'
# values
for r, w_ in ((38, 'x1'), (60, 'true'), (61, 'false'), (96, '.primaryKey'), (97, '.unique'), (98, '.null'), (99, '.notNull'), (117, 'some x2'), (118, 'none'),
              (309, '⟨none, x1⟩'), (310, '⟨some x1, x3⟩'), (356, '.one x1'), (357, '.snoc x1 x3')):
    put(r, inv(r) + '  exact ⟨%s, WORDS, rfl⟩' % w_)
put(37, '''  obtain ⟨n, er⟩ := s
  rw [ev37] at he
  cases hf : fileType x1 with
  | none => rw [hf] at he; cases he
  | some f => rw [hf] at he; cases he; exact ⟨x1, f, WORDS, hf, rfl⟩''')
put(42, '''  obtain ⟨n, er⟩ := s
  rw [CopyV.o, ev42 _ (fileType_auto h4)] at he
  split at he
  · rename_i hc; cases he
    exact ⟨.snoc x1 (.format x4 f4 h4), WORDS, ⟨h1, hc⟩, rfl⟩
  · cases he''')
put(43, '''  obtain ⟨n, er⟩ := s
  rw [ev43] at he
  cases he
  exact ⟨.one (.format x2 f2 h2), WORDS, trivial, rfl⟩''')
put(44, '''  obtain ⟨n, er⟩ := s
  rw [CopyV.o, ev44] at he
  split at he
  · rename_i hc; cases he
    exact ⟨.snoc x1 (.encoding x4), WORDS, ⟨h1, hc⟩, rfl⟩
  · cases he''')
put(45, '''  obtain ⟨n, er⟩ := s
  rw [ev45] at he
  cases he
  exact ⟨.one (.encoding x2), WORDS, trivial, rfl⟩''')
put(46, '''  obtain ⟨n, er⟩ := s
  rw [CopyV.o, ev46] at he
  split at he
  · rename_i hc; cases he
    refine ⟨.snoc x1 x3, WORDS, ⟨h1, ?_⟩, ?_⟩
    · cases x3 <;> cases h3 <;> exact hc
    · cases x3 <;> cases h3 <;> rfl
  · cases he''')
put(47, '''  obtain ⟨n, er⟩ := s
  rw [ev47] at he
  cases he
  refine ⟨.one x1, WORDS, trivial, ?_⟩
  cases x1 <;> cases h1 <;> rfl''')
put(48, '''  obtain ⟨n, er⟩ := s
  rw [ev48] at he
  split at he
  · rename_i hc; cases he
    exact ⟨.delimiter x1 hc x2, .delimiter, x2, WORDS, rfl, rfl⟩
  · split at he
    · rename_i hc; cases he
      exact ⟨.quote x1 hc x2, .quote, x2, WORDS, rfl, rfl⟩
    · cases he''')
put(49, '''  obtain ⟨n, er⟩ := s
  rw [ev49] at he
  cases he
  exact ⟨.null x2, .null, x2, WORDS, rfl, rfl⟩''')
put(55, '''  exact ⟨.createFile x3 x4 x6 (inv55 he) x8, WORDS⟩''')
put(56, '''  obtain ⟨x6, w6⟩ := w6 rfl
  exact ⟨.createTable x3 x4 x6, WORDS⟩''', e='false', hs='(fun h => by rw [ev56_err he] at h; exact h)')
put(62, '''  intro h
  obtain ⟨x1, w1⟩ := w1 h
  exact ⟨.one x1, WORDS⟩''')
put(63, '''  intro h
  obtain ⟨x1, w1⟩ := w1 h
  obtain ⟨x3, w3⟩ := w3 h
  exact ⟨.snoc x1 x3, WORDS⟩''')
put(64, '''  intro h
  obtain ⟨x1, w1⟩ := w1 h
  exact ⟨x1, WORDS⟩''')
put(65, '''  intro _
  exact ⟨x1, WORDS⟩''')
put(66, '''  intro h
  obtain ⟨a, b', c, d, rfl, _⟩ := h2
  obtain ⟨rs, rfl⟩ := h3
  have hf : s'.err = false := by
    cases hq : s'.err with
    | false => rfl
    | true => rw [hE hq] at h; cases h
  exact ⟨.column x1 x2 x3 (inv66 he hf), WORDS⟩''')
T4 = '⟨_, _, _, _, rfl, rfl, rfl, rfl, rfl⟩'
for r, w_ in ((67, 'bigint'), (68, 'boolean'), (71, 'date'), (72, 'datetime'), (74, 'double'), (75, 'float'), (76, 'int'), (77, 'integer'), (78, 'long'), (79, 'real'), (80, 'smallint'), (81, 'text'), (83, 'timestamp')):
    put(r, inv(r) + '  exact ⟨.simple .%s, WORDS, %s⟩' % (w_, T4))
for r, w_ in ((69, 'char'), (70, 'characterVarying'), (84, 'varchar')): put(r, inv(r) + '  exact ⟨.%s x3, WORDS, %s⟩' % (w_, T4))
put(73, '''  obtain ⟨i, j, rfl⟩ := h2
''' + inv(73) + '''  rcases x2 with _ | ⟨p, _ | q⟩
  · exact ⟨.decimal, WORDS, %s⟩
  · exact ⟨.decimal1 p, WORDS, %s⟩
  · exact ⟨.decimal2 p q, WORDS, %s⟩''' % (T4, T4, T4))
put(82, '''  obtain ⟨i, rfl⟩ := h2
''' + inv(82) + '''  rcases x2 with _ | p
  · exact ⟨.time, WORDS, %s⟩
  · exact ⟨.time1 p, WORDS, %s⟩''' % (T4, T4))
put(85, inv(85) + '  exact ⟨some x2, WORDS, _, rfl⟩')
put(86, inv(86) + '  exact ⟨none, WORDS, _, rfl⟩')
put(87, inv(87) + '  exact ⟨some (x2, some x4), WORDS, _, _, rfl⟩')
put(88, inv(88) + '  exact ⟨some (x2, none), WORDS, _, _, rfl⟩')
put(89, inv(89) + '  exact ⟨none, WORDS, _, _, rfl⟩')
put(90, '''  obtain ⟨rs, rfl⟩ := h1
''' + inv(90) + '  exact ⟨.some x1, WORDS, rs, rfl⟩')
put(91, inv(91) + '  exact ⟨.none, WORDS, [], rfl⟩')
put(92, inv(92) + '  exact ⟨.one x1, WORDS, [], rfl⟩')
put(93, '''  obtain ⟨rs, rfl⟩ := h1
  obtain rfl := inv93 he
  exact ⟨.snoc x1 x2, WORDS, rs, rfl⟩''')
put(94, inv(94) + '  exact ⟨.one (.references x1 y1), WORDS, [refV x1 y1], rfl⟩')
put(95, '''  obtain ⟨rs, rfl⟩ := h1
  obtain rfl := inv95 he
  exact ⟨.snoc x1 (.references x2 y2), WORDS, _, rfl⟩''')
put(103, '''  have hv : v = refV x2 x3 := by
    obtain ⟨sc, n⟩ := x2
    cases sc <;> cases x3 <;> exact ev_inv rfl he rfl
  exact ⟨x2, x3, WORDS, hv⟩''')
put(146, '''  cases x2 with
  | none => exact absurd rfl h2
  | one t => exact ⟨.one t, WORDS⟩
  | many l t => exact ⟨.many l t, WORDS⟩''')
put(162, '''  obtain ⟨n, er⟩ := s
  rw [ev162] at he
  split at he
  · rename_i ha
    split at he
    · rename_i hb; exact ⟨.first x1 x2 ha hb, WORDS⟩
    · split at he
      · rename_i hb; exact ⟨.last x1 x2 ha hb, WORDS⟩
      · cases he
  · cases he''')
put(179, '''  rcases x1 with l | j
  · exact ⟨.lit l, WORDS⟩
  · obtain ⟨m, rfl⟩ := h1 j rfl
    exact (inv179 he).elim''')
# expressions
put(183, '  exact ⟨x1, WORDS, h1.ex _⟩')
for r in (184, 185, 186, 187): put(r, '  exact ⟨x1, WORDS, h1.up _⟩')
for r in (189, 190, 191, 192, 193, 194, 195, 196, 197, 199, 206): put(r, '  exact ⟨x1, WORDS, h1.up _⟩')
put(200, '''  rcases x1 with l | j
  · exact ⟨.lit l, WORDS, .atom rfl rfl⟩
  · exact ⟨.param j, WORDS, .atom rfl rfl⟩''')
for r, w_ in ((188, '.paren x2'), (198, '.query x2'), (223, '.case (.some x2) x3 .none'), (224, '.case (.some x2) x3 (.some x5)'), (225, '.case .none x2 .none'), (226, '.case .none x2 (.some x4)'),
              (238, '.call none x1 .none x4'), (239, '.call none x1 (.some x3 x4) x6'), (240, '.call (some x1) x3 .none x6'), (241, '.call (some x1) x3 (.some x5 x6) x8'),
              (257, '.extract x3 x5'), (258, '.cast x3 x5'), (273, '.array x3'), (276, '.col none x1'), (277, '.col (some x1) x3'), (278, '.star none'), (279, '.star (some x1)')):
    put(r, '  exact ⟨%s, WORDS, .atom rfl rfl⟩' % w_ if r not in (239, 241) else '  exact ⟨%s, %s, .atom rfl rfl⟩' % (w_, words(r, 'x3' if r == 239 else 'x5')))
put(201, '  exact pre_is (p := 8) .neg (fun _ => by rw [Expr.words]) (fun _ => rfl) (fun _ => by rw [Expr.lev]) (by decide) (by decide +kernel) rfl hp w1 w2 h2')
put(202, '  exact pre_is (p := 2) .not (fun _ => by rw [Expr.words]) (fun _ => rfl) (fun _ => by rw [Expr.lev]) (by decide) (by decide +kernel) rfl hp w1 w2 h2')
def post(r, f, p, us, n):
    put(r, '  exact post_is (p := %d) %s %s (fun _ => by simp only [Expr.words, cat]) (fun _ => rfl) (fun _ => by rw [Expr.lev]) (by decide) (by decide +kernel) (by decide +kernel) rfl hp w1 h1 w2 (by simp only [wsL%s, cat])' % (p, f, us, ''.join(', w%d' % i for i in range(2, n + 1))))
post(203, '(.isNull true)', 6, '(kw T.ISNULL)', 2)
post(204, '(.isNull false)', 7, '(cat [kw T.IS, kw T.NULL])', 3)
post(205, '.isNotNull', 7, '(cat [kw T.IS, kw T.NOT, kw T.NULL])', 4)
post(274, '(fun e => .index e x3)', 13, '(cat [kw T.LBRACKET, [.int x3], kw T.RBRACKET])', 4)
for r, o in ((207, 'minus'), (208, 'plus'), (209, 'slash'), (210, 'star'), (211, 'percent'), (212, 'caret'), (213, 'like'), (215, 'ilike'), (216, 'concat'),
             (231, 'eq'), (232, 'eq2'), (233, 'ne'), (234, 'lt'), (235, 'gt'), (236, 'le'), (237, 'ge')):
    put(r, '  exact bin_is .%s (by decide) (by decide +kernel) rfl rfl (by decide +kernel) (by decide +kernel) rfl rfl hp w1 h1 w2 w3 h3' % o)
put(214, '  exact notLike_is rfl rfl rfl hp w1 h1 w2 w3 w4 h4')
for r, o in ((217, 'and'), (218, 'or')):
    put(r, '  exact logic_is .%s (by decide) rfl (by decide +kernel) (by decide +kernel) (by decide +kernel) rfl rfl hp w1 h1 w2 w3 h3' % o)
for r, f in ((219, 'inList'), (221, 'inQuery')):
    put(r, '''  refine ⟨.%s false x1 x4, by rw [ws_node]; simp only [wsL, w1, w2, w3, w4, w5, Expr.words, par, h1.op, cond_true, cat], .two ?_ ?_⟩
  · simp only [Expr.lev, h1.op, cond_true]; exact opnd_lev1 x1 h1.op
  · simp only [Expr.lev]; decide''' % f)
for r, f in ((220, 'inList'), (222, 'inQuery')):
    put(r, '''  have f1 : x1.fitL 2 = true := h1.fitL (a := T.NOT) (by decide) (prec_first hp w2)
  have g1 := f1
  unfold Expr.fitL at g1
  refine ⟨.%s true x1 x5, by rw [ws_node]; simp only [wsL, w1, w2, w3, w4, w5, w6, Expr.words, par, f1, cond_true, cat], .two ?_ ?_⟩
  · simp only [Expr.lev, g1, cond_true]; have := opnd_lev1 x1 h1.op; omega
  · simp only [Expr.lev]; decide''' % f)
put(229, '  exact ⟨.exist false x3, WORDS, .two (by simp only [Expr.lev]; decide) (by simp only [Expr.lev]; decide)⟩')
put(230, '  exact ⟨.exist true x4, WORDS, .two (by simp only [Expr.lev]; decide) (by simp only [Expr.lev]; decide)⟩')
put(275, '''  refine ⟨.between x1 x3 x5, by rw [ws_node]; simp only [wsL, w1, w2, w3, w4, w5, Expr.words, par, h1.op, h3.op, h5.op, cond_true, cat], .two ?_ ?_⟩
  · simp only [Expr.lev, h1.op, cond_true]; exact opnd_lev1 x1 h1.op
  · simp only [Expr.lev, h5.op, cond_true]; exact opnd_lev x5 h5.op''')
for r in (280, 281, 283, 284): put(r, '  exact ⟨.inl x1, WORDS, fun j h => by cases h⟩')
put(282, '  exact ⟨.inl (.num x1), WORDS, fun j h => by cases h⟩')
put(285, '  exact ⟨.inl (.interval x1), WORDS, fun j h => by cases h⟩')
put(286, '''  obtain ⟨m, rfl⟩ := h1
''' + inv(286) + '  exact ⟨.inr x1, WORDS, fun j h => ⟨m, rfl⟩⟩')
put(294, '  exact ⟨.date x2 ((dateOk_iff x2).1 (inv294 he)), WORDS⟩')
put(296, '''  obtain ⟨n, hn⟩ := (durOk_true x2).1 (inv296 he)
  exact ⟨.str x2 n x3 hn, WORDS⟩''')
put(297, '''  obtain ⟨h1, f, w, r, hw, hf⟩ := inv297 he
  obtain ⟨n, u, h2, h3, h4⟩ := (durUnitOk_true x2).1 h1
  rw [h4] at hw
  obtain ⟨rfl, -⟩ := Prod.mk.inj (Option.some.inj hw)
  exact ⟨.strUnit x2 n u f ⟨h2, h3⟩ hf, WORDS⟩''')
put(298, '''  obtain ⟨n, er⟩ := s
  rw [evRule298] at he
  cases he
  exact ⟨k, WORDS, n, rfl⟩''')
put(299, '  exact ⟨.one x1, WORDS, fun h => by cases h⟩')
put(300, '  exact ⟨.many x1 x3, WORDS, fun h => by cases h⟩')

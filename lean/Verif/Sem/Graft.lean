import Verif.Sem.DenTrans
/-! Two statement lists joined by `;`. Proof-internal. -/
namespace Verif.Sem
open Verif.Lex Verif.LR

mutual
/-- In front of a terminal without precedence. -/
theorem precOK_next {b' : Nat} (hb : tokPrec b' = none) : ∀ (t : Tree) (b : Nat), t.PrecOK b → t.PrecOK b'
  | .leaf _, _, _ => trivial
  | .node r cs, b, h => by
    refine ⟨?_, h.2.1, precOKL_next hb cs b h.2.2⟩
    simp [forbidReduce, contested, hb]
theorem precOKL_next {b' : Nat} (hb : tokPrec b' = none) : ∀ (ts : List Tree) (b : Nat), PrecOKL ts b → PrecOKL ts b'
  | [], _, _ => trivial
  | c :: cs, b, h => by
    refine ⟨?_, precOKL_next hb cs b h.2⟩
    cases hy : yieldL cs with
    | nil => exact precOK_next hb c _ h.1
    | cons t l =>
      have := h.1
      rw [hy] at this
      exact this
end

theorem tokPrec_semi : tokPrec T.SEMI = none := by decide +kernel
theorem tokPrec_eof : tokPrec T.eof = none := by decide +kernel

theorem lhs2 : lhs 2 = N.input := by decide +kernel
theorem lhs3 : lhs 3 = N.statement_list := by decide +kernel
theorem lhs4 : lhs 4 = N.statement_list := by decide +kernel
theorem lhs354 : lhs 354 = N.opt_semicolon := by decide +kernel
theorem lhs355 : lhs 355 = N.opt_semicolon := by decide +kernel
theorem rulesLen : rules.length = 358 := rules_len

theorem lastOK_of_lhs {r : Nat} {cs : List Tree} (h : opLhs.contains (lhs r) = false) : lastOK r cs := by
  intro c X a _ _ _ _
  simp only [forbidShift, contested, h, Bool.false_and]
theorem forbidReduce_of_lhs {r b : Nat} (h : opLhs.contains (lhs r) = false) : forbidReduce r b = false := by
  simp only [forbidReduce, contested, h, Bool.false_and]

theorem nonop2 : opLhs.contains (lhs 2) = false := by decide +kernel
theorem nonop3 : opLhs.contains (lhs 3) = false := by decide +kernel
theorem nonop4 : opLhs.contains (lhs 4) = false := by decide +kernel
theorem nonop354 : opLhs.contains (lhs 354) = false := by decide +kernel
theorem nonop355 : opLhs.contains (lhs 355) = false := by decide +kernel

/-- `la ; lb` -/
theorem graft {la : Tree} (hwa : la.WF) (hsa : la.sym = N.statement_list) (hpa : la.PrecOK T.SEMI) {m : Tok} (hm : tsym m = T.SEMI) :
    ∀ (lb : Tree), lb.WF → lb.sym = N.statement_list → ∀ b, lb.PrecOK b →
    ∃ l, l.WF ∧ l.sym = N.statement_list ∧ l.PrecOK b ∧ l.yield = la.yield ++ m :: lb.yield ∧ stmtTrees l = stmtTrees la ++ stmtTrees lb ∧
      l.need ≤ max la.need (lb.need + 2) := by
  intro lb
  induction lb using stmtTrees.induct with
  | case1 t =>
    intro hw hs b hp
    rcases list_cases hw hs with ⟨_, h, h1, h2⟩ | ⟨_, _, _, h, _⟩ | ⟨_, h⟩
    · cases h
      refine ⟨.node 4 [la, .leaf m, t], ⟨by omega, by rw [rulesLen]; omega, ?_, hwa, trivial, h1, trivial⟩, lhs4, ⟨forbidReduce_of_lhs nonop4, lastOK_of_lhs nonop4, ?_, trivial, ?_, trivial⟩, ?_, ?_, ?_⟩
      · rw [rhs4]; simp only [List.map_cons, List.map_nil, hsa, h2]; rw [show (Tree.leaf m).sym = T.SEMI from hm]
      · simp only [yieldL, Tree.yield, nextSym, List.singleton_append]
        rw [hm]; exact hpa
      · simpa [yieldL, nextSym] using hp.2.2.1
      · simp [Tree.yield, yieldL]
      · simp [stmtTrees]
      · simp only [Tree.need, needL]; omega
    · cases h
    · cases h
  | case2 l' m' t ih =>
    intro hw hs b hp
    rcases list_cases hw hs with ⟨_, h, _⟩ | ⟨_, _, _, h, h1, h2, h3, h4, h5⟩ | ⟨_, h⟩
    · cases h
    · cases h
      have hp1 : l'.PrecOK T.SEMI := by
        have := hp.2.2.1
        simp only [yieldL, Tree.yield, nextSym, List.singleton_append, h3] at this
        exact this
      obtain ⟨l, g1, g2, g3, g4, g5, g6⟩ := ih h1 h2 _ hp1
      rename_i mm
      refine ⟨.node 4 [l, .leaf mm, t], ⟨by omega, by rw [rulesLen]; omega, ?_, g1, trivial, h4, trivial⟩, lhs4, ⟨forbidReduce_of_lhs nonop4, lastOK_of_lhs nonop4, ?_, trivial, ?_, trivial⟩, ?_, ?_, ?_⟩
      · rw [rhs4]; simp only [List.map_cons, List.map_nil, g2, h5]; rw [show (Tree.leaf mm).sym = T.SEMI from h3]
      · simp only [yieldL, Tree.yield, nextSym, List.singleton_append]
        rw [h3]; exact g3
      · simpa [yieldL, nextSym] using hp.2.2.2.2.1
      · simp [Tree.yield, yieldL, g4]
      · simp [stmtTrees, g5]
      · simp only [Tree.need, needL] at g6 ⊢; omega
    · cases h
  | case3 t h1 h2 =>
    intro hw hs
    exfalso
    rcases list_cases hw hs with ⟨_, h, _⟩ | ⟨_, _, _, h, _⟩ | ⟨_, h⟩
    · exact h1 _ h
    · exact h2 _ _ _ h
    · subst h
      have h3 := tsym_lt ‹Tok›
      simp only [Tree.sym] at hs
      rw [hs] at h3
      exact absurd h3 (by decide)

/-! ## No statement ends in `;` -/

/-- The symbols above the statements. -/
def topSyms : List Nat := [N.input, N.statement_list, N.opt_semicolon, T.SEMI]

theorem top_rules : (List.range 358).all (fun r => topSyms.contains (lhs r) || Nat.blt r 2 || (rhs r).all fun x => !topSyms.contains x) = true := by decide +kernel

mutual
theorem no_semi : ∀ (t : Tree), t.WF → topSyms.contains t.sym = false → ∀ m ∈ t.yield, tsym m ≠ T.SEMI
  | .leaf t, _, h, m, hm => by
    simp only [Tree.yield, List.mem_singleton] at hm
    subst hm
    intro e
    simp only [Tree.sym, e] at h
    exact absurd h (by decide)
  | .node r cs, hw, h, m, hm => by
    have h2 := hw.2.1
    rw [rules_len] at h2
    have := List.all_eq_true.1 top_rules r (by simpa using h2)
    simp only [Tree.sym] at h
    have h1 := hw.1
    have hb : Nat.blt r 2 = false := by
      cases hb : Nat.blt r 2 with
      | false => rfl
      | true => have := Nat.le_of_ble_eq_true hb; omega
    rw [h, hb, Bool.false_or, Bool.false_or, ← hw.2.2.1] at this
    exact no_semiL cs hw.2.2.2 this m hm
theorem no_semiL : ∀ (ts : List Tree), WFL ts → ((ts.map Tree.sym).all fun x => !topSyms.contains x) = true → ∀ m ∈ yieldL ts, tsym m ≠ T.SEMI
  | [], _, _, m, hm => by simp [yieldL] at hm
  | c :: cs, hw, h, m, hm => by
    simp only [List.map_cons, List.all_cons, Bool.and_eq_true, Bool.not_eq_true'] at h
    simp only [yieldL, List.mem_append] at hm
    rcases hm with hm | hm
    · exact no_semi c hw.1 h.1 m hm
    · exact no_semiL cs hw.2 h.2 m hm
end

/-- Nonterminals that derive the empty sequence, computed by iteration. -/
def nullStep (l : List Nat) : List Nat := ((List.range 358).filter fun r => Nat.ble 2 r && (rhs r).all l.contains).map lhs
def nullable : List Nat := nullStep (nullStep (nullStep []))

theorem null_rules : (List.range 358).all (fun r => Nat.blt r 2 || !((rhs r).all nullable.contains) || nullable.contains (lhs r)) = true := by decide +kernel
theorem null_stmt : nullable.contains N.statement = false := by decide +kernel

mutual
theorem null_sym : ∀ (t : Tree), t.WF → t.yield = [] → nullable.contains t.sym = true
  | .leaf t, _, h => by simp [Tree.yield] at h
  | .node r cs, hw, h => by
    have h2 := hw.2.1
    rw [rules_len] at h2
    have := List.all_eq_true.1 null_rules r (by simpa using h2)
    have h1 := hw.1
    have hb : Nat.blt r 2 = false := by
      cases hb : Nat.blt r 2 with
      | false => rfl
      | true => have := Nat.le_of_ble_eq_true hb; omega
    rw [hb, Bool.false_or, ← hw.2.2.1, null_symL cs hw.2.2.2 h] at this
    exact this
theorem null_symL : ∀ (ts : List Tree), WFL ts → yieldL ts = [] → (ts.map Tree.sym).all nullable.contains = true
  | [], _, _ => rfl
  | c :: cs, hw, h => by
    simp only [yieldL, List.append_eq_nil_iff] at h
    simp only [List.map_cons, List.all_cons, null_sym c hw.1 h.1, null_symL cs hw.2 h.2, Bool.and_self]
end

theorem no_semi_end {l : Tree} (hw : l.WF) (hs : l.sym = N.statement_list) {m : Tok} (h : l.yield.getLast? = some m) : tsym m ≠ T.SEMI := by
  have key : ∀ (s : Tree), s.WF → s.sym = N.statement → s.yield ≠ [] ∧ ∀ m ∈ s.yield, tsym m ≠ T.SEMI := by
    intro s h1 h2
    refine ⟨fun h => ?_, no_semi s h1 (by rw [h2]; decide)⟩
    have := null_sym s h1 h
    rw [h2, null_stmt] at this
    cases this
  have last : ∀ (a : List Tok) (s : Tree), s.WF → s.sym = N.statement → (a ++ s.yield).getLast? = some m → tsym m ≠ T.SEMI := by
    intro a s h1 h2 hl
    obtain ⟨k1, k2⟩ := key s h1 h2
    rw [List.getLast?_append] at hl
    cases hg : s.yield.getLast? with
    | none => rw [List.getLast?_eq_none_iff] at hg; exact absurd hg k1
    | some x =>
      rw [hg] at hl
      simp only [Option.some_or, Option.some.injEq] at hl
      exact hl ▸ k2 x (List.mem_of_getLast? hg)
  rcases list_cases hw hs with ⟨s, rfl, h1, h2⟩ | ⟨l', m', s, rfl, h1, h2, h3, h4, h5⟩ | ⟨t, rfl⟩
  · exact last [] s h1 h2 (by simpa [Tree.yield, yieldL] using h)
  · exact last (l'.yield ++ [m']) s h4 h5 (by simpa [Tree.yield, yieldL] using h)
  · have h3 := tsym_lt t
    simp only [Tree.sym] at hs
    rw [hs] at h3
    exact absurd h3 (by decide)

/-- An input without a `;` at the end. -/
theorem input_nosemi {ts : List Tok} {t : Tree} (h : Derives ts t) (hn : ∀ m, ts.getLast? = some m → tsym m ≠ T.SEMI) :
    ∃ l, t = .node 2 [l, .node 355 []] ∧ l.WF ∧ l.sym = N.statement_list ∧ l.yield = ts ∧ l.PrecOK T.eof := by
  obtain ⟨hw, hs, hy, hp⟩ := h
  obtain ⟨l, s, rfl, h1, h2, h3, h4⟩ := input_cases hw hs
  rcases optSemi_cases h3 h4 with ⟨m, hm, rfl⟩ | rfl
  · exact absurd hm (hn m (by rw [← hy]; simp [Tree.yield, yieldL]))
  · refine ⟨l, rfl, h1, h2, by simpa [Tree.yield, yieldL] using hy, ?_⟩
    have := hp.2.2.1
    simpa [Tree.yield, yieldL, nextSym] using this

/-- Joining two inputs by `;`. -/
theorem derives_join {xs ys : List Tok} {ta tb : Tree} (ha : Derives xs ta) (hb : Derives ys tb) {m : Tok} (hm : tsym m = T.SEMI)
    (hn : ∀ m, xs.getLast? = some m → tsym m ≠ T.SEMI) :
    ∃ t, Derives (xs ++ m :: ys) t ∧ stmtsOf t = stmtsOf ta ++ stmtsOf tb ∧ t.need ≤ max ta.need (tb.need + 2) := by
  obtain ⟨la, rfl, a1, a2, a3, a4⟩ := input_nosemi ha hn
  obtain ⟨hw, hs, hy, hp⟩ := hb
  obtain ⟨lb, s, rfl, h1, h2, h3, h4⟩ := input_cases hw hs
  obtain ⟨l, g1, g2, g3, g4, g5, g6⟩ := graft a1 a2 (precOK_next tokPrec_semi _ _ a4) hm lb h1 h2 _ hp.2.2.1
  refine ⟨.node 2 [l, s], ⟨⟨by omega, by rw [rulesLen]; omega, ?_, g1, h3, trivial⟩, lhs2, ?_, forbidReduce_of_lhs nonop2, lastOK_of_lhs nonop2, g3, hp.2.2.2.1, trivial⟩, ?_, ?_⟩
  · have := hw.2.2.1
    simp only [List.map_cons, List.map_nil, h2, g2] at this ⊢
    exact this
  · rw [← hy]; simp [Tree.yield, yieldL, g4, a3]
  · simp [stmtsOf, g5]
  · simp only [Tree.need, needL] at g6 ⊢; omega

/-- A `;` at the end. -/
theorem derives_semi {xs : List Tok} {ta : Tree} (ha : Derives xs ta) {m : Tok} (hm : tsym m = T.SEMI)
    (hn : ∀ m, xs.getLast? = some m → tsym m ≠ T.SEMI) :
    ∃ t, Derives (xs ++ [m]) t ∧ stmtsOf t = stmtsOf ta ∧ t.need = ta.need := by
  obtain ⟨la, rfl, a1, a2, a3, a4⟩ := input_nosemi ha hn
  refine ⟨.node 2 [la, .node 354 [.leaf m]], ⟨⟨by omega, by rw [rulesLen]; omega, ?_, a1, ⟨by omega, by rw [rulesLen]; omega, ?_, trivial, trivial⟩, trivial⟩, lhs2, ?_,
    forbidReduce_of_lhs nonop2, lastOK_of_lhs nonop2, ?_, ⟨forbidReduce_of_lhs nonop354, lastOK_of_lhs nonop354, trivial, trivial⟩, trivial⟩, rfl, ?_⟩
  · have := ha.1.2.2.1
    simp only [List.map_cons, List.map_nil, a2, Tree.sym, lhs355, lhs354] at this ⊢
    exact this
  · rw [rhs354]; simp only [List.map_cons, List.map_nil]; rw [show (Tree.leaf m).sym = T.SEMI from hm]
  · simp [Tree.yield, yieldL, a3]
  · simp only [yieldL, Tree.yield, nextSym, List.append_nil]
    rw [hm]; exact precOK_next tokPrec_semi _ _ a4
  · simp only [Tree.need, needL]; omega

/-! ## Values -/

theorem numOf_fill (o : Option V) : numOf (o.map V.fill) = numOf o := by
  cases o with
  | none => rfl
  | some v => cases v <;> rfl

theorem isPar_fill (c : Cls) (fs : List V) : isPar c (fillL fs) = isPar c fs := by
  cases fs with
  | nil => rfl
  | cons v fs => cases c <;> cases v <;> rfl

theorem isPar_newIval (n : Int) (c : Cls) (fs : List V) : isPar c (newIval n fs) = isPar c fs := by
  unfold newIval
  cases h : fs[10]? with
  | none => rfl
  | some w =>
    simp only []
    split
    · cases fs with
      | nil => rfl
      | cons v fs => cases c <;> cases v <;> rfl
    · rfl

theorem parKey_newIval (n : Int) (fs : List V) : parKey (newIval n fs) = parKey fs := by
  unfold newIval parKey
  cases h : fs[10]? with
  | none => rfl
  | some w =>
    simp only []
    split
    · rw [List.getElem?_set_ne (by omega)]
    · rfl

theorem isNum_fill (w : V) : w.fill.isNum = w.isNum := by cases w <;> rfl

theorem newIval_fill (n : Int) (fs : List V) : fillL (newIval n fs) = newIval n (fillL fs) := by
  unfold newIval
  rw [fillL_map, fillL_map, List.getElem?_map]
  cases h : fs[10]? with
  | none => rfl
  | some w =>
    simp only [Option.map_some, isNum_fill]
    split
    · rw [List.map_set]; rfl
    · rfl

theorem newIval_twice (n k : Int) (fs : List V) : newIval n (newIval k fs) = newIval n fs := by
  unfold newIval
  cases h : fs[10]? with
  | none => simp only [h]
  | some w =>
    simp only []
    have hl : 10 < fs.length := by
      rcases Nat.lt_or_ge 10 fs.length with h' | h'
      · exact h'
      · rw [List.getElem?_eq_none h'] at h; cases h
    by_cases hw : w.isNum = true
    · have : (fs.set 10 (V.int k))[10]? = some (.int k) := by simp [hl]
      rw [if_pos hw, if_pos hw, this]
      simp [V.isNum]
    · simp [hw, h]

mutual
theorem fill_h_fill (f : Hm) : ∀ (v : V), (v.fill.h f).fill = (v.h f).fill
  | .obj b c fs => by
    have ih := fillL_h_fill f fs
    simp only [V.fill, V.h, isPar_h]
    by_cases hp : isPar c fs = true
    · have e : parKey (hL f (newIval (parKey fs) (fillL fs))) = parKey (hL f fs) := by
        rw [← newIval_h, parKey_newIval]
        unfold parKey
        rw [hL_map, hL_map, fillL_map, List.getElem?_map, List.getElem?_map, List.getElem?_map]
        cases fs[11]? with
        | none => rfl
        | some w => cases w <;> rfl
      rw [if_pos hp, if_pos hp, e, isPar_newIval, isPar_fill, if_pos hp, ← newIval_h, newIval_fill, ih, newIval_twice]
    · rw [if_neg hp, if_neg hp, isPar_fill, if_neg hp, ih]
  | .vec b vs => by simp only [V.fill, V.h, fillL_h_fill f vs]
  | .tup fs => by simp only [V.fill, V.h, fillL_h_fill f fs]
  | .undef => rfl
  | .null => rfl
  | .int _ => rfl
  | .pos _ => rfl
  | .idx _ => rfl
  | .raw _ => rfl
  | .str _ _ => rfl
theorem fillL_h_fill (f : Hm) : ∀ (vs : List V), fillL (hL f (fillL vs)) = fillL (hL f vs)
  | [] => rfl
  | v :: vs => by simp only [fillL, hL, fill_h_fill f v, fillL_h_fill f vs]
end

theorem hasLen_h (f : Hm) (v : V) : (v.h f).hasLen = v.hasLen := by
  cases v with
  | obj a c fs => cases fs <;> rfl
  | tup fs => cases fs <;> rfl
  | _ => rfl

theorem setLen_h (f : Hm) (v : V) : setLen (v.h f) = (setLen v).h f := by
  cases v with
  | obj a c fs => cases fs <;> rfl
  | tup fs => cases fs <;> rfl
  | _ => rfl

/-- The values of joined statement lists. -/
theorem denInput_join {ta tb t : Tree} (ha : ta.WF) (hsa : ta.sym = N.input) (hb : tb.WF) (hsb : tb.sym = N.input) (ht : t.WF) (hst : t.sym = N.input)
    (hj : stmtsOf t = stmtsOf ta ++ stmtsOf tb) {va vb : List V} {k : Nat} (hd : den ta ⟨0, false⟩ = some (.undef, ⟨k, false⟩)) (hva : denInput ta = some va)
    (hvb : denInput tb = some vb) : denInput t = some (va ++ fillL (hL ⟨id, k⟩ vb)) := by
  rw [denInput_eq ha hsa] at hva
  rw [denInput_eq hb hsb] at hvb
  rw [denInput_eq ht hst, hj, denL_append]
  obtain ⟨la, sa, rfl, a1, a2, a3, a4⟩ := input_cases ha hsa
  obtain ⟨lb, sb, rfl, b1, b2, b3, b4⟩ := input_cases hb hsb
  simp only [den, denL, den_list la a1 a2] at hd
  simp only [stmtsOf] at hva hvb ⊢
  have hwb := (stmtTrees_wf lb b1 b2).1
  cases hx : denL (stmtTrees la) ⟨0, false⟩ with
  | none => rw [hx] at hva; cases hva
  | some x =>
    obtain ⟨xs, s1⟩ := x
    rw [hx] at hva hd
    simp only [] at hva hd
    by_cases hall : xs.all V.hasLen = true
    · rw [if_pos hall] at hva hd
      simp only [den_optSemi a3 a4] at hd
      have e1 : s1 = ⟨k, false⟩ := by
        have : evRule 2 [V.vec 0 (xs.map setLen), .undef] s1 = some (.undef, s1) := rfl
        rw [this] at hd
        simp only [Option.some.injEq, Prod.mk.injEq, true_and] at hd
        exact hd
      subst e1
      simp only []
      have hsh := denL_shift k (stmtTrees lb) hwb 0 false
      rw [Nat.zero_add] at hsh
      rw [hsh]
      cases hy : denL (stmtTrees lb) ⟨0, false⟩ with
      | none => rw [hy] at hvb; cases hvb
      | some y =>
        obtain ⟨ys, s2⟩ := y
        rw [hy] at hvb
        simp only [] at hvb
        by_cases hall2 : ys.all V.hasLen = true
        · rw [if_pos hall2] at hvb
          simp only [Option.some.injEq] at hva hvb
          have hall3 : (xs ++ hL ⟨id, k⟩ ys).all V.hasLen = true := by
            rw [List.all_append, hall, hL_map, List.all_map]
            have : (V.hasLen ∘ V.h ⟨id, k⟩) = V.hasLen := funext fun v => hasLen_h _ v
            rw [this, hall2]; rfl
          simp only [Option.map_some]
          rw [if_pos hall3, List.map_append, ← hva, ← hvb, fillL_map, List.map_append, ← fillL_map, ← fillL_map, fillL_h_fill]
          have : (hL ⟨id, k⟩ ys).map setLen = hL ⟨id, k⟩ (ys.map setLen) := by
            rw [hL_map, hL_map, List.map_map, List.map_map]
            congr 1
            funext v
            exact setLen_h _ v
          rw [this]
        · rw [if_neg hall2] at hvb; cases hvb
    · rw [if_neg hall] at hva; cases hva

end Verif.Sem

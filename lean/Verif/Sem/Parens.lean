import Verif.Sem.Graft
import Verif.Sem.DenType
/-!
# Parentheses around operands

Proof-internal, but for `Within`.
-/
namespace Verif.Sem
open Verif.Lex Verif.LR

/-- `Within t x u z`: in the derivation `t` the part `u` occurs, with the tokens `x` before it and the tokens `z` after it. -/
inductive Within : Tree → List Tok → Tree → List Tok → Prop where
  | here (t : Tree) : Within t [] t []
  | child {c u : Tree} {x z : List Tok} (r : Nat) (l m : List Tree) : Within c x u z → Within (.node r (l ++ c :: m)) (yieldL l ++ x) u (z ++ yieldL m)

mutual
/-- All parts of a derivation. -/
def parts : Tree → List (List Tok × Tree × List Tok)
  | .leaf t => [([], .leaf t, [])]
  | .node r cs => ([], .node r cs, []) :: partsL [] cs
/-- All parts of the derivations, with the tokens `pre` before the first one. -/
def partsL (pre : List Tok) : List Tree → List (List Tok × Tree × List Tok)
  | [] => []
  | c :: cs => (parts c).map (fun p => (pre ++ p.1, p.2.1, p.2.2 ++ yieldL cs)) ++ partsL (pre ++ c.yield) cs
end

mutual
theorem within_parts : ∀ (t : Tree), ∀ p ∈ parts t, Within t p.1 p.2.1 p.2.2
  | .leaf t, p, h => by
    simp only [parts, List.mem_singleton] at h
    subst h
    exact .here _
  | .node r cs, p, h => by
    simp only [parts, List.mem_cons] at h
    rcases h with h | h
    · subst h
      exact .here _
    · exact within_partsL r cs [] p h
theorem within_partsL (r : Nat) : ∀ (cs l : List Tree), ∀ p ∈ partsL (yieldL l) cs, Within (.node r (l ++ cs)) p.1 p.2.1 p.2.2
  | [], l, p, h => by simp [partsL] at h
  | c :: cs, l, p, h => by
    simp only [partsL, List.mem_append, List.mem_map] at h
    rcases h with ⟨q, hq, rfl⟩ | h
    · exact .child r l cs (within_parts c q hq)
    · have := within_partsL r cs (l ++ [c]) p (by simpa [yieldL_append, yieldL] using h)
      simpa using this
end

theorem Within.yield {t u : Tree} {x z : List Tok} (h : Within t x u z) : t.yield = x ++ u.yield ++ z := by
  induction h with
  | here => simp
  | @child c u x z r l m h ih =>
    simp only [Tree.yield, yieldL_append, yieldL, ih, List.append_assoc]

/-- No operator rule is decided by precedence in front of `b`. -/
def free (b : Nat) : Bool := (List.range 358).all fun r => !contested r b
theorem free_lparen : free T.LPAREN = true := by decide +kernel
theorem free_rparen : free T.RPAREN = true := by decide +kernel

theorem forbidReduce_free {b r : Nat} (hb : free b = true) (hr : r < 358) : forbidReduce r b = false := by
  have := List.all_eq_true.1 hb r (by simpa using hr)
  simp only [Bool.not_eq_true'] at this
  simp only [forbidReduce, this, Bool.false_and]

mutual
theorem precOK_free {b' : Nat} (hb : free b' = true) : ∀ (t : Tree) (b : Nat), t.WF → t.PrecOK b → t.PrecOK b'
  | .leaf _, _, _, _ => trivial
  | .node r cs, b, hw, h => by
    have hr := hw.2.1
    rw [rules_len] at hr
    exact ⟨forbidReduce_free hb hr, h.2.1, precOKL_free hb cs b hw.2.2.2 h.2.2⟩
theorem precOKL_free {b' : Nat} (hb : free b' = true) : ∀ (ts : List Tree) (b : Nat), WFL ts → PrecOKL ts b → PrecOKL ts b'
  | [], _, _, _ => trivial
  | c :: cs, b, hw, h => by
    refine ⟨?_, precOKL_free hb cs b hw.2 h.2⟩
    cases hy : yieldL cs with
    | nil => exact precOK_free hb c _ hw.1 h.1
    | cons t l =>
      have := h.1
      rw [hy] at this
      exact this
end

theorem wfl_append {l m : List Tree} : WFL (l ++ m) ↔ WFL l ∧ WFL m := by
  induction l with
  | nil => simp [WFL]
  | cons c l ih => simp only [List.cons_append, WFL, ih, and_assoc]

/-- The part in parentheses, as the same kind of part. -/
def paren (o c : Tok) (u : Tree) : Tree :=
  if u.sym = N.operand then .node 188 [.leaf o, .node 183 [u], .leaf c] else .node 183 [.node 188 [.leaf o, u, .leaf c]]

theorem needs : lhs 183 = N.expr ∧ rhs 183 = [N.operand] ∧ lhs 188 = N.operand ∧ rhs 188 = [T.LPAREN, N.expr, T.RPAREN] ∧
    opLhs.contains (lhs 183) = false ∧ opLhs.contains (lhs 188) = false := by decide +kernel

section
variable {o c : Tok} (ho : tsym o = T.LPAREN) (hc : tsym c = T.RPAREN) {u : Tree} (hs : u.sym = N.operand ∨ u.sym = N.expr)

include hs in
theorem paren_sym : (paren o c u).sym = u.sym := by
  obtain ⟨h1, _, h3, _⟩ := needs
  unfold paren
  split
  · rename_i h; rw [h]; exact h3
  · rename_i h; rw [hs.resolve_left h]; exact h1

include ho hc hs in
theorem paren_wf (hw : u.WF) : (paren o c u).WF := by
  obtain ⟨h1, h2, h3, h4, _⟩ := needs
  have g1 : (Tree.leaf o).sym = T.LPAREN := ho
  have g2 : (Tree.leaf c).sym = T.RPAREN := hc
  unfold paren
  split
  · rename_i h
    refine ⟨by omega, by rw [rules_len]; omega, ?_, trivial, ⟨by omega, by rw [rules_len]; omega, ?_, hw, trivial⟩, trivial, trivial⟩
    · rw [h4]; simp only [List.map_cons, List.map_nil, g1, g2]; rw [show (Tree.node 183 [u]).sym = N.expr from h1]
    · rw [h2]; simp only [List.map_cons, List.map_nil, h]
  · rename_i h
    refine ⟨by omega, by rw [rules_len]; omega, ?_, ⟨by omega, by rw [rules_len]; omega, ?_, trivial, hw, trivial, trivial⟩, trivial⟩
    · rw [h2]; simp only [List.map_cons, List.map_nil]; rw [show (Tree.node 188 [.leaf o, u, .leaf c]).sym = N.operand from h3]
    · rw [h4]; simp only [List.map_cons, List.map_nil, g1, g2, hs.resolve_left h]

theorem paren_yield : (paren o c u).yield = o :: (u.yield ++ [c]) := by
  unfold paren
  split <;> simp [Tree.yield, yieldL]

include hc in
theorem paren_prec (hw : u.WF) {b b' : Nat} (hp : u.PrecOK b) : (paren o c u).PrecOK b' := by
  obtain ⟨h1, h2, h3, h4, h5, h6⟩ := needs
  have hp' := precOK_free free_rparen u b hw hp
  unfold paren
  split
  · refine ⟨forbidReduce_of_lhs h6, lastOK_of_lhs h6, trivial, ⟨forbidReduce_of_lhs h5, lastOK_of_lhs h5, ?_, trivial⟩, trivial, trivial⟩
    simp only [yieldL, Tree.yield, nextSym, List.singleton_append]
    rw [hc]; exact hp'
  · refine ⟨forbidReduce_of_lhs h5, lastOK_of_lhs h5, ⟨forbidReduce_of_lhs h6, lastOK_of_lhs h6, trivial, ?_, trivial, trivial⟩, trivial⟩
    simp only [yieldL, Tree.yield, nextSym, List.singleton_append]
    rw [hc]; exact hp'

theorem paren_leads {X a : Nat} (hX : 199 ≤ X) : ¬ (paren o c u).Leads X a := by
  obtain ⟨h1, h2, h3, h4, _⟩ := needs
  have hl : T.LPAREN = 193 := rfl
  unfold paren
  intro h
  split at h
  · rcases h with h | h
    · rw [h4, hl] at h; simp at h; omega
    · exact h
  · rcases h with h | h
    · rw [h2] at h; simp at h
    · rcases h with h | h
      · rw [h4, hl] at h; simp at h; omega
      · exact h

theorem paren_need : (paren o c u).need ≤ u.need + 2 ∧ u.need ≤ (paren o c u).need + 2 := by
  have : 1 ≤ u.need := by cases u <;> simp [Tree.need]; omega
  unfold paren
  split <;> simp only [Tree.need, needL] <;> omega

theorem ev183 (v : V) (hv : v.isUndef = false) (s : PS) : evRule 183 [v] s = some (v, s) := by
  obtain ⟨n, e⟩ := s
  cases e <;> simp [evRule, show actions[183 - 2]? = some act183 from rfl, act183, run, mkEnv, evalRv, evalAtom, getP, putP, V.get, V.put, pureSt, St.ps, St.log, hv]
theorem ev188 (v1 v v3 : V) (hv : v.isUndef = false) (s : PS) : evRule 188 [v1, v, v3] s = some (v, s) := by
  obtain ⟨n, e⟩ := s
  cases e <;> simp [evRule, show actions[188 - 2]? = some act188 from rfl, act188, run, mkEnv, evalRv, evalAtom, getP, putP, V.get, V.put, pureSt, St.ps, St.log, hv]

theorem symTy_operand : symTy N.operand = .ref .expr ∧ symTy N.expr = .ref .expr := ⟨rfl, rfl⟩

theorem alts_obj : ((alts .expr).all fun p => match p with | .obj _ _ => true | _ => false) = true := by decide +kernel
theorem sat_undef_alts (p : P) (hp : p ∈ alts .expr) : ∃ c ps, p = .obj c ps := by
  have := List.all_eq_true.1 alts_obj p hp
  cases p with
  | obj c ps => exact ⟨_, _, rfl⟩
  | _ => cases this

include hs in
theorem operand_def (hw : u.WF) (hm : ∀ m ∈ u.yield, TokShape m) {s : PS} {x : V × PS} (h : den u s = some x) : x.1.isUndef = false := by
  obtain ⟨v, s'⟩ := x
  have := den_sat (ok := fun _ => True) hw (fun m h => ⟨hm m h, fun _ _ => trivial⟩) h
  have h2 : symTy u.sym = .ref .expr := by
    rcases hs with h | h <;> rw [h]
    · exact symTy_operand.1
    · exact symTy_operand.2
  rw [h2] at this
  cases this with
  | ref hp hv =>
    obtain ⟨c, ps, rfl⟩ := sat_undef_alts _ hp
    cases hv
    rfl

include hs in
theorem paren_den (hw : u.WF) (hm : ∀ m ∈ u.yield, TokShape m) (s : PS) : den (paren o c u) s = den u s := by
  unfold paren
  split
  · simp only [den, denL]
    cases h : den u s with
    | none => rfl
    | some x => simp only [ev183 _ (operand_def hs hw hm h), ev188 _ _ _ (operand_def hs hw hm h)]
  · simp only [den, denL]
    cases h : den u s with
    | none => rfl
    | some x => simp only [ev183 _ (operand_def hs hw hm h), ev188 _ _ _ (operand_def hs hw hm h)]

end

/-! ## Replacing a part -/

theorem precOKL_append {l m : List Tree} {b : Nat} : PrecOKL (l ++ m) b ↔ PrecOKL l (nextSym (yieldL m) b) ∧ PrecOKL m b := by
  induction l with
  | nil => simp [PrecOKL]
  | cons c l ih =>
    simp only [List.cons_append, PrecOKL, ih, yieldL_append]
    have : nextSym (yieldL l ++ yieldL m) b = nextSym (yieldL l) (nextSym (yieldL m) b) := by
      cases yieldL l <;> rfl
    rw [this, and_assoc]

theorem denL_congr {c c' : Tree} (h : ∀ s, den c' s = den c s) (m : List Tree) : ∀ (l : List Tree) (s : PS), denL (l ++ c' :: m) s = denL (l ++ c :: m) s
  | [], s => by simp only [List.nil_append, denL, h]
  | d :: l, s => by
    simp only [List.cons_append, denL]
    cases den d s with
    | none => rfl
    | some x => simp only [denL_congr h m l]

theorem needL_le {c c' : Tree} {k : Nat} (h : c'.need ≤ c.need + k) (m : List Tree) : ∀ (l : List Tree) (i : Nat), needL i (l ++ c' :: m) ≤ needL i (l ++ c :: m) + k
  | [], i => by simp only [List.nil_append, needL]; omega
  | d :: l, i => by
    simp only [List.cons_append, needL]
    have := needL_le h m l (i + 1)
    omega

theorem contested_last {r a X : Nat} (h : (rhs r).getLast? = some X) (hX : ¬ 199 ≤ X) : contested r a = false := by
  simp [contested, h, hX]

theorem within_paren {o c : Tok} (ho : tsym o = T.LPAREN) (hc : tsym c = T.RPAREN) {t u : Tree} {x z : List Tok} (h : Within t x u z)
    (hs : u.sym = N.operand ∨ u.sym = N.expr) : ∀ b, t.WF → t.PrecOK b → (∀ m ∈ t.yield, TokShape m) →
    ∃ t', t'.WF ∧ t'.sym = t.sym ∧ t'.PrecOK b ∧ t'.yield = x ++ o :: (u.yield ++ c :: z) ∧ t'.need ≤ t.need + 2 ∧ (∀ s, den t' s = den t s) ∧
      (t.sym = N.input → denInput t' = denInput t) ∧ ∀ X a, 199 ≤ X → t'.Leads X a → t.Leads X a := by
  induction h with
  | here u =>
    intro b hw hp hm
    refine ⟨paren o c u, paren_wf ho hc hs hw, paren_sym hs, paren_prec hc hw hp, by rw [paren_yield]; simp, paren_need.1, paren_den hs hw hm, ?_,
      fun X a hX h => absurd h (paren_leads hX)⟩
    intro h
    rcases hs with h' | h' <;> rw [h'] at h <;> exact absurd h (by decide)
  | @child d u x z r l m hd ih =>
    intro b hw hp hm
    obtain ⟨h1, h2, h3, h4⟩ := hw
    obtain ⟨p1, p2, p3⟩ := hp
    rw [wfl_append] at h4
    rw [precOKL_append] at p3
    obtain ⟨d', g1, g2, g3, g4, g5, g6, _, g8⟩ := ih hs _ h4.2.1 p3.2.1 (fun t ht => hm t (by simp only [Tree.yield, yieldL_append, yieldL, List.mem_append]; exact .inr (.inl ht)))
    refine ⟨.node r (l ++ d' :: m), ⟨h1, h2, ?_, wfl_append.2 ⟨h4.1, g1, h4.2.2⟩⟩, rfl, ⟨p1, ?_, precOKL_append.2 ⟨?_, g3, p3.2.2⟩⟩, ?_, ?_, ?_, ?_, ?_⟩
    · rw [← h3]; simp only [List.map_append, List.map_cons, g2]
    · intro e X a he hX ha hl
      by_cases h199 : 199 ≤ X
      · cases m with
        | nil =>
          rw [List.getLast?_concat] at he
          cases he
          exact p2 d X a (by rw [List.getLast?_concat]) hX ha (g8 X a h199 hl)
        | cons q m =>
          refine p2 e X a ?_ hX ha hl
          rw [List.getLast?_append] at he ⊢
          simpa [List.getLast?_cons_cons] using he
      · simp only [forbidShift, contested_last hX h199, Bool.false_and]
    · have p4 := p3.1
      simp only [yieldL, hd.yield, g4] at p4 ⊢
      cases x with
      | nil =>
        have : nextSym ([] ++ o :: (u.yield ++ c :: z) ++ yieldL m) b = T.LPAREN := by
          simp only [List.nil_append, List.cons_append, nextSym]; exact ho
        rw [this]
        exact precOKL_free free_lparen _ _ h4.1 p4
      | cons y x => exact p4
    · simp only [Tree.yield, yieldL_append, yieldL, g4, List.append_assoc, List.cons_append]
    · simp only [Tree.need]
      have := needL_le g5 m l 0
      omega
    · intro s
      simp only [den, denL_congr g6]
    · intro _
      simp only [denInput, denL_congr g6]
    · intro X a hX hl
      rcases hl with hl | hl
      · exact .inl hl
      · right
        cases l with
        | nil => exact g8 X a hX hl
        | cons q l => exact hl

end Verif.Sem

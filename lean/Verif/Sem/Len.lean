import Verif.Sem.Pos
import Verif.LR.Viable
/-! Statement lengths. Proof-internal, except for `stringLength`, `Special` and `Lengths`. -/
namespace Verif.Sem
open Verif.LR Verif.Lex

/-- The `stringLength` field of a statement object. -/
def stringLength (v : V) : Option Int :=
  match v.get [.fld 0] with
  | some (.pos n) => some n
  | _ => none

/-- The tokens of a statement after which the parser need not look at the next token: `SHOW`, `DESCRIBE`, `IMPORT` and `COPY` statements, and those with hints. -/
def Special (s : List Tok) : Prop :=
  (∃ t, s.head? = some t ∧ (tsym t = T.SHOW ∨ tsym t = T.DESCRIBE ∨ tsym t = T.IMPORT ∨ tsym t = T.COPY)) ∨
  (∃ t, s.getLast? = some t ∧ tsym t = T.RPAREN)

/-- `n` is the number of bytes of the tokens `y` and of the token that follows them in `toks`; or else of the tokens `y` alone, and their last statement `s` is special. -/
def EndsWith (toks y s : List Tok) (n : Int) : Prop :=
  n = (scanned (toks.take (y.length + 1))).length ∨ (n = (scanned y).length ∧ Special s)

/-- `Lengths toks y ns`: the tokens `y` with which the token sequence `toks` starts are statements separated by semicolons, and `ns` are their lengths: each statement reaches
from the end of the one before to the end of its last token, or of the token after that (its semicolon). The bytes of a token include the blanks before it. -/
inductive Lengths (toks : List Tok) : List Tok → List Int → Prop where
  | one (s : List Tok) (n : Int) : (∀ t ∈ s, tsym t ≠ T.SEMI) → EndsWith toks s s n → Lengths toks s [n]
  | snoc (y : List Tok) (ns : List Int) (semi : Tok) (s : List Tok) (n : Int) : Lengths toks y ns → tsym semi = T.SEMI → (∀ t ∈ s, tsym t ≠ T.SEMI) →
      EndsWith toks (y ++ semi :: s) s (ns.sum + n) → Lengths toks (y ++ semi :: s) (ns ++ [n])

/-! ## Actions -/

def noZero : Prog → Bool
  | .finish => true
  | .ret => true
  | .fail => true
  | .set _ _ k => noZero k
  | .push _ _ k => noZero k
  | .insert _ _ k => noZero k
  | .del _ k => noZero k
  | .free _ k => noZero k
  | .regParam _ k => noZero k
  | .split _ _ k => noZero k
  | .zeroLen _ => false
  | .err _ k => noZero k
  | .errName _ _ k => noZero k
  | .ite _ t e => noZero t && noZero e

theorem noZero_sound {loc : Loc} {k : Prog} {r : Res} {y : YYLoc} {b : Bool} {r' : Res} {y' : YYLoc} (h : RR loc k r y b r' y') (hz : noZero k = true) : y' = y := by
  induction h with
  | ret => rfl
  | fail => rfl
  | zeroLen => cases hz
  | iteT _ _ ih => simp only [noZero, Bool.and_eq_true] at hz; exact ih hz.1
  | iteF _ _ ih => simp only [noZero, Bool.and_eq_true] at hz; exact ih hz.2
  | _ h ih => exact ih hz

theorem rules_zero : ((List.range 356).all fun i => i == 1 || i == 2 || noZero (actions.getD i .fail)) = true := by decide +kernel

theorem act_yylloc {A : Alloc} {loc : Loc} {r : Nat} (h1 : 2 ≤ r) (h2 : r < 358) (h3 : r ≠ 3) (h4 : r ≠ 4) {env : List V} {st st' : St} {v : V}
    (h : run A loc (act r) env st = .ok v st') : st'.yylloc = st.yylloc := by
  by_cases hr : r = 2
  · subst hr; exact (run2 h).2.2.2.2.1
  · refine noZero_sound (act_ok_rr h1 h2 hr h) ?_
    have := List.all_eq_true.1 rules_zero (r - 2) (by simp; omega)
    have n1 : (r - 2 == 1) = false := by simp; omega
    have n2 : (r - 2 == 2) = false := by simp; omega
    rw [n1, n2] at this
    exact this

theorem len_put {v w : V} {n : Int} (h : v.put [.fld 0] (.pos n) = some w) : stringLength w = some n := by
  unfold stringLength
  cases v <;> simp only [V.put] at h <;> try cases h
  all_goals
    split at h
    · simp only [Option.some.injEq] at h
      subst h
      rename_i fs _ x hx
      cases fs with
      | nil => cases hx
      | cons y fs => rfl
    · cases h

theorem run3 {A : Alloc} {loc : Loc} {v1 v : V} {st st' : St} (h : run A loc (act 3) (mkEnv [v1]) st = .ok v st') :
    (∃ b w, v = .vec b [w] ∧ stringLength w = some st.yylloc.len) ∧ st'.yylloc = { st.yylloc with len := 0 } := by
  have e : act 3 = act3 := rfl
  rw [e] at h
  unfold act3 at h
  simp only [run, evalRv, evalAtom] at h
  have hp : putP (mkEnv [v1]) ⟨1, [SelectStatement.stringLength]⟩ (.pos st.yylloc.len) =
      (v1.put [.fld 0] (.pos st.yylloc.len)).map fun w => mkEnv [w] := by
    simp only [putP, mkEnv]
    show (match v1.put [.fld 0] (.pos st.yylloc.len) with | some v' => some _ | none => none) = _
    cases v1.put [.fld 0] (.pos st.yylloc.len) <;> rfl
  rw [hp] at h
  cases hw : v1.put [.fld 0] (.pos st.yylloc.len) with
  | none => rw [hw] at h; simp only [Option.map_none] at h; split at h <;> simp at h
  | some w =>
    rw [hw] at h
    have hl := len_put hw
    split at h
    · simp only [Option.map_some] at h
      simp only [run, evalRv, evalAtoms, getP, putP, mkEnv, evalAtom, V.get, V.put] at h
      have hu : w.isUndef = false := by
        cases w <;> first | rfl | (simp [stringLength, V.get] at hl)
      simp [hu] at h
      obtain ⟨h, rfl⟩ := h
      exact ⟨⟨_, w, h.symm, hl⟩, rfl⟩
    · simp at h

theorem run4 {A : Alloc} {loc : Loc} {v1 v2 v3 v : V} {st st' : St} (h : run A loc (act 4) (mkEnv [v1, v2, v3]) st = .ok v st') :
    (∃ b vs w, v1 = .vec b vs ∧ v = .vec b (vs ++ [w]) ∧ stringLength w = some st.yylloc.len) ∧ st'.yylloc = { st.yylloc with len := 0 } := by
  have e : act 4 = act4 := rfl
  rw [e] at h
  unfold act4 at h
  simp only [run, evalRv, evalAtom] at h
  have hp : putP (mkEnv [v1, v2, v3]) ⟨3, [SelectStatement.stringLength]⟩ (.pos st.yylloc.len) =
      (v3.put [.fld 0] (.pos st.yylloc.len)).map fun w => mkEnv [v1, v2, w] := by
    simp only [putP, mkEnv]
    show (match v3.put [.fld 0] (.pos st.yylloc.len) with | some v' => some _ | none => none) = _
    cases v3.put [.fld 0] (.pos st.yylloc.len) <;> rfl
  rw [hp] at h
  cases hw : v3.put [.fld 0] (.pos st.yylloc.len) with
  | none => rw [hw] at h; simp only [Option.map_none] at h; split at h <;> simp at h
  | some w =>
    rw [hw] at h
    have hl := len_put hw
    split at h
    · simp only [Option.map_some] at h
      simp only [run, evalRv, evalAtoms, getP, putP, mkEnv, evalAtom, V.get, V.put] at h
      have hu : w.isUndef = false := by
        cases w <;> first | rfl | (simp [stringLength, V.get] at hl)
      have hx : ∀ a vs, (V.vec a vs).isUndef = false := fun _ _ => rfl
      cases v1 <;> simp [hu, hx] at h
      obtain ⟨h, rfl⟩ := h
      exact ⟨⟨_, _, w, rfl, h.symm, hl⟩, rfl⟩
    · simp at h

/-! ## The automaton -/

theorem rhs_facts : ((List.range 358).all fun r => decide (r < 2) || (
    (r == 2 || r == 4 || !(rhs r).contains 201) &&
    (lhs r == 200 || lhs r == 201 || lhs r == 333 || (rhs r).all fun x => !(x == 196 || x == 200 || x == 201 || x == 333)) &&
    (!(lhs r == 201) || r == 3 || r == 4) &&
    (!(lhs r == 202) || (4 < r && r < 10)) && (!(lhs r == 204) || r == 20 || r == 21) && (!(lhs r == 219) || r == 52 || r == 53 || r == 54) &&
    (!(lhs r == 212) || r == 35 || r == 36) && (!(lhs r == 218) || r == 50 || r == 51))) = true := by decide +kernel

structure RF (r : Nat) : Prop where
  list : 201 ∈ rhs r → r = 2 ∨ r = 4
  low : lhs r ≠ 200 → lhs r ≠ 201 → lhs r ≠ 333 → ∀ x ∈ rhs r, x ≠ 196 ∧ x ≠ 200 ∧ x ≠ 201 ∧ x ≠ 333
  l201 : lhs r = 201 → r = 3 ∨ r = 4
  l202 : lhs r = 202 → 4 < r ∧ r < 10
  l204 : lhs r = 204 → r = 20 ∨ r = 21
  l219 : lhs r = 219 → r = 52 ∨ r = 53 ∨ r = 54
  l212 : lhs r = 212 → r = 35 ∨ r = 36
  l218 : lhs r = 218 → r = 50 ∨ r = 51

theorem rf {r : Nat} (h2 : 2 ≤ r) (h : r < 358) : RF r := by
  have := List.all_eq_true.1 rhs_facts r (by simpa using h)
  simp only [Bool.and_eq_true, Bool.or_eq_true, Bool.not_eq_true', beq_iff_eq, decide_eq_true_eq, List.all_eq_true, Bool.not_eq_eq_eq_not, Bool.not_true,
    List.contains_eq_mem, decide_eq_false_iff_not, Bool.or_eq_false_iff, beq_eq_false_iff_ne] at this
  replace this := this.resolve_left (by omega)
  obtain ⟨⟨⟨⟨⟨⟨⟨a, b⟩, c⟩, d⟩, e⟩, f⟩, g⟩, k⟩ := this
  refine ⟨?_, ?_, ?_, ?_, ?_, ?_, ?_, ?_⟩
  · intro h; rcases a with (a | a) | a
    · exact .inl a
    · exact .inr a
    · exact absurd h a
  · intro h1 h2 h3; rcases b with ((b | b) | b) | b
    · exact absurd b h1
    · exact absurd b h2
    · exact absurd b h3
    · intro x hx; have := b x hx; exact ⟨this.1.1.1, this.1.1.2, this.1.2, this.2⟩
  all_goals intro h; simp_all only [not_true, false_or] <;> omega

/-- A well-formed tree for a nonterminal. -/
theorem wf_node {t : Tree} (h : t.WF) (hs : 199 ≤ t.sym) : ∃ r cs, t = .node r cs ∧ 2 ≤ r ∧ r < 358 ∧ lhs r = t.sym ∧ cs.map Tree.sym = rhs r ∧ WFL cs := by
  cases t with
  | leaf a => have := tsym_lt a; simp only [Tree.sym] at hs; omega
  | node r cs => simp only [Tree.WF] at h; exact ⟨r, cs, rfl, h.1, by have := h.2.1; rw [rules_len] at this; exact this, rfl, h.2.2.1, h.2.2.2⟩

mutual
/-- Semicolons stand only between statements. -/
theorem noSemi : ∀ t : Tree, t.WF → t.sym ≠ 196 → t.sym ≠ 200 → t.sym ≠ 201 → t.sym ≠ 333 → ∀ x ∈ t.yield, tsym x ≠ T.SEMI
  | .leaf a, _, h, _, _, _ => by intro x hx; simp only [Tree.yield, List.mem_singleton] at hx; subst hx; exact h
  | .node r cs, hw, _, h1, h2, h3 => by
    simp only [Tree.WF] at hw
    have hr : r < 358 := by have := hw.2.1; rw [rules_len] at this; exact this
    simp only [Tree.yield]
    refine noSemiL cs hw.2.2.2 ?_
    intro x hx
    exact (rf hw.1 hr).low h1 h2 h3 x (by rw [← hw.2.2.1]; exact hx)
theorem noSemiL : ∀ cs : List Tree, WFL cs → (∀ x ∈ cs.map Tree.sym, x ≠ 196 ∧ x ≠ 200 ∧ x ≠ 201 ∧ x ≠ 333) → ∀ x ∈ yieldL cs, tsym x ≠ T.SEMI
  | [], _, _ => by intro x hx; simp [yieldL] at hx
  | c :: cs, hw, h => by
    intro x hx
    simp only [yieldL, List.mem_append] at hx
    simp only [WFL] at hw
    have hc := h c.sym (by simp)
    rcases hx with hx | hx
    · exact noSemi c hw.1 hc.1 hc.2.1 hc.2.2.1 hc.2.2.2 x hx
    · exact noSemiL cs hw.2 (fun y hy => h y (by simp only [List.map_cons, List.mem_cons]; exact .inr hy)) x hx
end

/-- `opt_hints` omitted. -/
def eps : Tree := .node 21 []

theorem map_cons {cs : List Tree} {a : Nat} {l : List Nat} (h : cs.map Tree.sym = a :: l) : ∃ c cs', cs = c :: cs' ∧ c.sym = a ∧ cs'.map Tree.sym = l := by
  cases cs with
  | nil => cases h
  | cons c cs => rw [List.map_cons] at h; injection h with h1 h2; exact ⟨c, cs, rfl, h1, h2⟩
theorem map_nil {cs : List Tree} (h : cs.map Tree.sym = []) : cs = [] := by
  cases cs with
  | nil => rfl
  | cons c cs => cases h
theorem is_leaf {t : Tree} (hw : t.WF) (h : t.sym < 199) : ∃ x, t = .leaf x ∧ tsym x = t.sym := by
  cases t with
  | leaf x => exact ⟨x, rfl, rfl⟩
  | node r cs =>
    simp only [Tree.WF] at hw
    have := lhs_ge (Nat.le_of_succ_le hw.1) (by have := hw.2.1; rw [rules_len] at this; exact this)
    simp only [Tree.sym] at h
    omega

/-- A statement that does not end with omitted hints is special. -/
theorem special {t : Tree} (hw : t.WF) (hs : t.sym = N.statement) (h : ∀ r c, t = .node r [c, eps] → False) : Special t.yield := by
  obtain ⟨r, cs, rfl, h1, h2, h3, h4, h5⟩ := wf_node hw (by rw [hs]; decide)
  have hr := (rf h1 h2).l202 (by rw [h3]; exact hs)
  have two : ∀ {r : Nat} {a : Nat}, rhs r = [a, N.opt_hints] → cs.map Tree.sym = rhs r → WFL cs → (∀ c, cs = [c, eps] → False) → Special (Tree.node r cs).yield := by
    intro r a e h4 h5 hn
    rw [e] at h4
    obtain ⟨c, cs', e1, h6, h4⟩ := map_cons h4
    obtain ⟨d, cs'', e2, h7, h4⟩ := map_cons h4
    have e3 := map_nil h4
    subst e3 e2 e1
    simp only [WFL] at h5
    obtain ⟨r', cs', rfl, k1, k2, k3, k4, k5⟩ := wf_node h5.2.1 (by rw [h7]; decide)
    rcases (rf k1 k2).l204 (by rw [k3]; exact h7) with rfl | rfl
    · have e2 : rhs 20 = [T.WITH, T.HINT, T.LPAREN, N.hint_list, T.RPAREN] := by decide +kernel
      rw [e2] at k4
      obtain ⟨a1, _, rfl, _, k4⟩ := map_cons k4
      obtain ⟨a2, _, rfl, _, k4⟩ := map_cons k4
      obtain ⟨a3, _, rfl, _, k4⟩ := map_cons k4
      obtain ⟨a4, _, rfl, _, k4⟩ := map_cons k4
      obtain ⟨a5, _, rfl, h8, k4⟩ := map_cons k4
      have := map_nil k4
      subst this
      simp only [WFL] at k5
      obtain ⟨x, rfl, hx⟩ := is_leaf k5.2.2.2.2.1 (by rw [h8]; decide)
      right
      exact ⟨x, by simp [Tree.yield, yieldL], by rw [hx]; exact h8⟩
    · have e2 : rhs 21 = [] := by decide +kernel
      rw [e2] at k4
      have := map_nil k4
      subst this
      exact absurd rfl (hn c)
  have one : ∀ {r X : Nat}, rhs r = [X] → cs.map Tree.sym = rhs r → WFL cs → 199 ≤ X →
      (∀ q, 2 ≤ q → q < 358 → lhs q = X → ∃ a l, rhs q = a :: l ∧ a < 199 ∧ (a = T.SHOW ∨ a = T.DESCRIBE ∨ a = T.IMPORT ∨ a = T.COPY)) → Special (Tree.node r cs).yield := by
    intro r X e h4 h5 hX hq
    rw [e] at h4
    obtain ⟨c, cs', e1, h6, h4⟩ := map_cons h4
    have e3 := map_nil h4
    subst e3 e1
    simp only [WFL] at h5
    obtain ⟨r', cs', rfl, k1, k2, k3, k4, k5⟩ := wf_node h5.1 (by rw [h6]; exact hX)
    obtain ⟨a, l, e2, ha, hb⟩ := hq r' k1 k2 (by rw [k3]; exact h6)
    rw [e2] at k4
    obtain ⟨a1, as, rfl, h7, k4⟩ := map_cons k4
    simp only [WFL] at k5
    obtain ⟨x, rfl, hx⟩ := is_leaf k5.1 (by rw [h7]; exact ha)
    left
    exact ⟨x, by simp [Tree.yield, yieldL], by rw [hx, h7]; exact hb⟩
  have hcase : r = 5 ∨ r = 6 ∨ r = 7 ∨ r = 8 ∨ r = 9 := by omega
  rcases hcase with rfl | rfl | rfl | rfl | rfl
  · exact two (a := N.prepare_statement) (by decide +kernel) h4 h5 (fun c e => h 5 c (by rw [e]))
  · exact two (a := N.preparable_statement) (by decide +kernel) h4 h5 (fun c e => h 6 c (by rw [e]))
  · refine one (X := N.show_statement) (by decide +kernel) h4 h5 (by decide) ?_
    intro q hq2 hq hl
    rcases (rf hq2 hq).l219 hl with rfl | rfl | rfl
    · exact ⟨T.SHOW, [T.TABLES], by decide +kernel, by decide, .inl rfl⟩
    · exact ⟨T.SHOW, [T.COLUMNS, N.table_name], by decide +kernel, by decide, .inl rfl⟩
    · exact ⟨T.DESCRIBE, [N.table_name], by decide +kernel, by decide, .inr (.inl rfl)⟩
  · refine one (X := N.import_statement) (by decide +kernel) h4 h5 (by decide) ?_
    intro q hq2 hq hl
    rcases (rf hq2 hq).l212 hl with rfl | rfl
    · exact ⟨T.IMPORT, (rhs 35).tail, by decide +kernel, by decide, .inr (.inr (.inl rfl))⟩
    · exact ⟨T.COPY, (rhs 36).tail, by decide +kernel, by decide, .inr (.inr (.inr rfl))⟩
  · refine one (X := N.export_statement) (by decide +kernel) h4 h5 (by decide) ?_
    intro q hq2 hq hl
    rcases (rf hq2 hq).l218 hl with rfl | rfl
    · exact ⟨T.COPY, (rhs 50).tail, by decide +kernel, by decide, .inr (.inr (.inr rfl))⟩
    · exact ⟨T.COPY, (rhs 51).tail, by decide +kernel, by decide, .inr (.inr (.inr rfl))⟩

theorem hintStates : allN 656 (fun s => bor (bnot (Nat.beq (dfltF s) 43)) (bnot (Nat.beq (yypactT.get s) 471))) = true := by decide +kernel

/-- Hints are omitted only after a look at the next token. -/
theorem eager21 {s : Nat} {t : Tok} (h1 : noToken s ≠ some false) (h2 : actionOn s (tsym t) = some (.reduce 21)) : False := by
  have hs : s < 656 := by
    unfold actionOn noToken at h2
    rw [at?_nat] at h2
    rcases Nat.lt_or_ge s 656 with h | h
    · exact h
    · rw [List.getElem?_eq_none (by rw [show yypact.length = 656 by decide +kernel]; exact h)] at h2
      cases h2
  have := allN_spec hintStates s hs
  rw [bor_iff, bnot_iff, bnot_iff] at this
  unfold actionOn at h2
  unfold noToken at h1 h2
  rw [at?_nat, yypact_get s hs] at h1 h2
  simp only [Option.map_some, ne_eq, Option.some.injEq, Bool.not_eq_false] at h1
  simp only [Option.map_some] at h2
  rw [h1] at h2
  simp only [] at h2
  obtain ⟨a, e1, e2⟩ := dflt_spec hs
  rw [e1] at h2
  cases h2
  simp only [encAct] at e2
  have h471 : yypactT.get s = 471 := by
    simp only [beq_iff_eq, YYPACT_NINF] at h1
    omega
  rw [← e2, h471] at this
  simp at this

/-! ## The invariant -/

structure LenI (toks : List Tok) (c : Cfg St SV) (stk : TStk) : Prop where
  len : c.stk.length = stk.length
  wf : ∀ p ∈ stk, p.2.WF
  y : stkYield stk ++ remOf c = toks
  none : (∀ p ∈ stk, p.2.sym ≠ 201 ∧ p.2.sym ≠ 200) → c.st.yylloc.len = c.st.yylloc.total
  some : ∀ s l, stk.getLast? = some (s, l) → l.sym = 201 → ∃ b vs L, c.stk.getLast?.map (fun x => x.2.1) = some (.vec b vs) ∧ vs.map stringLength = L.map some ∧
    Lengths toks l.yield L ∧ L.sum + c.st.yylloc.len = c.st.yylloc.total
  low : ∀ p ∈ stk.dropLast, p.2.sym ≠ 201
  lz : c.la = .none → ∀ s t, stk.head? = Option.some (s, t) → t ≠ eps ∧ ∀ r d, t ≠ .node r [d, eps]

theorem popTrees_last {n : Nat} {s : Nat} {t : Tree} {stk : TStk} : popTrees (n + 1) ((s, t) :: stk) = popTrees n stk ++ [t] := popTrees_cons n s t stk

theorem wfl_pop {n : Nat} {stk : TStk} (h : ∀ p ∈ stk, p.2.WF) : WFL (popTrees n stk) := by
  have key : ∀ l : List Tree, (∀ t ∈ l, t.WF) → WFL l := by
    intro l
    induction l with
    | nil => intro _; trivial
    | cons a l ih => intro h; exact ⟨h a List.mem_cons_self, ih fun t ht => h t (List.mem_cons_of_mem _ ht)⟩
  refine key _ ?_
  intro t ht
  unfold popTrees at ht
  simp only [List.mem_map, List.mem_reverse] at ht
  obtain ⟨p, hp, rfl⟩ := ht
  exact h p (List.mem_of_mem_take hp)

/-- Where a statement ends. -/
theorem endsWith {A : Alloc} {r0 : Res} {toks : List Tok} {c : Cfg St SV} {stk : TStk} {rd : List Tok} (hp : PosI A r0 toks c rd) (hy : stkYield stk ++ remOf c = toks)
    {s : List Tok} (hs : c.la = none → Special s) : EndsWith toks (stkYield stk) s c.st.yylloc.total := by
  have ht : c.st.yylloc.total = (scanned rd).length := by have := hp.y.e.total; unfold scanned; exact this
  cases hl : c.la with
  | none =>
    right
    have : rd = stkYield stk := by
      have h1 := hp.all
      rw [← hy] at h1
      unfold remOf at h1
      rw [hl] at h1
      simpa using h1
    exact ⟨by rw [ht, this], hs hl⟩
  | some x =>
    left
    obtain ⟨t, v⟩ := x
    have : rd = stkYield stk ++ [t] := by
      have h1 := hp.all
      rw [← hy] at h1
      unfold remOf at h1
      rw [hl] at h1
      simp only [Option.map_some, Option.toList_some] at h1
      rw [← List.append_assoc] at h1
      exact List.append_cancel_right h1
    rw [ht, ← hp.all, this]
    congr 2
    rw [List.take_append_of_le_length (by simp), List.take_of_length_le (by simp)]

theorem three {α : Type} {l : List α} (h : l.length = 3) : ∃ a b c, l = [a, b, c] := by
  match l, h with
  | [a, b, c], _ => exact ⟨a, b, c, rfl⟩

theorem len_rc {A : Alloc} {toks : List Tok} {r0 : Res} {c : Cfg St SV} {stk : TStk} (h : RC (sem A) toks (startSt r0) c stk) : LenI toks c stk := by
  induction h with
  | init =>
    refine ⟨rfl, by simp, ?_, fun _ => rfl, by simp, by simp, by simp⟩
    simp [stkYield, popTrees, yieldL, remOf, initCfg]
  | rd c stk t ts h h1 h2 ih =>
    obtain ⟨rd, hp⟩ := pos_rc h
    obtain ⟨g1, g2⟩ := advances_pos t.pieces hp.y
    have e1 : (((sem A).read t c.st).2).yylloc = t.pieces.foldl advance c.st.yylloc := rfl
    have e2 : (t.pieces.foldl advance c.st.yylloc).total = c.st.yylloc.total + t.pieces.flatten.length := by
      rw [g1.e.total, hp.y.e.total, List.flatten_append, List.length_append]; omega
    refine ⟨ih.len, ih.wf, ?_, ?_, ?_, ih.low, ?_⟩
    · rw [← ih.y]
      simp [remOf, h1, h2]
    · intro hn
      simp only [e1]
      rw [g2, e2, ih.none hn]
    · intro s l hs hl
      obtain ⟨b, vs, L, k1, k2, k3, k4⟩ := ih.some s l hs hl
      refine ⟨b, vs, L, k1, k2, k3, ?_⟩
      simp only [e1]
      rw [g2, e2, ← k4]; omega
    · intro h; cases h
  | shift c stk t v s h h1 h2 h3 ih =>
    have hs := tsym_lt t
    refine ⟨by simp [ih.len], ?_, ?_, ?_, ?_, ?_, ?_⟩
    · intro p hp
      rcases List.mem_cons.1 hp with rfl | hp
      · trivial
      · exact ih.wf p hp
    · rw [stkYield_cons, ← ih.y]
      simp [remOf, h1, Tree.yield]
    · intro hn
      exact ih.none fun p hp => hn p (List.mem_cons_of_mem _ hp)
    · intro s' l hs' hl
      cases stk with
      | nil =>
        simp only [List.getLast?_singleton, Option.some.injEq, Prod.mk.injEq] at hs'
        obtain ⟨_, rfl⟩ := hs'
        simp only [Tree.sym] at hl
        omega
      | cons p stk =>
        rw [List.getLast?_cons_cons] at hs'
        obtain ⟨b, vs, L, k1, k2⟩ := ih.some s' l hs' hl
        refine ⟨b, vs, L, ?_, k2⟩
        rw [← k1]
        have hlen := ih.len
        cases hc : c.stk with
        | nil => rw [hc] at hlen; simp at hlen
        | cons q cs => simp only []; rw [List.getLast?_cons_cons]
    · intro p hp
      cases stk with
      | nil => simp at hp
      | cons q stk =>
        rw [List.dropLast_cons_of_ne_nil (by simp)] at hp
        rcases List.mem_cons.1 hp with rfl | hp
        · simp only [Tree.sym]; omega
        · exact ih.low p hp
    · intro _ s' t' ht
      simp only [List.head?_cons, Option.some.injEq, Prod.mk.injEq] at ht
      obtain ⟨_, rfl⟩ := ht
      exact ⟨by unfold eps; simp, fun _ _ => by simp⟩
  | reduce c stk r s v st h h1 h2 ih =>
    obtain ⟨rd, hp⟩ := pos_rc h
    obtain ⟨_, hrun⟩ := reduce_ok h1.r1 h1.r2 h2
    have hlen : (rhs r).length ≤ stk.length := by rw [← ih.len]; exact h1.len
    have hwf : (Tree.node r (popTrees (rhs r).length stk)).WF := ⟨h1.r1, by rw [rules_len]; exact h1.r2, h1.syms, wfl_pop ih.wf⟩
    have hy : stkYield ((s, Tree.node r (popTrees (rhs r).length stk)) :: stk.drop (rhs r).length) = stkYield stk := by
      rw [stkYield_cons, stkYield_split hlen]; simp [Tree.yield]
    have hF := rf h1.r1 h1.r2
    have hlz : c.la = none → Tree.node r (popTrees (rhs r).length stk) ≠ eps ∧ ∀ q d, Tree.node r (popTrees (rhs r).length stk) ≠ .node q [d, eps] := by
      intro hla
      obtain ⟨l1, t, l2⟩ := h1.lazy hla
      constructor
      · intro he
        unfold eps at he
        injection he with e1 _
        subst e1
        exact eager21 l1 l2
      · intro q d he
        injection he with _ e1
        cases hn : (rhs r).length with
        | zero => rw [hn] at e1; simp [popTrees] at e1
        | succ n =>
          cases hk : stk with
          | nil => rw [hk, hn] at hlen; simp at hlen
          | cons p stk' =>
            obtain ⟨s', t'⟩ := p
            rw [hn, hk, popTrees_last] at e1
            have := (ih.lz hla s' t' (by rw [hk]; rfl)).1
            have e2 := congrArg List.getLast? e1
            simp at e2
            exact this e2
    have hspec : ∀ (q : Nat × Tree) (stk' : TStk), stk = q :: stk' → q.2.sym = N.statement → c.la = none → Special q.2.yield := by
      rintro ⟨s', t'⟩ stk' hk hs hla
      refine special (ih.wf _ (by rw [hk]; exact List.mem_cons_self)) hs ?_
      intro q d he
      exact (ih.lz hla s' t' (by rw [hk]; rfl)).2 q d he
    by_cases hr3 : r = 3
    · -- the first statement
      subst hr3
      have e3 : rhs 3 = [N.statement] := by decide +kernel
      have hd := h1.list (by decide +kernel)
      rw [e3] at hd hrun hlen
      have hsy := h1.syms
      rw [e3] at hsy
      cases stk with
      | nil => simp at hlen
      | cons p stk =>
        simp only [List.length_singleton, List.drop_succ_cons, List.drop_zero] at hd
        subst hd
        obtain ⟨s0, t0⟩ := p
        simp only [popTrees, List.length_singleton, List.take_succ_cons, List.take_zero, List.reverse_singleton, List.map_cons, List.map_nil, List.cons.injEq, and_true] at hsy
        have hcl := ih.len
        match hc : c.stk, hcl with
        | [(s1, v1, l1)], _ =>
          clear hcl
          rw [hc] at hrun
          simp only [rhsVals, vals, List.length_singleton, List.take_succ_cons, List.take_zero, List.map_cons, List.map_nil, List.reverse_singleton] at hrun
          obtain ⟨⟨b, w, hv, hw⟩, hyy⟩ := run3 hrun
          have hno : c.st.yylloc.len = c.st.yylloc.total := ih.none (by
            intro p hp; simp only [List.mem_singleton] at hp; subst hp; simp only []; rw [hsy]; exact ⟨by decide, by decide⟩)
          have hye : stkYield [(s0, t0)] = t0.yield := by rw [stkYield_cons]; simp [stkYield, popTrees, yieldL]
          have hE := endsWith (s := t0.yield) hp ih.y (hspec _ _ rfl hsy)
          rw [hye, ← hno] at hE
          have hty : (Tree.node 3 (popTrees (rhs 3).length [(s0, t0)])).yield = t0.yield := by
            rw [e3]; simp [popTrees, Tree.yield, yieldL]
          refine ⟨?_, ?_, ?_, ?_, ?_, ?_, ?_⟩
          · simp [e3]
          · rw [e3] at hwf ⊢; simpa using hwf
          · rw [hy]; exact ih.y
          · intro hn
            exact absurd (show lhs 3 = 201 by decide +kernel) (hn _ List.mem_cons_self).1
          · intro s' l hs' hl
            rw [e3] at hs'
            simp only [List.length_singleton, List.drop_succ_cons, List.drop_zero, List.getLast?_singleton, Option.some.injEq, Prod.mk.injEq] at hs'
            obtain ⟨_, rfl⟩ := hs'
            refine ⟨b, [w], [c.st.yylloc.len], ?_, ?_, ?_, ?_⟩
            · rw [e3]; simp [hv]
            · simp [hw]
            · rw [e3] at hty; simp only [List.length_singleton] at hty; rw [hty]
              exact .one _ _ (noSemi t0 (ih.wf _ List.mem_cons_self) (by rw [hsy]; decide) (by rw [hsy]; decide) (by rw [hsy]; decide) (by rw [hsy]; decide)) hE
            · simp only [hyy, List.sum_cons, List.sum_nil]; rw [hno]; omega
          · rw [e3]; simp
          · intro hla s' t' ht
            simp only [List.head?_cons, Option.some.injEq, Prod.mk.injEq] at ht
            obtain ⟨_, rfl⟩ := ht
            exact hlz hla
    · by_cases hr4 : r = 4
      · subst hr4
        have e4 : rhs 4 = [N.statement_list, T.SEMI, N.statement] := by decide +kernel
        have hd := h1.list (by decide +kernel)
        rw [e4] at hd hrun hlen
        have hsy := h1.syms
        rw [e4] at hsy
        obtain ⟨s3, t3, s2, t2, s1, t1, hk⟩ : ∃ s3 t3 s2 t2 s1 t1, stk = [(s3, t3), (s2, t2), (s1, t1)] := by
          obtain ⟨⟨_, _⟩, ⟨_, _⟩, ⟨_, _⟩, e⟩ := three (by have := congrArg List.length hd; simp at this hlen; omega : stk.length = 3)
          exact ⟨_, _, _, _, _, _, e⟩
        · subst hk
          simp only [popTrees, List.length_cons, List.length_nil, List.take_succ_cons, List.take_zero, List.reverse_cons, List.reverse_nil, List.nil_append, List.cons_append, List.map_cons, List.map_nil, List.cons.injEq, and_true] at hsy
          obtain ⟨hs1, hs2, hs3⟩ := hsy
          obtain ⟨q3, v3, l3, q2, v2, l2, q1, v1, l1, hc⟩ : ∃ q3 v3 l3 q2 v2 l2 q1 v1 l1, c.stk = [(q3, v3, l3), (q2, v2, l2), (q1, v1, l1)] := by
            obtain ⟨⟨_, _, _⟩, ⟨_, _, _⟩, ⟨_, _, _⟩, e⟩ := three (by rw [ih.len]; rfl : c.stk.length = 3)
            exact ⟨_, _, _, _, _, _, _, _, _, e⟩
          · rw [hc] at hrun
            simp only [rhsVals, vals, List.length_cons, List.length_nil, List.take_succ_cons, List.take_zero, List.map_cons, List.map_nil, List.reverse_cons, List.reverse_nil, List.nil_append, List.cons_append] at hrun
            obtain ⟨⟨b, vs, w, hv1, hv, hw⟩, hyy⟩ := run4 hrun
            obtain ⟨b', vs', L, k1, k2, k3, k4⟩ := ih.some s1 t1 rfl hs1
            rw [hc] at k1
            simp only [List.getLast?_cons_cons, List.getLast?_singleton, Option.map_some, Option.some.injEq] at k1
            rw [hv1] at k1
            cases k1
            obtain ⟨semi, rfl, hsemi⟩ := is_leaf (ih.wf (s2, t2) (by simp)) (by simp only []; rw [hs2]; decide)
            rw [hs2] at hsemi
            have hye : stkYield [(s3, t3), (s2, Tree.leaf semi), (s1, t1)] = t1.yield ++ semi :: t3.yield := by
              simp [stkYield_cons, Tree.yield]; simp [stkYield, popTrees, yieldL]
            have hE := endsWith (s := t3.yield) hp ih.y (hspec _ _ rfl hs3)
            rw [hye, ← k4] at hE
            have hty : (Tree.node 4 (popTrees (rhs 4).length [(s3, t3), (s2, Tree.leaf semi), (s1, t1)])).yield = t1.yield ++ semi :: t3.yield := by
              rw [e4]; simp [popTrees, Tree.yield, yieldL]
            refine ⟨?_, ?_, ?_, ?_, ?_, ?_, ?_⟩
            · simp [e4, hc]
            · rw [e4] at hwf ⊢; simpa using hwf
            · rw [hy]; exact ih.y
            · intro hn
              exact absurd (show lhs 4 = 201 by decide +kernel) (hn _ List.mem_cons_self).1
            · intro s' l hs' hl
              rw [e4] at hs'
              simp only [List.length_cons, List.length_nil, List.drop_succ_cons, List.drop_zero, List.getLast?_singleton, Option.some.injEq, Prod.mk.injEq] at hs'
              obtain ⟨_, rfl⟩ := hs'
              refine ⟨b, vs ++ [w], L ++ [c.st.yylloc.len], ?_, ?_, ?_, ?_⟩
              · rw [e4]; simp [hv, hc]
              · simp [hw, k2]
              · rw [e4] at hty; simp only [List.length_cons, List.length_nil] at hty; rw [hty]
                exact .snoc _ _ _ _ _ k3 hsemi (noSemi t3 (ih.wf _ List.mem_cons_self) (by rw [hs3]; decide) (by rw [hs3]; decide) (by rw [hs3]; decide) (by rw [hs3]; decide)) hE
              · simp only [hyy, List.sum_append, List.sum_cons, List.sum_nil]; rw [← k4]; omega
            · rw [e4]; simp
            · intro hla s' t' ht
              simp only [List.head?_cons, Option.some.injEq, Prod.mk.injEq] at ht
              obtain ⟨_, rfl⟩ := ht
              exact hlz hla
      · -- any other rule
        have hyl := act_yylloc h1.r1 h1.r2 hr3 hr4 hrun
        have hl201 : lhs r ≠ 201 := fun h => (hF.l201 h).elim hr3 hr4
        refine ⟨by simp [ih.len], ?_, ?_, ?_, ?_, ?_, ?_⟩
        · intro p hp
          rcases List.mem_cons.1 hp with rfl | hp
          · exact hwf
          · exact ih.wf p (List.mem_of_mem_drop hp)
        · rw [hy]; exact ih.y
        · intro hn
          simp only [hyl]
          refine ih.none ?_
          have h2' : r ≠ 2 := fun h => (hn _ List.mem_cons_self).2 (by simp only [Tree.sym]; rw [h]; exact lhs2)
          intro p hp
          rw [← List.take_append_drop (rhs r).length stk] at hp
          rcases List.mem_append.1 hp with hp' | hp'
          · have hm : p.2.sym ∈ rhs r := by
              rw [← h1.syms]
              refine List.mem_map.2 ⟨p.2, ?_, rfl⟩
              unfold popTrees
              exact List.mem_reverse.2 (List.mem_map.2 ⟨p, hp', rfl⟩)
            refine ⟨?_, h1.before p (List.mem_of_mem_take hp')⟩
            intro h
            rw [h] at hm
            exact (hF.list hm).elim h2' hr4
          · exact hn p (List.mem_cons_of_mem _ hp')
        · intro s' l hs' hl
          cases hd : stk.drop (rhs r).length with
          | nil =>
            rw [hd] at hs'
            simp only [List.getLast?_singleton, Option.some.injEq, Prod.mk.injEq] at hs'
            obtain ⟨_, rfl⟩ := hs'
            exact absurd hl hl201
          | cons q stk' =>
            rw [hd, List.getLast?_cons_cons] at hs'
            have hg : stk.getLast? = some (s', l) := by
              rw [← List.take_append_drop (rhs r).length stk, hd, List.getLast?_append, hs']; rfl
            obtain ⟨b, vs, L, k1, k2⟩ := ih.some s' l hg hl
            refine ⟨b, vs, L, ?_, by simp only [hyl]; exact k2⟩
            rw [← k1]
            have hne : c.stk.drop (rhs r).length ≠ [] := by
              intro h0
              have := congrArg List.length h0
              have h3 := congrArg List.length hd
              simp only [List.length_drop, List.length_nil, List.length_cons, ih.len] at this h3
              omega
            conv => rhs; rw [← List.take_append_drop (rhs r).length c.stk]
            cases hx : c.stk.drop (rhs r).length with
            | nil => exact absurd hx hne
            | cons z zs =>
              simp only []
              rw [List.getLast?_cons_cons, List.getLast?_append]
              cases hz : (z :: zs).getLast? with
              | none => simp at hz
              | some z' => rfl
        · intro p hp
          cases hd : stk.drop (rhs r).length with
          | nil => rw [hd] at hp; simp at hp
          | cons q stk' =>
            rw [hd, List.dropLast_cons_of_ne_nil (by simp)] at hp
            rcases List.mem_cons.1 hp with rfl | hp
            · exact hl201
            · refine ih.low p ?_
              rw [← List.take_append_drop (rhs r).length stk, hd, List.dropLast_append_of_ne_nil (by simp)]
              exact List.mem_append_right _ hp
        · intro hla s' t' ht
          simp only [List.head?_cons, Option.some.injEq, Prod.mk.injEq] at ht
          obtain ⟨_, rfl⟩ := ht
          exact hlz hla

end Verif.Sem

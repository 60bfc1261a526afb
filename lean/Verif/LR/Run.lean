import Verif.LR.Facts3
/-! The automaton building derivation trees (proof-internal abstraction of `step`), and generic lemmas. -/
namespace Verif.LR
open Verif.Lex

abbrev TStk := List (Nat × Tree)

inductive TRes where
  | run (stk : TStk) (rem : List Tok)
  | acc | err | exh | stuck

/-- The trees on the topmost `n` entries, left to right. -/
def popTrees (n : Nat) (stk : TStk) : List Tree := ((stk.take n).map Prod.snd).reverse

def tReduce (r : Nat) (stk : TStk) (rem : List Tok) : TRes :=
  match ruleLen r, ruleLhs r with
  | some n, some A =>
    if stk.length < n then .stuck
    else match gotoState (topState (stk.drop n)) A with
      | none => .stuck
      | some s => .run ((s, .node r (popTrees n stk)) :: stk.drop n) rem
  | _, _ => .stuck

def tAct (a : Option Act) (stk : TStk) (rem : List Tok) : TRes :=
  match a with
  | none => .stuck
  | some .error => .err
  | some (.reduce r) => tReduce r stk rem
  | some (.shift s) =>
    match rem with
    | [] => .stuck
    | t :: rem' => .run ((s, .leaf t) :: stk) rem'

def tstep (lim : Nat) (stk : TStk) (rem : List Tok) : TRes :=
  if lim ≤ stk.length + 1 then .exh
  else if topState stk = 69 then .acc
  else match noToken (topState stk) with
    | none => .stuck
    | some true => tAct (defaultAct (topState stk)) stk rem
    | some false =>
      match rem with
      | [] => .stuck
      | t :: _ => tAct (tokenAct (topState stk) (tsym t)) stk rem

theorem tstep_act {lim : Nat} {stk : TStk} {t : Tok} {rem : List Tok} (hl : stk.length + 1 < lim) (h : topState stk ≠ 69) :
    tstep lim stk (t :: rem) = tAct (actionOn (topState stk) (tsym t)) stk (t :: rem) := by
  unfold tstep actionOn
  rw [if_neg (by omega), if_neg h]
  cases noToken (topState stk) with
  | none => rfl
  | some b => cases b <;> rfl

/-- `n` steps lead from one configuration to the other. -/
inductive TSteps (lim : Nat) : Nat → TStk → List Tok → TStk → List Tok → Prop where
  | refl (stk rem) : TSteps lim 0 stk rem stk rem
  | step {n stk rem stk' rem' stk'' rem''} : tstep lim stk rem = .run stk' rem' → TSteps lim n stk' rem' stk'' rem'' →
      TSteps lim (n + 1) stk rem stk'' rem''

theorem TSteps.trans {lim n m : Nat} {a c e : TStk} {b d f : List Tok} (h : TSteps lim n a b c d) (h' : TSteps lim m c d e f) :
    TSteps lim (n + m) a b e f := by
  induction h with
  | refl => simpa using h'
  | step h1 _ ih =>
    have := TSteps.step h1 (ih h')
    rw [show ∀ n, n + 1 + m = n + m + 1 by omega]; exact this

theorem TSteps.one {lim : Nat} {a c : TStk} {b d : List Tok} (h : tstep lim a b = .run c d) : TSteps lim 1 a b c d := .step h (.refl _ _)

theorem nextSym_append (l l' : List Tok) (b : Nat) : nextSym (l ++ l') b = nextSym l (nextSym l' b) := by
  cases l <;> rfl

theorem nextSym_lt {l : List Tok} {b : Nat} (hb : b < 199) : nextSym l b < 199 := by
  cases l with
  | nil => exact hb
  | cons t l => exact tsym_lt t

theorem yieldL_append (a b : List Tree) : yieldL (a ++ b) = yieldL a ++ yieldL b := by
  induction a with
  | nil => rfl
  | cons c a ih => simp [yieldL, ih]

theorem yieldL_single (c : Tree) : yieldL [c] = c.yield := by simp [yieldL]

theorem WFL_append (a b : List Tree) : WFL (a ++ b) ↔ WFL a ∧ WFL b := by
  induction a with
  | nil => simp [WFL]
  | cons c a ih => simp [WFL, ih, and_assoc]

theorem WFL_mem {cs : List Tree} (h : WFL cs) : ∀ c ∈ cs, c.WF := by
  induction cs with
  | nil => intro c hc; simp at hc
  | cons x cs ih =>
    intro c hc
    rcases List.mem_cons.1 hc with e | e
    · rw [e]; exact h.1
    · exact ih h.2 c e

theorem PrecOKL_snoc (a : List Tree) (c : Tree) (b : Nat) : PrecOKL (a ++ [c]) b ↔ PrecOKL a (nextSym c.yield b) ∧ c.PrecOK b := by
  induction a with
  | nil => simp [PrecOKL, yieldL, nextSym]
  | cons x a ih =>
    simp only [List.cons_append, PrecOKL, ih, yieldL_append, yieldL_single, nextSym_append, and_assoc]

theorem sym_node {r : Nat} {cs : List Tree} (h : (Tree.node r cs).WF) : 199 ≤ (Tree.node r cs).sym := by
  simp only [Tree.WF] at h
  exact lhs_ge (by omega) (by rw [← rules_len]; exact h.2.1)

theorem needL_ge (k : Nat) (cs : List Tree) (h : cs ≠ []) : k + cs.length ≤ needL k cs := by
  induction cs generalizing k with
  | nil => exact absurd rfl h
  | cons c cs ih =>
    simp only [needL, List.length_cons]
    have hc : 1 ≤ c.need := by cases c <;> simp only [Tree.need] <;> omega
    cases cs with
    | nil => simp; omega
    | cons d ds =>
      have := ih (k + 1) (by simp)
      simp only [List.length_cons] at this ⊢
      omega

/-! ## FIRST -/

theorem fseq_cons (X : Nat) (l : List Nat) (L : Nat) : fseq (X :: l) L = firstF X ||| (ite_ (tb nullM X) (fseq l L) 0) := rfl
theorem fseq_nil (L : Nat) : fseq [] L = L := rfl

mutual
theorem first_tree : ∀ (t : Tree), t.WF → (t.yield = [] → tb nullM t.sym = true) ∧
    (∀ u l, t.yield = u :: l → (firstF t.sym).testBit (tsym u) = true)
  | .leaf t, _ => by
    refine ⟨fun h => by simp [Tree.yield] at h, fun u l h => ?_⟩
    simp [Tree.yield] at h
    rw [← h.1]
    exact first_term (tsym_lt t)
  | .node r cs, h => by
    simp only [Tree.WF] at h
    obtain ⟨h1, h2, h3, h4⟩ := h
    rw [rules_len] at h2
    have := first_list cs h4
    refine ⟨fun hy => ?_, fun u l hy => ?_⟩
    · simp only [Tree.yield] at hy
      refine null_rule (by omega) h2 ?_
      rw [← h3]
      exact this.1 hy
    · simp only [Tree.yield] at hy
      refine first_rule (by omega) h2 ?_
      rw [← h3]
      exact this.2 u l 0 hy
theorem first_list : ∀ (cs : List Tree), WFL cs → (yieldL cs = [] → ∀ x ∈ cs.map Tree.sym, tb nullM x = true) ∧
    (∀ u l L, yieldL cs = u :: l → (fseq (cs.map Tree.sym) L).testBit (tsym u) = true)
  | [], _ => ⟨fun _ x hx => by simp at hx, fun u l L h => by simp [yieldL] at h⟩
  | c :: cs, h => by
    have hc := first_tree c h.1
    have hcs := first_list cs h.2
    refine ⟨fun hy x hx => ?_, fun u l L hy => ?_⟩
    · simp only [yieldL, List.append_eq_nil_iff] at hy
      rcases List.mem_cons.1 hx with e | e
      · rw [e]; exact hc.1 hy.1
      · exact hcs.1 hy.2 x e
    · simp only [yieldL] at hy
      simp only [List.map_cons]
      rw [fseq_cons, Nat.testBit_or]
      cases hcy : c.yield with
      | nil =>
        rw [hcy] at hy
        rw [hc.1 hcy, ite_true_, hcs.2 u l L hy]
        simp
      | cons v w =>
        rw [hcy] at hy
        simp at hy
        rw [← hy.1, hc.2 v w hcy]
        simp
end

theorem first_next {cs : List Tree} (h : WFL cs) {L b : Nat} (hb : L.testBit b = true) :
    (fseq (cs.map Tree.sym) L).testBit (nextSym (yieldL cs) b) = true := by
  cases hy : yieldL cs with
  | cons u l => exact (first_list cs h).2 u l L hy
  | nil =>
    have := (first_list cs h).1 hy
    clear h hy
    show (fseq (cs.map Tree.sym) L).testBit b = true
    induction cs with
    | nil => exact hb
    | cons c cs ih =>
      simp only [List.map_cons] at this ⊢
      rw [fseq_cons, this c.sym List.mem_cons_self, ite_true_, Nat.testBit_or, ih (fun x hx => this x (List.mem_cons_of_mem _ hx))]
      simp

end Verif.LR

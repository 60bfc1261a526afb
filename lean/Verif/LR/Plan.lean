import Verif.LR.Viable
import Verif.LR.PlanData
/-! Whatever the automaton has read begins a sentence that respects the precedences. Proof-internal. -/
set_option maxRecDepth 100000
namespace Verif.LR
open Verif.Lex

noncomputable def plR (s : Nat) : Nat := plRT.get 0 s
noncomputable def plK (s : Nat) : Nat := plKT.get 0 s
noncomputable def coF (X : Nat) : Nat := coT.get 0 X
noncomputable def beF (X : Nat) : Nat := beT.get 0 X
noncomputable def ftF (X : Nat) : Nat := ftT.get 0 X
noncomputable def rkF (X : Nat) : Nat := rkT.get 0 X
noncomputable def sfF (X : Nat) : Nat := sfT.get 0 X

noncomputable def ftSeq (l : List Nat) : Nat :=
  List.rec (motive := fun _ => Nat) 0 (fun X _ ih => ite_ (Nat.beq (ftF X) 0) ih (ftF X)) l
noncomputable def isLead (l : List Nat) : Bool :=
  List.rec (motive := fun _ => Bool) false (fun X tl _ => band (bnot (isT X)) (List.rec (motive := fun _ => Bool) false (fun a _ _ => isT a) tl)) l
noncomputable def opF (X : Nat) : Bool := List.rec (motive := fun _ => Bool) false (fun x _ ih => bor (Nat.beq x X) ih) opLhs

noncomputable def symOk (X : Nat) : Bool :=
  bor (Nat.beq (coF X) 0) ((fun r => band (Nat.ble 2 r) (band (Nat.ble r 357) (band (Nat.beq (lhsF r) X) (band (bnot (opF X)) (band (bnot (isLead (rhsF r)))
    (band (NL.all (rhsF r) fun Y => band (Nat.ble 1 (coF Y)) (Nat.ble (Nat.succ (coF Y)) (coF X))) (Nat.beq (ftF X) (ftSeq (rhsF r))))))))) (beF X))

theorem symOk_all : band (allFrom 199 136 symOk) (allN 199 fun a => band (Nat.beq (coF a) 1) (Nat.beq (ftF a) (Nat.succ a))) = true := by decide +kernel

theorem isT_iff {X : Nat} : isT X = true ↔ X < 199 := by unfold isT; rw [ble_iff]; omega
theorem isT_false {X : Nat} : isT X = false ↔ 199 ≤ X := by
  cases h : isT X
  · simp only [true_iff]
    rcases Nat.lt_or_ge X 199 with h2 | h2
    · rw [isT_iff.2 h2] at h; cases h
    · exact h2
  · have := isT_iff.1 h
    constructor
    · intro h; cases h
    · intro h; omega

theorem opF_spec {X : Nat} (h : opF X = false) : opLhs.contains X = false := by
  have key : ∀ l : List Nat, List.rec (motive := fun _ => Bool) false (fun x _ ih => bor (Nat.beq x X) ih) l = false → l.contains X = false := by
    intro l
    induction l with
    | nil => intro _; rfl
    | cons x l ih =>
      intro h
      have h : bor (Nat.beq x X) (List.rec (motive := fun _ => Bool) false (fun x _ ih => bor (Nat.beq x X) ih) l) = false := h
      have h1 : Nat.beq x X = false := by
        cases hc : Nat.beq x X
        · rfl
        · rw [hc] at h; cases h
      rw [h1] at h
      have h2 := ih h
      rw [List.contains_cons, h2, Bool.or_false]
      apply Bool.eq_false_iff.2
      intro h3
      have h3 : X = x := by simpa using h3
      rw [h3, Nat.beq_refl] at h1; cases h1
  exact key _ h

/-- A tree without operators, whatever comes next. -/
def TameT (X : Nat) : Prop := ∃ t : Tree, t.WF ∧ t.sym = X ∧ (∀ b, t.PrecOK b) ∧ (∀ Y a, 199 ≤ Y → a < 199 → ¬ t.Leads Y a) ∧
  ∀ b, nextSym t.yield b = if ftF X = 0 then b else ftF X - 1
def TameTL (l : List Nat) : Prop := ∃ cs : List Tree, WFL cs ∧ cs.map Tree.sym = l ∧ (∀ b, PrecOKL cs b) ∧ (∀ c ∈ cs, ∀ Y a, 199 ≤ Y → a < 199 → ¬ c.Leads Y a) ∧
  ∀ b, nextSym (yieldL cs) b = if ftSeq l = 0 then b else ftSeq l - 1

theorem ftSeq_cons (X : Nat) (l : List Nat) : ftSeq (X :: l) = if ftF X = 0 then ftSeq l else ftF X := by
  show ite_ (Nat.beq (ftF X) 0) (ftSeq l) (ftF X) = _
  rw [ite_eq]
  simp only [beq_iff]

theorem tame_list {l : List Nat} (h : ∀ X ∈ l, TameT X) : TameTL l := by
  induction l with
  | nil => exact ⟨[], trivial, rfl, fun _ => trivial, fun c hc => by simp at hc, fun b => rfl⟩
  | cons X l ih =>
    obtain ⟨cs, h1, h2, h3, h4, h5⟩ := ih (fun Y hY => h Y (by simp [hY]))
    obtain ⟨t, g1, g2, g3, g4, g5⟩ := h X (by simp)
    refine ⟨t :: cs, ⟨g1, h1⟩, by simp [g2, h2], fun b => ⟨g3 _, h3 b⟩, fun c hc => ?_, fun b => ?_⟩
    · rcases List.mem_cons.1 hc with e | e
      · rw [e]; exact g4
      · exact h4 c e
    · rw [show yieldL (t :: cs) = t.yield ++ yieldL cs from rfl, nextSym_append, g5, h5, ftSeq_cons]
      by_cases h0 : ftF X = 0
      · rw [if_pos h0, if_pos h0]
      · rw [if_neg h0, if_neg h0, if_neg h0]

theorem contested_op {r a : Nat} (h : opLhs.contains (lhs r) = false) : contested r a = false := by unfold contested; rw [h]; rfl
theorem isLead_spec {l : List Nat} {Y a : Nat} (h : l.take 2 = [Y, a]) (hY : 199 ≤ Y) (ha : a < 199) : isLead l = true := by
  match l with
  | [] => simp at h
  | [x] => simp at h
  | x :: y :: l =>
    simp at h
    obtain ⟨rfl, rfl⟩ := h
    show band (bnot (isT x)) (isT y) = true
    rw [band_iff, bnot_iff]
    exact ⟨isT_false.2 hY, isT_iff.2 ha⟩

theorem tame : ∀ (n X : Nat), coF X ≤ n → 1 ≤ coF X → X ≤ 334 → TameT X := by
  intro n
  induction n with
  | zero => intro X h1 h2; omega
  | succ n ih =>
    intro X h1 h2 h3
    obtain ⟨hs, ht⟩ := band_iff.1 symOk_all
    rcases Nat.lt_or_ge X 199 with hX | hX
    · have := allN_spec ht X hX
      rw [band_iff, beq_iff, beq_iff] at this
      obtain ⟨t, g1, g2⟩ := terminal_productive hX
      cases t with
      | node r cs =>
        have := sym_node g1
        rw [g2] at this; omega
      | leaf t =>
        refine ⟨.leaf t, trivial, g2, fun _ => trivial, fun Y a _ _ h => h, fun b => ?_⟩
        rw [this.2]
        rw [if_neg (by omega)]
        show tsym t = _
        rw [show tsym t = X from g2]; rfl
    · have := allFrom_spec hs X hX (by omega)
      unfold symOk at this
      simp only [bor_iff, band_iff, beq_iff, ble_iff, bnot_iff] at this
      rcases this with h0 | ⟨r1, r2, r3, r4, r5, r6, r7⟩
      · omega
      generalize beF X = r at *
      have hl : lhs r = X := by rw [lhs_eq (by omega)]; exact r3
      have hall := NL.all_spec r6
      rw [← rhs_eq (by omega)] at r5 r7 hall
      obtain ⟨cs, c1, c2, c3, c4, c5⟩ := tame_list (l := rhs r) (fun Y hY => by
        have := hall Y hY
        rw [band_iff, ble_iff, ble_iff] at this
        exact ih Y (by omega) this.1 (rhs_le (by omega) (by omega) hY))
      have hop := opF_spec r4
      rw [← hl] at hop
      refine ⟨.node r cs, ⟨r1, by rw [rules_len]; omega, c2, c1⟩, hl, fun b => ⟨?_, ?_, c3 b⟩, ?_, ?_⟩
      · unfold forbidReduce; rw [contested_op hop]; rfl
      · intro c Z a _ _ _ _
        unfold forbidShift; rw [contested_op hop]; rfl
      · intro Y a hY ha hlead
        simp only [Tree.Leads] at hlead
        rcases hlead with h | h
        · rw [isLead_spec h hY ha] at r5; cases r5
        · cases cs with
          | nil => exact h
          | cons c cs => exact c4 c (by simp) Y a hY ha h
      · intro b
        show nextSym (yieldL cs) b = _
        rw [c5, r7]

/-! ## The plan -/

noncomputable def leadShift (s : Nat) (l : List Nat) : Bool :=
  List.rec (motive := fun _ => Bool) true (fun X tl _ => List.rec (motive := fun _ => Bool) true (fun a _ _ => bor (isT X) (bor (bnot (isT a)) (isShift (actF s a)))) tl) l
noncomputable def nextOk (A X f : Nat) : Bool := bor (isT X) (ite_ (Nat.beq f 0) (sub (sfF A) (sfF X)) (tb (sfF X) (Nat.pred f)))
noncomputable def planOk (s : Nat) : Bool :=
  bor (Nat.beq s 69) ((fun r k => band (bnot (Nat.beq ((stF s).kern.find r k) 0)) (band (Nat.ble 1 k) (ite_ (Nat.beq r 1) (Nat.beq k 1)
    (band (NL.all (NL.drop (rhsF r) k) fun Y => Nat.ble 1 (coF Y))
    (band (bor (bnot (Nat.beq k 1)) (band (Nat.ble (Nat.succ (rkF (lhsF r))) (rkF (NL.nth (rhsF r) 0))) (leadShift s (rhsF r))))
      (nextOk (lhsF r) (NL.nth (rhsF r) (Nat.pred k)) (ftSeq (NL.drop (rhsF r) k)))))))) (plR s) (plK s))
theorem planOk_all : allFrom 1 655 planOk = true := by decide +kernel
theorem plan_misc : band (tb (sfF 200) 0) (band (allFrom 2 356 fun r => Nat.beq (Nat.land (sfF (lhsF r)) (frF r)) 0) (band (allN 335 fun X => Nat.ble (rkF X) 900)
   (band (Nat.beq (gotoF 0 200) 19) (Nat.beq (actF 19 0) 140)))) = true := by decide +kernel

theorem leadShift_spec {s : Nat} {l : List Nat} (hs : s < 656) (h : leadShift s l = true) {X a : Nat} (ht : l.take 2 = [X, a]) (hX : 199 ≤ X) (ha : a < 199) : Shifts s a := by
  match l with
  | [] => simp at ht
  | [x] => simp at ht
  | x :: y :: l =>
    simp at ht
    obtain ⟨rfl, rfl⟩ := ht
    have h : bor (isT x) (bor (bnot (isT y)) (isShift (actF s y))) = true := h
    rw [isT_false.2 hX, isT_iff.2 ha] at h
    exact (isShift_iff hs).1 h

theorem plan_spec {s : Nat} (h0 : s ≠ 0) (hs : s < 656) (h69 : s ≠ 69) : ∃ r k, KM s r (k + 1) ∧ ((r = 1 ∧ k = 0) ∨ (2 ≤ r ∧ r < 358 ∧
    (∀ Y ∈ (rhs r).drop (k + 1), 1 ≤ coF Y) ∧
    (k = 0 → rkF (lhs r) < rkF ((rhs r).getD 0 1000) ∧ ∀ X a, (rhs r).take 2 = [X, a] → 199 ≤ X → a < 199 → Shifts s a) ∧
    (∀ X, (rhs r)[k]? = some X → 199 ≤ X → ∀ a, (sfF (lhs r)).testBit a = true → (sfF X).testBit (if ftSeq ((rhs r).drop (k + 1)) = 0 then a else ftSeq ((rhs r).drop (k + 1)) - 1) = true))) := by
  have h := allFrom_spec planOk_all s (by omega) (by omega)
  unfold planOk at h
  rw [bor_iff, beq_iff] at h
  have h := h.resolve_left h69
  generalize plR s = r at h
  generalize plK s = k at h
  rw [band_iff, band_iff, bnot_iff, ble_iff] at h
  obtain ⟨h1, h2, h3⟩ := h
  have hkm : KM s r k := by intro h0; rw [h0] at h1; cases h1
  obtain ⟨k, rfl⟩ : ∃ j, k = j + 1 := ⟨k - 1, by omega⟩
  refine ⟨r, k, hkm, ?_⟩
  have hr := kern_r hs h69 hkm
  rw [ite_eq] at h3
  by_cases hr1 : r = 1
  · rw [if_pos (by rw [beq_iff]; exact hr1), beq_iff] at h3
    exact .inl ⟨hr1, by omega⟩
  · right
    rw [if_neg (by rw [beq_iff]; exact hr1), band_iff, band_iff, NL.drop_eq, ← rhs_eq hr.2, ← lhs_eq hr.2] at h3
    obtain ⟨g1, g2, g3⟩ := h3
    refine ⟨by omega, hr.2, fun Y hY => ?_, fun hk => ?_, fun X hX hX2 a ha => ?_⟩
    · have := NL.all_spec g1 Y hY
      rw [ble_iff] at this; exact this
    · subst hk
      rw [bor_iff] at g2
      rcases g2 with g2 | g2
      · cases g2
      · rw [band_iff, ble_iff, NL.nth_eq] at g2
        exact ⟨g2.1, fun X a => leadShift_spec hs g2.2⟩
    · unfold nextOk at g3
      have e : NL.nth (rhs r) (Nat.pred (k + 1)) = X := by
        rw [NL.nth_eq, List.getD_eq_getElem?_getD]
        show ((rhs r)[k]?).getD 1000 = X
        rw [hX]; rfl
      rw [e, isT_false.2 hX2] at g3
      have g3 : ite_ (Nat.beq (ftSeq ((rhs r).drop (k + 1))) 0) (sub (sfF (lhs r)) (sfF X)) (tb (sfF X) (Nat.pred (ftSeq ((rhs r).drop (k + 1))))) = true := g3
      rw [ite_eq] at g3
      by_cases hf : ftSeq ((rhs r).drop (k + 1)) = 0
      · rw [if_pos (by rw [beq_iff]; exact hf)] at g3
        rw [if_pos hf]
        exact sub_spec g3 ha
      · rw [if_neg (by rw [beq_iff]; exact hf), tb_eq] at g3
        rw [if_neg hf]
        exact g3

/-! ## Stacks, edges only -/

def EOK : TStk → Prop
  | [] => True
  | (t, tr) :: stk => EOK stk ∧ Edge (topState stk) t tr.sym ∧ topState stk < 656 ∧ topState stk ≠ 69

theorem StkOK.eok {lim : Nat} : ∀ {stk : TStk} {f : List Tok}, StkOK lim stk f → EOK stk
  | [], _, _ => trivial
  | (t, tr) :: stk, f, h => by
    simp only [StkOK] at h
    exact ⟨StkOK.eok h.1, h.2.1, h.2.2.1, h.2.2.2.1⟩

theorem edge_item {s t r k L X : Nat} (hs : s < 656) (h69 : s ≠ 69) (he : Edge s t X) (hi : Item s r k L) (hX : (rhs r)[k]? = some X) :
    ∃ L', Item t r (k + 1) L' ∧ (∀ a, L.testBit a = true → L'.testBit a = true) := by
  have hlt : k < (rhs r).length := (List.getElem?_eq_some_iff.1 hX).1
  have hd : (rhs r).drop k = X :: (rhs r).drop (k + 1) := by
    rw [List.drop_eq_getElem_cons hlt]
    congr 1
    exact (List.getElem?_eq_some_iff.1 hX).2
  rcases he with ⟨h1, h2⟩ | ⟨h1, rfl⟩
  · rcases item_shift hs h69 hi hd h1 with ⟨t', L', g1, _, g3, g4⟩ | ⟨g1, _⟩
    · rw [h2] at g1; cases g1
      exact ⟨L', g3, g4⟩
    · exact absurd ⟨t, h2⟩ g1
  · have := (pm_range hs h69 h1).1
    obtain ⟨_, _, ⟨L', g3, g4⟩, _⟩ := item_goto hs h69 hi hd (by omega)
    exact ⟨L', g3, g4⟩

theorem up {r : Nat} (hr : 2 ≤ r) (hr2 : r < 358) : ∀ (k : Nat) (t : Nat) (tr : Tree) (l : TStk), EOK ((t, tr) :: l) → KM t r (k + 1) →
    k ≤ l.length ∧ (rhs r)[k]? = some tr.sym ∧ (popTrees (k + 1) ((t, tr) :: l)).map Tree.sym = (rhs r).take (k + 1) ∧
    PM (topState (l.drop k)) (lhs r) ∧ EOK (l.drop k) ∧ topState (l.drop k) < 656 ∧ topState (l.drop k) ≠ 69 ∧
    ∀ u, ((stF (topState (l.drop k))).pred.find (lhs r)).testBit u = true →
      (∃ L, Item t r (k + 1) L ∧ L.testBit u = true) ∧ (∃ L, Item (topState l) r k L ∧ L.testBit u = true) := by
  intro k
  induction k with
  | zero =>
    intro t tr l h hk
    obtain ⟨h1, h2, h3, h4⟩ := h
    obtain ⟨_, _, _, he⟩ := edge_spec h3 h4 h2
    obtain ⟨e1, e2, e3⟩ := he r 1 hk
    have hpm : PM (topState l) (lhs r) := by
      rcases e3 with e3 | e3
      · exact absurd (pop.kern_zero h3 e3) (by omega)
      · exact e3.2
    refine ⟨by omega, e2, ?_, hpm, h1, h3, h4, fun u hu => ?_⟩
    · have hp : popTrees (0 + 1) ((t, tr) :: l) = [tr] := rfl
      rw [hp]
      cases hh : rhs r with
      | nil => rw [hh] at e2; cases e2
      | cons x xs =>
        rw [hh] at e2
        have : x = tr.sym := by simpa using e2
        simp [this]
    · have hi := pm_item h3 h4 (by omega) hr2 hpm
      obtain ⟨L', g1, g2⟩ := edge_item h3 h4 h2 hi e2
      exact ⟨⟨L', g1, g2 u hu⟩, _, hi, hu⟩
  | succ k ih =>
    intro t tr l h hk
    obtain ⟨h1, h2, h3, h4⟩ := h
    obtain ⟨_, _, _, he⟩ := edge_spec h3 h4 h2
    obtain ⟨e1, e2, e3⟩ := he r (k + 2) hk
    have hkm : KM (topState l) r (k + 1) := by
      rcases e3 with e3 | e3
      · exact e3
      · omega
    have e2 : (rhs r)[k + 1]? = some tr.sym := e2
    cases l with
    | nil => have := (km0 hkm).1; omega
    | cons p l =>
      obtain ⟨t', tr'⟩ := p
      obtain ⟨i1, i2, i3, i4, i5, i6, i7, i8⟩ := ih t' tr' l h1 hkm
      refine ⟨by simp; omega, e2, ?_, i4, i5, i6, i7, fun u hu => ?_⟩
      · rw [popTrees_cons, List.map_append, i3, List.take_succ, List.take_succ, List.take_succ, e2]
        rfl
      · obtain ⟨⟨L, g1, g2⟩, _⟩ := i8 u hu
        obtain ⟨L', g3, g4⟩ := edge_item h3 h4 h2 g1 e2
        exact ⟨⟨L', g3, g4 u g2⟩, L, g1, g2⟩

theorem edge_ne69 {s X : Nat} (hs : s < 656) (h69 : s ≠ 69) (hX : 199 ≤ X) : ¬ Edge s 69 X := by
  intro h
  have hk : KM 69 1 2 := by
    have : Nat.beq ((stF 69).kern.find 1 2) 0 = false := by decide +kernel
    intro h0; rw [h0] at this; exact Bool.noConfusion this
  have := ((edge_spec hs h69 h).2.2.2 1 2 hk).2.1
  rw [rhs1] at this
  have : 0 = X := by simpa using this
  omega

/-- The automaton can be led from any of its stacks to acceptance. -/
theorem finish : ∀ (n t : Nat) (tr : Tree) (l : TStk), EOK ((t, tr) :: l) → t ≠ 69 → (l.length + 1) * 1000 + rkF tr.sym < n →
    ∃ (N : Nat) (u : Tok) (rest : List Tok),
      (199 ≤ tr.sym → ((stF (topState l)).pred.find tr.sym).testBit (tsym u) = true ∧ (sfF tr.sym).testBit (tsym u) = true) ∧
      ∀ lim, N ≤ lim → ∃ m stk2, TSteps lim m ((t, tr) :: l) (u :: rest) stk2 [] ∧ topState stk2 = 69 := by
  intro n
  induction n with
  | zero => intro t tr l _ _ h; omega
  | succ n ih =>
    intro t tr l h h69 hn
    obtain ⟨m1, m2, m3, m4, m5⟩ : tb (sfF 200) 0 = true ∧ _ ∧ _ ∧ _ ∧ _ := by
      have := plan_misc
      simp only [band_iff] at this
      exact this
    have hb := h
    obtain ⟨h1, h2, h3, h4⟩ := hb
    obtain ⟨t1, t2, t3, t4⟩ := edge_spec h3 h4 h2
    obtain ⟨r, k, hk, ⟨rfl, rfl⟩ | ⟨hr1, hr2, hco, hk0, hsf⟩⟩ := plan_spec t2 t1 h69
    · -- the whole input has been read
      obtain ⟨_, e2, e3⟩ := t4 1 1 hk
      rw [rhs1] at e2
      have hsy : tr.sym = 200 := by
        have : N.input = tr.sym := by simpa using e2
        rw [← this]
      have h0 : topState l = 0 := by
        rcases e3 with e3 | ⟨_, e3⟩
        · exact km10 h3 e3
        · have := (pm_range h3 h4 e3).1
          have : lhs 1 = 199 := by decide +kernel
          omega
      have ht : t = 19 := by
        rcases h2 with ⟨g, _⟩ | ⟨_, g⟩
        · omega
        · rw [g, h0, hsy]; exact beq_iff.1 m4
      have hl : l = [] := by
        cases l with
        | nil => rfl
        | cons e l' =>
          obtain ⟨t', tr'⟩ := e
          exact absurd h0 (edge_spec h1.2.2.1 h1.2.2.2 h1.2.1).2.1
      subst ht
      subst hl
      refine ⟨4, ⟨0, .none, []⟩, [], fun _ => ⟨?_, ?_⟩, fun lim hlim => ⟨1, [(69, .leaf ⟨0, .none, []⟩), (19, tr)], .one ?_, rfl⟩⟩
      · rw [hsy]
        exact (item_goto (by decide) (by decide) item0 (X := 200) (β := [0]) (by rw [rhs1]; rfl) (by decide)).2.2.2 0 (by decide +kernel)
      · rw [hsy]
        rw [tb_eq] at m1; exact m1
      · rw [tstep_act (by simp; omega) (by simp [topState])]
        have ha : actionOn 19 0 = some (.shift 69) := (act_iff (by decide) _).2 (beq_iff.1 m5)
        show tAct (actionOn 19 0) _ _ = _
        rw [ha]; rfl
    · obtain ⟨u1, u2, u3, u4, u5, u6, u7, u8⟩ := up hr1 hr2 k t tr l h hk
      have hlr := pm_range u6 u7 u4
      obtain ⟨cs, c1, c2, c3, c4, c5⟩ := tame_list (l := (rhs r).drop (k + 1)) (fun Y hY =>
        tame (coF Y) Y (Nat.le_refl _) (hco Y hY) (rhs_le (by omega) hr2 (List.mem_of_mem_drop hY)))
      have hed : Edge (topState (l.drop k)) (gotoF (topState (l.drop k)) (lhs r)) (lhs r) := .inr ⟨u4, rfl⟩
      have hrk : ∀ X, X ≤ 334 → rkF X ≤ 900 := fun X hX => ble_iff.1 (allN_spec m3 X (by omega))
      have hlen : (l.drop k).length = l.length - k := List.length_drop
      obtain ⟨N, v, rest, hv, hrun⟩ := ih (gotoF (topState (l.drop k)) (lhs r)) (.node r (popTrees (k + 1) ((t, tr) :: l) ++ cs)) (l.drop k)
        ⟨u5, hed, u6, u7⟩ (fun h => edge_ne69 (X := lhs r) u6 u7 (by omega) (by rw [h] at hed; exact hed)) (by
          show _ + rkF (lhs r) < n
          rw [hlen]
          have := hrk (lhs r) hlr.2.1
          cases k with
          | zero =>
            have := (hk0 rfl).1
            rw [List.getD_eq_getElem?_getD, u2] at this
            have : rkF (lhs r) < rkF tr.sym := this
            simp only [Nat.sub_zero]; omega
          | succ k => omega)
      obtain ⟨hv1, hv2⟩ := hv (by show 199 ≤ lhs r; omega)
      have hv1 : ((stF (topState (l.drop k))).pred.find (lhs r)).testBit (tsym v) = true := hv1
      have hv2 : (sfF (lhs r)).testBit (tsym v) = true := hv2
      obtain ⟨⟨L, hL1, hL2⟩, L0, hL3, hL4⟩ := u8 _ hv1
      have hne : ∃ u rest', yieldL cs ++ v :: rest = u :: rest' ∧ tsym u = nextSym (yieldL cs) (tsym v) := by
        cases hy : yieldL cs with
        | nil => exact ⟨v, rest, rfl, rfl⟩
        | cons u w => exact ⟨u, w ++ v :: rest, rfl, rfl⟩
      obtain ⟨u, rest', hu1, hu2⟩ := hne
      refine ⟨N + (l.drop k).length + needL (k + 1) cs + (rhs r).length + 3, u, rest', fun hX => ⟨?_, ?_⟩, fun lim hlim => ?_⟩
      · rw [hu2]
        have hd : (rhs r).drop k = tr.sym :: (rhs r).drop (k + 1) := by
          have hlt := (List.getElem?_eq_some_iff.1 u2).1
          rw [List.drop_eq_getElem_cons hlt]
          congr 1
          exact (List.getElem?_eq_some_iff.1 u2).2
        refine (item_goto h3 h4 hL3 hd hX).2.2.2 _ ?_
        rw [← c2]
        exact first_next c1 hL4
      · rw [hu2, c5]
        exact hsf _ u2 hX _ hv2
      · have hstl : ((t, tr) :: l).length = (l.drop k).length + (k + 1) := by rw [hlen]; simp; omega
        obtain ⟨n1, stk', s', L', q1, q2, q3, q4, q5, q6, q7⟩ := complete_list lim r cs (k + 1) ((t, tr) :: l) (l.drop k).length v rest L c1 t1 hL1 (by omega) c2.symm hL2 (c3 _)
          (fun h => by omega) (fun h => by omega) (fun h => (hk0 (by omega)).2)
          (by
            intro c X a hc hX ha hlead
            rcases Nat.lt_or_ge X 199 with hlt | hge
            · unfold forbidShift contested
              have : decide (199 ≤ X) = false := by simp; omega
              rw [hX]
              simp only [this, Bool.false_and, Bool.and_false]
            · exact absurd hlead (c4 c (List.mem_of_getLast? hc) X a hge ha))
          hstl (by omega)
        have hs69 := item_ne69 q3 (by omega)
        have hcl : (rhs r).length = k + 1 + cs.length := by
          have h5 := congrArg List.length c2
          have h6 := (List.getElem?_eq_some_iff.1 u2).1
          simp at h5
          omega
        have hst' : stk'.length = (l.drop k).length + (rhs r).length := by
          have h5 := congrArg List.length q4
          rw [List.length_drop, hstl] at h5
          have h6 := congrArg List.length q5
          unfold popTrees at h6
          simp at h6
          omega
        have hfr : forbidReduce r (tsym v) = false := by
          rw [(fr_spec hr2 (tsym_lt v)).1, tb_eq]
          have h5 := allFrom_spec m2 r hr1 (by omega)
          rw [beq_iff, ← lhs_eq hr2] at h5
          have h5 : sfF (lhs r) &&& frF r = 0 := h5
          have h6 := Nat.testBit_and (sfF (lhs r)) (frF r) (tsym v)
          rw [h5, hv2] at h6
          simpa using h6.symm
        have hact : actionOn (topState stk') (tsym v) = some (.reduce r) := by
          rw [q2]
          exact item_red q7 hs69 q3 (by omega) (List.drop_eq_nil_of_le (by omega)) (tsym_lt v) q6 hfr
        have hd : stk'.drop (k + 1 + cs.length) = l.drop k := by
          rw [Nat.add_comm, ← List.drop_drop, q4]; rfl
        have hp : popTrees (k + 1 + cs.length) stk' = popTrees (k + 1) ((t, tr) :: l) ++ cs := by
          have e : popTrees (k + 1 + cs.length) stk' = popTrees (k + 1) (stk'.drop cs.length) ++ popTrees cs.length stk' := by
            unfold popTrees
            rw [Nat.add_comm, List.take_add, List.map_append, List.reverse_append]
          rw [e, q4, q5]
        obtain ⟨m, stk2, w1, w2⟩ := hrun lim (by omega)
        refine ⟨n1 + (m + 1), stk2, ?_, w2⟩
        rw [← hu1]
        refine TSteps.trans q1 (.step ?_ w1)
        rw [tstep_act (by omega) (by rw [q2]; exact hs69), hact]
        simp only [tAct, tReduce]
        rw [ruleLen_eq (by omega) hr2, ruleLhs_eq (by omega) hr2]
        simp only [hcl]
        rw [if_neg (by omega), hd, goto_spec u6 hlr.1 hlr.2.1, hp]

/-! ## Running on -/

theorem tReduce_rem {r : Nat} {stk stk' : TStk} {rem rem' x : List Tok} (h : tReduce r stk rem = .run stk' rem') : rem' = rem ∧ tReduce r stk (rem ++ x) = .run stk' (rem ++ x) := by
  unfold tReduce at h ⊢
  split at h
  · split at h
    · cases h
    · rename_i hlt
      rw [if_neg hlt]
      split at h
      · cases h
      · injection h with h1 h2
        exact ⟨h2.symm, by rw [h1]⟩
  · cases h

theorem tAct_rem {a : Option Act} {stk stk' : TStk} {rem rem' x : List Tok} (h : tAct a stk rem = .run stk' rem') :
    tAct a stk (rem ++ x) = .run stk' (rem' ++ x) ∧ (rem = [] → rem' = []) := by
  match a with
  | none => cases h
  | some .error => cases h
  | some (.reduce r) =>
    obtain ⟨h1, h2⟩ := tReduce_rem (x := x) (show tReduce r stk rem = .run stk' rem' from h)
    rw [h1]
    exact ⟨h2, id⟩
  | some (.shift s) =>
    cases rem with
    | nil => cases h
    | cons t rem =>
      have h : TRes.run ((s, .leaf t) :: stk) rem = .run stk' rem' := h
      injection h with h1 h2
      subst h1; subst h2
      exact ⟨rfl, fun h => by cases h⟩

theorem tstep_rem {lim : Nat} {stk stk' : TStk} {rem rem' x : List Tok} (h : tstep lim stk rem = .run stk' rem') :
    tstep lim stk (rem ++ x) = .run stk' (rem' ++ x) ∧ (rem = [] → rem' = []) ∧ topState stk ≠ 69 := by
  unfold tstep at h ⊢
  split at h
  · cases h
  rename_i hl
  rw [if_neg hl]
  split at h
  · cases h
  rename_i h69
  rw [if_neg h69]
  cases hn : noToken (topState stk) with
  | none => rw [hn] at h; cases h
  | some b =>
    rw [hn] at h
    cases b with
    | true =>
      obtain ⟨h1, h2⟩ := tAct_rem (x := x) h
      exact ⟨h1, h2, h69⟩
    | false =>
      cases rem with
      | nil => cases h
      | cons t rem =>
        obtain ⟨h1, h2⟩ := tAct_rem (x := x) h
        exact ⟨h1, h2, h69⟩

theorem TSteps.append {lim n : Nat} {a c : TStk} {b d : List Tok} (h : TSteps lim n a b c d) (x : List Tok) : TSteps lim n a (b ++ x) c (d ++ x) := by
  induction h with
  | refl => exact .refl _ _
  | step h _ ih => exact .step (tstep_rem h).1 ih

theorem TSteps.nil {lim n : Nat} {a c : TStk} {b d : List Tok} (h : TSteps lim n a b c d) : b = [] → d = [] := by
  induction h with
  | refl => exact id
  | step h _ ih => exact fun hb => ih ((tstep_rem (x := []) h).2.1 hb)

/-- The stack after the last shift: what it has read can be completed without regard to the next token. -/
def Good (stk : TStk) : Prop := ∃ stk0, stkYield stk0 = stkYield stk ∧ topState stk0 ≠ 69 ∧ EOK stk0 ∧ ∀ f, ∃ N, ∀ lim, N ≤ lim → StkOK lim stk0 f

theorem StkOK.next {lim : Nat} : ∀ {stk : TStk} {f f' : List Tok}, StkOK lim stk f → nextSym f 0 = nextSym f' 0 → StkOK lim stk f'
  | [], _, _, _, _ => trivial
  | (t, tr) :: stk, f, f', h, e => by
    simp only [StkOK] at h ⊢
    refine ⟨h.1.next ?_, h.2.1, h.2.2.1, h.2.2.2.1, h.2.2.2.2.1, by rw [← e]; exact h.2.2.2.2.2.1, h.2.2.2.2.2.2⟩
    rw [nextSym_append, nextSym_append, e]

theorem StkOK.large {lim : Nat} : ∀ {stk : TStk} {f : List Tok}, StkOK lim stk f → ∃ N, ∀ lim', N ≤ lim' → StkOK lim' stk f
  | [], _, _ => ⟨0, fun _ _ => trivial⟩
  | (t, tr) :: stk, f, h => by
    simp only [StkOK] at h
    obtain ⟨N, hN⟩ := h.1.large
    refine ⟨N + stk.length + tr.need + 2, fun lim' hl => ?_⟩
    simp only [StkOK]
    exact ⟨hN lim' (by omega), h.2.1, h.2.2.1, h.2.2.2.1, h.2.2.2.2.1, h.2.2.2.2.2.1, h.2.2.2.2.2.2.1, fun _ => by omega⟩

theorem run_ok {lim n : Nat} {stk stk' : TStk} {rem rem' : List Tok} (h : TSteps lim n stk rem stk' rem') : rem' ≠ [] → StkOK lim stk rem → (topState stk ≠ 69 → Good stk) →
    StkOK lim stk' rem' ∧ stkYield stk' ++ rem' = stkYield stk ++ rem ∧ (topState stk' ≠ 69 → Good stk') := by
  induction h with
  | refl => exact fun _ h hg => ⟨h, rfl, hg⟩
  | @step n stk rem stk1 rem1 stk' rem' hst hrest ih =>
    intro hne hok hg
    cases rem with
    | nil => exact absurd (hrest.nil ((tstep_rem (x := []) hst).2.1 rfl)) hne
    | cons t rem =>
      have h69 := (tstep_rem (x := []) hst).2.2
      rcases step_sound hok with ⟨h1, _⟩ | ⟨h1, _⟩ | ⟨h1, _⟩ | ⟨s, _, h2, h3, h4⟩ | ⟨r, stk2, _, _, _, _, h5, h6, h7⟩
      · rw [h1] at hst; cases hst
      · rw [h1] at hst; cases hst
      · rw [h1] at hst; cases hst
      · rw [h2] at hst
        injection hst with e1 e2
        subst e1; subst e2
        obtain ⟨g1, g2, g3⟩ := ih hne h3 (fun hn => ⟨_, rfl, hn, h3.eok, fun f => StkOK.large (lim := lim) (by
          simp only [StkOK, Tree.yield] at h3 ⊢
          exact ⟨h3.1.next rfl, h3.2.1, h3.2.2.1, h3.2.2.2.1, trivial, trivial, h3.2.2.2.2.2.2⟩)⟩)
        exact ⟨g1, by rw [g2, h4, List.append_assoc]; rfl, g3⟩
      · rw [h5] at hst
        injection hst with e1 e2
        subst e1; subst e2
        obtain ⟨stk0, k1, k2⟩ := hg h69
        obtain ⟨g1, g2, g3⟩ := ih hne h6 (fun _ => ⟨stk0, by rw [k1, h7], k2⟩)
        exact ⟨g1, by rw [g2, h7], g3⟩

theorem Good.sentence {stk : TStk} (h : Good stk) : ∃ T : Tree, Derives T.yield T ∧ stkYield stk <+: T.yield := by
  obtain ⟨stk0, h1, h2, h3, h4⟩ := h
  rw [← h1]
  cases stk0 with
  | nil =>
    have hc : Nat.ble 1 (coF 200) = true := by decide +kernel
    obtain ⟨T, t1, t2, t3, _⟩ := tame (coF 200) 200 (Nat.le_refl _) (ble_iff.1 hc) (by decide)
    exact ⟨T, ⟨t1, t2, rfl, t3 _⟩, T.yield, rfl⟩
  | cons e l =>
    obtain ⟨t, tr⟩ := e
    obtain ⟨N, u, rest, _, hrun⟩ := finish _ t tr l h3 h2 (Nat.lt_succ_self _)
    obtain ⟨N', hN⟩ := h4 (u :: rest ++ [u])
    obtain ⟨m, stk2, r1, r2⟩ := hrun (N + N' + 1) (by omega)
    obtain ⟨s1, s2, _⟩ := run_ok (r1.append [u]) (by simp) (hN _ (by omega)) (fun _ => ⟨_, rfl, h2, h3, h4⟩)
    obtain ⟨s, T, e, a1, a2, a3, a4, a5, _⟩ := accept_shape s1 r2
    refine ⟨T, ⟨a3, a4, rfl, a5⟩, ?_⟩
    have hy : stkYield stk2 = T.yield ++ [e] := by
      rw [a1, stkYield_cons, stkYield_cons]
      rfl
    rw [hy] at s2
    have s3 : T.yield ++ [e] = stkYield ((t, tr) :: l) ++ (u :: rest) := by
      apply List.append_cancel_right (bs := [u])
      simpa using s2
    rcases List.eq_nil_or_concat rest with hr | ⟨w, x, hr⟩
    · subst hr
      have := (List.append_inj' s3 rfl).1
      exact ⟨[], by rw [this]; simp⟩
    · rw [hr, List.concat_eq_append] at s3
      have s3 : T.yield ++ [e] = (stkYield ((t, tr) :: l) ++ u :: w) ++ [x] := by rw [s3]; simp
      have := (List.append_inj' s3 rfl).1
      exact ⟨u :: w, this.symm⟩

/-- What the automaton has read begins a sentence that respects the precedences. -/
theorem viable_prec {lim n : Nat} {toks : List Tok} {stk : TStk} {t : Tok} {rest : List Tok} (h : TSteps lim n [] toks stk (t :: rest)) (h69 : topState stk ≠ 69) :
    ∃ T : Tree, Derives T.yield T ∧ stkYield stk <+: T.yield :=
  ((run_ok h (by simp) trivial (fun _ => ⟨[], rfl, by decide, trivial, fun _ => ⟨0, fun _ _ => trivial⟩⟩)).2.2 h69).sentence

end Verif.LR

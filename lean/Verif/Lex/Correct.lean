import Verif.Lex.Nfa
import Verif.Lex.Scan
import Verif.Lex.Cert0
import Verif.Lex.Cert1
import Verif.Lex.Cert2
import Verif.Lex.Cert3
/-! The scanner tables implement the lexical rules (proof). -/
set_option maxRecDepth 100000
namespace Verif.Lex

/-! ## Whole-table facts evaluated by the kernel -/

def clsOf : Option Elem → Nat
  | none => 0
  | some e => e.cls
def isStar : Option Elem → Bool
  | none => false
  | some e => e.star

theorem posL_cls : posL.map clsOf = elemCls := by decide +kernel
theorem posL_star : maskOf isStar posL = starMask := by decide +kernel
theorem posL_acc : maskOf (fun o : Option Elem => o.isNone) posL = accMask := by decide +kernel
theorem starAdj : Nat.land starMask (Nat.shiftLeft starMask 1) = 0 := by decide +kernel

/-- Every element class contains a byte class entirely or not at all, as recorded in `classPos`. -/
noncomputable def clsOk (c : Nat) : Bool :=
  Bool.rec false
    (Nat.beq (maskOf (fun m => Bool.rec true false (Nat.beq (Nat.land m (classBytes.get c)) 0)) elemCls) (classPos.get c))
    (Nat.beq (maskOf (fun m => Nat.beq (Nat.land m (classBytes.get c)) (classBytes.get c)) elemCls) (classPos.get c))
theorem clsOk_all : allFrom 1 76 clsOk = true := by decide +kernel

noncomputable def byteOk (b : Nat) : Bool :=
  Bool.rec false
    (Bool.rec false (Nat.beq (Nat.land (Nat.shiftRight (classBytes.get (yy_ecT.get b)) b) 1) 1)
       (Nat.ble (yy_ecT.get b) 76))
    (Nat.ble 1 (yy_ecT.get b))
theorem byteOk_all : allFrom 1 255 byteOk = true := by decide +kernel


noncomputable def startBits (sc : SC) (rs : List LexRule) : Nat → Nat :=
  List.rec (motive := fun _ => Nat → Nat) (fun _ => 0)
    (fun r _ ih off => Nat.lor (Bool.rec 0 (Nat.shiftLeft 1 off) (r.active sc)) (ih (off + (r.pat.length + 1)))) rs
theorem start1 : epsM (startBits .initial lexRules 0) = stateMasks.get 1 := by decide +kernel
theorem start3 : epsM (startBits .squote lexRules 0) = stateMasks.get 3 := by decide +kernel
theorem start5 : epsM (startBits .comment lexRules 0) = stateMasks.get 5 := by decide +kernel
theorem lexRules_len : lexRules.length = 188 := by decide +kernel
noncomputable def accPosOk (i : Nat) : Bool :=
  Nat.beq (accPosT.get (Nat.add i 1)) (Nat.add (baseOf lexRules i) ((lexRules.getD i ⟨none, []⟩).pat.length))
theorem accPosOk_all : allN 188 accPosOk = true := by decide +kernel
theorem acc7 : yy_accept[7]? = some 190 := by decide +kernel
theorem next7 : yyNext 7 0 = some 1367 := by decide +kernel
theorem ec0 : yy_ec[0]? = some 0 := by decide +kernel
theorem accT_le : yy_acceptT.get 1367 = 0 := by decide +kernel

/-! ## Bit lemmas -/

theorem testBit_epsM (x q : Nat) : (epsM x).testBit q =
    (x.testBit q || (decide (1 ≤ q) && (x.testBit (q - 1) && starMask.testBit (q - 1)))) := by
  show (x ||| ((x &&& starMask) <<< 1)).testBit q = _
  rw [Nat.testBit_or, Nat.testBit_shiftLeft]
  simp [Nat.testBit_and]

theorem testBit_stepM (d b q : Nat) : (stepM d b).testBit q = true ↔
    ∃ p, d.testBit p = true ∧ b.testBit p = true ∧
      ((starMask.testBit p = false ∧ (q = p + 1 ∨ (starMask.testBit (p + 1) = true ∧ q = p + 2))) ∨
       (starMask.testBit p = true ∧ (q = p ∨ q = p + 1))) := by
  have hy : ∀ k, ((Nat.lor (Nat.shiftLeft (Nat.xor (Nat.land d b) (Nat.land (Nat.land d b) starMask)) 1)
    (Nat.land (Nat.land d b) starMask))).testBit k = true ↔
      (1 ≤ k ∧ d.testBit (k-1) = true ∧ b.testBit (k-1) = true ∧ starMask.testBit (k-1) = false) ∨
      (d.testBit k = true ∧ b.testBit k = true ∧ starMask.testBit k = true) := by
    intro k
    show (((((d &&& b) ^^^ ((d &&& b) &&& starMask)) <<< 1) ||| ((d &&& b) &&& starMask))).testBit k = true ↔ _
    simp only [Nat.testBit_or, Nat.testBit_shiftLeft, Nat.testBit_xor, Nat.testBit_and]
    cases d.testBit (k-1) <;> cases b.testBit (k-1) <;> cases starMask.testBit (k-1) <;>
      cases d.testBit k <;> cases b.testBit k <;> cases starMask.testBit k <;> simp
  unfold stepM
  rw [testBit_epsM]
  simp only [Bool.or_eq_true, Bool.and_eq_true, decide_eq_true_eq, hy]
  constructor
  · rintro ((⟨h1, h2, h3, h4⟩ | ⟨h2, h3, h4⟩) | ⟨hq, (⟨h1, h2, h3, h4⟩ | ⟨h2, h3, h4⟩), h5⟩)
    · exact ⟨q - 1, h2, h3, .inl ⟨h4, .inl (by omega)⟩⟩
    · exact ⟨q, h2, h3, .inr ⟨h4, .inl rfl⟩⟩
    · refine ⟨q - 1 - 1, h2, h3, .inl ⟨h4, .inr ⟨?_, by omega⟩⟩⟩
      have : q - 1 - 1 + 1 = q - 1 := by omega
      rw [this]; exact h5
    · exact ⟨q - 1, h2, h3, .inr ⟨h4, .inr (by omega)⟩⟩
  · rintro ⟨p, h1, h2, (⟨h3, (rfl | ⟨h4, rfl⟩)⟩ | ⟨h3, (rfl | rfl)⟩)⟩
    · exact .inl (.inl ⟨by omega, h1, h2, h3⟩)
    · refine .inr ⟨by omega, .inl ⟨by omega, ?_, ?_, ?_⟩, ?_⟩ <;> simpa
    · exact .inl (.inr ⟨h1, h2, h3⟩)
    · exact .inr ⟨by omega, .inr ⟨by simpa, by simpa, by simpa⟩, by simpa⟩

theorem testBit_ofland {x k : Nat} (h : Nat.beq (Nat.land (Nat.shiftRight x k) 1) 1 = true) : x.testBit k = true := by
  have h : (x >>> k) &&& 1 = 1 := Nat.eq_of_beq_eq_true h
  rw [Nat.testBit, Nat.and_comm, h]; rfl

theorem starE (p : Nat) : starMask.testBit p = true ↔ ∃ e, E p = some e ∧ e.star = true := by
  rw [← posL_star, testBit_maskOf]
  unfold E
  rcases h : posL[p]? with _ | (_ | e) <;> simp [isStar]

theorem starE_false {p : Nat} {e} (h : E p = some e) : starMask.testBit p = e.star := by
  rw [← posL_star, testBit_maskOf]
  unfold E at h
  rcases h' : posL[p]? with _ | (_ | e') <;> simp [h'] at h ⊢
  subst h; rfl

theorem accE (p : Nat) : accMask.testBit p = true ↔ posL[p]? = some none := by
  rw [← posL_acc, testBit_maskOf]
  rcases h : posL[p]? with _ | (_ | e) <;> simp

theorem star_not_adj (p : Nat) (h : starMask.testBit p = true) : starMask.testBit (p + 1) = false := by
  have h2 : (starMask &&& (starMask <<< 1)).testBit (p + 1) = false := by
    have : starMask &&& (starMask <<< 1) = 0 := starAdj
    rw [this]; simp
  rw [Nat.testBit_and, Nat.testBit_shiftLeft] at h2
  simpa [h] using h2

/-- The byte set of class `c` as recorded. -/
theorem mem_class (p b : Nat) (h1 : 1 ≤ b) (h2 : b ≤ 255) :
    (classPos.get (yy_ecT.get b)).testBit p = true ↔ ∃ e, E p = some e ∧ e.cls.mem b = true := by
  have hb := allFrom_spec byteOk_all b h1 (by omega)
  obtain ⟨hb1, hb⟩ := and_spec hb
  obtain ⟨hb2, hb3⟩ := and_spec hb
  have hb3 := testBit_ofland hb3
  generalize yy_ecT.get b = c at *
  have hc := allFrom_spec clsOk_all c (Nat.le_of_ble_eq_true hb1) (by have := Nat.le_of_ble_eq_true hb2; omega)
  obtain ⟨hc1, hc2⟩ := and_spec hc
  have hc1 := Nat.eq_of_beq_eq_true hc1
  have hc2 := Nat.eq_of_beq_eq_true hc2
  have e1 := congrArg (fun m => Nat.testBit m p) hc1
  have e2 := congrArg (fun m => Nat.testBit m p) hc2
  simp only [testBit_maskOf] at e1 e2
  rw [← posL_cls] at e1 e2
  unfold E
  rcases h : posL[p]? with _ | o
  · simp [h] at e1 ⊢; exact e1
  · have hcls : (posL.map clsOf)[p]? = some (clsOf o) := by simp [h]
    rw [hcls] at e1 e2
    have key : (classPos.get c).testBit p = true ↔ (clsOf o).testBit b = true := by
      rw [← e1]
      constructor
      · intro hh
        have hh : clsOf o &&& classBytes.get c = classBytes.get c := Nat.eq_of_beq_eq_true (by simpa using hh)
        have := congrArg (fun m => Nat.testBit m b) hh
        simp [Nat.testBit_and, hb3] at this
        exact this
      · intro hh
        cases hp : (classPos.get c).testBit p with
        | true => rw [e1]; exact hp
        | false =>
          exfalso
          rw [hp] at e2
          have hz : Nat.beq (Nat.land (clsOf o) (classBytes.get c)) 0 = true := by
            cases hq : Nat.beq (Nat.land (clsOf o) (classBytes.get c)) 0 with
            | true => rfl
            | false =>
              change (Bool.rec true false (Nat.beq (Nat.land (clsOf o) (classBytes.get c)) 0) : Bool) = false at e2
              rw [hq] at e2; exact Bool.noConfusion e2
          have hz : clsOf o &&& classBytes.get c = 0 := Nat.eq_of_beq_eq_true hz
          have := congrArg (fun m => Nat.testBit m b) hz
          simp [Nat.testBit_and, hb3, hh] at this
    rw [key]
    rcases o with _ | e
    · simp [clsOf]
    · simp [clsOf, CC.mem]

/-! ## The set of positions reached -/

/-- Positions reached from the start of a rule active in `sc` by consuming `w`. -/
def Reach (sc : SC) (w : Bytes) (q : Nat) : Prop :=
  ∃ i r, lexRules[i]? = some r ∧ r.active sc = true ∧ Run (baseOf lexRules i) w q

theorem run_nil_iff (p q : Nat) : Run p [] q ↔ q = p ∨ (starMask.testBit p = true ∧ q = p + 1) := by
  constructor
  · intro h
    cases h with
    | refl => exact .inl rfl
    | skip a s h =>
      have hs := (starE p).2 ⟨_, a, s⟩
      refine .inr ⟨hs, ?_⟩
      cases h with
      | refl => rfl
      | skip a' s' _ =>
        have := (starE (p+1)).2 ⟨_, a', s'⟩
        rw [star_not_adj p hs] at this; cases this
  · rintro (rfl | ⟨h, rfl⟩)
    · exact .refl _
    · obtain ⟨e, a, s⟩ := (starE p).1 h
      exact .skip a s (.refl _)

theorem startBits_testBit (sc : SC) : ∀ (rs : List LexRule) (off q : Nat),
    (startBits sc rs off).testBit q = true ↔ ∃ i r, rs[i]? = some r ∧ r.active sc = true ∧ q = off + baseOf rs i := by
  intro rs
  induction rs with
  | nil => intro off q; simp [startBits]
  | cons r rs ih =>
    intro off q
    have hdef : startBits sc (r :: rs) off = (Bool.rec 0 (Nat.shiftLeft 1 off) (r.active sc) : Nat) ||| startBits sc rs (off + (r.pat.length + 1)) := rfl
    rw [hdef, Nat.testBit_or, Bool.or_eq_true, ih]
    constructor
    · rintro (h | ⟨i, r', h1, h2, h3⟩)
      · cases ha : r.active sc with
        | false => rw [ha] at h; simp at h
        | true =>
          rw [ha] at h
          have h : (1 <<< off).testBit q = true := h
          rw [Nat.one_shiftLeft, Nat.testBit_two_pow] at h
          exact ⟨0, r, rfl, ha, by simp at h; simp [baseOf, h]⟩
      · exact ⟨i + 1, r', by simpa using h1, h2, by simp [baseOf]; omega⟩
    · rintro ⟨i, r', h1, h2, h3⟩
      cases i with
      | zero =>
        simp at h1; subst h1
        left; rw [h2]
        show (1 <<< off).testBit q = true
        rw [Nat.one_shiftLeft, Nat.testBit_two_pow]; simp [baseOf] at h3; simp [h3]
      | succ i => 
        right
        exact ⟨i, r', by simpa using h1, h2, by simp [baseOf] at h3; omega⟩

theorem startState_mask (sc : SC) : epsM (startBits sc lexRules 0) = stateMasks.get (startState sc) := by
  cases sc
  · exact start1
  · exact start3
  · exact start5

theorem start_reach (sc : SC) (q : Nat) :
    (stateMasks.get (startState sc)).testBit q = true ↔ Reach sc [] q := by
  rw [← startState_mask, testBit_epsM]
  simp only [Bool.or_eq_true, Bool.and_eq_true, decide_eq_true_eq, startBits_testBit]
  unfold Reach
  simp only [run_nil_iff]
  constructor
  · rintro (⟨i, r, h1, h2, h3⟩ | ⟨h0, ⟨i, r, h1, h2, h3⟩, h4⟩)
    · exact ⟨i, r, h1, h2, .inl (by omega)⟩
    · refine ⟨i, r, h1, h2, .inr ⟨?_, by omega⟩⟩
      have : baseOf lexRules i = q - 1 := by omega
      rw [this]; exact h4
  · rintro ⟨i, r, h1, h2, (h3 | ⟨h3, h4⟩)⟩
    · exact .inl ⟨i, r, h1, h2, by omega⟩
    · refine .inr ⟨by omega, ⟨i, r, h1, h2, by omega⟩, ?_⟩
      have : q - 1 = baseOf lexRules i := by omega
      rw [this]; exact h3

/-- Consuming one more byte. -/
theorem step_reach {sc : SC} {w : Bytes} {b m : Nat} (h1 : 1 ≤ b) (h2 : b ≤ 255)
    (hm : ∀ q, m.testBit q = true ↔ Reach sc w q) (q : Nat) :
    (stepM m (classPos.get (yy_ecT.get b))).testBit q = true ↔ Reach sc (w ++ [b]) q := by
  rw [testBit_stepM]
  constructor
  · rintro ⟨p, hp, hb, hs⟩
    obtain ⟨i, r, hi, ha, hr⟩ := (hm p).1 hp
    obtain ⟨e, he, hmem⟩ := (mem_class p b h1 h2).1 hb
    refine ⟨i, r, hi, ha, hr.trans ?_⟩
    rw [starE_false he] at hs
    rcases hs with ⟨hs, hq⟩ | ⟨hs, hq⟩
    · refine .one he hs hmem ((run_nil_iff _ _).2 ?_)
      exact hq
    · refine .more he hs hmem ((run_nil_iff _ _).2 ?_)
      rcases hq with hq | hq
      · exact .inl hq
      · exact .inr ⟨by rw [starE_false he]; exact hs, hq⟩
  · rintro ⟨i, r, hi, ha, hr⟩
    obtain ⟨p, hp, hpq⟩ := hr.split w [b] rfl
    have key : ∀ p, Run (baseOf lexRules i) w p → Run p [b] q → ¬ (∃ e, E p = some e ∧ e.star = true ∧ Run (p+1) [b] q) → 
      ∃ p, m.testBit p = true ∧ (classPos.get (yy_ecT.get b)).testBit p = true ∧
      ((starMask.testBit p = false ∧ (q = p + 1 ∨ (starMask.testBit (p + 1) = true ∧ q = p + 2))) ∨
       (starMask.testBit p = true ∧ (q = p ∨ q = p + 1))) := by
      intro p hp hpq hns
      refine ⟨p, (hm p).2 ⟨i, r, hi, ha, hp⟩, ?_⟩
      cases hpq with
      | one he hs hmem h =>
        refine ⟨(mem_class p b h1 h2).2 ⟨_, he, hmem⟩, .inl ⟨by rw [starE_false he]; exact hs, ?_⟩⟩
        exact (run_nil_iff _ _).1 h
      | skip he hs h => exact absurd ⟨_, he, hs, h⟩ hns
      | more he hs hmem h =>
        refine ⟨(mem_class p b h1 h2).2 ⟨_, he, hmem⟩, .inr ⟨by rw [starE_false he]; exact hs, ?_⟩⟩
        rcases (run_nil_iff _ _).1 h with h | ⟨_, h⟩
        · exact .inl h
        · exact .inr h
    by_cases hns : ∃ e, E p = some e ∧ e.star = true ∧ Run (p+1) [b] q
    · obtain ⟨e, he, hs, h⟩ := hns
      refine key (p+1) ?_ h ?_
      · have := hp.trans (.skip he hs (.refl (p+1)))
        simpa using this
      · rintro ⟨e', he', hs', _⟩
        have := (starE (p+1)).2 ⟨_, he', hs'⟩
        rw [star_not_adj p ((starE p).2 ⟨_, he, hs⟩)] at this; cases this
    · exact key p hp hpq hns


/-! ## Table moves -/

theorem getElem?_of_getD {l : List Nat} {i : Nat} (h : i < l.length) : l[i]? = some (l.getD i 0) := by
  simp [h, List.getD_eq_getElem?_getD]

theorem fastNext_spec : ∀ (f s c t : Nat), fastNext f s c = t → t ≠ 0 → yyNextFuel f s c = some t := by
  intro f
  induction f with
  | zero => intro s c t h h0; exact absurd h.symm h0
  | succ f ih =>
    intro s c t h h0
    have hdef : fastNext (f+1) s c = (Bool.rec 0
          (Bool.rec 
            (Bool.rec (fastNext f (yy_defT.get s) c) (fastNext f (yy_defT.get s) (yy_metaT.get c)) (Nat.ble 1368 (yy_defT.get s)))
            (yy_nxtT.get (Nat.add (yy_baseT.get s) c)) (Nat.beq (yy_chkT.get (Nat.add (yy_baseT.get s) c)) s))
          (Bool.rec false (Bool.rec false (Nat.blt s 1375) (Nat.blt c 77)) (Nat.blt (Nat.add (yy_baseT.get s) c) 9032)) : Nat) := rfl
    rw [hdef] at h
    cases hb : (Bool.rec false (Bool.rec false (Nat.blt s 1375) (Nat.blt c 77)) (Nat.blt (Nat.add (yy_baseT.get s) c) 9032) : Bool) with
    | false => rw [hb] at h; exact absurd h.symm h0
    | true =>
      rw [hb] at h
      obtain ⟨hk, hb'⟩ := and_spec hb
      obtain ⟨hc, hs⟩ := and_spec hb'
      have hk : yy_baseT.get s + c < 9032 := Nat.le_of_ble_eq_true hk
      have hc : c < 77 := Nat.le_of_ble_eq_true hc
      have hs : s < 1375 := Nat.le_of_ble_eq_true hs
      have lb : yy_base[s]? = some (yy_baseT.get s) := by
        rw [getElem?_of_getD (by rw [yy_base_len]; exact hs), yy_base_get s hs]
      have ld : yy_def[s]? = some (yy_defT.get s) := by
        rw [getElem?_of_getD (by rw [yy_def_len]; exact hs), yy_def_get s hs]
      have lm : yy_meta[c]? = some (yy_metaT.get c) := by
        rw [getElem?_of_getD (by rw [yy_meta_len]; exact hc), yy_meta_get c hc]
      have lc : yy_chk[yy_baseT.get s + c]? = some (yy_chkT.get (yy_baseT.get s + c)) := by
        rw [getElem?_of_getD (by rw [yy_chk_len]; exact hk), yy_chk_get _ hk]
      have ln : yy_nxt[yy_baseT.get s + c]? = some (yy_nxtT.get (yy_baseT.get s + c)) := by
        rw [getElem?_of_getD (by rw [yy_nxt_len]; exact hk), yy_nxt_get _ hk]
      simp only [yyNextFuel, lb, lc, ld, lm, ln, bind, Option.bind]
      cases he : Nat.beq (yy_chkT.get (Nat.add (yy_baseT.get s) c)) s with
      | true =>
        rw [he] at h
        have he : yy_chkT.get (yy_baseT.get s + c) = s := Nat.eq_of_beq_eq_true he
        rw [if_pos he]; exact congrArg some h
      | false =>
        rw [he] at h
        have he : yy_chkT.get (yy_baseT.get s + c) ≠ s := Nat.ne_of_beq_eq_false he
        rw [if_neg he]
        cases hg : Nat.ble 1368 (yy_defT.get s) with
        | true =>
          rw [hg] at h
          have hg : yy_defT.get s ≥ 1368 := Nat.le_of_ble_eq_true hg
          simp only [if_pos hg]
          exact ih _ _ _ h h0
        | false =>
          rw [hg] at h
          have hg : ¬ yy_defT.get s ≥ 1368 := by
            intro hle; rw [Nat.ble_eq_true_of_le hle] at hg; cases hg
          simp only [if_neg hg]
          exact ih _ _ _ h h0

theorem rowOk_all (s : Nat) (h : s < 1367) : rowOk s = true := by
  by_cases h0 : s < 342
  · exact rowsPart0 s (by omega) h0
  by_cases h1 : s < 684
  · exact rowsPart1 s (by omega) h1
  by_cases h2 : s < 1026
  · exact rowsPart2 s (by omega) h2
  exact rowsPart3 s (by omega) h

/-- A state the scanner can be in while matching. -/
def Live (s : Nat) : Prop := s < 1367 ∧ okState s = true

theorem okState_gt {s : Nat} (h : 7 < s) : okState s = true := by
  have : Nat.blt 7 s = true := Nat.ble_eq_true_of_le h
  unfold okState; rw [this]

theorem start_live (sc : SC) : Live (startState sc) := by
  cases sc <;> exact ⟨by decide, by decide +kernel⟩

theorem live_row {s : Nat} (h : Live s) :
    accOk s = true ∧ fastNext 8 s 0 = 7 ∧ ∀ c, 1 ≤ c → c ≤ 76 → cellOk s c = true := by
  have hr := rowOk_all s h.1
  unfold rowOk at hr
  rw [h.2] at hr
  obtain ⟨h1, h2⟩ := and_spec hr
  obtain ⟨h2, h3⟩ := and_spec h2
  exact ⟨h1, Nat.eq_of_beq_eq_true h2, fun c hc1 hc2 => allFrom_spec h3 c hc1 (by omega)⟩

theorem live_eob {s : Nat} (h : Live s) : yyNext s 0 = some 7 :=
  fastNext_spec 8 s 0 7 (live_row h).2.1 (by decide)

theorem ec_ok {b : Nat} (h1 : 1 ≤ b) (h2 : b ≤ 255) :
    yy_ec[b]? = some (yy_ecT.get b) ∧ 1 ≤ yy_ecT.get b ∧ yy_ecT.get b ≤ 76 := by
  have hb := allFrom_spec byteOk_all b h1 (by omega)
  obtain ⟨hb1, hb⟩ := and_spec hb
  obtain ⟨hb2, hb3⟩ := and_spec hb
  refine ⟨?_, Nat.le_of_ble_eq_true hb1, Nat.le_of_ble_eq_true hb2⟩
  rw [getElem?_of_getD (by rw [yy_ec_len]; omega), yy_ec_get b (by omega)]

theorem live_next {s b : Nat} (h : Live s) (h1 : 1 ≤ b) (h2 : b ≤ 255) :
    ∃ t, yyNext s (yy_ecT.get b) = some t ∧ (t = 1367 ∨ Live t) ∧
      stateMasks.get t = stepM (stateMasks.get s) (classPos.get (yy_ecT.get b)) := by
  obtain ⟨_, hc1, hc2⟩ := ec_ok h1 h2
  have hcell := (live_row h).2.2 _ hc1 hc2
  unfold cellOk at hcell
  generalize ht : fastNext 8 s (yy_ecT.get b) = t at hcell
  obtain ⟨g1, hcell⟩ := and_spec hcell
  obtain ⟨g2, g3⟩ := and_spec hcell
  have g1 : 7 < t := Nat.le_of_ble_eq_true g1
  have g2 : t ≤ 1367 := Nat.le_of_ble_eq_true g2
  refine ⟨t, fastNext_spec _ _ _ _ ht (by omega), ?_, Nat.eq_of_beq_eq_true g3⟩
  by_cases e : t = 1367
  · exact .inl e
  · exact .inr ⟨by omega, okState_gt g1⟩

theorem jam_mask : stateMasks.get 1367 = 0 := by decide +kernel

theorem accept_get {s : Nat} (h : s < 1368) : yy_accept[s]? = some (yy_acceptT.get s) := by
  rw [getElem?_of_getD (by rw [yy_accept_len]; exact h), yy_accept_get s h]

/-! ## Acceptance -/

theorem baseOf_mono (rs : List LexRule) : ∀ i j ri, i < j → j < rs.length → rs[i]? = some ri →
    baseOf rs i + ri.pat.length < baseOf rs j := by
  induction rs with
  | nil => intro i j ri _ h; simp at h
  | cons r rs ih =>
    intro i j ri hij hj hi
    cases j with
    | zero => omega
    | succ j =>
      cases i with
      | zero => simp at hi; subst hi; simp [baseOf]; omega
      | succ i =>
        have := ih i j ri (by omega) (by simpa using hj) (by simpa using hi)
        simp [baseOf]; omega

theorem accPos_eq {i : Nat} {r : LexRule} (h : lexRules[i]? = some r) :
    accPosT.get (i + 1) = baseOf lexRules i + r.pat.length := by
  have hlt : i < lexRules.length := by
    rcases Nat.lt_or_ge i lexRules.length with h' | h'
    · exact h'
    · rw [List.getElem?_eq_none h'] at h; cases h
  have := Nat.eq_of_beq_eq_true (allN_spec accPosOk_all i (by rw [← lexRules_len]; exact hlt))
  have e : lexRules.getD i ⟨none, []⟩ = r := by simp [List.getD_eq_getElem?_getD, h]
  rw [e] at this; exact this

/-- A rule matches `w` iff its accepting position is reached. -/
theorem ruleMatches_iff (sc : SC) (w : Bytes) (i : Nat) (r : LexRule) (h : lexRules[i]? = some r) :
    RuleMatches sc (i + 1) w ↔ Reach sc w (accPosT.get (i + 1)) := by
  rw [accPos_eq h]
  have hs := seg_rule h
  constructor
  · rintro ⟨r', h', _, ha, hm⟩
    simp at h'; rw [h] at h'; cases h'
    exact ⟨i, r, h, ha, run_of_matches hm _ hs⟩
  · rintro ⟨j, r', hj, ha, hr⟩
    obtain ⟨e, hm⟩ := matches_of_run hr r'.pat (seg_rule hj) hs.2
    have hij : i = j := by
      rcases Nat.lt_trichotomy i j with g | g | g
      · have hjl : j < lexRules.length := by
          rcases Nat.lt_or_ge j lexRules.length with h' | h'
          · exact h'
          · rw [List.getElem?_eq_none h'] at hj; cases hj
        have := baseOf_mono lexRules i j r g hjl h
        omega
      · exact g
      · have hil : i < lexRules.length := by
          rcases Nat.lt_or_ge i lexRules.length with h' | h'
          · exact h'
          · rw [List.getElem?_eq_none h'] at h; cases h
        have := baseOf_mono lexRules j i r' g hil hj
        omega
    subst hij
    rw [h] at hj; cases hj
    exact ⟨r, by simpa using h, by omega, ha, hm⟩

theorem acc_bit {i : Nat} {r : LexRule} (h : lexRules[i]? = some r) : accMask.testBit (accPosT.get (i+1)) = true := by
  rw [accE, accPos_eq h]
  exact (seg_posOf lexRules i r h).2

theorem accPos_mono {i j : Nat} (hij : i < j) (hj : j < 188) : accPosT.get (i + 1) < accPosT.get (j + 1) := by
  have hjl : j < lexRules.length := by rw [lexRules_len]; exact hj
  have h1 : lexRules[i]? = some lexRules[i] := by simp
  have h2 : lexRules[j]? = some lexRules[j] := by simp
  rw [accPos_eq h1, accPos_eq h2]
  have := baseOf_mono lexRules i j _ hij hjl h1
  omega

/-- What `yy_accept` says about a live state that stands for `w`. -/
theorem accept_spec {sc : SC} {w : Bytes} {s : Nat} (h : Live s)
    (hm : ∀ q, (stateMasks.get s).testBit q = true ↔ Reach sc w q) :
    (yy_acceptT.get s = 0 → ∀ r, ¬ RuleMatches sc r w) ∧
    (yy_acceptT.get s ≠ 0 → yy_acceptT.get s ≤ 188 ∧ RuleMatches sc (yy_acceptT.get s) w ∧
      ∀ r, RuleMatches sc r w → yy_acceptT.get s ≤ r) := by
  have ha := (live_row h).1
  unfold accOk at ha
  have hx : ∀ q, (Nat.land (stateMasks.get s) accMask).testBit q = true ↔ Reach sc w q ∧ accMask.testBit q = true := by
    intro q
    show (stateMasks.get s &&& accMask).testBit q = true ↔ _
    rw [Nat.testBit_and, Bool.and_eq_true, hm]
  have hrule : ∀ r, RuleMatches sc r w → 1 ≤ r ∧ r ≤ 188 ∧
      (Nat.land (stateMasks.get s) accMask).testBit (accPosT.get r) = true := by
    intro r hr
    have hr' := hr
    obtain ⟨rule, h1, h2, h3, h4⟩ := hr
    have hlt : r - 1 < lexRules.length := by
      rcases Nat.lt_or_ge (r-1) lexRules.length with h' | h'
      · exact h'
      · rw [List.getElem?_eq_none h'] at h1; cases h1
    rw [lexRules_len] at hlt
    have e : r - 1 + 1 = r := by omega
    refine ⟨h2, by omega, (hx _).2 ⟨?_, ?_⟩⟩
    · have := (ruleMatches_iff sc w (r-1) rule h1).1 (by rw [e]; exact hr')
      rw [e] at this; exact this
    · have := acc_bit h1
      rw [e] at this; exact this
  generalize Nat.land (stateMasks.get s) accMask = x at *
  generalize yy_acceptT.get s = r at *
  constructor
  · intro hr r' hr'
    subst hr
    have hz : x = 0 := Nat.eq_of_beq_eq_true ha
    have := (hrule r' hr').2.2
    rw [hz] at this; simp at this
  · intro hr
    have hb : Nat.beq r 0 = false := by
      cases hq : Nat.beq r 0 with
      | false => rfl
      | true => exact absurd (Nat.eq_of_beq_eq_true hq) hr
    simp only [] at ha
    rw [hb] at ha
    obtain ⟨h1, ha⟩ := and_spec ha
    obtain ⟨h2, h3⟩ := and_spec ha
    have h1 : r ≤ 188 := Nat.le_of_ble_eq_true h1
    have h2 := testBit_ofland h2
    have h3 : x % 2 ^ (accPosT.get r) = 0 := Nat.eq_of_beq_eq_true h3
    have hrl : r - 1 < lexRules.length := by rw [lexRules_len]; omega
    have hlr : lexRules[r-1]? = some lexRules[r-1] := by simp
    have e : r - 1 + 1 = r := by omega
    refine ⟨h1, ?_, ?_⟩
    · have := (ruleMatches_iff sc w (r-1) _ hlr).2 (by rw [e]; exact ((hx _).1 h2).1)
      rw [e] at this; exact this
    · intro r' hr'
      obtain ⟨g1, g2, g3⟩ := hrule r' hr'
      rcases Nat.lt_or_ge r' r with hlt | hge
      · exfalso
        have hm' := accPos_mono (i := r' - 1) (j := r - 1) (by omega) (by omega)
        have e' : r' - 1 + 1 = r' := by omega
        rw [e, e'] at hm'
        have : (x % 2 ^ accPosT.get r).testBit (accPosT.get r') = true := by
          rw [Nat.testBit_mod_two_pow]; simp [hm', g3]
        rw [h3] at this; simp at this
      · exact hge

/-! ## The matching loop -/

/-- All bytes are proper non-NUL bytes. -/
def Clean (w : Bytes) : Prop := ∀ b ∈ w, 1 ≤ b ∧ b ≤ 255

instance (w : Bytes) : Decidable (Clean w) := by unfold Clean; infer_instance

/-- `last` is the last accepting prefix of length `< n`. -/
def LastOk (sc : SC) (text : Bytes) (n : Nat) : Option (Nat × Nat) → Prop
  | none => ∀ k < n, ∀ r, ¬ RuleMatches sc r (text.take k)
  | some (s, k) => k < n ∧ s < 1367 ∧ yy_acceptT.get s ≤ 188 ∧ RuleMatches sc (yy_acceptT.get s) (text.take k) ∧
      (∀ r, RuleMatches sc r (text.take k) → yy_acceptT.get s ≤ r) ∧
      ∀ k', k < k' → k' < n → ∀ r, ¬ RuleMatches sc r (text.take k')

theorem lastOk_step {sc text s n last} (h : Live s) (hn : n ≤ text.length)
    (hm : ∀ q, (stateMasks.get s).testBit q = true ↔ Reach sc (text.take n) q)
    (hl : LastOk sc text n last) :
    LastOk sc text (n + 1) (if yy_acceptT.get s ≠ 0 then some (s, n) else last) := by
  obtain ⟨a0, a1⟩ := accept_spec h hm
  by_cases e : yy_acceptT.get s = 0
  · rw [if_neg (by simpa using e)]
    cases last with
    | none =>
      intro k hk r
      rcases Nat.lt_or_ge k n with g | g
      · exact hl k g r
      · have : k = n := by omega
        subst this; exact a0 e r
    | some sk =>
      obtain ⟨s', k⟩ := sk
      obtain ⟨l1, l2, l3, l4, l5, l6⟩ := hl
      refine ⟨by omega, l2, l3, l4, l5, ?_⟩
      intro k' hk1 hk2 r
      rcases Nat.lt_or_ge k' n with g | g
      · exact l6 k' hk1 g r
      · have : k' = n := by omega
        subst this; exact a0 e r
  · rw [if_pos e]
    obtain ⟨b1, b2, b3⟩ := a1 e
    exact ⟨by omega, h.1, b1, b2, b3, fun k' h1 h2 => by omega⟩

theorem reach_prefix {sc w u q} (h : Reach sc (w ++ u) q) : ∃ p, Reach sc w p := by
  obtain ⟨i, r, h1, h2, h3⟩ := h
  obtain ⟨p, h4, _⟩ := h3.split w u rfl
  exact ⟨p, i, r, h1, h2, h4⟩

/-- The longest accepted prefix, as a pair (accepting state, length). -/
def Longest (sc : SC) (text : Bytes) (o : Option (Nat × Nat)) : Prop := LastOk sc text (text.length + 1) o

/-- If nothing is reachable after `n` bytes, no longer prefix matches. -/
theorem lastOk_jam {sc text n last} (hn : n ≤ text.length)
    (hz : ∀ q, ¬ Reach sc (text.take n) q) (hl : LastOk sc text n last) : Longest sc text last := by
  have dead : ∀ k, n ≤ k → ∀ r, ¬ RuleMatches sc r (text.take k) := by
    intro k hk r hr
    have hr' := hr
    obtain ⟨rule, h1, h2, _, _⟩ := hr
    have e : r - 1 + 1 = r := by omega
    have := (ruleMatches_iff sc (text.take k) (r-1) rule h1).1 (by rw [e]; exact hr')
    have hsplit : text.take k = text.take n ++ (text.take k).drop n := by
      have := List.take_append_drop n (text.take k)
      rw [List.take_take, Nat.min_eq_left hk] at this
      exact this.symm
    rw [hsplit] at this
    obtain ⟨p, hp⟩ := reach_prefix this
    exact hz p hp
  cases last with
  | none =>
    intro k hk r
    rcases Nat.lt_or_ge k n with g | g
    · exact hl k g r
    · exact dead k g r
  | some sk =>
    obtain ⟨s', k⟩ := sk
    obtain ⟨l1, l2, l3, l4, l5, l6⟩ := hl
    refine ⟨by omega, l2, l3, l4, l5, ?_⟩
    intro k' hk1 hk2 r
    rcases Nat.lt_or_ge k' n with g | g
    · exact l6 k' hk1 g r
    · exact dead k' g r

theorem matchLoop_spec (sc : SC) (text : Bytes) : ∀ (rest : Bytes) (s n : Nat) (last : Option (Nat × Nat)),
    Clean rest → Live s → n + rest.length = text.length → text.drop n = rest →
    (∀ q, (stateMasks.get s).testBit q = true ↔ Reach sc (text.take n) q) →
    LastOk sc text n last →
    (Longest sc text (matchLoop (rest ++ [0, 0]) s n last)) ∨
    matchLoop (rest ++ [0, 0]) s n last = some (7, text.length + 1) := by
  intro rest
  induction rest with
  | nil =>
    intro s n last _ hs hn _ hm hl
    right
    have hacc := accept_get (s := s) (by have := hs.1; omega)
    have hne : (7 : Nat) ≠ 1367 := by decide
    simp only [List.nil_append, matchLoop, ec0, hacc, live_eob hs, acc7, next7, bind, Option.bind, if_neg hne]
    simp at hn ⊢; exact hn
  | cons b rest ih =>
    intro s n last hc hs hn hd hm hl
    obtain ⟨hb1, hb2⟩ := hc b (by simp)
    obtain ⟨hec, _, _⟩ := ec_ok hb1 hb2
    have hacc := accept_get (s := s) (by have := hs.1; omega)
    obtain ⟨t, hnext, ht, hmask⟩ := live_next hs hb1 hb2
    have hlen : n < text.length := by simp at hn; omega
    have hl' := lastOk_step hs (by omega) hm hl
    have hbn : text[n]? = some b := by
      have := congrArg (fun l => l[0]?) hd
      simpa using this
    have htake : text.take (n + 1) = text.take n ++ [b] := by
      rw [List.take_add_one, hbn]; rfl
    have hm' : ∀ q, (stateMasks.get t).testBit q = true ↔ Reach sc (text.take (n+1)) q := by
      intro q; rw [hmask, htake]; exact step_reach hb1 hb2 hm q
    simp only [List.cons_append, matchLoop, hec, hacc, hnext, bind, Option.bind]
    by_cases e : t = 1367
    · left
      rw [if_pos e]
      subst e
      refine lastOk_jam (by omega) ?_ hl'
      intro q hq
      have := (hm' q).2 hq
      rw [jam_mask] at this; simp at this
    · rw [if_neg e]
      have hlive : Live t := by rcases ht with h | h; exact absurd h e; exact h
      refine ih t (n+1) _ (fun x hx => hc x (by simp [hx])) hlive (by simp at hn; omega) ?_ hm' hl'
      have := congrArg List.tail hd
      simpa [List.tail_drop] using this

theorem prevState_spec (sc : SC) (text : Bytes) : ∀ (rest : Bytes) (s n : Nat) (last : Option (Nat × Nat)),
    Clean rest → Live s → n + rest.length = text.length → text.drop n = rest →
    (∀ q, (stateMasks.get s).testBit q = true ↔ Reach sc (text.take n) q) →
    LastOk sc text n last →
    matchLoop (rest ++ [0, 0]) s n last = some (7, text.length + 1) →
    ∃ s' last', prevState rest s n last = some (s', last') ∧ Live s' ∧
      (∀ q, (stateMasks.get s').testBit q = true ↔ Reach sc text q) ∧ LastOk sc text text.length last' := by
  intro rest
  induction rest with
  | nil =>
    intro s n last _ hs hn _ hm hl _
    have hn : n = text.length := by simpa using hn
    subst hn
    exact ⟨s, last, rfl, hs, by simpa using hm, hl⟩
  | cons b rest ih =>
    intro s n last hc hs hn hd hm hl hloop
    obtain ⟨hb1, hb2⟩ := hc b (by simp)
    obtain ⟨hec, _, _⟩ := ec_ok hb1 hb2
    have hacc := accept_get (s := s) (by have := hs.1; omega)
    obtain ⟨t, hnext, ht, hmask⟩ := live_next hs hb1 hb2
    have hlen : n < text.length := by simp at hn; omega
    have hl' := lastOk_step hs (by omega) hm hl
    have hbn : text[n]? = some b := by
      have := congrArg (fun l => l[0]?) hd
      simpa using this
    have htake : text.take (n + 1) = text.take n ++ [b] := by
      rw [List.take_add_one, hbn]; rfl
    have hm' : ∀ q, (stateMasks.get t).testBit q = true ↔ Reach sc (text.take (n+1)) q := by
      intro q; rw [hmask, htake]; exact step_reach hb1 hb2 hm q
    have hb0 : b ≠ 0 := by omega
    simp only [List.cons_append, matchLoop, hec, hacc, hnext, bind, Option.bind] at hloop
    simp only [prevState, if_pos hb0, hec, hacc, hnext, bind, Option.bind]
    by_cases e : t = 1367
    · exfalso
      rw [if_pos e] at hloop
      rw [hloop] at hl'
      have := hl'.1
      omega
    · rw [if_neg e] at hloop
      have hlive : Live t := by rcases ht with h | h; exact absurd h e; exact h
      refine ih t (n+1) _ (fun x hx => hc x (by simp [hx])) hlive (by simp at hn; omega) ?_ hm' hl' hloop
      have := congrArg List.tail hd
      simpa [List.tail_drop] using this

/-- Every single byte is matched by some rule in every start condition. -/
theorem single_match (sc : SC) (b : Nat) (h1 : 1 ≤ b) (h2 : b ≤ 255) : ∃ r, RuleMatches sc r [b] := by
  have m1 : ∀ {c : CC} {b : Nat}, c.mem b = true → Matches [one c] [b] := fun h => .one rfl h .nil
  have hws : Matches [one blank, many blank] [10] := .one rfl (by decide) (.skip rfl .nil)
  have hdot : b ≠ 10 → notNewline.mem b = true := by
    intro hb
    have : ∀ b : Nat, 1 ≤ b → b < 1 + 255 → (b == 10 || notNewline.mem b) = true := by
      have h : allFrom 1 255 (fun b => (b == 10 || notNewline.mem b)) = true := by decide +kernel
      exact fun b => allFrom_spec h b
    have := this b h1 (by omega)
    simpa [hb] using this
  have hq : b ≠ 39 → (CC.compl (CC.byte 39)).mem b = true := by
    intro hb
    have : ∀ b : Nat, 1 ≤ b → b < 1 + 255 → (b == 39 || (CC.compl (CC.byte 39)).mem b) = true := by
      have h : allFrom 1 255 (fun b => (b == 39 || (CC.compl (CC.byte 39)).mem b)) = true := by decide +kernel
      exact fun b => allFrom_spec h b
    have := this b h1 (by omega)
    simpa [hb] using this
  have g4 : lexRules[4 - 1]? = some ⟨none, [one blank, many blank]⟩ := rfl
  have g188 : lexRules[188 - 1]? = some ⟨none, [one notNewline]⟩ := rfl
  have g186 : lexRules[186 - 1]? = some ⟨some .squote, [many (CC.compl (CC.byte 39))]⟩ := rfl
  have g187 : lexRules[187 - 1]? = some ⟨some .squote, [one (CC.byte 39)]⟩ := rfl
  cases sc with
  | squote =>
    by_cases e : b = 39
    · subst e; exact ⟨187, _, g187, by omega, rfl, m1 (by decide +kernel)⟩
    · exact ⟨186, _, g186, by omega, rfl, .more rfl (hq e) (.skip rfl .nil)⟩
  | initial =>
    by_cases e : b = 10
    · subst e; exact ⟨4, _, g4, by omega, rfl, hws⟩
    · exact ⟨188, _, g188, by omega, rfl, m1 (hdot e)⟩
  | comment =>
    by_cases e : b = 10
    · subst e; exact ⟨4, _, g4, by omega, rfl, hws⟩
    · exact ⟨188, _, g188, by omega, rfl, m1 (hdot e)⟩

theorem longest_some {sc text o} (hc : Clean text) (hne : text ≠ []) (h : Longest sc text o) :
    ∃ s n, o = some (s, n) ∧ 0 < n ∧ yy_accept[s]? = some (yy_acceptT.get s) ∧ yy_acceptT.get s ≤ 188 ∧
      LongestMatch sc text (yy_acceptT.get s) n := by
  obtain ⟨b, rest, rfl⟩ : ∃ b rest, text = b :: rest := by
    cases text with
    | nil => exact absurd rfl hne
    | cons b rest => exact ⟨b, rest, rfl⟩
  obtain ⟨hb1, hb2⟩ := hc b (by simp)
  obtain ⟨r, hr⟩ := single_match sc b hb1 hb2
  have hr1 : RuleMatches sc r ((b :: rest).take 1) := by simpa using hr
  cases o with
  | none => exact absurd hr1 (h 1 (by simp) r)
  | some sk =>
    obtain ⟨s, k⟩ := sk
    obtain ⟨l1, l2, l3, l4, l5, l6⟩ := h
    have hk : 0 < k := by
      rcases Nat.eq_zero_or_pos k with g | g
      · exact absurd hr1 (l6 1 (by omega) (by simp) r)
      · exact g
    refine ⟨s, k, rfl, hk, accept_get (by omega), l3, by omega, l4, ?_, l5⟩
    intro r' n' hn' hm'
    rcases Nat.lt_or_ge k n' with g | g
    · exact absurd hm' (l6 n' g (by omega) r')
    · exact g

/-- **The scanner finds the longest match of the first rule**, for every start condition and every text of
non-NUL bytes; it consumes at least one byte; at the empty text it reports end of file. -/
theorem scan_spec (sc : SC) (text : Bytes) (hc : Clean text) (hne : text ≠ []) :
    ∃ r n, scan sc text = some (.rule r n) ∧ 0 < n ∧ r ≤ 188 ∧ LongestMatch sc text r n := by
  have hm0 : ∀ q, (stateMasks.get (startState sc)).testBit q = true ↔ Reach sc (text.take 0) q := by
    intro q; simpa using start_reach sc q
  have hl0 : LastOk sc text 0 none := fun k hk => by omega
  rcases matchLoop_spec sc text text (startState sc) 0 none hc (start_live sc) (by simp) (by simp) hm0 hl0 with h | h
  · obtain ⟨s, n, e, hn, ha, hle, hlm⟩ := longest_some hc hne h
    refine ⟨yy_acceptT.get s, n, ?_, hn, hle, hlm⟩
    have h190 : yy_acceptT.get s ≠ 190 := by omega
    simp only [scan, e, ha, bind, Option.bind, if_neg h190]
  · obtain ⟨s', last', hp, hlive, hm, hl⟩ :=
      prevState_spec sc text text (startState sc) 0 none hc (start_live sc) (by simp) (by simp) hm0 hl0 h
    have hacc := accept_get (s := s') (by have := hlive.1; omega)
    have hlen : text.length ≠ 0 := by simpa using hne
    have hlong : Longest sc text (if yy_acceptT.get s' ≠ 0 then some (s', text.length) else last') :=
      lastOk_step hlive (Nat.le_refl _) (by simpa using hm) hl
    obtain ⟨s, n, e, hn, ha, hle, hlm⟩ := longest_some hc hne hlong
    refine ⟨yy_acceptT.get s, n, ?_, hn, hle, hlm⟩
    have c1 : ¬ text.length + 1 ≤ text.length := by omega
    have c2 : ¬ text.length + 1 = 1 := by omega
    simp only [scan, h, acc7, bind, Option.bind, if_true, if_neg c1, if_neg c2, hp, hacc]
    by_cases e0 : yy_acceptT.get s' = 0
    · rw [if_neg (by simpa using e0)] at e ⊢
      subst e
      simp only [ha]
    · rw [if_pos e0] at e ⊢
      cases e; rfl

theorem scan_nil (sc : SC) : scan sc [] = some .eof := by
  cases sc <;> decide +kernel

end Verif.Lex

import Verif.Lex.Spec
import Verif.Lex.CertDefs
/-! Positions of the lexical rules and their bit-parallel simulation (proof-internal). -/
namespace Verif.Lex

/-- All positions of all rules: each rule contributes its elements and one accepting position. -/
def posOf (rs : List LexRule) : List (Option Elem) :=
  rs.flatMap fun r => r.pat.map some ++ [none]

def posL : List (Option Elem) := posOf lexRules

def E (p : Nat) : Option Elem := (posL[p]?).join

/-- Base position of rule index `i`. -/
def baseOf : List LexRule → Nat → Nat
  | _, 0 => 0
  | [], _ + 1 => 0
  | r :: rs, i + 1 => r.pat.length + 1 + baseOf rs i

/-- Consuming `w`, position `p` leads to position `q`. -/
inductive Run : Nat → Bytes → Nat → Prop where
  | refl (p) : Run p [] p
  | one {p e b w q} : E p = some e → e.star = false → e.cls.mem b = true → Run (p + 1) w q → Run p (b :: w) q
  | skip {p e w q} : E p = some e → e.star = true → Run (p + 1) w q → Run p w q
  | more {p e b w q} : E p = some e → e.star = true → e.cls.mem b = true → Run p w q → Run p (b :: w) q

theorem Run.le {p w q} (h : Run p w q) : p ≤ q := by
  induction h with
  | refl => omega
  | one _ _ _ _ ih => omega
  | skip _ _ _ ih => omega
  | more _ _ _ _ ih => exact ih

theorem Run.trans {p u q v r} (h : Run p u q) (h2 : Run q v r) : Run p (u ++ v) r := by
  induction h with
  | refl => exact h2
  | one a b c _ ih => exact .one a b c (ih h2)
  | skip a b _ ih => exact .skip a b (ih h2)
  | more a b c _ ih => exact .more a b c (ih h2)

theorem Run.split {p w r} (h : Run p w r) : ∀ u v, w = u ++ v → ∃ q, Run p u q ∧ Run q v r := by
  induction h with
  | refl p =>
    intro u v e
    have : u = [] ∧ v = [] := by simpa using e.symm
    obtain ⟨rfl, rfl⟩ := this
    exact ⟨p, .refl _, .refl _⟩
  | @one p e b w q a s c h ih =>
    intro u v eq
    cases u with
    | nil => simp at eq; subst eq; exact ⟨p, .refl _, .one a s c h⟩
    | cons x u =>
      simp at eq; obtain ⟨rfl, e2⟩ := eq
      obtain ⟨q, h1, h2⟩ := ih u v e2
      exact ⟨q, .one a s c h1, h2⟩
  | @skip p e w q a s h ih =>
    intro u v eq
    obtain ⟨q, h1, h2⟩ := ih u v eq
    exact ⟨q, .skip a s h1, h2⟩
  | @more p e b w q a s c h ih =>
    intro u v eq
    cases u with
    | nil => simp at eq; subst eq; exact ⟨p, .refl _, .more a s c h⟩
    | cons x u =>
      simp at eq; obtain ⟨rfl, e2⟩ := eq
      obtain ⟨q, h1, h2⟩ := ih u v e2
      exact ⟨q, .more a s c h1, h2⟩

/-- The elements from `p` on are exactly `pat`, followed by an accepting position. -/
def Seg (p : Nat) (pat : Pat) : Prop := (∀ i (h : i < pat.length), E (p + i) = some pat[i]) ∧ E (p + pat.length) = none

theorem Seg.tail {p e pat} (h : Seg p (e :: pat)) : Seg (p + 1) pat := by
  constructor
  · intro i hi
    have := h.1 (i + 1) (by simpa using hi)
    simpa [Nat.add_assoc, Nat.add_comm 1 i] using this
  · have := h.2
    simpa [Nat.add_assoc, Nat.add_comm 1] using this

theorem Seg.head {p e pat} (h : Seg p (e :: pat)) : E p = some e := by
  exact h.1 0 (by simp)

theorem run_of_matches {pat w} (h : Matches pat w) : ∀ p, Seg p pat → Run p w (p + pat.length) := by
  induction h with
  | nil => intro p _; exact .refl _
  | @one e pt b w s c _ ih =>
    intro p hs
    have := ih (p + 1) hs.tail
    refine .one hs.head s c ?_
    simpa [Nat.add_assoc, Nat.add_comm 1] using this
  | @skip e pt w s _ ih =>
    intro p hs
    have := ih (p + 1) hs.tail
    refine .skip hs.head s ?_
    simpa [Nat.add_assoc, Nat.add_comm 1] using this
  | @more e pt b w s c _ ih =>
    intro p hs
    exact .more hs.head s c (ih p hs)

theorem matches_of_run {p w q} (h : Run p w q) : ∀ pat, Seg p pat → E q = none →
    q = p + pat.length ∧ Matches pat w := by
  induction h with
  | refl p =>
    intro pat hs hq
    cases pat with
    | nil => exact ⟨by simp, .nil⟩
    | cons e pt => rw [hs.head] at hq; cases hq
  | @one p e b w q a s c _ ih =>
    intro pat hs hq
    cases pat with
    | nil => have := hs.2; simp at this; rw [this] at a; cases a
    | cons e' pt =>
      have : e' = e := by have := hs.head; rw [a] at this; cases this; rfl
      subst this
      obtain ⟨h1, h2⟩ := ih pt hs.tail hq
      exact ⟨by simp; omega, .one s c h2⟩
  | @skip p e w q a s _ ih =>
    intro pat hs hq
    cases pat with
    | nil => have := hs.2; simp at this; rw [this] at a; cases a
    | cons e' pt =>
      have : e' = e := by have := hs.head; rw [a] at this; cases this; rfl
      subst this
      obtain ⟨h1, h2⟩ := ih pt hs.tail hq
      exact ⟨by simp; omega, .skip s h2⟩
  | @more p e b w q a s c _ ih =>
    intro pat hs hq
    cases pat with
    | nil => have := hs.2; simp at this; rw [this] at a; cases a
    | cons e' pt =>
      have : e' = e := by have := hs.head; rw [a] at this; cases this; rfl
      subst this
      obtain ⟨h1, h2⟩ := ih _ hs hq
      exact ⟨h1, .more s c h2⟩

/-! ## Segments of the rule list -/

theorem posOf_cons (r : LexRule) (rs : List LexRule) :
    posOf (r :: rs) = r.pat.map some ++ (none :: posOf rs) := by
  simp [posOf]

theorem seg_posOf : ∀ (rs : List LexRule) (i : Nat) (r : LexRule), rs[i]? = some r →
    (∀ k (h : k < r.pat.length), (posOf rs)[baseOf rs i + k]? = some (some r.pat[k])) ∧
    (posOf rs)[baseOf rs i + r.pat.length]? = some none := by
  intro rs
  induction rs with
  | nil => intro i r h; simp at h
  | cons r0 rs ih =>
    intro i r h
    cases i with
    | zero =>
      simp at h; subst h
      rw [posOf_cons]
      constructor
      · intro k hk
        simp only [baseOf, Nat.zero_add]
        rw [List.getElem?_append_left (by simpa using hk)]
        simp [hk]
      · simp [baseOf]
    | succ i =>
      simp at h
      obtain ⟨h1, h2⟩ := ih i r h
      rw [posOf_cons]
      have key : ∀ m, (r0.pat.map some ++ (none :: posOf rs))[baseOf (r0 :: rs) (i + 1) + m]?
          = (posOf rs)[baseOf rs i + m]? := by
        intro m
        rw [List.getElem?_append_right (by simp [baseOf]; omega)]
        have : baseOf (r0 :: rs) (i + 1) + m - (r0.pat.map some).length = (baseOf rs i + m) + 1 := by
          simp [baseOf]; omega
        rw [this]; simp
      exact ⟨fun k hk => by rw [key]; exact h1 k hk, by rw [key]; exact h2⟩

theorem seg_rule {i r} (h : lexRules[i]? = some r) : Seg (baseOf lexRules i) r.pat := by
  obtain ⟨h1, h2⟩ := seg_posOf lexRules i r h
  constructor
  · intro k hk; simp [E, posL, h1 k hk]
  · simp [E, posL, h2]

/-! ## Masks computed from lists -/

noncomputable def maskOf {α : Type} (f : α → Bool) (l : List α) : Nat :=
  List.rec (motive := fun _ => Nat) 0 (fun x _ ih => Nat.add (Nat.mul 2 ih) (Bool.rec 0 1 (f x))) l

theorem testBit_maskOf {α} (f : α → Bool) : ∀ (l : List α) (p : Nat),
    (maskOf f l).testBit p = ((l[p]?).map f).getD false := by
  intro l
  induction l with
  | nil => intro p; simp [maskOf]
  | cons x xs ih =>
    intro p
    have hdef : maskOf f (x :: xs) = 2 * maskOf f xs + (f x).toNat := by
      show Nat.add (Nat.mul 2 (maskOf f xs)) (Bool.rec 0 1 (f x)) = _
      cases f x <;> rfl
    rw [hdef]
    cases p with
    | zero => cases h : f x <;> simp [Nat.testBit_zero, h]
    | succ p =>
      rw [Nat.testBit_succ]
      have : (2 * maskOf f xs + (f x).toNat) / 2 = maskOf f xs := by
        cases f x <;> simp; omega
      rw [this, ih p]; simp

end Verif.Lex

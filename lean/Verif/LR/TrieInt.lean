import Verif.Util
/-! Packed tables of integers, entries shifted by 1000 (proof-internal), and small search trees. -/
namespace Verif.LR

/-- Kernel-friendly: is `x = n - 1000`? -/
noncomputable def eqOff (x : Int) (n : Nat) : Bool :=
  Int.rec (motive := fun _ => Bool) (fun k => Nat.beq (Nat.add k 1000) n) (fun k => Nat.beq (Nat.add n (Nat.add k 1)) 1000) x

theorem eqOff_spec {x : Int} {n : Nat} (h : eqOff x n = true) : x = (n : Int) - 1000 := by
  cases x with
  | ofNat k =>
    have : k + 1000 = n := Nat.eq_of_beq_eq_true h
    simp; omega
  | negSucc k =>
    have : n + (k + 1) = 1000 := Nat.eq_of_beq_eq_true h
    omega

noncomputable def agreeI (t : Trie) (l : List Int) : Nat → Bool :=
  List.rec (motive := fun _ => Nat → Bool) (fun _ => true)
    (fun x _ ih i => Bool.rec false (ih (Nat.add i 1)) (eqOff x (t.get i))) l

theorem agreeI_spec (t : Trie) : ∀ (l : List Int) (i : Nat), agreeI t l i = true →
    ∀ k, k < l.length → l[k]? = some ((t.get (i + k) : Int) - 1000) := by
  intro l
  induction l with
  | nil => intro i _ k hk; simp at hk
  | cons x xs ih =>
    intro i h k hk
    obtain ⟨h1, h2⟩ := and_spec (a := eqOff x (t.get i)) (b := agreeI t xs (Nat.add i 1)) h
    cases k with
    | zero => simpa using eqOff_spec h1
    | succ k =>
      have := ih (Nat.add i 1) h2 k (by simpa using hk)
      have e : Nat.add i 1 + k = i + (k + 1) := by show i + 1 + k = _; omega
      rw [e] at this
      simpa using this

/-- Binary search tree by index bits. -/
inductive BT (α : Type) where
  | nil
  | leaf (a : α)
  | node (bit : Nat) (l r : BT α)

/-- Entry `i` (meaningful for indices below the size). -/
noncomputable def BT.get {α : Type} (t : BT α) (d : α) (i : Nat) : α :=
  BT.rec (motive := fun _ => α) d (fun a => a)
    (fun n _ _ gl gr => Bool.rec gr gl (Nat.beq (Nat.land i n) 0)) t

noncomputable def BT.agree {α : Type} (eq : α → α → Bool) (t : BT α) (d : α) (l : List α) : Nat → Bool :=
  List.rec (motive := fun _ => Nat → Bool) (fun _ => true)
    (fun x _ ih i => Bool.rec false (ih (Nat.add i 1)) (eq (t.get d i) x)) l

theorem BT.agree_spec {α : Type} {eq : α → α → Bool} (heq : ∀ a b, eq a b = true → a = b) (t : BT α) (d : α) :
    ∀ (l : List α) (i : Nat), t.agree eq d l i = true → ∀ k, k < l.length → l[k]? = some (t.get d (i + k)) := by
  intro l
  induction l with
  | nil => intro i _ k hk; simp at hk
  | cons x xs ih =>
    intro i h k hk
    obtain ⟨h1, h2⟩ := and_spec (a := eq (t.get d i) x) (b := t.agree eq d xs (Nat.add i 1)) h
    cases k with
    | zero => simpa using (heq _ _ h1).symm
    | succ k =>
      have := ih (Nat.add i 1) h2 k (by simpa using hk)
      have e : Nat.add i 1 + k = i + (k + 1) := by show i + 1 + k = _; omega
      rw [e] at this
      simpa using this

end Verif.LR

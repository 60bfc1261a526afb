/-!
# Utilities

Nothing in this file models code of the repository: it contains the byte-string literal macro, a
finite `for all` that the kernel evaluates, and packed lookup tables used only inside proofs.
-/

namespace Verif

/-- A byte, kept as a natural number (`< 256` for all values that come out of the API functions). -/
abbrev Byte := Nat
/-- A byte string. -/
abbrev Bytes := List Nat

open Lean in
/-- `b!"abc"` is the byte list of the (ASCII) string literal. -/
macro:max "b!" s:str : term => do
  let elems : Array (TSyntax `term) :=
    (s.getString.toUTF8.toList.map fun c => (quote c.toNat : TSyntax `term)).toArray
  `(([$elems,*] : List Nat))

/-- `p 0 && ... && p (n-1)`, written with `Nat.rec` so that the kernel evaluates it cheaply. -/
noncomputable def allN (n : Nat) (p : Nat → Bool) : Bool :=
  Nat.rec (motive := fun _ => Bool) true (fun i ih => Bool.rec false ih (p i)) n

theorem allN_spec {n : Nat} {p : Nat → Bool} (h : allN n p = true) : ∀ i, i < n → p i = true := by
  induction n with
  | zero => intro i hi; omega
  | succ n ih =>
    have h' : (Bool.rec false (allN n p) (p n) : Bool) = true := h
    cases hp : p n with
    | false => rw [hp] at h'; exact Bool.noConfusion h'
    | true =>
      rw [hp] at h'
      intro i hi
      by_cases e : i = n
      · subst e; exact hp
      · exact ih h' i (by omega)

/-- `p a && p (a+1) ... ` on `[a, a+n)`. -/
noncomputable def allFrom (a n : Nat) (p : Nat → Bool) : Bool := allN n (fun i => p (Nat.add a i))

theorem allFrom_spec {a n : Nat} {p : Nat → Bool} (h : allFrom a n p = true) :
    ∀ i, a ≤ i → i < a + n → p i = true := by
  intro i h1 h2
  have := allN_spec h (i - a) (by omega)
  have e : Nat.add a (i - a) = i := by show a + (i - a) = i; omega
  rw [e] at this; exact this

/-- Kernel-friendly conjunction. -/
theorem and_spec {a b : Bool} (h : (Bool.rec false b a : Bool) = true) : a = true ∧ b = true := by
  cases a
  · exact Bool.noConfusion h
  · exact ⟨rfl, h⟩

/-! ## Packed tables -/

/-- A binary tree whose leaves are natural numbers packing 256 16-bit entries each. -/
inductive Trie where
  | leaf (p : Nat)
  | node (bit : Nat) (l r : Trie)

/-- Entry `i`. Written with the recursor for kernel speed. -/
noncomputable def Trie.get (t : Trie) (i : Nat) : Nat :=
  Trie.rec (motive := fun _ => Nat)
    (fun p => Nat.land (Nat.shiftRight p (Nat.mul (Nat.land i 255) 16)) 65535)
    (fun n _ _ gl gr => Bool.rec gr gl (Nat.beq (Nat.land i n) 0)) t

/-- Does the packed table agree with the list from index `i` on? -/
noncomputable def Trie.agree (t : Trie) (l : List Nat) : Nat → Bool :=
  List.rec (motive := fun _ => Nat → Bool) (fun _ => true)
    (fun x _ ih i => Bool.rec false (ih (Nat.add i 1)) (Nat.beq (t.get i) x)) l

theorem Trie.agree_spec (t : Trie) : ∀ (l : List Nat) (i : Nat), t.agree l i = true →
    ∀ k, k < l.length → l.getD k 0 = t.get (i + k) := by
  intro l
  induction l with
  | nil => intro i _ k hk; simp at hk
  | cons x xs ih =>
    intro i h k hk
    obtain ⟨h1, h2⟩ := and_spec (a := Nat.beq (t.get i) x) (b := t.agree xs (Nat.add i 1)) h
    cases k with
    | zero => simpa using (Nat.eq_of_beq_eq_true h1).symm
    | succ k =>
      have := ih (Nat.add i 1) h2 k (by simpa using hk)
      have e : Nat.add i 1 + k = i + (k + 1) := by show i + 1 + k = _; omega
      rw [e] at this
      simpa using this

end Verif

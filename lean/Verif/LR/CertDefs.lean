import Verif.LR.Tries
import Verif.LR.Grammar
/-! Data types of the LALR certificate and the (kernel-friendly) look-ups on it. Proof-internal. -/
namespace Verif.LR

/-- Kernel items: rule, position, lookahead mask. -/
inductive KL where | nil | cons (r k m : Nat) (tl : KL)
/-- Predicted nonterminals with lookahead masks. -/
inductive PL where | nil | cons (A m : Nat) (tl : PL)
/-- Actions (encoded) with the mask of terminals they are taken on. -/
inductive RL where | nil | cons (c m : Nat) (tl : RL)
inductive St where | mk (k : KL) (p : PL) (r : RL)

noncomputable def St.kern (s : St) : KL := St.rec (motive := fun _ => KL) (fun k _ _ => k) s
noncomputable def St.pred (s : St) : PL := St.rec (motive := fun _ => PL) (fun _ p _ => p) s
noncomputable def St.rows (s : St) : RL := St.rec (motive := fun _ => RL) (fun _ _ r => r) s

/-- if-then-else and `&&`, `||` for the kernel -/
noncomputable def ite_ {α : Type} (b : Bool) (x y : α) : α := Bool.rec (motive := fun _ => α) y x b
noncomputable def band (a b : Bool) : Bool := Bool.rec (motive := fun _ => Bool) false b a
noncomputable def bor (a b : Bool) : Bool := Bool.rec (motive := fun _ => Bool) b true a
noncomputable def bnot (a : Bool) : Bool := Bool.rec (motive := fun _ => Bool) true false a

@[simp] theorem ite_true_ {α : Type} (x y : α) : ite_ true x y = x := rfl
@[simp] theorem ite_false_ {α : Type} (x y : α) : ite_ false x y = y := rfl
@[simp] theorem band_iff {a b : Bool} : band a b = true ↔ a = true ∧ b = true := by cases a <;> cases b <;> decide
@[simp] theorem bor_iff {a b : Bool} : bor a b = true ↔ a = true ∨ b = true := by cases a <;> cases b <;> decide
@[simp] theorem bnot_iff {a : Bool} : bnot a = true ↔ a = false := by cases a <;> decide

/-- Bit `a` of `m`. -/
noncomputable def tb (m a : Nat) : Bool := Nat.beq (Nat.land (Nat.shiftRight m a) 1) 1
/-- `m ⊆ n`. -/
noncomputable def sub (m n : Nat) : Bool := Nat.beq (Nat.land m n) m

theorem tb_eq (m a : Nat) : tb m a = m.testBit a := by
  unfold tb Nat.testBit
  have e1 : Nat.land (Nat.shiftRight m a) 1 = (m >>> a) % 2 := Nat.and_one_is_mod _
  have e2 : 1 &&& (m >>> a) = (m >>> a) % 2 := by rw [Nat.and_comm]; exact Nat.and_one_is_mod _
  rw [e1, e2]
  rcases Nat.mod_two_eq_zero_or_one (m >>> a) with h | h <;> rw [h] <;> decide

theorem sub_spec {m n : Nat} (h : sub m n = true) {a : Nat} (ha : m.testBit a = true) : n.testBit a = true := by
  have e : m &&& n = m := Nat.eq_of_beq_eq_true h
  have := Nat.testBit_and m n a
  rw [e, ha] at this
  simpa using this.symm

noncomputable def KL.find (l : KL) (r k : Nat) : Nat :=
  KL.rec (motive := fun _ => Nat) 0 (fun r' k' m _ ih => ite_ (band (Nat.beq r r') (Nat.beq k k')) m ih) l
noncomputable def PL.find (l : PL) (A : Nat) : Nat :=
  PL.rec (motive := fun _ => Nat) 0 (fun A' m _ ih => ite_ (Nat.beq A A') m ih) l
noncomputable def RL.find (l : RL) (c : Nat) : Nat :=
  RL.rec (motive := fun _ => Nat) 0 (fun c' m _ ih => ite_ (Nat.beq c c') m ih) l
noncomputable def KL.all (l : KL) (f : Nat → Nat → Nat → Bool) : Bool :=
  KL.rec (motive := fun _ => Bool) true (fun r k m _ ih => band (f r k m) ih) l
noncomputable def PL.all (l : PL) (f : Nat → Nat → Bool) : Bool :=
  PL.rec (motive := fun _ => Bool) true (fun A m _ ih => band (f A m) ih) l
noncomputable def RL.all (l : RL) (f : Nat → Nat → Bool) : Bool :=
  RL.rec (motive := fun _ => Bool) true (fun c m _ ih => band (f c m) ih) l
noncomputable def NL.all (l : List Nat) (f : Nat → Bool) : Bool :=
  List.rec (motive := fun _ => Bool) true (fun x _ ih => band (f x) ih) l
/-- Are the masks of the rows pairwise disjoint (and disjoint from `acc`)? -/
noncomputable def RL.disj (l : RL) : Nat → Bool :=
  RL.rec (motive := fun _ => Nat → Bool) (fun _ => true)
    (fun _ m _ ih acc => band (Nat.beq (Nat.land acc m) 0) (ih (Nat.lor acc m))) l

noncomputable def NL.nth (l : List Nat) : Nat → Nat :=
  List.rec (motive := fun _ => Nat → Nat) (fun _ => 1000)
    (fun x _ ih i => Nat.rec (motive := fun _ => Nat) x (fun j _ => ih j) i) l
noncomputable def NL.drop (l : List Nat) : Nat → List Nat :=
  List.rec (motive := fun _ => Nat → List Nat) (fun _ => [])
    (fun x tl ih i => Nat.rec (motive := fun _ => List Nat) (x :: tl) (fun j _ => ih j) i) l
noncomputable def NL.len (l : List Nat) : Nat :=
  List.rec (motive := fun _ => Nat) 0 (fun _ _ ih => Nat.succ ih) l
noncomputable def NL.eq (l : List Nat) : List Nat → Bool :=
  List.rec (motive := fun _ => List Nat → Bool)
    (fun l' => List.rec (motive := fun _ => Bool) true (fun _ _ _ => false) l')
    (fun x _ ih l' => List.rec (motive := fun _ => Bool) false (fun y tl _ => band (Nat.beq x y) (ih tl)) l') l

theorem NL.eq_spec : ∀ {l l' : List Nat}, NL.eq l l' = true → l = l'
  | [], [], _ => rfl
  | [], _ :: _, h => Bool.noConfusion h
  | _ :: _, [], h => Bool.noConfusion h
  | x :: l, y :: l', h => by
    have h' : band (Nat.beq x y) (NL.eq l l') = true := h
    rw [band_iff] at h'
    rw [Nat.eq_of_beq_eq_true h'.1, NL.eq_spec h'.2]

theorem NL.drop_eq : ∀ (l : List Nat) (i : Nat), NL.drop l i = l.drop i
  | [], i => by cases i <;> rfl
  | x :: l, 0 => rfl
  | x :: l, i + 1 => by
    have : NL.drop (x :: l) (i + 1) = NL.drop l i := rfl
    rw [this, NL.drop_eq l i]; rfl
theorem NL.len_eq : ∀ (l : List Nat), NL.len l = l.length
  | [] => rfl
  | x :: l => by
    have : NL.len (x :: l) = Nat.succ (NL.len l) := rfl
    rw [this, NL.len_eq l]; rfl
theorem NL.nth_eq : ∀ (l : List Nat) (i : Nat), NL.nth l i = l.getD i 1000
  | [], i => by cases i <;> rfl
  | x :: l, 0 => rfl
  | x :: l, i + 1 => by
    have : NL.nth (x :: l) (i + 1) = NL.nth l i := rfl
    rw [this, NL.nth_eq l i]; simp
theorem NL.all_spec : ∀ {l : List Nat} {f : Nat → Bool}, NL.all l f = true → ∀ x ∈ l, f x = true
  | [], f, _, x, hx => by simp at hx
  | y :: l, f, h, x, hx => by
    have h' : band (f y) (NL.all l f) = true := h
    rw [band_iff] at h'
    rcases List.mem_cons.1 hx with e | e
    · rw [e]; exact h'.1
    · exact NL.all_spec h'.2 x e

theorem KL.all_spec {f : Nat → Nat → Nat → Bool} : ∀ {l : KL}, l.all f = true → ∀ r k, l.find r k ≠ 0 → f r k (l.find r k) = true
  | .nil, _, r, k, h => absurd rfl h
  | .cons r' k' m tl, h, r, k, hf => by
    have h' : band (f r' k' m) (tl.all f) = true := h
    rw [band_iff] at h'
    have e : (KL.cons r' k' m tl).find r k = ite_ (band (Nat.beq r r') (Nat.beq k k')) m (tl.find r k) := rfl
    rw [e] at hf ⊢
    cases hb : band (Nat.beq r r') (Nat.beq k k') with
    | true =>
      rw [band_iff] at hb
      rw [Nat.eq_of_beq_eq_true hb.1, Nat.eq_of_beq_eq_true hb.2]
      exact h'.1
    | false => rw [hb] at hf; exact KL.all_spec h'.2 r k hf
theorem PL.all_spec {f : Nat → Nat → Bool} : ∀ {l : PL}, l.all f = true → ∀ A, l.find A ≠ 0 → f A (l.find A) = true
  | .nil, _, A, h => absurd rfl h
  | .cons A' m tl, h, A, hf => by
    have h' : band (f A' m) (tl.all f) = true := h
    rw [band_iff] at h'
    have e : (PL.cons A' m tl).find A = ite_ (Nat.beq A A') m (tl.find A) := rfl
    rw [e] at hf ⊢
    cases hb : Nat.beq A A' with
    | true => rw [Nat.eq_of_beq_eq_true hb]; exact h'.1
    | false => rw [hb] at hf; exact PL.all_spec h'.2 A hf
theorem RL.all_spec {f : Nat → Nat → Bool} : ∀ {l : RL}, l.all f = true → ∀ c, l.find c ≠ 0 → f c (l.find c) = true
  | .nil, _, A, h => absurd rfl h
  | .cons A' m tl, h, A, hf => by
    have h' : band (f A' m) (tl.all f) = true := h
    rw [band_iff] at h'
    have e : (RL.cons A' m tl).find A = ite_ (Nat.beq A A') m (tl.find A) := rfl
    rw [e] at hf ⊢
    cases hb : Nat.beq A A' with
    | true => rw [Nat.eq_of_beq_eq_true hb]; exact h'.1
    | false => rw [hb] at hf; exact RL.all_spec h'.2 A hf

theorem testBit_zero' (a : Nat) : (0 : Nat).testBit a = false := by simp

theorem RL.disj_acc : ∀ {l : RL} {acc : Nat}, l.disj acc = true → ∀ c a, (l.find c).testBit a = true → acc.testBit a = false
  | .nil, acc, _, c, a, h => by
    have : (RL.nil).find c = 0 := rfl
    rw [this] at h; simp at h
  | .cons c' m tl, acc, h, c, a, hf => by
    have h' : band (Nat.beq (Nat.land acc m) 0) (tl.disj (Nat.lor acc m)) = true := h
    rw [band_iff] at h'
    have e : (RL.cons c' m tl).find c = ite_ (Nat.beq c c') m (tl.find c) := rfl
    rw [e] at hf
    cases hb : Nat.beq c c' with
    | true =>
      rw [hb] at hf
      have z : acc &&& m = 0 := Nat.eq_of_beq_eq_true h'.1
      have := Nat.testBit_and acc m a
      rw [z] at this
      have hf' : m.testBit a = true := hf
      rw [hf'] at this
      simpa using this.symm
    | false =>
      rw [hb] at hf
      have := RL.disj_acc h'.2 c a hf
      have e2 := Nat.testBit_or acc m a
      have : (acc ||| m).testBit a = false := this
      rw [e2] at this
      simp at this
      exact this.1

/-- Disjoint rows: two codes whose masks share a bit are equal. -/
theorem RL.disj_spec : ∀ {l : RL} {acc : Nat}, l.disj acc = true → ∀ c d a, (l.find c).testBit a = true → (l.find d).testBit a = true → c = d
  | .nil, acc, _, c, d, a, h, _ => by
    have : (RL.nil).find c = 0 := rfl
    rw [this] at h; simp at h
  | .cons c' m tl, acc, h, c, d, a, hc, hd => by
    have h' : band (Nat.beq (Nat.land acc m) 0) (tl.disj (Nat.lor acc m)) = true := h
    rw [band_iff] at h'
    have e : ∀ c, (RL.cons c' m tl).find c = ite_ (Nat.beq c c') m (tl.find c) := fun _ => rfl
    rw [e] at hc hd
    have key : ∀ x, (tl.find x).testBit a = true → m.testBit a = false := by
      intro x hx
      have := RL.disj_acc h'.2 x a hx
      have e2 := Nat.testBit_or acc m a
      have this' : (acc ||| m).testBit a = false := this
      rw [e2] at this'
      simp at this'
      exact this'.2
    cases hb : Nat.beq c c' <;> cases hb' : Nat.beq d c' <;> rw [hb] at hc <;> rw [hb'] at hd
    · exact RL.disj_spec h'.2 c d a hc hd
    · have := key c hc; rw [ite_true_] at hd; rw [hd] at this; exact Bool.noConfusion this
    · have := key d hd; rw [ite_true_] at hc; rw [hc] at this; exact Bool.noConfusion this
    · rw [Nat.eq_of_beq_eq_true hb, Nat.eq_of_beq_eq_true hb']

end Verif.LR

import Verif.Sql.Der
import Verif.Sql.Ast
/-! Combinators for derivations of abstract SQL. Proof-internal. -/
namespace Verif.Sql
open Verif.Lex Verif.LR Verif.Sem

/-! ## Edges -/

/-- No rule of level at least `m` is forbidden to be completed in front of `b`. -/
def SS (m : Nat) (b : Nat) : Prop := ∀ r p as, r < 358 → rulePrec r = some (p, as) → m ≤ p → forbidReduce r b = false
/-- Rules that fit in front of level `m` may be followed by a `Y` that `a` continues. -/
def LL (m : Nat) (Y a : Nat) : Prop := ∀ r p as, r < 358 → (rhs r).getLast? = some Y → rulePrec r = some (p, as) → tightR p m = true → forbidShift r a = false

theorem tightR_le {p m : Nat} (h : tightR p m = true) : p < m ∨ (p = m ∧ m = 2) := by
  simp only [tightR, rightAssoc, Bool.or_eq_true, decide_eq_true_eq, Bool.and_eq_true, beq_iff_eq] at h; omega
theorem tightL_le {p m : Nat} (h : tightL p m = true) : p < m ∨ (p = m ∧ leftAssoc p = true) := by
  simp only [tightL, Bool.or_eq_true, decide_eq_true_eq, Bool.and_eq_true, beq_iff_eq] at h; exact h
theorem tightR_mono {p m n : Nat} (h : tightR p m = true) (hm : m ≤ n) : tightR p n = true := by
  have := tightR_le h
  simp only [tightR, rightAssoc, Bool.or_eq_true, decide_eq_true_eq, Bool.and_eq_true, beq_iff_eq]; omega

theorem SS.mono {m n b : Nat} (h : SS m b) (hm : m ≤ n) : SS n b := fun r p as h1 h2 h3 => h r p as h1 h2 (by omega)
theorem LL.mono {m n Y a : Nat} (h : LL n Y a) (hm : m ≤ n) : LL m Y a := fun r p as h1 h2 h3 h4 => h r p as h1 h2 h3 (tightR_mono h4 hm)

theorem SS.safe {m b : Nat} (h : Safe b) : SS m b := by
  intro r p as h1 _ _
  unfold forbidReduce; rw [safe_not h1 h, Bool.false_and]

theorem SS.none {m a : Nat} (h : tokPrec a = none) : SS m a := by
  intro r p as _ _ _
  unfold forbidReduce contested; rw [h, Option.isSome_none, Bool.and_false, Bool.false_and, Bool.false_and]

theorem LL.none {m Y a : Nat} (h : tokPrec a = none) : LL m Y a := by
  intro r p as _ _ _ _
  unfold forbidShift contested; rw [h, Option.isSome_none, Bool.and_false, Bool.false_and, Bool.false_and]

theorem SS.tok {m a q : Nat} {as : Assoc} (h : tokPrec a = some (q, as)) (ht : tightL q m = true) (hl : leftAssoc q = true → as = .left) : SS m a := by
  intro r p as' h1 h2 h3
  unfold forbidReduce; rw [h2, h]
  simp only [Bool.and_eq_false_iff]
  right
  rcases tightL_le ht with g | ⟨g, g'⟩
  · have a1 : ¬ p < q := by omega
    have a2 : ¬ p = q := by omega
    simp [a1, a2]
  · have a1 : ¬ p < q := by omega
    simp [a1, hl g']

theorem LL.tok {m Y a q : Nat} {as : Assoc} (h : tokPrec a = some (q, as)) (hm : m ≤ q) (hr : q = 2 → as = .right) : LL m Y a := by
  intro r p as' _ _ h2 h3
  unfold forbidShift; rw [h2, h]
  simp only [Bool.and_eq_false_iff]
  right
  rcases tightR_le h3 with g | ⟨g, g'⟩
  · have a1 : ¬ q < p := by omega
    have a2 : ¬ p = q := by omega
    simp [a1, a2]
  · have a1 : ¬ q < p := by omega
    by_cases hq : p = q
    · simp [a1, hr (by omega)]
    · simp [a1, hq]

theorem op_last : opRules.all (fun r => decide ((rhs r).getLast? = some N.operand) || decide ((rhs r).getLast? = some N.expr)) = true := by decide +kernel

theorem LL.noL {m Y a : Nat} (h : NoL Y a) : LL m Y a := by
  intro r p as h1 h2 _ _
  unfold forbidShift
  cases ho : opRules.contains r with
  | false => rw [not_contested h1 ho, Bool.false_and]
  | true =>
    have := List.all_eq_true.1 op_last r (by simpa using ho)
    rw [h2] at this
    simp only [Option.some.injEq, Bool.or_eq_true, decide_eq_true_eq] at this
    rcases this with g | g
    · exact absurd g h.1
    · exact absurd g h.2

/-! ## Combinators -/

abbrev D (X : Nat) (ws : List Word) (v : V) : Prop := Der Safe Any X ws v
abbrev DT (X : Nat) (ws : List Word) (v : V) : Prop := Der Top Any X ws v
abbrev DN (X : Nat) (ws : List Word) (v : V) : Prop := Der Top NoL X ws v
abbrev DL (Xs : List Nat) (ws : List Word) (vs : List V) : Prop := DerL Safe Any Any Xs ws vs
abbrev DTL (Xs : List Nat) (ws : List Word) (vs : List V) : Prop := DerL Top Any Any Xs ws vs

theorem DT.d {X : Nat} {ws : List Word} {v : V} (h : DT X ws v) : D X ws v := h.weaken (fun _ _ => trivial) (fun _ _ _ => trivial)
theorem Der.any {S : Nat → Prop} {Lf : Nat → Nat → Prop} {X : Nat} {ws : List Word} {v : V} (h : Der S Lf X ws v) : Der S Any X ws v := h.weaken (fun _ h => h) (fun _ _ _ => trivial)
theorem DN.t {X : Nat} {ws : List Word} {v : V} (h : DN X ws v) {S : Nat → Prop} : Der S NoL X ws v := h.weaken (fun _ _ => trivial) (fun _ _ h => h)

/-- The next token does not continue an expression, if what follows does not. -/
def Saf (ws : List Word) : Prop := ∀ b, Safe b → Safe (first ws b)
theorem saf_nil : Saf [] := fun _ h => h
theorem saf_kw {a : Nat} {ws : List Word} (h : opToks.contains a = false) : Saf (.kw a :: ws) := fun _ _ => h
theorem saf_id {b : Bytes} {ws : List Word} : Saf (.id b :: ws) := fun _ _ => rfl
theorem saf_str {b : Bytes} {ws : List Word} : Saf (.str b :: ws) := fun _ _ => rfl
theorem saf_int {b : Int} {ws : List Word} : Saf (.int b :: ws) := fun _ _ => rfl
theorem saf_flt {b : Bytes} {ws : List Word} : Saf (.flt b :: ws) := fun _ _ => rfl
theorem saf_par {b : Nat} {ws : List Word} : Saf (.par b :: ws) := fun _ _ => rfl
theorem saf_append {ws us : List Word} (h1 : Saf ws) (h2 : Saf us) : Saf (ws ++ us) := by
  intro b hb
  cases ws with
  | nil => exact h2 b hb
  | cons w ws => exact h1 b hb

theorem DL.last {X : Nat} {ws : List Word} {v : V} (h : D X ws v) : DL [X] ws [v] := DerL.last h
theorem DL.cons {X Y : Nat} {Xs : List Nat} {ws us : List Word} {v : V} {vs : List V} (h : D X ws v) (hL : DL (Y :: Xs) us vs) (hn : Saf us) : DL (X :: Y :: Xs) (ws ++ us) (v :: vs) :=
  DerL.cons h hL hn
/-- After a part that may be followed by anything. -/
theorem DL.top {S : Nat → Prop} {X Y : Nat} {Xs : List Nat} {ws us : List Word} {v : V} {vs : List V} (h : Der Top Any X ws v) (hL : DerL S Any Any (Y :: Xs) us vs) : DerL S Any Any (X :: Y :: Xs) (ws ++ us) (v :: vs) :=
  DerL.cons h hL fun _ _ => trivial
theorem DL.kw {S : Nat → Prop} {a Y : Nat} {Xs : List Nat} {us : List Word} {vs : List V} (hL : DerL S Any Any (Y :: Xs) us vs) : DerL S Any Any (a :: Y :: Xs) ([.kw a] ++ us) (.undef :: vs) :=
  DerL.cons (Der.kw (S := Top) a) hL fun _ _ => trivial
theorem DL.id {S : Nat → Prop} {b : Bytes} {Y : Nat} {Xs : List Nat} {us : List Word} {vs : List V} (hL : DerL S Any Any (Y :: Xs) us vs) : DerL S Any Any (T.IDENTIFIER :: Y :: Xs) ([.id b] ++ us) (.str 0 b :: vs) :=
  DerL.cons (Der.id (S := Top) b) hL fun _ _ => trivial
theorem DL.str {S : Nat → Prop} {b : Bytes} {Y : Nat} {Xs : List Nat} {us : List Word} {vs : List V} (hL : DerL S Any Any (Y :: Xs) us vs) : DerL S Any Any (T.STRING :: Y :: Xs) ([.str b] ++ us) (.str 0 b :: vs) :=
  DerL.cons (Der.str (S := Top) b) hL fun _ _ => trivial
theorem DL.int {S : Nat → Prop} {n : Int} {Y : Nat} {Xs : List Nat} {us : List Word} {vs : List V} (hL : DerL S Any Any (Y :: Xs) us vs) : DerL S Any Any (T.INTVAL :: Y :: Xs) ([.int n] ++ us) (.int n :: vs) :=
  DerL.cons (Der.int (S := Top) n) hL fun _ _ => trivial
theorem DL.kw1 {S : Nat → Prop} {a : Nat} : DerL S Any Any [a] [.kw a] [.undef] := DerL.last (Der.kw a)
theorem DL.id1 {S : Nat → Prop} {b : Bytes} : DerL S Any Any [T.IDENTIFIER] [.id b] [.str 0 b] := DerL.last (Der.id b)
theorem DL.str1 {S : Nat → Prop} {b : Bytes} : DerL S Any Any [T.STRING] [.str b] [.str 0 b] := DerL.last (Der.str b)
theorem DL.int1 {S : Nat → Prop} {n : Int} : DerL S Any Any [T.INTVAL] [.int n] [.int n] := DerL.last (Der.int n)
theorem DL.flt1 {S : Nat → Prop} {b : Bytes} : DerL S Any Any [T.FLOATVAL] [.flt b] [.raw b] := DerL.last (Der.flt b)

/-- Unit rules keep the edges. -/
theorem Der.unit {S : Nat → Prop} {Lf : Nat → Nat → Prop} {X Y : Nat} {ws : List Word} {v w : V} (r : Nat) (hX : lhs r = X) (hr : rhs r = [Y]) (h : Der S Lf Y ws v)
    (he : ∀ n, evRule r [v] ⟨n, false⟩ = some (w, ⟨n, false⟩)) (h2 : (Nat.ble 3 r && Nat.blt r 358 && !opRules.contains r) = true := by decide) : Der S Lf X ws w := by
  simp only [Bool.and_eq_true, Nat.ble_eq, Nat.blt_eq, Bool.not_eq_true'] at h2
  refine Der.op ⟨h2.1.1, h2.1.2⟩ hX hr (DerL.last h) he ?_ ?_ ?_ (fun _ _ h => h)
  · intro b _; unfold forbidReduce; rw [not_contested h2.1.2 h2.2, Bool.false_and]
  · intro Y a _ _ _; unfold forbidShift; rw [not_contested h2.1.2 h2.2, Bool.false_and]
  · intro Y a h _; rw [hr] at h; cases h

/-- Rules that precedence does not concern and that do not begin with an operand or expression: the left edge is closed. -/
theorem Der.closedL {S : Nat → Prop} {X A : Nat} {Xs : List Nat} {ws : List Word} {vs : List V} {v : V} (r : Nat) (hX : lhs r = X) (hr : rhs r = A :: Xs)
    (h : DerL S Any Any (A :: Xs) ws vs) (he : ∀ n, evRule r vs ⟨n, false⟩ = some (v, ⟨n, false⟩)) (h2 : (Nat.ble 3 r && Nat.blt r 358 && !opRules.contains r) = true := by decide)
    (h3 : Nat.blt A 199 = true := by decide) : Der S NoL X ws v := by
  simp only [Bool.and_eq_true, Nat.ble_eq, Nat.blt_eq, Bool.not_eq_true'] at h2
  intro ts k hs hk
  obtain ⟨cs, f1, f2, f3, f4, f5, f6, f7⟩ := h ts k hs hk
  have hA : A < 199 := by simpa using h3
  refine ⟨.node r cs, ⟨by omega, by rw [rules_len]; omega, by rw [f2, hr], f1⟩, hX, by rw [Tree.yield, f3], ?_, ?_, ?_⟩
  · intro b hb
    refine ⟨?_, ?_, f4 b hb⟩
    · unfold forbidReduce; rw [not_contested h2.1.2 h2.2, Bool.false_and]
    · intro c Y a _ _ _ _; unfold forbidShift; rw [not_contested h2.1.2 h2.2, Bool.false_and]
  · intro Y a ha hL
    rcases hL with hL | hL
    · rw [hr] at hL
      simp only [List.take_succ_cons, List.cons.injEq] at hL
      obtain ⟨rfl, _⟩ := hL
      constructor
      · intro h; rw [h] at hA; exact absurd hA (by decide)
      · intro h; rw [h] at hA; exact absurd hA (by decide)
    · cases cs with
      | nil => cases hL
      | cons c cs =>
        simp only [List.map_cons, List.cons.injEq] at f2
        cases c with
        | leaf t => cases hL
        | node r' ds =>
          have := f2.1
          simp only [Tree.sym] at this
          have h5 := lhs_nt f1.1.1 (by have := f1.1.2.1; rwa [rules_len] at this)
          omega
  · rw [den, f7]
    exact he _

/-- Empty rules. -/
theorem Der.eps {X : Nat} {v : V} (r : Nat) (hX : lhs r = X) (hr : rhs r = []) (he : ∀ n, evRule r [] ⟨n, false⟩ = some (v, ⟨n, false⟩)) (h2 : (Nat.ble 3 r && Nat.blt r 358 && !opRules.contains r) = true := by decide) :
    DN X [] v := Der.atom (Ll := NoL) r hX hr DerL.nil he h2 rfl

/-- A rule that precedence does not concern, with nothing said about the left edge. -/
theorem Der.any_node {S : Nat → Prop} {X : Nat} {Xs : List Nat} {ws : List Word} {vs : List V} {v : V} (r : Nat) (hX : lhs r = X) (hr : rhs r = Xs)
    (h : DerL S Any Any Xs ws vs) (he : ∀ n, evRule r vs ⟨n, false⟩ = some (v, ⟨n, false⟩)) (h2 : (Nat.ble 3 r && Nat.blt r 358 && !opRules.contains r) = true := by decide) : Der S Any X ws v :=
  Der.node r hX hr h he h2

end Verif.Sql

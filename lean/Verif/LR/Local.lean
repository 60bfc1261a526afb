import Verif.LR.Driver
/-!
# The driver reads no further than it needs

A run that ends with `R` still unread is the same whatever follows the tokens read.
-/
namespace Verif.LR
open Verif.Lex

variable {σ V : Type}

/-- The configuration with other tokens still to come. -/
def Cfg.more (c : Cfg σ V) (x : List Tok) : Cfg σ V := { c with toks := c.toks ++ x }

/-- The same for the result of a step. -/
def SRes.more (r : SRes σ V) (x : List Tok) : SRes σ V :=
  match r with
  | .run c => .run (c.more x)
  | .done o c => .done o (c.more x)
  | .ub => .ub

theorem doReduce_more (S : Sem σ V) (r : Nat) (c : Cfg σ V) (x : List Tok) : doReduce S r (c.more x) = (doReduce S r c).more x := by
  unfold doReduce
  split
  · rename_i n A h1 h2
    show (if c.stk.length < n then _ else _) = _
    split
    · rfl
    · show (match S.reduce r ((c.stk.take n).map Prod.snd).reverse ((c.stk.drop n).head?.map Prod.snd) c.st with | .ub => _ | .error st => _ | .ok v st => _) = SRes.more (match S.reduce r ((c.stk.take n).map Prod.snd).reverse ((c.stk.drop n).head?.map Prod.snd) c.st with | .ub => _ | .error st => _ | .ok v st => _) x
      cases S.reduce r ((c.stk.take n).map Prod.snd).reverse ((c.stk.drop n).head?.map Prod.snd) c.st with
      | ub => rfl
      | error st => rfl
      | ok v st =>
        show (match gotoState (topState (c.stk.drop n)) A with | none => _ | some s => _) = SRes.more (match gotoState (topState (c.stk.drop n)) A with | none => _ | some s => _) x
        cases gotoState (topState (c.stk.drop n)) A <;> rfl
  · rfl

theorem doAct_more (S : Sem σ V) (a : Option Act) (c : Cfg σ V) (x : List Tok) : doAct S a (c.more x) = (doAct S a c).more x := by
  unfold doAct
  cases a with
  | none => rfl
  | some a =>
    cases a with
    | error => rfl
    | reduce r => exact doReduce_more S r c x
    | shift s =>
      show (match c.la with | none => _ | some (_, v) => _) = SRes.more (match c.la with | none => _ | some (_, v) => _) x
      cases c.la <;> rfl

/-- A step that reads no token, or has one to read, is not influenced by the tokens after it. -/
theorem step_more' (S : Sem σ V) (lim : Nat) (c : Cfg σ V) (x : List Tok) :
    step S lim (c.more x) = (step S lim c).more x ∨
    ((c.stk.length + 1 < lim ∧ (topState c.stk : Int) ≠ YYFINAL ∧ noToken (topState c.stk) = some false ∧ c.la = none ∧ c.toks = []) ∧ step S lim c = .ub ∧ (x = [] ∨ ∃ t ts, x = t :: ts ∧ ∃ c1 a, c1.toks = ts ∧ step S lim (c.more x) = doAct S a c1)) := by
  unfold step
  show (if lim ≤ c.stk.length + 1 then _ else _) = _ ∨ _
  by_cases h1 : lim ≤ c.stk.length + 1
  · left; rw [if_pos h1, if_pos h1]; rfl
  have h1' : ¬ lim ≤ (c.more x).stk.length + 1 := h1
  simp only [if_neg h1, if_neg h1']
  by_cases h2 : (topState c.stk : Int) = YYFINAL
  · left
    have h2' : (topState (c.more x).stk : Int) = YYFINAL := h2
    rw [if_pos h2, if_pos h2']; rfl
  have h2' : ¬ (topState (c.more x).stk : Int) = YYFINAL := h2
  simp only [if_neg h2, if_neg h2']
  have e : topState (c.more x).stk = topState c.stk := rfl
  rw [e]
  cases hno : noToken (topState c.stk) with
  | none => left; rfl
  | some b =>
    cases b with
    | true => left; exact doAct_more S _ c x
    | false =>
      simp only
      have e2 : (c.more x).la = c.la := rfl
      have e3 : (c.more x).toks = c.toks ++ x := rfl
      rw [e2, e3]
      cases hla : c.la with
      | some p => left; exact doAct_more S _ c x
      | none =>
        cases htk : c.toks with
        | nil =>
          right
          refine ⟨⟨by omega, h2, trivial, rfl, rfl⟩, rfl, ?_⟩
          cases x with
          | nil => exact .inl rfl
          | cons t ts => exact .inr ⟨t, ts, rfl, _, _, rfl, rfl⟩
        | cons t ts => left; exact doAct_more S _ { c with la := some (t, (S.read t c.st).1), toks := ts, st := (S.read t c.st).2 } x

theorem step_more (S : Sem σ V) (lim : Nat) (c : Cfg σ V) (x : List Tok) (h : step S lim c ≠ .ub) : step S lim (c.more x) = (step S lim c).more x := by
  rcases step_more' S lim c x with h1 | ⟨_, h1, _⟩
  · exact h1
  · exact absurd h1 h

theorem runN_more (S : Sem σ V) (lim : Nat) (x : List Tok) {o : Outcome} {c' : Cfg σ V} : ∀ (n : Nat) (c : Cfg σ V), runN S lim n c = some (some (o, c')) →
    runN S lim n (c.more x) = some (some (o, c'.more x))
  | 0, _, h => by cases h
  | n + 1, c, h => by
    unfold runN at h ⊢
    have hub : step S lim c ≠ .ub := by
      intro h'; rw [h'] at h; cases h
    rw [step_more S lim c x hub]
    revert h
    cases step S lim c with
    | run c1 => intro h; exact runN_more S lim x n c1 h
    | done o1 c1 => intro h; cases h; rfl
    | ub => intro h; cases h

theorem doReduce_toks (S : Sem σ V) (r : Nat) (c : Cfg σ V) : (∀ c', doReduce S r c = .run c' → c'.toks = c.toks) ∧ ∀ o c', doReduce S r c = .done o c' → c'.toks = c.toks := by
  unfold doReduce
  split
  · split
    · exact ⟨(by intro _ h; cases h), (by intro _ _ h; cases h)⟩
    · simp only
      split
      · exact ⟨(by intro _ h; cases h), (by intro _ _ h; cases h)⟩
      · exact ⟨(by intro _ h; cases h), (by intro _ _ h; cases h; rfl)⟩
      · split
        · exact ⟨(by intro _ h; cases h), (by intro _ _ h; cases h)⟩
        · exact ⟨(by intro _ h; cases h; rfl), (by intro _ _ h; cases h)⟩
  · exact ⟨(by intro _ h; cases h), (by intro _ _ h; cases h)⟩

theorem doAct_toks (S : Sem σ V) (a : Option Act) (c : Cfg σ V) : (∀ c', doAct S a c = .run c' → c'.toks = c.toks) ∧ ∀ o c', doAct S a c = .done o c' → c'.toks = c.toks := by
  unfold doAct
  split
  · exact ⟨(by intro _ h; cases h), (by intro _ _ h; cases h)⟩
  · exact ⟨(by intro _ h; cases h), (by intro _ _ h; cases h; rfl)⟩
  · exact doReduce_toks S _ c
  · split
    · exact ⟨(by intro _ h; cases h), (by intro _ _ h; cases h)⟩
    · exact ⟨(by intro _ h; cases h; rfl), (by intro _ _ h; cases h)⟩

/-- A step leaves the unread tokens, or takes the first. -/
theorem step_toks (S : Sem σ V) (lim : Nat) (c : Cfg σ V) :
    (∀ c', step S lim c = .run c' → c'.toks = c.toks ∨ ∃ t, c.toks = t :: c'.toks) ∧ ∀ o c', step S lim c = .done o c' → c'.toks = c.toks ∨ ∃ t, c.toks = t :: c'.toks := by
  unfold step
  split
  · exact ⟨(by intro _ h; cases h), (by intro _ _ h; cases h; exact .inl rfl)⟩
  · simp only
    split
    · exact ⟨(by intro _ h; cases h), (by intro _ _ h; cases h; exact .inl rfl)⟩
    · split
      · exact ⟨(by intro _ h; cases h), (by intro _ _ h; cases h)⟩
      · exact ⟨fun c' h => .inl ((doAct_toks S _ c).1 c' h), fun o c' h => .inl ((doAct_toks S _ c).2 o c' h)⟩
      · split
        · exact ⟨fun c' h => .inl ((doAct_toks S _ c).1 c' h), fun o c' h => .inl ((doAct_toks S _ c).2 o c' h)⟩
        · split
          · exact ⟨(by intro _ h; cases h), (by intro _ _ h; cases h)⟩
          · rename_i t ts ht
            refine ⟨fun c' h => .inr ⟨t, ?_⟩, fun o c' h => .inr ⟨t, ?_⟩⟩
            · rw [(doAct_toks S _ _).1 c' h]; exact ht
            · rw [(doAct_toks S _ _).2 o c' h]; exact ht

theorem runN_suffix (S : Sem σ V) (lim : Nat) {o : Outcome} {c' : Cfg σ V} : ∀ (n : Nat) (c : Cfg σ V), runN S lim n c = some (some (o, c')) → c'.toks <:+ c.toks
  | 0, _, h => by cases h
  | n + 1, c, h => by
    unfold runN at h
    have ht := step_toks S lim c
    revert h ht
    cases step S lim c with
    | run c1 =>
      intro h ht
      have h1 := runN_suffix S lim n c1 h
      rcases ht.1 c1 rfl with h2 | ⟨t, h2⟩
      · rw [← h2]; exact h1
      · rw [h2]; exact h1.trans (List.suffix_cons _ _)
    | done o1 c1 =>
      intro h ht
      cases h
      rcases ht.2 _ _ rfl with h2 | ⟨t, h2⟩
      · rw [← h2]; exact List.suffix_refl _
      · rw [h2]; exact List.suffix_cons _ _
    | ub => intro h; cases h

/-- Without the tokens left unread at the end the run is the same. -/
theorem runN_less (S : Sem σ V) (lim : Nat) (R : List Tok) {o : Outcome} {c' : Cfg σ V} : ∀ (n : Nat) (c : Cfg σ V), runN S lim n (c.more R) = some (some (o, c')) → c'.toks = R →
    ∃ c1, runN S lim n c = some (some (o, c1)) ∧ c' = c1.more R
  | 0, _, h, _ => by cases h
  | n + 1, c, h, hR => by
    have hsuf := runN_suffix S lim _ _ h
    by_cases hub : step S lim c = .ub
    · exfalso
      -- the step of `c` fails: either that of `c.more R` does, or it takes a token of `R`
      unfold runN at h
      rcases step_more' S lim c R with h1 | ⟨h0, _, h1 | ⟨t, ts, h1, c1, a, h2, h3⟩⟩
      · rw [h1, hub] at h; cases h
      · have : c.more R = c := by
          unfold Cfg.more; rw [h1, List.append_nil]
        rw [this, hub] at h; cases h
      · have hlen : c'.toks.length ≤ ts.length := by
          rw [h3] at h
          have ht := doAct_toks S a c1
          revert h ht
          cases doAct S a c1 with
          | run c2 =>
            intro h ht
            have := (runN_suffix S lim n c2 h).length_le
            rw [ht.1 c2 rfl, h2] at this
            exact this
          | done o1 c2 =>
            intro h ht
            cases h
            rw [ht.2 _ _ rfl, h2]
            exact Nat.le_refl _
          | ub => intro h; cases h
        rw [hR, h1] at hlen
        simp only [List.length_cons] at hlen; omega
    · unfold runN at h ⊢
      rw [step_more S lim c R hub] at h
      revert h
      cases step S lim c with
      | run c1 => intro h; exact runN_less S lim R n c1 h hR
      | done o1 c1 =>
        intro h; cases h
        exact ⟨c1, rfl, rfl⟩
      | ub => intro h; cases h

end Verif.LR

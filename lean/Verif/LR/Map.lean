import Verif.LR.Driver
/-! The driver commutes with maps of semantic values and states. Proof-internal. -/
namespace Verif.LR
open Verif.Lex

variable {σ V : Type} (f : σ → σ) (h : V → V)

def Cfg.mp (c : Cfg σ V) : Cfg σ V := ⟨c.stk.map fun x => (x.1, h x.2), c.la.map fun x => (x.1, h x.2), c.toks, f c.st⟩
def SRes.mp : SRes σ V → SRes σ V
  | .run c => .run (c.mp f h)
  | .done o c => .done o (c.mp f h)
  | .ub => .ub
def Red.mp : Red σ V → Red σ V
  | .ok v s => .ok (h v) (f s)
  | .error s => .error (f s)
  | .ub => .ub

variable {f h}

theorem topState_mp (stk : List (Nat × V)) : topState (stk.map fun x => (x.1, h x.2)) = topState stk := by
  cases stk <;> rfl

variable {S S' : Sem σ V} (hr : ∀ t s, S'.read t (f s) = (h (S.read t s).1, f (S.read t s).2))
  {P : List (Nat × V) → σ → Prop} (hP : ∀ stk s t, P stk s → P stk (S.read t s).2)
  (hd : ∀ r n stk s, P stk s → S'.reduce r ((((stk.take n).map Prod.snd).reverse).map h) (((stk.drop n).head?.map Prod.snd).map h) (f s) =
    (S.reduce r (((stk.take n).map Prod.snd).reverse) ((stk.drop n).head?.map Prod.snd) s).mp f h)

include hd in
theorem doReduce_mp (r : Nat) (c : Cfg σ V) (hc : P c.stk c.st) : doReduce S' r (c.mp f h) = (doReduce S r c).mp f h := by
  unfold doReduce
  split
  · rename_i n A h1 h2
    have e1 : (c.mp f h).stk.length = c.stk.length := by simp [Cfg.mp]
    rw [e1]
    split
    · rfl
    · have e2 : (((c.mp f h).stk.take n).map Prod.snd).reverse = (((c.stk.take n).map Prod.snd).reverse).map h := by
        simp [Cfg.mp, List.map_take, Function.comp_def]
      have e3 : ((c.mp f h).stk.drop n).head?.map Prod.snd = ((c.stk.drop n).head?.map Prod.snd).map h := by
        simp [Cfg.mp, ← List.map_drop, Function.comp_def]
      have e4 : topState ((c.mp f h).stk.drop n) = topState (c.stk.drop n) := by
        show topState ((c.stk.map fun x => (x.1, h x.2)).drop n) = _
        rw [← List.map_drop, topState_mp]
      have e5 : (c.mp f h).st = f c.st := rfl
      simp only [e2, e3, e4, e5, hd _ _ _ _ hc]
      cases S.reduce r ((c.stk.take n).map Prod.snd).reverse ((c.stk.drop n).head?.map Prod.snd) c.st with
      | ub => rfl
      | error st => simp [Red.mp, SRes.mp, Cfg.mp, List.map_drop]
      | ok v st =>
        simp only [Red.mp]
        cases gotoState (topState (c.stk.drop n)) A with
        | none => rfl
        | some s => simp [SRes.mp, Cfg.mp, List.map_drop]
  · rfl

include hd in
theorem doAct_mp (a : Option Act) (c : Cfg σ V) (hc : P c.stk c.st) : doAct S' a (c.mp f h) = (doAct S a c).mp f h := by
  unfold doAct
  cases a with
  | none => rfl
  | some a =>
    cases a with
    | error => rfl
    | reduce r => exact doReduce_mp hd r c hc
    | shift s =>
      simp only
      have e : (c.mp f h).la = c.la.map fun x => (x.1, h x.2) := rfl
      rw [e]
      cases c.la with
      | none => rfl
      | some x => rfl

include hr hd hP in
theorem step_mp (lim : Nat) (c : Cfg σ V) (hc : P c.stk c.st) : step S' lim (c.mp f h) = (step S lim c).mp f h := by
  unfold step
  have e1 : (c.mp f h).stk.length = c.stk.length := by simp [Cfg.mp]
  have e2 : topState (c.mp f h).stk = topState c.stk := topState_mp c.stk
  rw [e1]
  by_cases h1 : lim ≤ c.stk.length + 1
  · rw [if_pos h1, if_pos h1]; rfl
  rw [if_neg h1, if_neg h1]
  simp only [e2]
  by_cases h2 : (topState c.stk : Int) = YYFINAL
  · rw [if_pos h2, if_pos h2]; rfl
  rw [if_neg h2, if_neg h2]
  cases noToken (topState c.stk) with
  | none => rfl
  | some b =>
    cases b with
    | true => exact doAct_mp hd _ c hc
    | false =>
      simp only
      have e : (c.mp f h).la = c.la.map fun x => (x.1, h x.2) := rfl
      have e' : (c.mp f h).toks = c.toks := rfl
      have e'' : (c.mp f h).st = f c.st := rfl
      rw [e, e']
      cases hla : c.la with
      | some x => exact doAct_mp hd _ c hc
      | none =>
        simp only [Option.map_none, e'', hr]
        cases htk : c.toks with
        | nil => rfl
        | cons t ts => exact doAct_mp hd _ { c with la := some (t, (S.read t c.st).1), toks := ts, st := (S.read t c.st).2 } (hP _ _ _ hc)

/-- The configuration after `n` steps, if the parser is still running. -/
def after {σ V : Type} (S : Sem σ V) (lim : Nat) : Nat → Cfg σ V → Option (Cfg σ V)
  | 0, c => some c
  | n + 1, c => match step S lim c with
    | .run c' => after S lim n c'
    | _ => none

include hr hd hP in
theorem runN_mp (lim : Nat) : ∀ (n : Nat) (c : Cfg σ V), (∀ k c', after S lim k c = some c' → P c'.stk c'.st) →
    runN S' lim n (c.mp f h) = (runN S lim n c).map (Option.map fun x => (x.1, x.2.mp f h))
  | 0, _, _ => rfl
  | n + 1, c, hc => by
    unfold runN
    rw [step_mp hr hP hd lim c (hc 0 c rfl)]
    cases e : step S lim c with
    | run c' => exact runN_mp lim n c' fun k c'' hk => hc (k + 1) c'' (by simp only [after, e]; exact hk)
    | done o c' => rfl
    | ub => rfl

end Verif.LR

import Verif.LR.Final
/-! The run as a whole; and an evaluator by which the kernel can compute derivations of concrete inputs. -/
namespace Verif.LR
open Verif.Lex

section
variable {σ V : Type} {S : Sem σ V} {lim : Nat} {toks : List Tok} {st0 : σ} {ts : List Tok} {e : Tok} {junk : List Tok}

theorem runN_mono {n m : Nat} (h : n ≤ m) : ∀ {c : Cfg σ V} {r}, runN S lim n c = some r → runN S lim m c = some r := by
  induction n generalizing m with
  | zero => intro c r hr; cases hr
  | succ n ih =>
    intro c r hr
    obtain ⟨m, rfl⟩ : ∃ m', m = m' + 1 := ⟨m - 1, by omega⟩
    unfold runN at hr ⊢
    cases hs : step S lim c with
    | run c' => rw [hs] at hr; exact ih (by omega) hr
    | done o c' => rw [hs] at hr; exact hr
    | ub => rw [hs] at hr; exact hr

/-- The run ends, in one of the ways listed in `Stop`. -/
theorem run_main (hin : Input toks ts e junk) (S : Sem σ V) (st0 : σ) :
    ∃ k c stk x, Reach S 200 toks st0 k c stk ∧ step S 200 c = x ∧ Stop S 200 ts e junk c stk x ∧
      runLR S toks st0 = some (match x with | .done o c' => some (o, c') | _ => none) := by
  obtain ⟨k, c, stk, x, h1, h2, h3, h4⟩ := driver_terminates hin S st0
  exact ⟨k, c, stk, x, h1, h2, h3, runN_mono (by rw [hin.eq]; simp; omega) h4⟩

end

/-! ## Evaluation of derivations -/

/-- One step of the automaton on trees, by the packed tables. -/
noncomputable def fstep (stk : TStk) (rem : List Tok) : Option (TStk × List Tok) :=
  match rem with
  | [] => none
  | t :: rem' =>
    match isShift (actF (topState stk) (tsym t)) with
    | true => some ((shTgt (actF (topState stk) (tsym t)), .leaf t) :: stk, rem')
    | false =>
      match tReduce (Nat.div (actF (topState stk) (tsym t)) 2) stk rem with
      | .run stk' rem'' => match Nat.beq (actF (topState stk) (tsym t)) 0 with
        | true => none
        | false => some (stk', rem'')
      | _ => none

/-- Run to the end of the input. -/
noncomputable def feval : Nat → TStk → List Tok → Option Tree
  | 0, _, _ => none
  | n + 1, stk, rem =>
    match Nat.beq (topState stk) 69 with
    | true => match stk with
      | [_, (_, t)] => some t
      | _ => none
    | false => match Nat.ble 199 stk.length with
      | true => none
      | false => match fstep stk rem with
        | some (stk', rem') => feval n stk' rem'
        | none => none

theorem fstep_tstep {lim : Nat} {stk stk' : TStk} {rem rem' : List Tok} (hl : stk.length + 1 < lim) (h69 : topState stk ≠ 69) (hs : topState stk < 656)
    (h : fstep stk rem = some (stk', rem')) : tstep lim stk rem = .run stk' rem' := by
  unfold fstep at h
  cases rem with
  | nil => cases h
  | cons t rem =>
    simp only at h
    rw [tstep_act hl h69]
    obtain ⟨x, hx, hx'⟩ := act_spec (a := tsym t) hs
    rw [hx]
    rw [← hx'] at h
    cases x with
    | error =>
      have e : isShift (encAct .error) = false := by decide
      rw [e] at h
      simp only at h
      split at h
      · simp [encAct] at h
      · cases h
    | shift s =>
      have e : isShift (encAct (.shift s)) = true := by rw [hx']; exact (isShift_iff hs).2 ⟨s, hx⟩
      rw [e] at h
      simp only [shTgt_enc] at h
      cases h
      rfl
    | reduce r =>
      have e : isShift (encAct (.reduce r)) = false := by
        rw [hx']
        cases hc : isShift (actF (topState stk) (tsym t)) with
        | false => rfl
        | true => obtain ⟨s, hs'⟩ := (isShift_iff hs).1 hc; rw [hx] at hs'; cases hs'
      rw [e] at h
      have e2 : Nat.div (encAct (.reduce r)) 2 = r := by show (2 * r + 1) / 2 = r; omega
      simp only [e2] at h
      unfold tAct
      simp only
      split at h
      · rename_i heq
        split at h
        · cases h
        · cases h; exact heq
      · cases h

theorem feval_spec {ts : List Tok} {e : Tok} (he : tsym e = 0) (hne : ∀ t ∈ ts, tsym t ≠ 0) : ∀ (n : Nat) (stk : TStk) (rem : List Tok) (t : Tree),
    StkOK 200 stk rem → stkYield stk ++ rem = ts ++ [e] → (topState stk ≠ 69 → ∃ suf, rem = suf ++ [e]) → feval n stk rem = some t → Derives ts t ∧ t.need + 1 < 200
  | 0, _, _, _, _, _, _, h => by cases h
  | n + 1, stk, rem, t, hok, hy, hsuf, h => by
    unfold feval at h
    split at h
    · rename_i h69
      have h69 := beq_iff.1 h69
      obtain ⟨s, t', e', hst, he', hw, hsym, hp, hneed⟩ := accept_shape hok h69
      subst hst
      simp only [Option.some.injEq] at h
      subst h
      have : stkYield [(69, .leaf e'), (s, t')] = t'.yield ++ [e'] := by
        rw [stkYield_cons, stkYield_cons]; rfl
      rw [this] at hy
      have hr : rem = [] := by
        rcases List.eq_nil_or_concat rem with h | ⟨l, x, h⟩
        · exact h
        · exfalso
          rw [h, List.concat_eq_append, ← List.append_assoc] at hy
          obtain ⟨a, _⟩ := List.append_inj' hy rfl
          have : e' ∈ ts := by rw [← a]; simp
          exact hne e' this he'
      rw [hr, List.append_nil] at hy
      obtain ⟨a, _⟩ := List.append_inj' hy rfl
      exact ⟨⟨hw, hsym, a, hp⟩, hneed (by decide)⟩
    · rename_i h69
      have h69 : topState stk ≠ 69 := by intro h; rw [h] at h69; simp at h69
      split at h
      · cases h
      rename_i hlen
      split at h
      · rename_i stk' rem' hf
        have hl : stk.length + 1 < 200 := by
          rcases Nat.lt_or_ge stk.length 199 with h | h
          · omega
          · rw [ble_iff.2 h] at hlen; cases hlen
        have ht := fstep_tstep hl h69 (topState_lt hok) hf
        obtain ⟨suf, hs⟩ := hsuf h69
        obtain ⟨u, r, hr⟩ : ∃ u r, rem = u :: r := by
          cases suf with
          | nil => exact ⟨e, [], hs⟩
          | cons u r => exact ⟨u, r ++ [e], hs⟩
        rw [hr] at ht hok
        rcases step_sound hok with ⟨k, _⟩ | ⟨k, _⟩ | ⟨k, _⟩ | ⟨s, ka, k, k2, k3⟩ | ⟨r', stk'', ka, _, _, k1, k, k2, k3⟩
        · rw [k] at ht; cases ht
        · rw [k] at ht; cases ht
        · rw [k] at ht; cases ht
        · rw [k] at ht; cases ht
          refine feval_spec he hne n _ _ t k2 ?_ ?_ h
          · rw [k3, List.append_assoc, ← hy, hr]; rfl
          · intro h69'
            cases suf with
            | nil =>
              exfalso
              rw [hr] at hs
              simp at hs
              rw [hs.1, he] at ka
              exact h69' (eof_shift (topState_lt hok) ka)
            | cons x suf =>
              rw [hr] at hs
              simp at hs
              exact ⟨suf, hs.2⟩
        · rw [k] at ht; cases ht
          refine feval_spec he hne n _ _ t k2 ?_ ?_ h
          · rw [k3, ← hy, hr]
          · intro _; exact ⟨suf, by rw [← hr, hs]⟩
      · cases h

/-- The kernel computes derivations. -/
theorem derives_of_feval {ts : List Tok} {t : Tree} (n : Nat) (hne : ∀ t ∈ ts, tsym t ≠ 0)
    (h : feval n [] (ts ++ [⟨0, .none, []⟩]) = some t) : Derives ts t ∧ t.need + 1 < 200 :=
  feval_spec (e := ⟨0, .none, []⟩) (by decide) hne n [] _ t trivial rfl (fun _ => ⟨ts, rfl⟩) h

end Verif.LR

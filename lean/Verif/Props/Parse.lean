import Verif.LR.Top
import Verif.Lex.Fast
/-!
# Parser properties: C11 - C15

`runLR S toks st` is the run of `hsql_parse` on the tokens `toks` delivered by the scanner, for arbitrary
semantic actions `S`.  `sentence toks` are the tokens before the first end of input.
-/
namespace Verif.Props
open Verif.Lex Verif.LR

/-- The tokens before the first end-of-input. -/
def sentence (toks : List Tok) : List Tok := toks.takeWhile fun t => tsym t != 0

theorem input_of {toks : List Tok} (h : ∃ t ∈ toks, tsym t = 0) : ∃ e junk, Input toks (sentence toks) e junk := by
  induction toks with
  | nil => obtain ⟨t, ht, _⟩ := h; simp at ht
  | cons x l ih =>
    by_cases hx : tsym x = 0
    · refine ⟨x, l, ?_, hx, ?_⟩
      · simp [sentence, hx]
      · simp [sentence, hx]
    · obtain ⟨e, junk, h1, h2, h3⟩ := ih (by
        obtain ⟨t, ht, h0⟩ := h
        rcases List.mem_cons.1 ht with rfl | ht
        · exact absurd h0 hx
        · exact ⟨t, ht, h0⟩)
      have e1 : sentence (x :: l) = x :: sentence l := by simp [sentence, hx]
      refine ⟨e, junk, ?_, h2, ?_⟩
      · rw [e1, h1]; simp [h1.symm]
      · rw [e1]
        intro t ht
        rcases List.mem_cons.1 ht with rfl | ht
        · exact hx
        · exact h3 t ht

/-- Semantic actions that neither fail nor have undefined behaviour. -/
def Total {σ V : Type} (S : Sem σ V) : Prop := ∀ r vs b s, ∃ v s', S.reduce r vs b s = .ok v s'

/-- The parser passes through configuration `c`. -/
inductive Passes {σ V : Type} (S : Sem σ V) (toks : List Tok) (st : σ) : Cfg σ V → Prop where
  | init : Passes S toks st (initCfg toks st)
  | step {c c' : Cfg σ V} : Passes S toks st c → step S 200 c = .run c' → Passes S toks st c'

theorem Passes.reach {σ V : Type} {S : Sem σ V} {toks : List Tok} {st : σ} (hend : ∃ t ∈ toks, tsym t = 0) {c : Cfg σ V} (h : Passes S toks st c) :
    ∃ n stk, Reach S 200 toks st n c stk := by
  obtain ⟨e, junk, hin⟩ := input_of hend
  induction h with
  | init => exact ⟨0, [], .init⟩
  | @step c c' _ hs ih =>
    obtain ⟨n, stk, h⟩ := ih
    have hne : ∃ t rem, remOf c = t :: rem := by
      rcases h.rest hin with ⟨_, suf, h1, _⟩ | ⟨h69, _⟩
      · cases suf with
        | nil => exact ⟨e, junk, h1⟩
        | cons x suf => exact ⟨x, suf ++ e :: junk, h1⟩
      · exfalso
        rw [step_final (by rw [h.inv.sim.top]; exact h69)] at hs
        cases hs
    obtain ⟨t, rem, hr⟩ := hne
    obtain ⟨stk', h'⟩ := h.next hr hs
    exact ⟨_, stk', h'⟩

section
variable {σ V : Type} (S : Sem σ V) (toks : List Tok) (st : σ) (hend : ∃ t ∈ toks, tsym t = 0)
include hend

/-- C11. What the parser accepts is a sentence of the grammar: it has a derivation from the start symbol, which moreover
respects the declared precedences and needs less than the 200 stack entries. -/
theorem C11_accepted_is_grammatical (c : Cfg σ V) (h : runLR S toks st = some (some (.accept, c))) :
    ∃ t, Derives (sentence toks) t ∧ t.need + 1 < 200 := by
  obtain ⟨e, junk, hin⟩ := input_of hend
  obtain ⟨k, c', stk, x, hr, hx, hs, hrun⟩ := run_main hin S st
  rw [h] at hrun
  cases hs with
  | accept s t _ _ hd hn => exact ⟨t, hd, hn⟩
  | _ => simp at hrun

/-- C12. A sentence that has a derivation respecting the precedences and fitting the stack is never rejected with a syntax
error nor for lack of stack space: the parser accepts it unless a semantic action fails; with actions that cannot fail it accepts. -/
theorem C12_grammatical_is_accepted (t : Tree) (hd : Derives (sentence toks) t) (hn : t.need + 1 < 200) :
    (∀ c, runLR S toks st ≠ some (some (.syntaxError, c))) ∧ (∀ c, runLR S toks st ≠ some (some (.exhausted, c))) ∧
    (Total S → ∃ c, runLR S toks st = some (some (.accept, c))) := by
  obtain ⟨e, junk, hin⟩ := input_of hend
  obtain ⟨k, c', stk, x, hr, hx, hs, hrun⟩ := run_main hin S st
  obtain ⟨h1, h2⟩ := hd.stop hin hr hs
  refine ⟨?_, ?_, ?_⟩
  · intro c hc; rw [hrun] at hc
    cases hs with
    | syntaxError => exact h1 _ rfl
    | _ => simp at hc
  · intro c hc; rw [hrun] at hc
    cases hs with
    | exhausted => have := h2 ⟨_, rfl⟩; omega
    | _ => simp at hc
  · intro ht
    cases hs with
    | accept s t _ _ hd hn => exact ⟨_, hrun⟩
    | syntaxError => exact absurd rfl (h1 _)
    | exhausted => have := h2 ⟨_, rfl⟩; omega
    | semError r st' _ _ _ _ _ _ h => obtain ⟨v, s', h'⟩ := ht r (((c'.stk.take (rhs r).length).map Prod.snd).reverse) ((c'.stk.drop (rhs r).length).head?.map Prod.snd) (prep S c').st; rw [h'] at h; cases h
    | ub r _ _ _ _ _ _ h => obtain ⟨v, s', h'⟩ := ht r (((c'.stk.take (rhs r).length).map Prod.snd).reverse) ((c'.stk.drop (rhs r).length).head?.map Prod.snd) (prep S c').st; rw [h'] at h; cases h

/-- C14. The run ends after at most `10 n + 2010` steps (shifts, reductions and the final step), `n` being the number
of tokens before the end of input. -/
theorem C14_parsing_terminates :
    runLR S toks st ≠ none ∧ runN S 200 (10 * (sentence toks).length + 2010) (initCfg toks st) = runLR S toks st := by
  obtain ⟨e, junk, hin⟩ := input_of hend
  obtain ⟨k, c, stk, x, h1, h2, h3, h4⟩ := driver_terminates hin S st
  have h5 : runLR S toks st = _ := runN_mono (by have := congrArg List.length hin.eq; simp at this; omega) h4
  exact ⟨by rw [h5]; simp, by rw [h4, h5]⟩

/-- C15. (1) In every configuration the parser passes through, the stack (with its bottom entry) has at most 200 entries.
(2) If the derivation of the input needs at least the 200 entries, the parser rejects the input, with "memory exhausted"
if no semantic action fails before. (3) "memory exhausted" is the outcome only if the stack did fill up. -/
theorem C15_stack_limit :
    (∀ c, Passes S toks st c → c.stk.length + 1 ≤ 200) ∧
    (∀ t, Derives (sentence toks) t → 200 ≤ t.need + 1 → (∀ c, runLR S toks st ≠ some (some (.accept, c))) ∧
      (Total S → ∃ c, runLR S toks st = some (some (.exhausted, c)))) ∧
    (∀ c, runLR S toks st = some (some (.exhausted, c)) → c.stk.length + 1 = 200) := by
  obtain ⟨e, junk, hin⟩ := input_of hend
  refine ⟨?_, ?_, ?_⟩
  · intro c hc
    obtain ⟨n, stk, hr⟩ := hc.reach hend
    have := hr.len (by decide)
    rw [hr.inv.sim.len]; omega
  · intro t hd hn
    obtain ⟨k, c', stk, x, hr, hx, hs, hrun⟩ := run_main hin S st
    obtain ⟨h1, h2⟩ := hd.stop hin hr hs
    refine ⟨?_, ?_⟩
    · intro c hc
      obtain ⟨t', hd', hn'⟩ := C11_accepted_is_grammatical S toks st hend c hc
      rw [derives_unique hd hd'] at hn; omega
    · intro ht
      cases hs with
      | accept s t' _ _ hd' hn' => rw [derives_unique hd hd'] at hn; omega
      | syntaxError => exact absurd rfl (h1 _)
      | exhausted => exact ⟨_, hrun⟩
      | semError r st' _ _ _ _ _ _ h => obtain ⟨v, s', h'⟩ := ht r (((c'.stk.take (rhs r).length).map Prod.snd).reverse) ((c'.stk.drop (rhs r).length).head?.map Prod.snd) (prep S c').st; rw [h'] at h; cases h
      | ub r _ _ _ _ _ _ h => obtain ⟨v, s', h'⟩ := ht r (((c'.stk.take (rhs r).length).map Prod.snd).reverse) ((c'.stk.drop (rhs r).length).head?.map Prod.snd) (prep S c').st; rw [h'] at h; cases h
  · intro c hc
    obtain ⟨k, c', stk, x, hr, hx, hs, hrun⟩ := run_main hin S st
    rw [hrun] at hc
    cases hs with
    | exhausted h =>
      simp at hc
      subst hc
      have := hr.len (by decide)
      rw [hr.inv.sim.len]; omega
    | _ => simp at hc
end

/-- C13. A token sequence has at most one derivation that respects the precedences; so an accepted one has exactly one. -/
theorem C13_unambiguous (ts : List Tok) (t t' : Tree) (h : Derives ts t) (h' : Derives ts t') : t = t' := derives_unique h h'

/-! ## Concrete cases -/

/-- The tokens of `SELECT a + b * c FROM t WHERE NOT x AND y;`. -/
def exToks : List Tok := [313, 258, 43, 258, 42, 258, 349, 258, 338, 376, 258, 371, 258, 59].map fun c => ⟨c, .none, []⟩

theorem derives_of_isSome {ts : List Tok} (n : Nat) (hne : (ts.all fun t => tsym t != 0) = true)
    (h : (feval n [] (ts ++ [⟨0, .none, []⟩])).isSome = true) : ∃ t, Derives ts t ∧ t.need + 1 < 200 := by
  obtain ⟨t, ht⟩ := Option.isSome_iff_exists.1 h
  refine ⟨t, derives_of_feval n ?_ ht⟩
  intro u hu
  have := List.all_eq_true.1 hne u hu
  simpa using this

/-- The hypotheses of C11 - C15 are met by that token sequence. -/
example : ∃ t, Derives exToks t ∧ t.need + 1 < 200 :=
  derives_of_isSome 200 (by decide +kernel) (by decide +kernel)

/-- `x` in 100 pairs of parentheses, after SELECT: it is a sentence, and its derivation fits the stack. -/
def nested (n : Nat) : List Tok :=
  (([313] : List Int) ++ List.replicate n 40 ++ [258] ++ List.replicate n 41).map fun c => ⟨c, .none, []⟩

example : ∃ t, Derives (nested 100) t ∧ t.need + 1 < 200 :=
  derives_of_isSome 2000 (by decide +kernel) (by decide +kernel)
end Verif.Props

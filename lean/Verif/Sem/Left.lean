import Verif.Sem.Msgs
/-! Statements left in the result by a rejected text. Proof-internal. -/
namespace Verif.LR
open Verif.Lex

theorem tokPrec_eof : tokPrec 0 = none := by decide +kernel
theorem forbidReduce_eof (r : Nat) : forbidReduce r 0 = false := by
  unfold forbidReduce contested
  rw [tokPrec_eof]
  simp

mutual
theorem precOK_eof : ∀ (t : Tree) (b : Nat), t.PrecOK b → t.PrecOK 0
  | .leaf _, _, _ => trivial
  | .node r cs, b, h => ⟨forbidReduce_eof r, h.2.1, precOKL_eof cs b h.2.2⟩
theorem precOKL_eof : ∀ (cs : List Tree) (b : Nat), PrecOKL cs b → PrecOKL cs 0
  | [], _, _ => trivial
  | c :: cs, b, h => by
    refine ⟨?_, precOKL_eof cs b h.2⟩
    have h1 := h.1
    cases hy : yieldL cs with
    | nil => simp only [hy, nextSym] at h1 ⊢; exact precOK_eof c b h1
    | cons u us => simp only [hy, nextSym] at h1 ⊢; exact h1
end
end Verif.LR

namespace Verif.Sem
open Verif.LR Verif.Lex

theorem phase_derives {lim : Nat} {stk : TStk} {rem : List Tok} (hok : StkOK lim stk rem) (hp : Phase stk) (hi : ∃ p ∈ stk, p.2.sym = N.input) (h69 : topState stk ≠ 69) :
    ∃ T, Derives (stkYield stk) T := by
  cases hp with
  | before h => obtain ⟨p, hp, he⟩ := hi; exact absurd he (h p hp)
  | shifted t e h1 h2 => subst h1; exact absurd rfl h69
  | done t h1 h2 =>
    subst h1
    simp only [StkOK] at hok
    refine ⟨t, hok.2.2.2.2.1, h2, ?_, precOK_eof t _ hok.2.2.2.2.2.1⟩
    rw [stkYield_cons]; rfl

/-- If a rejected text changed the statements, there was a syntax error right behind a complete sentence. -/
theorem ends_left {A : Alloc} {toks ts : List Tok} {e : Tok} {junk : List Tok} {r0 : Res} (hin : Input toks ts e junk) (ht : ∀ t ∈ toks, TokShape t)
    {ret : Int} {st : St} (h : Ends A toks ts e junk r0 (some (ret, st))) (h0 : ret ≠ 0) (hs : st.res.stmts ≠ r0.stmts ∨ st.res.params ≠ r0.params) :
    ∃ pre t rest T s, toks = pre ++ t :: rest ∧ pre <+: ts ∧ Derives pre T ∧ st.res.errMsg.map Prod.snd = some (syntaxMsg s (tsym t)) := by
  generalize hx : some (ret, st) = x at h
  cases h with
  | ub => cases hx
  | accept => cases hx; exact absurd rfl h0
  | exhausted n c stk f l hR hl _ =>
    cases hx
    exfalso
    have hi : ∃ p ∈ stk, p.2.sym = N.input := Classical.byContradiction fun hi => by
      obtain ⟨g1, g2⟩ := pre_rc ht hR.rc hi
      rcases hs with hs | hs
      · exact hs g1
      · exact hs g2
    cases hR.phase with
    | before h => obtain ⟨p, hp, he⟩ := hi; exact absurd he (h p hp)
    | shifted t e h1 h2 => subst h1; simp at hl
    | done t h1 h2 => subst h1; simp at hl
  | syntaxError n c stk t rem v f l hR hr h69 ha hla htk _ =>
    cases hx
    have hi : ∃ p ∈ stk, p.2.sym = N.input := Classical.byContradiction fun hi => by
      obtain ⟨g1, g2⟩ := pre_rc ht hR.rc_prep hi
      rcases hs with hs | hs
      · exact hs g1
      · exact hs g2
    have hinv := hR.inv
    have hyl := hinv.yld
    rw [hr] at hyl
    obtain ⟨T, hT⟩ := phase_derives hinv.ok hR.phase hi h69
    refine ⟨stkYield stk, t, rem, T, topState stk, hyl.symm, ?_, hT, rfl⟩
    rcases hR.rest hin with ⟨_, suf, _, h2⟩ | ⟨h, _⟩
    · exact ⟨suf, h2.symm⟩
    · exact absurd h h69
  | semError n c stk r st f l hR hat hr2 hrun _ =>
    cases hx
    exfalso
    have hty := (typed_rc (A := A) (r0 := r0) (ok := fun b => ∃ t ∈ toks, t.val = .sval b) good66_true ht (fun t h1 b h2 => ⟨t, h1, h2⟩) hR.rc_prep).2 (.inl fun _ => trivial)
    have := rule_sound A (redLoc c.stk (rhs r).length) hat.r1 hat.r2 hr2 (fun _ _ => trivial) (hty.rhs hat) (prep (sem A) c).st
    rw [prep_stk, hrun] at this
    have h0 := pre_rc ht hR.rc_prep (fun ⟨p, hp, he⟩ => hat.before p hp he)
    rcases hs with hs | hs
    · exact hs (by rw [← h0.1]; exact this.1.stmts)
    · exact hs (by rw [← h0.2]; exact this.1.params)

end Verif.Sem

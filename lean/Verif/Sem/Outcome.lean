import Verif.Sem.Pos
/-! Facts about the end of a parse. Proof-internal. -/
namespace Verif.Sem
open Verif.LR Verif.Lex

/-- At most one of the outcomes of `hsql_parse` is success, and then no error was reported. -/
theorem ends_err {A : Alloc} {toks ts : List Tok} {e : Tok} {junk : List Tok} {r0 : Res} (h0 : r0.errMsg = none) {ret : Int} {st : St}
    (h : Ends A toks ts e junk r0 (some (ret, st))) : (ret = 0 → st.res.errMsg = none ∧ st.res.errLine = r0.errLine ∧ st.res.errCol = r0.errCol) ∧
      (ret ≠ 0 → st.res.errMsg.isSome = true ∧ Inside (scanned toks) st.res.errLine st.res.errCol) := by
  have hpre : ∀ {u v : List Tok}, u ++ v = toks → scanned u <+: scanned toks := by
    intro u v h; rw [← h]; unfold scanned; simp
  generalize hx : some (ret, st) = x at h
  cases h with
  | ub => cases hx
  | accept n c stk s t f l hR h1 _ h3 _ _ =>
    cases hx
    refine ⟨fun _ => ?_, by simp⟩
    have hm : c.st.res.errMsg = none := by
      rcases err_rc h0 hR.rc with h | ⟨p, hp, hs⟩
      · exact h
      · exfalso
        rw [h1] at hp
        have he : (Tree.leaf e).sym < 199 := tsym_lt e
        rcases List.mem_cons.1 hp with rfl | hp
        · simp only at hs
          generalize (Tree.leaf e).sym = s at he hs
          simp only [carriers, List.mem_cons, List.not_mem_nil, or_false, N.column_def, N.table_elem, N.table_elem_commalist] at hs
          omega
        · rcases List.mem_cons.1 hp with rfl | hp
          · simp only [h3.2.1] at hs
            exact absurd hs (by decide)
          · cases hp
    refine ⟨hm, ?_⟩
    have := pos_unchanged hR.rc hm
    exact this
  | exhausted n c stk f l hR _ _ =>
    cases hx
    refine ⟨by simp, fun _ => ⟨rfl, ?_⟩⟩
    obtain ⟨rd, hp⟩ := pos_rc hR.rc
    exact (hp.y.locIn.1).mono (hpre hp.all)
  | syntaxError n c stk t rem v f l hR _ _ _ _ _ _ =>
    cases hx
    refine ⟨by simp, fun _ => ⟨rfl, ?_⟩⟩
    obtain ⟨rd, hp⟩ := pos_rc hR.rc_prep
    exact (hp.y.locIn.1).mono (hpre hp.all)
  | semError n c stk r st f l hR hat hr2 hrun _ =>
    cases hx
    have hm : st.res.errMsg.isSome = true := act_err_res hat.r1 hat.r2 hr2 hrun
    refine ⟨by simp, fun _ => ⟨hm, ?_⟩⟩
    show Inside (scanned toks) st.res.errLine st.res.errCol
    obtain ⟨rd, hp⟩ := pos_rc hR.rc_prep
    have hl := redLoc_in (T := scanned rd) (stk := c.stk) (by rw [← prep_stk (sem A) c]; exact hp.stk) (rhs r).length
    have := rr_pos (P := Inside (scanned rd)) hl.1 (act_err_rr hat.r1 hat.r2 hr2 hrun) (hp.err h0) hm
    exact this.mono (hpre hp.all)
where
  pos_unchanged {A : Alloc} {toks : List Tok} {r0 : Res} {c : Cfg St SV} {stk : TStk} (h : RC (sem A) toks (startSt r0) c stk) :
      c.st.res.errMsg = none → c.st.res.errLine = r0.errLine ∧ c.st.res.errCol = r0.errCol := by
    refine RC.ind (I := fun c stk => c.st.res.errMsg = none → c.st.res.errLine = r0.errLine ∧ c.st.res.errCol = r0.errCol) ?_ ?_ ?_ ?_ h
    · exact fun _ => ⟨rfl, rfl⟩
    · exact fun c stk t ts ih _ _ => ih
    · exact fun c stk t v s ih _ _ _ => ih
    · intro c stk r s v st ih hat hred hm
      obtain ⟨e1, e2⟩ := reduce_ok hat.r1 hat.r2 hred
      have hm : st.res.errMsg = none := hm
      show st.res.errLine = _ ∧ st.res.errCol = _
      have ih := ih (run_err hat.r1 hat.r2 (rhsVals_len hat) e2 hm)
      by_cases h2 : r = 2
      · subst h2
        obtain ⟨_, g2, g3, _⟩ := run2_pos e2
        rw [g2, g3]; exact ih
      · have hr := act_ok_rr hat.r1 hat.r2 h2 e2
        have : ∀ {loc : Loc} {k : Prog} {r : Res} {y : YYLoc} {b : Bool} {r' : Res} {y' : YYLoc}, RR loc k r y b r' y' → r'.errMsg = none → r'.errLine = r.errLine ∧ r'.errCol = r.errCol ∧ r.errMsg = none := by
          intro loc k r y b r' y' h
          induction h with
          | ret => exact fun h => ⟨rfl, rfl, h⟩
          | fail => exact fun h => ⟨rfl, rfl, h⟩
          | err _ ih => intro h; have := (ih h).2.2; cases this
          | errName _ ih => intro h; have := (ih h).2.2; cases this
          | _ => assumption
        obtain ⟨g2, g3, _⟩ := this hr hm
        rw [g2, g3]; exact ih

end Verif.Sem

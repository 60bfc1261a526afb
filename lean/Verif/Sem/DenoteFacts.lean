import Verif.Sem.Denote
import Verif.Sem.Ends
/-! The parser computes the value of the derivation. Proof-internal. -/
namespace Verif.Sem
open Verif.Lex Verif.LR

/-- Forget addresses and scanner positions. -/
abbrev E0 : Hm := ⟨id, 0⟩

theorem evRule_act {r : Nat} (h1 : 2 ≤ r) (h2 : r < 358) (h3 : r ≠ 2) (vs : List V) (s : PS) : evRule r vs s =
    (match run Z ⟨0, 0, 0, 0⟩ (act r) (mkEnv vs) (pureSt s) with
    | .ok v st => some (v, st.ps)
    | _ => none) := by
  unfold evRule
  rw [if_neg h3, act_get h1 h2]
  simp only []
  cases run Z ⟨0, 0, 0, 0⟩ (act r) (mkEnv vs) (pureSt s) <;> rfl

theorem noFin_acts : (actions.drop 1).all noFin = true := by decide +kernel

theorem noFin_act {r : Nat} (h1 : 2 ≤ r) (h2 : r < 358) (h3 : r ≠ 2) : noFin (act r) = true := by
  have hg := act_get h1 h2
  have : (actions.drop 1)[r - 3]? = some (act r) := by
    rw [List.getElem?_drop, show 1 + (r - 3) = r - 2 by omega]; exact hg
  exact List.all_eq_true.1 noFin_acts _ (List.mem_of_getElem? this)

theorem pureSt_ps (s : PS) : (pureSt s).ps = s := by
  obtain ⟨n, e⟩ := s
  cases e <;> simp [pureSt, St.ps]

theorem sim_pure (st : St) : Sim 0 st (pureSt st.ps) := by
  refine ⟨by simp [pureSt, St.ps], ?_, rfl, rfl⟩
  have : ∀ b : Bool, ((if b then some (0, []) else none) : Option (Nat × Bytes)).isSome = b := by intro b; cases b <;> rfl
  exact this _

theorem Sim.ps {st p : St} (h : Sim 0 st p) : p.ps = st.ps := by
  simp only [St.ps, h.plist, h.err, Nat.add_zero]

theorem mkEnv_h (f : Hm) (vs : List V) : hL f (mkEnv vs) = mkEnv (hL f vs) := by
  unfold mkEnv
  simp [hL_map, V.h]

/-- One action. -/
theorem evRule_run (A : Alloc) (loc : Loc) {r : Nat} (h1 : 2 ≤ r) (h2 : r < 358) (h3 : r ≠ 2) (vs : List V) (st : St) :
    evRule r (hL E0 vs) st.ps = (match run A loc (act r) (mkEnv vs) st with
      | .ok v st' => some (v.h E0, st'.ps)
      | _ => none) := by
  rw [evRule_act h1 h2 h3]
  have h := run_h (strHom_id 0) A loc ⟨0, 0, 0, 0⟩ (act r) (mkEnv vs) (noFin_act h1 h2 h3) (sim_pure st)
  rw [mkEnv_h] at h
  cases hx : run A loc (act r) (mkEnv vs) st <;> rw [hx] at h <;> cases hy : run Z ⟨0, 0, 0, 0⟩ (act r) (mkEnv (hL E0 vs)) (pureSt st.ps) <;> rw [hy] at h
  · obtain ⟨rfl, hs⟩ := h
    simp only [hs.ps]
  all_goals first | rfl | exact h.elim

theorem denL_append : ∀ (a b : List Tree) (s : PS), denL (a ++ b) s = (match denL a s with
    | some (vs, s') => match denL b s' with
      | some (ws, s'') => some (vs ++ ws, s'')
      | none => none
    | none => none)
  | [], b, s => by
    simp only [List.nil_append, denL]
    cases denL b s <;> rfl
  | c :: a, b, s => by
    simp only [List.cons_append, denL]
    cases den c s with
    | none => rfl
    | some x =>
      obtain ⟨v, s'⟩ := x
      simp only [denL_append a b s']
      cases denL a s' with
      | none => rfl
      | some y =>
        obtain ⟨vs, s''⟩ := y
        simp only []
        cases denL b s'' <;> rfl

/-- The value of the trees on the stack. -/
def denStk (stk : TStk) (s : PS) : Option (List V × PS) := denL (stk.map Prod.snd).reverse s

theorem denStk_cons (x : Nat × Tree) (stk : TStk) (s : PS) : denStk (x :: stk) s = (match denStk stk s with
    | some (vs, s') => match den x.2 s' with
      | some (w, s'') => some (vs ++ [w], s'')
      | none => none
    | none => none) := by
  unfold denStk
  rw [List.map_cons, List.reverse_cons, denL_append]
  cases denL (stk.map Prod.snd).reverse s with
  | none => rfl
  | some y =>
    obtain ⟨vs, s'⟩ := y
    simp only [denL]
    cases den x.2 s' <;> rfl

theorem denStk_split (n : Nat) (stk : TStk) (s : PS) : denStk stk s = (match denStk (stk.drop n) s with
    | some (vs, s') => match denL (popTrees n stk) s' with
      | some (ws, s'') => some (vs ++ ws, s'')
      | none => none
    | none => none) := by
  unfold denStk popTrees
  rw [← denL_append, ← List.reverse_append, ← List.map_append, List.take_append_drop]

theorem denStk_node (t r n : Nat) (stk : TStk) (s : PS) : denStk ((t, .node r (popTrees n stk)) :: stk.drop n) s = (match denStk (stk.drop n) s with
    | some (vs, s') => match denL (popTrees n stk) s' with
      | some (ws, s'') => match evRule r ws s'' with
        | some (w, s3) => some (vs ++ [w], s3)
        | none => none
      | none => none
    | none => none) := by
  rw [denStk_cons]
  cases denStk (stk.drop n) s with
  | none => rfl
  | some y =>
    obtain ⟨vs, s'⟩ := y
    simp only [den]
    cases denL (popTrees n stk) s' with
    | none => rfl
    | some y => rfl

theorem tokValue_h (A : Alloc) (k : Nat) (v : TokVal) : (tokValue A k v).h E0 = tokValue Z 0 v := by cases v <;> rfl

theorem denL_len : ∀ {ts : List Tree} {s s' : PS} {vs : List V}, denL ts s = some (vs, s') → vs.length = ts.length
  | [], s, s', vs, h => by simp only [denL, Option.some.injEq, Prod.mk.injEq] at h; rw [← h.1]; rfl
  | c :: ts, s, s', vs, h => by
    simp only [denL] at h
    cases hc : den c s with
    | none => rw [hc] at h; cases h
    | some x =>
      rw [hc] at h
      simp only [] at h
      cases hl : denL ts x.2 with
      | none => rw [hl] at h; cases h
      | some y =>
        rw [hl] at h
        simp only [Option.some.injEq, Prod.mk.injEq] at h
        rw [← h.1, List.length_cons, denL_len hl, List.length_cons]

section
variable {A : Alloc} {toks : List Tok} {r0 : Res}

/-- The parser's stack holds the values of the trees on the ghost stack. -/
structure Den (s0 : PS) (c : Cfg St SV) (stk : TStk) : Prop where
  stk : denStk stk s0 = some (hL E0 (vals c.stk).reverse, c.st.ps)
  la : ∀ t v, c.la = some (t, v) → v.1.h E0 = tokValue Z 0 t.val

theorem den_rc {c : Cfg St SV} {stk : TStk} (h : RC (sem A) toks (startSt r0) c stk) : Den ⟨0, r0.errMsg.isSome⟩ c stk := by
  refine RC.ind (I := fun c stk => Den ⟨0, r0.errMsg.isSome⟩ c stk) ?_ ?_ ?_ ?_ h
  · exact ⟨rfl, by intro t v h; cases h⟩
  · intro c stk t ts ih h1 h2
    refine ⟨ih.stk, ?_⟩
    intro u v hv
    cases hv
    exact tokValue_h A _ _
  · intro c stk t v s ih h1 h2 h3
    refine ⟨?_, by intro t v h; cases h⟩
    rw [denStk_cons, ih.stk]
    simp only [den, vals, List.map_cons, List.reverse_cons, hL_map, List.map_append, List.map_nil, ih.la t v h1]
  · intro c stk r s v st ih hat hred
    refine ⟨?_, ih.la⟩
    obtain ⟨_, e2⟩ := reduce_ok hat.r1 hat.r2 hred
    have hs := ih.stk
    have hev : evRule r (hL E0 (rhsVals c.stk (rhs r).length)) c.st.ps = some (v.1.h E0, st.ps) := by
      by_cases h2 : r = 2
      · subst h2
        obtain ⟨g1, g2, _, _, _, g3⟩ := run2 e2
        rw [evRule, if_pos rfl, g1]
        simp only [V.h, St.ps, g2, g3]
      · rw [evRule_run A (redLoc c.stk (rhs r).length) hat.r1 hat.r2 h2, e2]
    rw [denStk_split (rhs r).length] at hs
    rw [denStk_node]
    cases h1 : denStk (stk.drop (rhs r).length) ⟨0, r0.errMsg.isSome⟩ with
    | none => rw [h1] at hs; cases hs
    | some y =>
      obtain ⟨vs, s'⟩ := y
      rw [h1] at hs
      simp only [] at hs ⊢
      cases h3 : denL (popTrees (rhs r).length stk) s' with
      | none => rw [h3] at hs; cases hs
      | some y =>
        obtain ⟨ws, s''⟩ := y
        rw [h3] at hs
        simp only [Option.some.injEq, Prod.mk.injEq] at hs ⊢
        obtain ⟨hs1, hs2⟩ := hs
        have hsplit : (vals c.stk).reverse = (vals (c.stk.drop (rhs r).length)).reverse ++ rhsVals c.stk (rhs r).length := by
          rw [rhsVals, ← List.reverse_append, vals, vals, vals, ← List.map_append, List.take_append_drop]
        have hlen : ws.length = (hL E0 (rhsVals c.stk (rhs r).length)).length := by
          rw [denL_len h3, hL_map, List.length_map]
          have := congrArg List.length hat.sim
          simp only [List.length_map] at this
          have hl := hat.len
          simp [popTrees, rhsVals, vals]
          omega
        rw [hsplit, hL_map, List.map_append, ← hL_map, ← hL_map] at hs1
        obtain ⟨e1, e2⟩ := List.append_inj' hs1 hlen
        subst hs2
        rw [e1, e2, hev]
        simp [vals, hL_map]

/-- The automaton only builds on. -/
theorem tstep_den {lim : Nat} {stk stk' : TStk} {rem rem' : List Tok} {s : PS} (h : tstep lim stk rem = .run stk' rem') (hd : denStk stk' s ≠ none) : denStk stk s ≠ none := by
  have hsh : ∀ x, denStk (x :: stk) s ≠ none → denStk stk s ≠ none := by
    intro x hx hn
    rw [denStk_cons, hn] at hx
    exact hx rfl
  have hact : ∀ a, tAct a stk rem = .run stk' rem' → denStk stk s ≠ none := by
    intro a ha
    cases a with
    | none => cases ha
    | some a =>
      cases a with
      | error => cases ha
      | shift k =>
        cases rem with
        | nil => cases ha
        | cons x b =>
          simp only [tAct] at ha
          cases ha
          exact hsh _ hd
      | reduce r =>
        simp only [tAct, tReduce] at ha
        split at ha
        · split at ha
          · cases ha
          · split at ha
            · cases ha
            · cases ha
              intro hn
              rename_i n _ _ _ _ _ _ _
              rw [denStk_node] at hd
              rw [denStk_split n] at hn
              cases h1 : denStk (stk.drop n) s with
              | none => rw [h1] at hd; exact hd rfl
              | some y =>
                obtain ⟨vs, s'⟩ := y
                rw [h1] at hd hn
                simp only [] at hd hn
                cases h2 : denL (popTrees n stk) s' with
                | none => rw [h2] at hd; exact hd rfl
                | some y => rw [h2] at hn; cases hn
        · cases ha
  unfold tstep at h
  by_cases hl : lim ≤ stk.length + 1
  · rw [if_pos hl] at h; cases h
  rw [if_neg hl] at h
  by_cases h69 : topState stk = 69
  · rw [if_pos h69] at h; cases h
  rw [if_neg h69] at h
  cases hn : noToken (topState stk) with
  | none => rw [hn] at h; cases h
  | some q =>
    rw [hn] at h
    cases q with
    | true => exact hact _ h
    | false =>
      cases rem with
      | nil => cases h
      | cons x b => exact hact _ h

theorem TSteps.den {lim n : Nat} {a c : TStk} {b d : List Tok} {s : PS} (h : TSteps lim n a b c d) (hd : denStk c s ≠ none) : denStk a s ≠ none := by
  induction h with
  | refl => exact hd
  | step h1 _ ih => exact tstep_den h1 (ih hd)

/-- If the derivation has a value, the parser accepts or exhausts its stack. -/
theorem den_run {ts : List Tok} {e : Tok} {junk : List Tok} (hin : Input toks ts e junk) {t : Tree} (hd : Derives ts t)
    (hv : den t ⟨0, r0.errMsg.isSome⟩ ≠ none) (hno2 : ∀ c stk, RC (sem A) toks (startSt r0) c stk → RedAt c stk 2 → 
      ∃ v st, run A (redLoc c.stk (rhs 2).length) (act 2) (mkEnv (rhsVals c.stk (rhs 2).length)) c.st = .ok v st) :
    (∃ n c s, Reach (sem A) 200 toks (startSt r0) n c [(69, .leaf e), (s, t)] ∧ remOf c = junk ∧ runLR (sem A) toks (startSt r0) = some (some (.accept, c))) ∨
    (200 ≤ t.need + 1 ∧ ∃ n c stk, Reach (sem A) 200 toks (startSt r0) n c stk ∧ 200 ≤ stk.length + 1 ∧ runLR (sem A) toks (startSt r0) = some (some (.exhausted, c))) := by
  obtain ⟨n, c, stk, x, hR, hx, hs, hrun⟩ := run_main hin (sem A) (startSt r0)
  obtain ⟨g1, g2⟩ := hd.stop hin hR hs
  have hfin : ∀ r, (∃ u rem, remOf c = u :: rem ∧ actionOn (topState stk) (tsym u) = some (.reduce r)) → 2 ≤ r → r < 358 → topState stk ≠ 69 → (∀ c', x ≠ .done .exhausted c') →
      ∃ v st, run A (redLoc c.stk (rhs r).length) (act r) (mkEnv (rhsVals c.stk (rhs r).length)) (prep (sem A) c).st = .ok v st := by
    rintro r ⟨u, rem, hr, ha⟩ h1 h2 h69 hex
    have hl : ¬ 200 ≤ stk.length + 1 := by
      intro hl
      have hlen := hR.inv.sim.len
      unfold step at hx
      rw [if_pos (by omega)] at hx
      exact hex c hx.symm
    have hat := hR.redAt hr h69 hl ha
    by_cases hr2 : r = 2
    · subst hr2
      have := hno2 _ _ hR.rc_prep hat
      rw [prep_stk] at this
      exact this
    -- the path to the end
    obtain ⟨m, s, hm⟩ := complete_root hd hin.eof junk (lim := 200 + t.need + 2 + stk.length) (by omega)
    have hst := hR.inv.steps
    rw [hin.eq] at hst
    obtain ⟨j, hj, _⟩ := hm.prefix (acc_end rfl) (hst.mono (by omega))
    have hend : denStk [(69, .leaf e), (s, t)] ⟨0, r0.errMsg.isSome⟩ ≠ none := by
      rw [denStk_cons, denStk_cons]
      have h0 : denStk [] (⟨0, r0.errMsg.isSome⟩ : PS) = some ([], ⟨0, r0.errMsg.isSome⟩) := rfl
      rw [h0]
      simp only []
      cases hdt : den t ⟨0, r0.errMsg.isSome⟩ with
      | none => exact absurd hdt hv
      | some y => simp [den]
    rw [hr] at hj
    cases hj with
    | refl => exact absurd rfl h69
    | step k1 k2 =>
      have hdn := TSteps.den k2 hend
      rw [tstep_act (by omega) h69, ha] at k1
      simp only [tAct, tReduce] at k1
      rw [ruleLen_eq (by omega) h2, ruleLhs_eq (by omega) h2] at k1
      simp only [] at k1
      split at k1
      · cases k1
      · split at k1
        · cases k1
        · cases k1
          have hden := (den_rc hR.rc_prep).stk
          rw [prep_stk] at hden
          have hat' := hat.sim
          have hlen' := hat.len
          rw [prep_stk] at hat' hlen'
          cases hrn : run A (redLoc c.stk (rhs r).length) (act r) (mkEnv (rhsVals c.stk (rhs r).length)) (prep (sem A) c).st with
          | ok v st => exact ⟨v, st, rfl⟩
          | _ =>
            exfalso
            have hev := evRule_run A (redLoc c.stk (rhs r).length) h1 h2 hr2 (rhsVals c.stk (rhs r).length) (prep (sem A) c).st
            rw [hrn] at hev
            rw [denStk_node] at hdn
            rw [denStk_split (rhs r).length] at hden
            cases h1 : denStk (stk.drop (rhs r).length) ⟨0, r0.errMsg.isSome⟩ with
            | none => rw [h1] at hden; cases hden
            | some y =>
              obtain ⟨vs, s'⟩ := y
              rw [h1] at hden hdn
              simp only [] at hden hdn
              cases h3 : denL (popTrees (rhs r).length stk) s' with
              | none => rw [h3] at hden; cases hden
              | some y =>
                obtain ⟨ws, s''⟩ := y
                rw [h3] at hden hdn
                simp only [Option.some.injEq, Prod.mk.injEq] at hden hdn
                obtain ⟨hs1, hs2⟩ := hden
                have hsplit : (vals c.stk).reverse = (vals (c.stk.drop (rhs r).length)).reverse ++ rhsVals c.stk (rhs r).length := by
                  rw [rhsVals, ← List.reverse_append, vals, vals, vals, ← List.map_append, List.take_append_drop]
                have hlen : ws.length = (hL E0 (rhsVals c.stk (rhs r).length)).length := by
                  rw [denL_len h3, hL_map, List.length_map]
                  have := congrArg List.length hat'
                  simp only [List.length_map] at this
                  simp [popTrees, rhsVals, vals]
                  omega
                rw [hsplit, hL_map, List.map_append, ← hL_map, ← hL_map] at hs1
                obtain ⟨_, e2⟩ := List.append_inj' hs1 hlen
                subst hs2
                rw [e2, hev] at hdn
                exact hdn rfl
  cases hs with
  | accept s t' h1 h2 h3 h4 =>
    have := derives_unique hd h3
    subst this
    subst h1
    exact .inl ⟨n, c, s, hR, h2, hrun⟩
  | exhausted h1 => exact .inr ⟨g2 ⟨_, rfl⟩, n, c, stk, hR, h1, hrun⟩
  | syntaxError u rem h1 h2 h3 => exact absurd rfl (g1 _)
  | semError r st h1 h2 h3 h4 h5 h6 h7 =>
    exfalso
    obtain ⟨v, st', hok⟩ := hfin r h5 h1 h2 h4 (by intro _ h; cases h)
    rw [reduce_run A h1 h2, hok] at h7
    cases h7
  | ub r h1 h2 h3 h4 h5 h6 h7 =>
    exfalso
    obtain ⟨v, st', hok⟩ := hfin r h5 h1 h2 h4 (by intro _ h; cases h)
    rw [reduce_run A h1 h2, hok] at h7
    cases h7

/-- If the derivation has a value and fits the stack, the parser accepts. -/
theorem den_accept {ts : List Tok} {e : Tok} {junk : List Tok} (hin : Input toks ts e junk) {t : Tree} (hd : Derives ts t) (hn : t.need + 1 < 200)
    (hv : den t ⟨0, r0.errMsg.isSome⟩ ≠ none) (hno2 : ∀ c stk, RC (sem A) toks (startSt r0) c stk → RedAt c stk 2 → 
      ∃ v st, run A (redLoc c.stk (rhs 2).length) (act 2) (mkEnv (rhsVals c.stk (rhs 2).length)) c.st = .ok v st) :
    ∃ n c s, Reach (sem A) 200 toks (startSt r0) n c [(69, .leaf e), (s, t)] ∧ remOf c = junk ∧ runLR (sem A) toks (startSt r0) = some (some (.accept, c)) := by
  rcases den_run hin hd hv hno2 with h | ⟨h, _⟩
  · exact h
  · omega

end
end Verif.Sem

import Verif.Sem.DenoteFacts
import Verif.Sem.Fill
import Verif.Sem.Left
/-! Acceptance and the statements of the result, in terms of the value of the derivation. Proof-internal. -/
namespace Verif.Sem
open Verif.Lex Verif.LR

theorem den_of_denInput {ts : List Tok} {t : Tree} (hd : Derives ts t) (h : denInput t ≠ none) : den t ⟨0, false⟩ ≠ none := by
  cases t with
  | leaf => exact absurd rfl h
  | node r cs =>
    have hr : r = 2 := input_rule (rules_len ▸ hd.1.2.1) hd.2.1
    subst hr
    simp only [den]
    rw [denInput] at h
    cases hl : denL cs ⟨0, false⟩ with
    | none => rw [hl] at h; exact absurd rfl h
    | some y => simp [evRule]

section
variable {A : Alloc} {toks ts : List Tok} {e : Tok} {junk : List Tok} {r0 : Res}

/-- The statements of an accepted input. -/
theorem accept_den (hA : AllocOK A r0) (ht : ∀ t ∈ toks, TokShape t) (h1 : r0.stmts = []) (h2 : r0.params = []) (h3 : r0.errMsg = none) {st : St}
    (h : Ends A toks ts e junk r0 (some (0, st))) : ∃ t, Derives ts t ∧ t.need + 1 < 200 ∧ denInput t = some (hL E0 st.res.stmts) ∧
      den t ⟨0, false⟩ = some (.undef, ⟨st.res.params.length, st.res.errMsg.isSome⟩) := by
  have hnd := h.nodup hA
  generalize hx : some ((0 : Int), st) = x at h
  cases h with
  | ub => cases hx
  | exhausted => cases hx
  | syntaxError => cases hx
  | semError => cases hx
  | accept n c stk s t f l hR g1 g2 g3 g4 g5 =>
    cases hx
    refine ⟨t, g3, g4, ?_⟩
    have hi : ∃ p ∈ stk, p.2.sym = N.input := ⟨(s, t), by rw [g1]; simp, g3.2.1⟩
    have hr0 : ResOK (fun _ => True) (fun _ => True) r0 := ⟨by rw [h1]; simp, by rw [h2]; simp⟩
    obtain ⟨c2, stk2, b, vs, k1, k2, k3, k4, k5, k6, k7, k8, k9, s', k10⟩ :=
      fin_rc good66_true (fun _ _ _ _ => trivial) hA ht (fun _ _ _ _ => trivial) hr0 hR.rc hi (.inl fun _ => trivial)
    have ht' : t = .node 2 (popTrees (rhs 2).length stk2) := by
      rw [g1] at k10
      simp only [List.mem_cons, Prod.mk.injEq, List.not_mem_nil, or_false] at k10
      rcases k10 with ⟨_, k⟩ | ⟨_, k⟩
      · cases k
      · exact k.symm
    have hden := (den_rc k1).stk
    rw [denStk_split (rhs 2).length, k2.input rfl, h3] at hden
    have h0 : denStk [] (⟨0, (none : Option (Nat × Bytes)).isSome⟩ : PS) = some ([], ⟨0, false⟩) := rfl
    rw [h0] at hden
    simp only [] at hden
    have hstk : c2.stk.drop (rhs 2).length = [] := by
      have e1 := congrArg List.length k2.sim
      have e2 := congrArg List.length (k2.input rfl)
      simp only [List.length_map, List.length_drop, List.length_nil] at e1 e2
      exact List.drop_eq_nil_of_le (by omega)
    have hvals : (vals c2.stk).reverse = [.vec b vs, .undef] := by
      rw [← k3, rhsVals]
      conv => lhs; rw [← List.take_append_drop (rhs 2).length c2.stk, hstk, List.append_nil]
    obtain ⟨b', vs', q1, q2, q3, q4, q5⟩ := k5.vs
    cases q1
    rw [ht', denInput]
    cases hl : denL (popTrees (rhs 2).length stk2) ⟨0, false⟩ with
    | none => rw [hl] at hden; cases hden
    | some y =>
      rw [hl, hvals] at hden
      simp only [List.nil_append, Option.some.injEq, Prod.mk.injEq] at hden
      obtain ⟨y1, y2⟩ := y
      simp only [] at hden
      refine ⟨?_, ?_⟩
      rotate_left
      · rw [den, hl]
        simp only [evRule, if_true]
        rw [hden.2, St.ps, ← k9, ← (k5.fresh h2).1]
        rfl
      rw [hden.1]
      simp only [hL, V.h]
      congr 1
      show _ = hL E0 c.st.res.stmts
      rw [q4, h1, List.nil_append]
      refine (numberL_fill k5.nodup ?_ q5).symm
      intro a _
      have e1 : addrsL (c.st.log f l).res.stmts = addrsL vs := by
        show addrsL c.st.res.stmts = _
        rw [q4, h1, List.nil_append, numberL_addrs]
      rw [e1] at hnd
      exact List.nodup_iff_count.1 ((List.nodup_append.1 hnd).2.1) a

/-- The input is accepted iff it has a derivation that fits the stack and has a value. -/
theorem accept_iff (hin : Input toks ts e junk) (hA : AllocOK A r0) (ht : ∀ t ∈ toks, TokShape t) (h1 : r0.stmts = []) (h2 : r0.params = []) (h3 : r0.errMsg = none)
    {t : Tree} (hd : Derives ts t) (hn : t.need + 1 < 200) (hv : denInput t ≠ none) : ∃ st, hsqlParse A toks r0 = some (0, st) := by
  have hr0 : ResOK (fun _ => True) (fun _ => True) r0 := ⟨by rw [h1]; simp, by rw [h2]; simp⟩
  obtain ⟨n, c, s, k1, k2, k3⟩ := den_accept (A := A) (r0 := r0) hin hd hn (by rw [h3]; exact den_of_denInput hd hv) (by
    intro c stk hrc hat
    have hty := (typed_rc (A := A) (r0 := r0) good66_true ht (ok := fun _ => True) (fun _ _ _ _ => trivial) hrc).2 (.inl fun _ => trivial)
    obtain ⟨b, vs, _, r, _, _, h⟩ := fin_red hA ht (fun _ _ _ _ => trivial) hrc hty hat hr0
    exact ⟨_, _, h⟩)
  have hty := (typed_rc (A := A) (r0 := r0) good66_true ht (ok := fun _ => True) (fun _ _ _ _ => trivial) k1.rc).2 (.inl fun _ => trivial)
  obtain ⟨f, l, e1, _⟩ := dropLa_ok hty.la c.st
  obtain ⟨f', l', e2, _⟩ := popAll_reach k1.inv.ok k1.inv.sim.1 hty.stk (c.st.log f l)
  unfold hsqlParse
  rw [k3]
  simp only [finishRun, Option.bind_eq_bind, e1, Option.bind_some, e2]
  exact ⟨_, rfl⟩

/-- Otherwise its stack is exhausted. -/
theorem exhaust_of (hin : Input toks ts e junk) (hA : AllocOK A r0) (ht : ∀ t ∈ toks, TokShape t) (h1 : r0.stmts = []) (h2 : r0.params = []) (h3 : r0.errMsg = none)
    {t : Tree} (hd : Derives ts t) (hn : 200 ≤ t.need + 1) (hv : denInput t ≠ none) : ∃ st, hsqlParse A toks r0 = some (2, st) ∧ st.res.errMsg.map Prod.snd = some b!"memory exhausted" := by
  have hr0 : ResOK (fun _ => True) (fun _ => True) r0 := ⟨by rw [h1]; simp, by rw [h2]; simp⟩
  rcases den_run (A := A) (r0 := r0) hin hd (by rw [h3]; exact den_of_denInput hd hv) (by
    intro c stk hrc hat
    have hty := (typed_rc (A := A) (r0 := r0) good66_true ht (ok := fun _ => True) (fun _ _ _ _ => trivial) hrc).2 (.inl fun _ => trivial)
    obtain ⟨b, vs, _, r, _, _, h⟩ := fin_red hA ht (fun _ _ _ _ => trivial) hrc hty hat hr0
    exact ⟨_, _, h⟩) with ⟨n, c, s, k1, k2, k3⟩ | ⟨_, n, c, stk, k1, k2, k3⟩
  · exfalso
    have hE := ends (ok := fun _ => True) hin ht hA hr0
    have hty := (typed_rc (A := A) (r0 := r0) good66_true ht (ok := fun _ => True) (fun _ _ _ _ => trivial) k1.rc).2 (.inl fun _ => trivial)
    obtain ⟨f, l, e1, _⟩ := dropLa_ok hty.la c.st
    obtain ⟨f', l', e2, _⟩ := popAll_reach k1.inv.ok k1.inv.sim.1 hty.stk (c.st.log f l)
    unfold hsqlParse at hE
    rw [k3] at hE
    simp only [finishRun, Option.bind_eq_bind, e1, Option.bind_some, e2] at hE
    obtain ⟨t', g1, g2, _⟩ := accept_den hA ht h1 h2 h3 hE
    rw [derives_unique hd g1] at hn
    omega
  · have hty := (typed_rc (A := A) (r0 := r0) good66_true ht (ok := fun _ => True) (fun _ _ _ _ => trivial) k1.rc).2 (.inl fun _ => trivial)
    obtain ⟨f, l, e1, _⟩ := dropLa_ok hty.la (c.st.yyerror A b!"memory exhausted" c.st.yylloc.loc.fl c.st.yylloc.loc.fc)
    obtain ⟨f', l', e2, _⟩ := popAll_reach k1.inv.ok k1.inv.sim.1 hty.stk ((c.st.yyerror A b!"memory exhausted" c.st.yylloc.loc.fl c.st.yylloc.loc.fc).log f l)
    unfold hsqlParse
    rw [k3]
    simp only [finishRun, Option.bind_eq_bind, e1, Option.bind_some, e2]
    exact ⟨_, rfl, rfl⟩
end
end Verif.Sem

import Verif.Sem.DenParse
import Verif.Sem.Msgs
/-! The statements a rejected text leaves are the value of the sentence before the error. Proof-internal. -/
namespace Verif.Sem
open Verif.Lex Verif.LR

/-- The states in which `yysyntax_error` finds the end of input among the expected tokens. -/
theorem endStates : allFrom 0 656 (fun s => (fun n => bor (bnot (band (Nat.ble 1000 n) (Nat.beq (yycheckT.get (Nat.sub n 1000)) 1000)))
    (bor (Nat.beq s 19) (Nat.beq s 70))) (yypactT.get s)) = true := by decide +kernel

theorem goto_input : gotoF 0 N.input = 19 := by decide +kernel
theorem expected_input : expected 19 = [0] := by decide +kernel
theorem expected_70 : expected 70 = [] := by decide +kernel
theorem stos_input : (yystos.getD 19 0).toNat = N.input := by decide +kernel

theorem cand_zero {s : Nat} (hs : s < 656) (h : 0 ∈ candidates s) : s = 19 ∨ s = 70 := by
  have h1 := allFrom_spec endStates s (by omega) (by omega)
  simp only [bor_iff, bnot_iff, beq_iff] at h1
  rcases h1 with h1 | h1
  · exfalso
    unfold candidates at h
    have e : at? yypact (s : Int) = some ((yypactT.get s : Int) - 1000) := by
      unfold at?; rw [if_pos (by omega)]; exact yypact_get s hs
    rw [e] at h
    simp only [] at h
    split at h
    · cases h
    · simp only [List.mem_filter, Bool.and_eq_true, decide_eq_true_eq] at h
      obtain ⟨_, ⟨⟨⟨h2, h3⟩, h4⟩, _⟩, _⟩ := h
      simp only [Int.ofNat_zero, Int.add_zero] at h2 h3 h4
      have h5 : 1000 ≤ yypactT.get s := by omega
      have h6 : (yypactT.get s : Int) - 1000 = ((yypactT.get s - 1000 : Nat) : Int) := by omega
      have h7 : yypactT.get s - 1000 ≤ 856 := by
        have : YYLAST = 856 := rfl
        omega
      unfold at? at h4
      rw [if_pos h2, h6] at h4
      rw [Int.toNat_natCast, yycheck_get _ (by omega)] at h4
      have h8 : yycheckT.get (yypactT.get s - 1000) = 1000 := by
        have := Option.some.inj h4
        omega
      have h9 := band_iff.2 ⟨ble_iff.2 h5, beq_iff.2 h8⟩
      exact absurd (h9.symm.trans h1) (by decide)
  · exact h1

/-- Only in the state behind a complete input is the end of input an expected token. -/
theorem expected_end {s : Nat} (hs : s < 656) (h : 0 ∈ expected s) : s = 19 := by
  have h1 : 0 ∈ candidates s := by
    unfold expected at h
    split at h
    · exact h
    · cases h
  rcases cand_zero hs h1 with h2 | h2
  · exact h2
  · subst h2; rw [expected_70] at h; cases h

section
variable {A : Alloc} {toks ts : List Tok} {e : Tok} {junk : List Tok} {r0 : Res}

/-- The statements once `input` has been reduced to the tree `t`. -/
theorem input_den (hA : AllocOK A r0) (ht : ∀ t ∈ toks, TokShape t) (h1 : r0.stmts = []) (h2 : r0.params = []) (h3 : r0.errMsg = none)
    {c : Cfg St SV} {stk : TStk} {t : Tree} (hrc : RC (sem A) toks (startSt r0) c stk) (hi : ∃ p ∈ stk, p.2.sym = N.input)
    (huni : ∀ p ∈ stk, p.2.sym = N.input → p.2 = t) (hnd : (addrsL c.st.res.stmts).Nodup) :
    denInput t = some (hL E0 c.st.res.stmts) ∧ den t ⟨0, false⟩ = some (.undef, ⟨c.st.res.params.length, c.st.res.errMsg.isSome⟩) ∧ c.st.res.stmts ≠ [] := by
  have hr0 : ResOK (fun _ => True) (fun _ => True) r0 := ⟨by rw [h1]; simp, by rw [h2]; simp⟩
  obtain ⟨c2, stk2, b, vs, k1, k2, k3, k4, k5, k6, k7, k8, k9, s', k10⟩ :=
    fin_rc good66_true (fun _ _ _ _ => trivial) hA ht (fun _ _ _ _ => trivial) hr0 hrc hi (.inl fun _ => trivial)
  have ht' : t = .node 2 (popTrees (rhs 2).length stk2) := (huni _ k10 rfl).symm
  have hden := (den_rc k1).stk
  rw [denStk_split (rhs 2).length, k2.input rfl, h3] at hden
  have h0 : denStk [] (⟨0, (none : Option (Nat × Bytes)).isSome⟩ : PS) = some ([], ⟨0, false⟩) := rfl
  rw [h0] at hden
  simp only [] at hden
  have hstk : c2.stk.drop (rhs 2).length = [] := by
    have e1 := congrArg List.length k2.sim
    have e2 := congrArg List.length (k2.input rfl)
    simp only [List.length_map, List.length_drop, List.length_nil] at e1 e2
    exact List.drop_eq_nil_of_le (by omega)
  have hvals : (vals c2.stk).reverse = [.vec b vs, .undef] := by
    rw [← k3, rhsVals]
    conv => lhs; rw [← List.take_append_drop (rhs 2).length c2.stk, hstk, List.append_nil]
  obtain ⟨b', vs', q1, q2, q3, q4, q5⟩ := k5.vs
  cases q1
  rw [ht', denInput]
  cases hl : denL (popTrees (rhs 2).length stk2) ⟨0, false⟩ with
  | none => rw [hl] at hden; cases hden
  | some y =>
    rw [hl, hvals] at hden
    simp only [List.nil_append, Option.some.injEq, Prod.mk.injEq] at hden
    obtain ⟨y1, y2⟩ := y
    simp only [] at hden
    refine ⟨?_, ?_, ?_⟩
    rotate_left
    · rw [den, hl]
      simp only [evRule, if_true]
      rw [hden.2, St.ps, ← k9, ← (k5.fresh h2).1]
    · rw [q4, h1, List.nil_append]
      intro h
      have e1 := congrArg List.length h
      rw [numberL_len] at e1
      exact q2 (List.eq_nil_of_length_eq_zero e1)
    rw [hden.1]
    simp only [hL, V.h]
    congr 1
    rw [q4, h1, List.nil_append]
    refine (numberL_fill k5.nodup ?_ q5).symm
    intro a _
    have e1 : addrsL c.st.res.stmts = addrsL vs := by
      rw [q4, h1, List.nil_append, numberL_addrs]
    rw [e1] at hnd
    exact List.nodup_iff_count.1 hnd a

/-- If a rejected text changed the statements, there was a syntax error right behind a complete sentence, and the statements are those of that sentence. -/
theorem left_den (hin : Input toks ts e junk) (hA : AllocOK A r0) (ht : ∀ t ∈ toks, TokShape t) (h1 : r0.stmts = []) (h2 : r0.params = []) (h3 : r0.errMsg = none)
    {ret : Int} {st : St} (h : Ends A toks ts e junk r0 (some (ret, st))) (h0 : ret ≠ 0) (hs : st.res.stmts ≠ []) :
    ∃ pre t rest T b, toks = pre ++ t :: rest ∧ pre <+: ts ∧ Derives pre T ∧ T.need + 1 < 200 ∧
      st.res.errMsg.map Prod.snd = some (syntaxMsg 19 (tsym t)) ∧
      denInput T = some (hL E0 st.res.stmts) ∧ den T ⟨0, false⟩ = some (.undef, ⟨st.res.params.length, b⟩) := by
  have hnd := h.nodup hA
  generalize hx : some (ret, st) = x at h
  cases h with
  | ub => cases hx
  | accept => cases hx; exact absurd rfl h0
  | exhausted n c stk f l hR hl _ =>
    cases hx
    exfalso
    have hi : ∃ p ∈ stk, p.2.sym = N.input := Classical.byContradiction fun hi => by
      obtain ⟨g1, g2⟩ := pre_rc ht hR.rc hi
      exact hs (g1.trans h1)
    cases hR.phase with
    | before h => obtain ⟨p, hp, he⟩ := hi; exact absurd he (h p hp)
    | shifted t e h1 h2 => subst h1; simp at hl
    | done t h1 h2 => subst h1; simp at hl
  | syntaxError n c stk t rem v f l hR hr h69 ha hla htk _ =>
    cases hx
    have hi : ∃ p ∈ stk, p.2.sym = N.input := Classical.byContradiction fun hi => by
      obtain ⟨g1, g2⟩ := pre_rc ht hR.rc_prep hi
      exact hs (g1.trans h1)
    have hinv := hR.inv
    have hyl := hinv.yld
    rw [hr] at hyl
    have hpre : stkYield stk <+: ts := by
      rcases hR.rest hin with ⟨_, suf, _, h2⟩ | ⟨h, _⟩
      · exact ⟨suf, h2.symm⟩
      · exact absurd h h69
    cases hR.phase with
    | before h => obtain ⟨p, hp, he⟩ := hi; exact absurd he (h p hp)
    | shifted t e g1 g2 => subst g1; exact absurd rfl h69
    | done T g1 g2 =>
      have hok := hinv.ok
      subst g1
      obtain ⟨d1, d2, d3⟩ := input_den hA ht h1 h2 h3 hR.rc_prep hi (t := T) (by
        intro p hp _
        simp only [List.mem_singleton] at hp
        rw [hp]) (List.nodup_append.1 hnd).2.1
      simp only [StkOK] at hok
      refine ⟨stkYield [(gotoF 0 N.input, T)], t, rem, T, _, hyl.symm, hpre, ⟨hok.2.2.2.2.1, g2, ?_, precOK_eof T _ hok.2.2.2.2.2.1⟩, ?_, ?_, d1, d2⟩
      · rw [stkYield_cons]; rfl
      · simpa using hok.2.2.2.2.2.2.2
      · show some (syntaxMsg (topState [(gotoF 0 N.input, T)]) (tsym t)) = _
        have e3 : topState [(gotoF 0 N.input, T)] = 19 := goto_input
        rw [e3]
  | semError n c stk r st f l hR hat hr2 hrun _ =>
    cases hx
    exfalso
    have hty := (typed_rc (A := A) (r0 := r0) (ok := fun b => ∃ t ∈ toks, t.val = .sval b) good66_true ht (fun t h1 b h2 => ⟨t, h1, h2⟩) hR.rc_prep).2 (.inl fun _ => trivial)
    have := rule_sound A (redLoc c.stk (rhs r).length) hat.r1 hat.r2 hr2 (fun _ _ => trivial) (hty.rhs hat) (prep (sem A) c).st
    rw [prep_stk, hrun] at this
    have h0 := pre_rc ht hR.rc_prep (fun ⟨p, hp, he⟩ => hat.before p hp he)
    exact hs (((this.1.stmts).trans h0.1).trans h1)

/-- A syntax error where only the end of input is expected is behind a complete sentence: it leaves statements. -/
theorem left_of_end (hA : AllocOK A r0) (ht : ∀ t ∈ toks, TokShape t) (h1 : r0.stmts = []) (h2 : r0.params = []) (h3 : r0.errMsg = none)
    {n : Nat} {c : Cfg St SV} {stk : TStk} (hR : Reach (sem A) 200 toks (startSt r0) n c stk) (hex : 0 ∈ expected (topState stk))
    (hnd : (addrsL (prep (sem A) c).st.res.stmts).Nodup) : (prep (sem A) c).st.res.stmts ≠ [] := by
  have hok := hR.inv.ok
  have hs := expected_end (topState_lt hok) hex
  have hT : ∃ T, stk = [(gotoF 0 N.input, T)] ∧ T.sym = N.input := by
    cases hR.phase with
    | done T g1 g2 => exact ⟨T, g1, g2⟩
    | shifted t e g1 g2 =>
      rw [g1] at hs
      have : (69 : Nat) = 19 := hs
      omega
    | before g =>
      exfalso
      cases stk with
      | nil => exact absurd hs (by decide +kernel)
      | cons p stk =>
        simp only [StkOK] at hok
        have hedge := hok.2.1
        have hsy := stos_edge hok.2.2.1 hok.2.2.2.1 hedge
        refine g p (by simp) ?_
        rw [← hsy]
        have : p.1 = 19 := hs
        rw [this]
        exact stos_input
  obtain ⟨T, rfl, g⟩ := hT
  exact (input_den hA ht h1 h2 h3 hR.rc_prep ⟨(gotoF 0 N.input, T), by simp, g⟩ (t := T) (by
    intro p hp _
    simp only [List.mem_singleton] at hp
    rw [hp]) hnd).2.2

/-- How the messages end. -/
theorem names_end : (List.range 335).all (fun y => (!(b!"$end").isSuffixOf (b!" or " ++ symName y) || y == 0) && (!(b!"$end").isSuffixOf (b!", expecting " ++ symName y) || y == 0) &&
    !(b!", expecting $end").isSuffixOf (b!"syntax error, unexpected " ++ symName y)) = true := by decide +kernel

theorem suffix_tail {a x y : Bytes} (h : a <:+ x ++ y) (hl : a.length ≤ y.length) : a <:+ y := by
  obtain ⟨w, hw⟩ := h
  obtain ⟨z, e1, e2⟩ | ⟨z, e1, e2⟩ := List.append_eq_append_iff.1 hw
  · have : z = [] := by
      have := congrArg List.length e2
      simp only [List.length_append] at this
      exact List.eq_nil_of_length_eq_zero (by omega)
    subst this
    exact ⟨[], by simpa using e2⟩
  · exact ⟨z, e2.symm⟩

theorem names_spec {y : Nat} : ((b!"$end") <:+ (b!" or " ++ symName y) → y = 0) ∧ ((b!"$end") <:+ (b!", expecting " ++ symName y) → y = 0) ∧
    ¬ (b!", expecting $end") <:+ (b!"syntax error, unexpected " ++ symName y) := by
  by_cases h : y < 335
  · have := List.all_eq_true.1 names_end y (List.mem_range.2 h)
    simp only [Bool.and_eq_true, Bool.or_eq_true, Bool.not_eq_true', beq_iff_eq, ← Bool.not_eq_true, List.isSuffixOf_iff_suffix] at this
    obtain ⟨⟨h1, h2⟩, h3⟩ := this
    exact ⟨fun h => h1.resolve_left fun g => g h, fun h => h2.resolve_left fun g => g h, h3⟩
  · have e : symName y = [] := by
      unfold symName
      have : yytname.length = 335 := by decide +kernel
      rw [List.getD_eq_getElem?_getD, List.getElem?_eq_none (by omega)]; rfl
    rw [e]
    refine ⟨fun h => ?_, fun h => ?_, fun h => ?_⟩
    · have := List.isSuffixOf_iff_suffix.2 h
      exact absurd this (by decide +kernel)
    · have := List.isSuffixOf_iff_suffix.2 h
      exact absurd this (by decide +kernel)
    · have := List.isSuffixOf_iff_suffix.2 h
      revert this; decide +kernel

theorem or_end : ∀ (es : List Nat), es ≠ [] → ∀ (p : Bytes), (b!"$end") <:+ p ++ es.flatMap (fun e => b!" or " ++ symName e) → 0 ∈ es
  | [], h, _, _ => absurd rfl h
  | [e], _, p, h => by
    simp only [List.flatMap_cons, List.flatMap_nil, List.append_nil] at h
    have := names_spec.1 (suffix_tail h (by simp))
    simp [this]
  | e :: e' :: es, _, p, h => by
    rw [List.flatMap_cons, ← List.append_assoc] at h
    exact List.mem_cons_of_mem _ (or_end (e' :: es) (by simp) _ h)

/-- A message that ends with `, expecting $end` lists the end of input as expected. -/
theorem msg_end {s x : Nat} (h : (b!", expecting $end") <:+ syntaxMsg s x) : 0 ∈ expected s := by
  unfold syntaxMsg at h
  generalize expected s = l at h
  cases l with
  | nil =>
    simp only [List.append_nil] at h
    exact absurd h names_spec.2.2
  | cons e es =>
    simp only [] at h
    have h4 : (b!"$end") <:+ (b!", expecting $end") := ⟨b!", expecting ", rfl⟩
    have h := h4.trans h
    cases es with
    | nil =>
      simp only [List.flatMap_nil, List.append_nil] at h
      have := names_spec.2.1 (suffix_tail h (by simp))
      simp [this]
    | cons e' es =>
      rw [← List.append_assoc, ← List.append_assoc] at h
      exact List.mem_cons_of_mem _ (or_end (e' :: es) (by simp) _ h)

theorem syntaxMsg_19 (x : Nat) : syntaxMsg 19 x = b!"syntax error, unexpected " ++ symName x ++ b!", expecting $end" := by
  unfold syntaxMsg
  rw [expected_input]
  have : symName 0 = b!"$end" := by decide +kernel
  simp [this]

theorem ends_end (hA : AllocOK A r0) (ht : ∀ t ∈ toks, TokShape t) (h1 : r0.stmts = []) (h2 : r0.params = []) (h3 : r0.errMsg = none)
    {ret : Int} {st : St} (h : Ends A toks ts e junk r0 (some (ret, st))) {m : Bytes} (hm : st.res.errMsg.map Prod.snd = some m)
    (hp : (b!"syntax error, ") <+: m) (hs : (b!", expecting $end") <:+ m) : st.res.stmts ≠ [] := by
  have hE := ends_err h3 h
  have hnd := h.nodup hA
  generalize hx : some (ret, st) = x at h
  cases h with
  | ub => cases hx
  | accept n c stk s t f l hR h1 _ h3 _ _ =>
    cases hx
    have := (hE.1 rfl).1
    rw [this] at hm; cases hm
  | exhausted n c stk f l hR hl _ =>
    cases hx
    cases hm
    rcases hp with ⟨w, hw⟩; cases hw
  | syntaxError n c stk t rem v f l hR hr h69 ha hla htk _ =>
    cases hx
    cases hm
    exact left_of_end hA ht h1 h2 h3 hR (msg_end hs) (List.nodup_append.1 hnd).2.1
  | semError n c stk r st f l hR hat hr2 hrun _ =>
    cases hx
    simp only [Option.map_eq_some_iff] at hm
    obtain ⟨⟨a, m'⟩, hm1, hm2⟩ := hm
    cases hm2
    exact absurd hp (kinds (chkM_sound (act_err_rr hat.r1 hat.r2 hr2 hrun) (rule_chkM hat.r1 hat.r2) (msg_rc h3 hR.rc_prep) a m' hm1)).2
end
end Verif.Sem

import Verif.Sem.Toks
import Verif.LR.Induct
/-! The semantic values on the stack fit the symbols. Proof-internal. -/
namespace Verif.Sem
open Verif.LR Verif.Lex

/-- The values on the stack, top first. -/
abbrev vals (stk : List (Nat × SV)) : List V := stk.map fun x => x.2.1
/-- The symbols on the ghost stack, top first. -/
abbrev syms (stk : TStk) : List Nat := stk.map fun x => x.2.sym

theorem SatL.take {ok : Bytes → Prop} {good : List V → Prop} : ∀ (n : Nat) {ps : List P} {vs : List V}, SatL ok good ps vs → SatL ok good (ps.take n) (vs.take n)
  | 0, _, _, _ => .nil
  | _ + 1, _, _, .nil => .nil
  | n + 1, _, _, .cons h hs => .cons h (SatL.take n hs)
theorem SatL.drop {ok : Bytes → Prop} {good : List V → Prop} : ∀ (n : Nat) {ps : List P} {vs : List V}, SatL ok good ps vs → SatL ok good (ps.drop n) (vs.drop n)
  | 0, _, _, h => h
  | _ + 1, _, _, .nil => .nil
  | n + 1, _, _, .cons _ hs => SatL.drop n hs
theorem SatL.reverse {ok : Bytes → Prop} {good : List V → Prop} {ps : List P} {vs : List V} (h : SatL ok good ps vs) : SatL ok good ps.reverse vs.reverse := by
  induction ps generalizing vs with
  | nil => cases h; exact .nil
  | cons p ps ih =>
    cases h with
    | cons h1 h2 =>
      rw [List.reverse_cons, List.reverse_cons]
      exact SatL.append (ih h2) (.cons h1 .nil)

/-- The values of the right-hand side. -/
def rhsVals (stk : List (Nat × SV)) (n : Nat) : List V := (vals (stk.take n)).reverse

theorem rhsVals_eq (stk : List (Nat × SV)) (n : Nat) : (((stk.take n).map Prod.snd).reverse).map Prod.fst = rhsVals stk n := by
  simp [rhsVals, vals, Function.comp_def]

/-- The location of the left-hand side. -/
def redLoc (stk : List (Nat × SV)) (n : Nat) : Loc := ruleLoc ((stk.take n).map Prod.snd).reverse ((stk.drop n).head?.map Prod.snd)

/-- A reduction runs the action. -/
theorem reduce_run (A : Alloc) {r : Nat} (h1 : 2 ≤ r) (h2 : r < 358) (stk : List (Nat × SV)) (n : Nat) (st : St) :
    (sem A).reduce r ((stk.take n).map Prod.snd).reverse ((stk.drop n).head?.map Prod.snd) st =
      match run A (redLoc stk n) (act r) (mkEnv (rhsVals stk n)) st with
      | .ok v st' => .ok (v, redLoc stk n) st'
      | .error st' => .error st'
      | .ub => .ub := by
  show reduceRule A r _ _ st = _
  unfold reduceRule
  rw [act_get h1 h2, rhsVals_eq]
  rfl

theorem reduce_ok {A : Alloc} {r : Nat} (h1 : 2 ≤ r) (h2 : r < 358) {stk : List (Nat × SV)} {n : Nat} {st st' : St} {v : SV}
    (h : (sem A).reduce r ((stk.take n).map Prod.snd).reverse ((stk.drop n).head?.map Prod.snd) st = .ok v st') :
    v.2 = redLoc stk n ∧ run A (redLoc stk n) (act r) (mkEnv (rhsVals stk n)) st = .ok v.1 st' := by
  rw [reduce_run A h1 h2] at h
  split at h
  · rename_i w st1 e; cases h; exact ⟨rfl, e⟩
  · cases h
  · cases h

section
variable {ok : Bytes → Prop} {good : List V → Prop} {A : Alloc} {toks : List Tok} {r0 : Res}

/-- Every value fits its symbol. -/
structure Typed (ok : Bytes → Prop) (good : List V → Prop) (c : Cfg St SV) (stk : TStk) : Prop where
  stk : SatL ok good ((syms stk).map symTy) (vals c.stk)
  la : ∀ t v, c.la = some (t, v) → Sat ok good (symTy (tsym t)) v.1

/-- The part above depth `n`. -/
theorem Typed.rhs {c : Cfg St SV} {stk : TStk} (h : Typed ok good c stk) {r : Nat} (hat : RedAt c stk r) :
    SatL ok good ((rhs r).map symTy) (rhsVals c.stk (rhs r).length) := by
  have h1 := (h.stk.take (Verif.LR.rhs r).length).reverse
  have e : (List.take (Verif.LR.rhs r).length (List.map symTy (syms stk))).reverse = (Verif.LR.rhs r).map symTy := by
    rw [← List.map_take, ← List.map_reverse]
    congr 1
    rw [← hat.syms, popTrees]
    simp [syms, List.map_take, List.map_reverse, Function.comp_def, hat.syms]
  rw [e] at h1
  have e2 : (List.take (Verif.LR.rhs r).length (vals c.stk)).reverse = rhsVals c.stk (Verif.LR.rhs r).length := by
    simp [rhsVals, vals, List.map_take]
  rw [e2] at h1
  exact h1

theorem Typed.drop {c : Cfg St SV} {stk : TStk} (h : Typed ok good c stk) (n : Nat) : SatL ok good ((syms (stk.drop n)).map symTy) (vals (c.stk.drop n)) := by
  have := h.stk.drop n
  simpa [syms, vals, List.map_drop] using this

/-- No error was reported, or it does not matter. -/
def Guard (good : List V → Prop) (st : St) : Prop := (∀ fs, good fs) ∨ st.res.errMsg = none

/-- The result of `column_def` is good as long as no error was reported. -/
def Good66 (ok : Bytes → Prop) (good : List V → Prop) : Prop := ∀ A loc vs st v st', SatL ok good ((rhs 66).map symTy) vs →
  run A loc (act 66) (mkEnv vs) st = .ok v st' → Guard good st' → Sat ok good (symTy (lhs 66)) v

theorem addParams_frame' : ∀ (l : List Nat) (n : Nat) (r r' : Res), addParams l n r = some r' → r'.errMsg = r.errMsg
  | [], n, r, r', h => by simp only [addParams] at h; cases h; rfl
  | a :: l, n, r, r', h => by
    simp only [addParams] at h
    split at h
    · cases h
    · split at h
      · split at h
        · rename_i r1 h1
          have := addParams_frame' l (n + 1) r1 r' h
          rw [this]
          unfold Res.addParameter at h1
          split at h1
          · cases h1; rfl
          · cases h1
        · cases h
      · cases h

theorem run2 {A : Alloc} {loc : Loc} {env : List V} {st st' : St} {v : V} (h : run A loc (act 2) env st = .ok v st') :
    v = .undef ∧ st'.res.errMsg = st.res.errMsg ∧ st'.ntok = st.ntok ∧ st'.nalloc = st.nalloc ∧ st'.yylloc = st.yylloc ∧ st'.plist = st.plist := by
  have e : act 2 = .finish := rfl
  rw [e] at h
  simp only [run] at h
  split at h
  · split at h
    · split at h
      · cases h
        rename_i hadd
        have := addParams_frame' _ _ _ _ hadd
        exact ⟨rfl, this, rfl, rfl, rfl, rfl⟩
      · cases h
    · cases h
  · cases h
theorem lhs_undef : symTy (lhs 2) = .undef := by rw [lhs2]; rfl

/-- An action never removes an error report. -/
theorem run_err {r : Nat} (h1 : 2 ≤ r) (h2 : r < 358) {loc : Loc} {vs : List V} {st st' : St} {v : V} (hl : vs.length = (rhs r).length)
    (h : run A loc (act r) (mkEnv vs) st = .ok v st') (hg : st'.res.errMsg = none) : st.res.errMsg = none := by
  by_cases h3 : r = 2
  · subst h3; rw [← (run2 h).2.1]; exact hg
  · by_cases h4 : r = 298
    · subst h4
      have e : rhs 298 = [T.QMARK] := by decide +kernel
      rw [e] at hl
      match vs, hl with
      | [v1], _ => rw [run298] at h; cases h; exact hg
    · exact ((run_frame A loc (act r) (mkEnv vs) st st' (rule_chk h1 h2 h3 h4).2 (by rw [h]; rfl)).err hg).1

theorem rhsVals_len {c : Cfg St SV} {stk : TStk} {r : Nat} (h : RedAt c stk r) : (rhsVals c.stk (rhs r).length).length = (rhs r).length := by
  have := h.len
  simp [rhsVals, vals]; omega

/-- The typing invariant. -/
theorem typed_rc (h66 : Good66 ok good) (ht : ∀ t ∈ toks, TokShape t) (hok : ∀ t ∈ toks, ∀ b, t.val = .sval b → ok b)
    {c : Cfg St SV} {stk : TStk} (h : RC (sem A) toks (startSt r0) c stk) :
    (∀ t ∈ c.toks, t ∈ toks) ∧ (Guard good c.st → Typed ok good c stk) := by
  refine RC.ind (I := fun c stk => (∀ t ∈ c.toks, t ∈ toks) ∧ (Guard good c.st → Typed ok good c stk)) ?_ ?_ ?_ ?_ h
  · refine ⟨fun t h => h, fun _ => ⟨.nil, ?_⟩⟩
    intro t v h; cases h
  · intro c stk t ts ih hla htk
    rw [htk] at ih
    refine ⟨fun u hu => ih.1 u (List.mem_cons_of_mem _ hu), fun hg => ?_⟩
    have hg' : Guard good c.st := hg
    obtain ⟨i1, i2⟩ := ih.2 hg'
    refine ⟨i1, ?_⟩
    intro t' v' h
    cases h
    exact tokValue_sat A _ (ht t (ih.1 t (by simp))) (hok t (ih.1 t (by simp)))
  · intro c stk t v s ih hla h69 ha
    refine ⟨ih.1, fun hg => ?_⟩
    obtain ⟨i1, i2⟩ := ih.2 hg
    refine ⟨.cons (i2 t v hla) i1, ?_⟩
    intro t' v' h; cases h
  · intro c stk r s v st ih hat hred
    obtain ⟨e1, e2⟩ := reduce_ok hat.r1 hat.r2 hred
    refine ⟨ih.1, fun hg => ?_⟩
    have hg : Guard good st := hg
    have hg' : Guard good c.st := by
      rcases hg with hg | hg
      · exact .inl hg
      · exact .inr (run_err hat.r1 hat.r2 (rhsVals_len hat) e2 hg)
    have i := ih.2 hg'
    refine ⟨.cons ?_ (i.drop _), i.la⟩
    show Sat ok good (symTy (lhs r)) v.1
    by_cases h3 : r = 2
    · subst h3
      rw [lhs_undef, (run2 e2).1]; exact .undef
    · by_cases h6 : r = 66
      · subst h6
        exact h66 A _ _ _ _ _ (i.rhs hat) e2 hg
      · have := rule_sound A (redLoc c.stk (rhs r).length) hat.r1 hat.r2 h3 (fun h => absurd h h6) (i.rhs hat) c.st
        rw [e2] at this
        exact this.1

theorem good66_true : Good66 ok fun _ => True := by
  intro A loc vs st v st' hv h _
  have := rule_sound A loc (r := 66) (by decide) (by decide) (by decide) (fun _ _ => trivial) hv st
  rw [h] at this
  exact this.1

end
end Verif.Sem

import Verif.Sem.Ends
/-! Errors reported by the actions. Proof-internal. -/
namespace Verif.Sem
open Verif.LR Verif.Lex

/-- What an action does to the result and to `yylloc`, values forgotten. -/
inductive RR (loc : Loc) : Prog → Res → YYLoc → Bool → Res → YYLoc → Prop where
  | ret (r : Res) (y : YYLoc) : RR loc .ret r y true r y
  | fail (r : Res) (y : YYLoc) : RR loc .fail r y false r y
  | set {p e k r y b r' y'} : RR loc k r y b r' y' → RR loc (.set p e k) r y b r' y'
  | push {p e k r y b r' y'} : RR loc k r y b r' y' → RR loc (.push p e k) r y b r' y'
  | insert {p e k r y b r' y'} : RR loc k r y b r' y' → RR loc (.insert p e k) r y b r' y'
  | del {p k r y b r' y'} : RR loc k r y b r' y' → RR loc (.del p k) r y b r' y'
  | free {p k r y b r' y'} : RR loc k r y b r' y' → RR loc (.free p k) r y b r' y'
  | regParam {p k r y b r' y'} : RR loc k r y b r' y' → RR loc (.regParam p k) r y b r' y'
  | split {p q k r y b r' y'} : RR loc k r y b r' y' → RR loc (.split p q k) r y b r' y'
  | zeroLen {k r y b r' y'} : RR loc k r { y with len := 0 } b r' y' → RR loc (.zeroLen k) r y b r' y'
  | iteT {c : Cond} {t e r y b r' y'} : (c = .err → r.errMsg.isSome = true) → RR loc t r y b r' y' → RR loc (.ite c t e) r y b r' y'
  | iteF {c : Cond} {t e r y b r' y'} : (c = .err → r.errMsg = none) → RR loc e r y b r' y' → RR loc (.ite c t e) r y b r' y'
  | err {m a k r y b r' y'} : RR loc k { r with isValid := false, errMsg := some (a, m), errLine := loc.fl, errCol := loc.fc } y b r' y' → RR loc (.err m k) r y b r' y'
  | errName {m m' a p k r y b r' y'} : RR loc k { r with isValid := false, errMsg := some (a, m ++ m'), errLine := loc.fl, errCol := loc.fc } y b r' y' → RR loc (.errName m p k) r y b r' y'

/-- The action does not contain that of `input`. -/
def noFinish : Prog → Bool
  | .finish => false
  | .ret => true
  | .fail => true
  | .set _ _ k => noFinish k
  | .push _ _ k => noFinish k
  | .insert _ _ k => noFinish k
  | .del _ k => noFinish k
  | .free _ k => noFinish k
  | .regParam _ k => noFinish k
  | .split _ _ k => noFinish k
  | .zeroLen k => noFinish k
  | .err _ k => noFinish k
  | .errName _ _ k => noFinish k
  | .ite _ t e => noFinish t && noFinish e

def Out.isOk : Out → Bool
  | .ok _ _ => true
  | _ => false

theorem run_rr (A : Alloc) (loc : Loc) : ∀ (k : Prog) (env : List V) (st st' : St), noFinish k = true → (run A loc k env st).st? = some st' →
    RR loc k st.res st.yylloc (run A loc k env st).isOk st'.res st'.yylloc
  | .ret, env, st, st', _, h => by
    unfold run at h ⊢
    split at h
    · cases h
    · cases h; exact .ret _ _
  | .fail, env, st, st', _, h => by
    cases h; exact .fail _ _
  | .finish, env, st, st', hp, h => by cases hp
  | .regParam _ k, env, st, st', hp, h => by
    unfold run at h ⊢
    split at h
    · split at h
      · exact .regParam (run_rr A loc k _ _ st' hp h)
      · cases h
    · cases h
  | .set p e k, env, st, st', hp, h => by
    unfold run at h ⊢
    split at h
    · rename_i v env' st1 hev
      have hf := evalRv_frame hev
      split at h
      · split at h
        · have := run_rr A loc k _ _ st' hp h
          have e1 : st1.res = st.res ∧ st1.yylloc = st.yylloc := by
            unfold evalRv at hev
            split at hev
            · split at hev <;> cases hev; exact ⟨rfl, rfl⟩
            · split at hev <;> cases hev; exact ⟨rfl, rfl⟩
            · split at hev <;> cases hev; exact ⟨rfl, rfl⟩
            · split at hev <;> cases hev; exact ⟨rfl, rfl⟩
          rw [show ∀ l, (st1.log [] l).res = st.res from fun _ => e1.1, show ∀ l, (st1.log [] l).yylloc = st.yylloc from fun _ => e1.2] at this
          exact .set this
        · cases h
      · cases h
    · cases h
  | .push p e k, env, st, st', hp, h => by
    unfold run at h ⊢
    split at h
    · split at h
      · split at h
        · exact .push (run_rr A loc k _ _ st' hp h)
        · cases h
      · cases h
    · cases h
  | .insert p e k, env, st, st', hp, h => by
    unfold run at h ⊢
    split at h
    · split at h
      · split at h
        · exact .insert (run_rr A loc k _ _ st' hp h)
        · cases h
      · cases h
    · cases h
  | .del p k, env, st, st', hp, h => by
    unfold run at h ⊢
    split at h
    · split at h
      · split at h
        · exact .del (run_rr A loc k _ _ st' hp h)
        · cases h
      · cases h
    · cases h
  | .free p k, env, st, st', hp, h => by
    unfold run at h ⊢
    split at h
    · split at h
      · split at h
        · exact .free (run_rr A loc k _ _ st' hp h)
        · cases h
      · cases h
    · cases h
  | .ite c t e, env, st, st', hp, h => by
    simp only [noFinish, Bool.and_eq_true] at hp
    unfold run at h ⊢
    split at h
    · rename_i hc
      refine .iteT ?_ (run_rr A loc t _ _ st' hp.1 h)
      intro e; subst e; simpa [evalCond] using hc
    · rename_i hc
      refine .iteF ?_ (run_rr A loc e _ _ st' hp.2 h)
      intro e; subst e; simpa [evalCond] using hc
    · cases h
  | .err m k, env, st, st', hp, h => by
    unfold run at h ⊢
    exact .err (run_rr A loc k _ _ st' hp h)
  | .errName m p k, env, st, st', hp, h => by
    unfold run at h ⊢
    split at h
    · exact .errName (run_rr A loc k _ _ st' hp h)
    · cases h
  | .zeroLen k, env, st, st', hp, h => by
    unfold run at h ⊢
    exact .zeroLen (run_rr A loc k _ _ st' hp h)
  | .split p q k, env, st, st', hp, h => by
    unfold run at h ⊢
    split at h
    · split at h
      · simp only [] at h ⊢
        split at h
        · split at h
          · split at h
            · exact .split (run_rr A loc k _ _ st' hp h)
            · cases h
          · cases h
        · cases h
      · cases h
    · cases h

/-- `er`: an error was reported. No return after a report, no failure without. -/
def chkE : Bool → Prog → Bool
  | _, .finish => false
  | er, .ret => !er
  | er, .fail => er
  | er, .set _ _ k => chkE er k
  | er, .push _ _ k => chkE er k
  | er, .insert _ _ k => chkE er k
  | er, .del _ k => chkE er k
  | er, .free _ k => chkE er k
  | er, .regParam _ k => chkE er k
  | er, .split _ _ k => chkE er k
  | er, .zeroLen k => chkE er k
  | _, .err _ k => chkE true k
  | _, .errName _ _ k => chkE true k
  | er, .ite c t e => (match c with
    | .err => chkE true t && chkE false e
    | _ => chkE er t && chkE er e)

theorem chkE_sound {loc : Loc} {r0 : Res} {k : Prog} {r : Res} {y : YYLoc} {b : Bool} {r' : Res} {y' : YYLoc} (h : RR loc k r y b r' y') : ∀ (er : Bool), chkE er k = true →
    (er = true → r.errMsg.isSome = true) → (er = false → r = r0) → (b = true → r' = r0) ∧ (b = false → r'.errMsg.isSome = true) := by
  induction h with
  | ret r y => intro er hc h1 h2; simp [chkE] at hc; exact ⟨fun _ => h2 hc, by simp⟩
  | fail r y => intro er hc h1 h2; simp [chkE] at hc; exact ⟨by simp, fun _ => h1 hc⟩
  | set _ ih => exact ih
  | push _ ih => exact ih
  | insert _ ih => exact ih
  | del _ ih => exact ih
  | free _ ih => exact ih
  | regParam _ ih => exact ih
  | split _ ih => exact ih
  | zeroLen _ ih => exact ih
  | @iteT c t e r y b r' y' hc _ ih =>
    intro er hk h1 h2
    unfold chkE at hk
    split at hk
    · simp only [Bool.and_eq_true] at hk
      exact ih true hk.1 (fun _ => hc rfl) (by simp)
    · simp only [Bool.and_eq_true] at hk
      exact ih er hk.1 h1 h2
  | @iteF c t e r y b r' y' hc _ ih =>
    intro er hk h1 h2
    unfold chkE at hk
    split at hk
    · simp only [Bool.and_eq_true] at hk
      refine ih false hk.2 (by simp) (fun _ => ?_)
      cases er with
      | false => exact h2 rfl
      | true => have := h1 rfl; rw [hc rfl] at this; cases this
    · simp only [Bool.and_eq_true] at hk
      exact ih er hk.2 h1 h2
  | err _ ih => intro er hk _ _; exact ih true hk (fun _ => rfl) (by simp)
  | errName _ ih => intro er hk _ _; exact ih true hk (fun _ => rfl) (by simp)

/-- `kn`: no error was reported so far, for certain. Returns only then. -/
def chkN : Bool → Prog → Bool
  | _, .finish => false
  | kn, .ret => kn
  | _, .fail => true
  | kn, .set _ _ k => chkN kn k
  | kn, .push _ _ k => chkN kn k
  | kn, .insert _ _ k => chkN kn k
  | kn, .del _ k => chkN kn k
  | kn, .free _ k => chkN kn k
  | kn, .regParam _ k => chkN kn k
  | kn, .split _ _ k => chkN kn k
  | kn, .zeroLen k => chkN kn k
  | _, .err _ k => chkN false k
  | _, .errName _ _ k => chkN false k
  | kn, .ite c t e => (match c with
    | .err => chkN kn t && chkN true e
    | _ => chkN kn t && chkN kn e)

theorem chkN_sound {loc : Loc} {k : Prog} {r : Res} {y : YYLoc} {b : Bool} {r' : Res} {y' : YYLoc} (h : RR loc k r y b r' y') : ∀ (kn : Bool), chkN kn k = true →
    (kn = true → r.errMsg = none) → b = true → r'.errMsg = none := by
  induction h with
  | ret r y => intro er hc h1 _; exact h1 hc
  | fail r y => intro er hc h1 h2; cases h2
  | set _ ih => exact ih
  | push _ ih => exact ih
  | insert _ ih => exact ih
  | del _ ih => exact ih
  | free _ ih => exact ih
  | regParam _ ih => exact ih
  | split _ ih => exact ih
  | zeroLen _ ih => exact ih
  | @iteT c t e r y b r' y' hc _ ih =>
    intro er hk h1 h2
    unfold chkN at hk
    split at hk
    · simp only [Bool.and_eq_true] at hk
      exact ih er hk.1 h1 h2
    · simp only [Bool.and_eq_true] at hk
      exact ih er hk.1 h1 h2
  | @iteF c t e r y b r' y' hc _ ih =>
    intro er hk h1 h2
    unfold chkN at hk
    split at hk
    · simp only [Bool.and_eq_true] at hk
      exact ih true hk.2 (fun _ => hc rfl) h2
    · simp only [Bool.and_eq_true] at hk
      exact ih er hk.2 h1 h2
  | err _ ih => intro er hk _ h2; exact ih false hk (by simp) h2
  | errName _ ih => intro er hk _ h2; exact ih false hk (by simp) h2

/-- The position stored in the result was there before or is that of the rule. -/
theorem rr_pos {loc : Loc} {P : Int → Int → Prop} (hl : P loc.fl loc.fc) {k : Prog} {r : Res} {y : YYLoc} {b : Bool} {r' : Res} {y' : YYLoc} (h : RR loc k r y b r' y') :
    (r.errMsg.isSome = true → P r.errLine r.errCol) → r'.errMsg.isSome = true → P r'.errLine r'.errCol := by
  induction h with
  | ret => exact id
  | fail => exact id
  | err _ ih => exact fun _ => ih fun _ => hl
  | errName _ ih => exact fun _ => ih fun _ => hl
  | _ => assumption

theorem rules_err : ((List.range 356).all fun i => i == 0 || (noFinish (actions.getD i .fail) && (i == 64 || chkE false (actions.getD i .fail)))) = true := by decide +kernel

theorem rule_noFinish {r : Nat} (h1 : 2 ≤ r) (h2 : r < 358) (h3 : r ≠ 2) : noFinish (act r) = true := by
  have := List.all_eq_true.1 rules_err (r - 2) (by simp; omega)
  have n1 : (r - 2 == 0) = false := by simp; omega
  rw [n1] at this
  simp only [Bool.false_or, Bool.and_eq_true] at this
  exact this.1
theorem rule_chkE {r : Nat} (h1 : 2 ≤ r) (h2 : r < 358) (h3 : r ≠ 2) (h4 : r ≠ 66) : chkE false (act r) = true := by
  have := List.all_eq_true.1 rules_err (r - 2) (by simp; omega)
  have n1 : (r - 2 == 0) = false := by simp; omega
  have n2 : (r - 2 == 64) = false := by simp; omega
  rw [n1, n2] at this
  simp only [Bool.false_or, Bool.and_eq_true] at this
  exact this.2

/-- Contains no `YYERROR`. -/
def noFail : Prog → Bool
  | .finish => true
  | .ret => true
  | .fail => false
  | .set _ _ k => noFail k
  | .push _ _ k => noFail k
  | .insert _ _ k => noFail k
  | .del _ k => noFail k
  | .free _ k => noFail k
  | .regParam _ k => noFail k
  | .split _ _ k => noFail k
  | .zeroLen k => noFail k
  | .err _ k => noFail k
  | .errName _ _ k => noFail k
  | .ite _ t e => noFail t && noFail e
theorem noFail_sound {loc : Loc} {k : Prog} {r : Res} {y : YYLoc} {b : Bool} {r' : Res} {y' : YYLoc} (h : RR loc k r y b r' y') : noFail k = true → b = true := by
  induction h with
  | ret => exact fun _ => rfl
  | fail => intro h; cases h
  | iteT _ _ ih => intro h; simp only [noFail, Bool.and_eq_true] at h; exact ih h.1
  | iteF _ _ ih => intro h; simp only [noFail, Bool.and_eq_true] at h; exact ih h.2
  | _ => assumption

section
variable {A : Alloc} {loc : Loc} {r : Nat} (h1 : 2 ≤ r) (h2 : r < 358) (h3 : r ≠ 2) {env : List V} {st st' : St} {v : V}
include h1 h2 h3

theorem act_ok_rr (h : run A loc (act r) env st = .ok v st') : RR loc (act r) st.res st.yylloc true st'.res st'.yylloc := by
  have := run_rr A loc (act r) env st st' (rule_noFinish h1 h2 h3) (by rw [h]; rfl)
  rw [h] at this; exact this
theorem act_err_rr (h : run A loc (act r) env st = .error st') : RR loc (act r) st.res st.yylloc false st'.res st'.yylloc := by
  have := run_rr A loc (act r) env st st' (rule_noFinish h1 h2 h3) (by rw [h]; rfl)
  rw [h] at this; exact this

/-- An action that succeeds reports no error, except that of `column_def`. -/
theorem act_ok_res (h4 : r ≠ 66) (h : run A loc (act r) env st = .ok v st') : st'.res = st.res :=
  (chkE_sound (r0 := st.res) (act_ok_rr h1 h2 h3 h) false (rule_chkE h1 h2 h3 h4) (by simp) (fun _ => rfl)).1 rfl

/-- An action that fails reports an error. -/
theorem act_err_res (h : run A loc (act r) env st = .error st') : st'.res.errMsg.isSome = true := by
  by_cases h4 : r = 66
  · subst h4
    exact absurd (noFail_sound (act_err_rr h1 h2 h3 h) (by decide +kernel)) (by simp)
  · exact (chkE_sound (r0 := st.res) (act_err_rr h1 h2 h3 h) false (rule_chkE h1 h2 h3 h4) (by simp) (fun _ => rfl)).2 rfl
end

/-- `CREATE TABLE` succeeds only if no error was reported. -/
theorem act56_ok {A : Alloc} {loc : Loc} {env : List V} {st st' : St} {v : V} (h : run A loc (act 56) env st = .ok v st') : st'.res.errMsg = none :=
  chkN_sound (act_ok_rr (r := 56) (by decide) (by decide) (by decide) h) false (by decide +kernel) (by simp) rfl

/-- The symbols that carry a column definition with conflicting constraints to the `CREATE TABLE`. -/
def carriers : List Nat := [N.column_def, N.table_elem, N.table_elem_commalist]

theorem carriers_closed : ((List.range 358).all fun r => r == 56 || !((rhs r).any fun s => carriers.contains s) || carriers.contains (lhs r)) = true := by decide +kernel
theorem carriers_lhs66 : lhs 66 = N.column_def := by decide +kernel

/-- While an error is pending, its column definition is on the stack. -/
theorem err_rc {A : Alloc} {toks : List Tok} {r0 : Res} (h0 : r0.errMsg = none) {c : Cfg St SV} {stk : TStk} (h : RC (sem A) toks (startSt r0) c stk) :
    c.st.res.errMsg = none ∨ ∃ p ∈ stk, p.2.sym ∈ carriers := by
  refine RC.ind (I := fun c stk => c.st.res.errMsg = none ∨ ∃ p ∈ stk, p.2.sym ∈ carriers) ?_ ?_ ?_ ?_ h
  · exact .inl h0
  · intro c stk t ts ih _ _; exact ih
  · intro c stk t v s ih _ _ _
    rcases ih with ih | ⟨p, hp, hs⟩
    · exact .inl ih
    · exact .inr ⟨p, List.mem_cons_of_mem _ hp, hs⟩
  · intro c stk r s v st ih hat hred
    obtain ⟨e1, e2⟩ := reduce_ok hat.r1 hat.r2 hred
    by_cases h56 : r = 56
    · subst h56; exact .inl (act56_ok e2)
    by_cases h66 : r = 66
    · subst h66
      right
      refine ⟨_, List.mem_cons_self, ?_⟩
      show lhs 66 ∈ carriers
      rw [carriers_lhs66]; decide
    have hm : st.res.errMsg = c.st.res.errMsg := by
      by_cases h2 : r = 2
      · subst h2; exact (run2 e2).2.1
      · rw [act_ok_res hat.r1 hat.r2 h2 h66 e2]
    rcases ih with ih | ⟨p, hp, hs⟩
    · left; show st.res.errMsg = none; rw [hm, ih]
    · right
      rw [← List.take_append_drop (rhs r).length stk] at hp
      rcases List.mem_append.1 hp with hp | hp
      · refine ⟨_, List.mem_cons_self, ?_⟩
        show lhs r ∈ carriers
        have hc := List.all_eq_true.1 carriers_closed r (by have := hat.r2; simp; omega)
        have hmem : p.2.sym ∈ rhs r := by
          rw [← hat.syms, popTrees]
          rw [List.mem_map]
          exact ⟨p.2, by simp only [List.mem_reverse, List.mem_map]; exact ⟨p, hp, rfl⟩, rfl⟩
        have hany : ((rhs r).any fun s => carriers.contains s) = true := List.any_eq_true.2 ⟨_, hmem, by simpa using hs⟩
        rw [hany] at hc
        simp only [Bool.not_true, Bool.or_false, Bool.or_eq_true, beq_iff_eq] at hc
        rcases hc with hc | hc
        · exact absurd hc h56
        · simpa using hc
      · exact ⟨p, List.mem_cons_of_mem _ hp, hs⟩

end Verif.Sem

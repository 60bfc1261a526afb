import Verif.Sem.Ends
/-! Nullability of columns (C29). -/
namespace Verif.Sem
open Verif.LR Verif.Lex

/-- The fields of a `ColumnDefinition` are consistent: its constraints are a set `ks` of kinds; it is nullable iff neither NOT NULL nor PRIMARY KEY
is among them, and NULL is not among them together with one of these. -/
def NullOK (fs : List V) : Prop :=
  ∃ (a : Nat) (ks : List Int) (name ty refs : V) (nullable : Bool), fs = [.vec a (ks.map .int), name, ty, .int (if nullable then 1 else 0), refs] ∧
    (nullable = true ↔ ConstraintType.NotNull ∉ ks ∧ ConstraintType.PrimaryKey ∉ ks) ∧
    ¬ (ConstraintType.Null ∈ ks ∧ (ConstraintType.NotNull ∈ ks ∨ ConstraintType.PrimaryKey ∈ ks))

theorem setIvalL_ints (a : Nat) (n : Int) : ∀ (ks : List Int), setIvalL a n (ks.map .int) = ks.map .int
  | [] => rfl
  | k :: ks => by simp only [List.map_cons, setIvalL, V.setIval, setIvalL_ints a n ks]

theorem nullOK_setIval (a : Nat) (n : Int) (fs : List V) (h : NullOK fs) : NullOK (setIvalL a n fs) := by
  obtain ⟨b, ks, nm, ty, refs, nu, rfl, h1, h2⟩ := h
  exact ⟨b, ks, nm.setIval a n, ty.setIval a n, refs.setIval a n, nu, by simp only [setIvalL, V.setIval, setIvalL_ints], h1, h2⟩

theorem hasInt_map (n : Int) : ∀ (ks : List Int), hasInt n (ks.map .int) = decide (n ∈ ks)
  | [] => by simp [hasInt]
  | k :: ks => by
    have := hasInt_map n ks
    unfold hasInt at this ⊢
    rw [List.map_cons, List.any_cons, this]
    simp only [V.isInt, List.mem_cons, eq_comm]
    rw [Bool.decide_or]

theorem rhs66 : rhs 66 = [T.IDENTIFIER, N.column_type, N.opt_column_constraints] := by decide +kernel
theorem lhs66 : lhs 66 = N.column_def := by decide +kernel

section
variable {ok : Bytes → Prop} {good : List V → Prop}

theorem sat_ints_list {l : List Int} : ∀ {vs : List V}, (∀ v ∈ vs, Sat ok good (.ints l) v) → ∃ ks : List Int, vs = ks.map .int ∧ ∀ k ∈ ks, k ∈ l
  | [], _ => ⟨[], rfl, by simp⟩
  | v :: vs, h => by
    obtain ⟨ks, rfl, hk⟩ := sat_ints_list (vs := vs) fun w hw => h w (List.mem_cons_of_mem _ hw)
    have := h v (by simp)
    cases this with
    | ints hn => exact ⟨_ :: ks, rfl, by intro k hk'; rcases List.mem_cons.1 hk' with rfl | h; exact hn; exact hk k h⟩

/-- What the action of `column_def` does with typed values. -/
theorem good66_null : Good66 ok NullOK := by
  intro A loc vs st v st' hv h hg
  rw [rhs66] at hv
  simp only [List.map_cons, List.map_nil] at hv
  obtain ⟨v1, v2, v3, rfl⟩ : ∃ v1 v2 v3, vs = [v1, v2, v3] := by
    have := hv.len
    match vs, this with
    | [a, b, c], _ => exact ⟨a, b, c, rfl⟩
  cases hv with
  | cons s1 hv => cases hv with
    | cons s2 hv => cases hv with
      | cons s3 _ =>
        have t1 : symTy T.IDENTIFIER = .str := rfl
        have t2 : symTy N.column_type = .ref .colType := rfl
        have t3 : symTy N.opt_column_constraints = columnConstraintsP := rfl
        have t4 : symTy (lhs 66) = columnDefP := by rw [lhs66]; rfl
        rw [t1] at s1; rw [t2] at s2; rw [t3] at s3; rw [t4]
        cases s1 with
        | str a1 hb1 =>
          rename_i b1
          have s2' := s2
          cases s2 with
          | ref hm hs =>
            simp only [alts, List.mem_singleton] at hm
            subst hm
            cases hs with
            | tup hfs =>
              rename_i ty
              cases s3 with
              | obj a3 hc _ =>
                cases hc with
                | cons c1 hc => cases hc with
                  | cons c2 hc =>
                    cases hc
                    have c2' := c2
                    cases c1 with
                    | vec a4 e1 _ e3 =>
                      cases e3
                      cases c2 with
                      | @vec a5 _ _ _ refs _ f1 _ f3 =>
                        cases f3
                        obtain ⟨ks, rfl, hks⟩ := sat_ints_list e1
                        have hC : Sat ok NullOK (.vec0 constraintTypes) (.vec a4 (ks.map .int)) := by
                          have := Sat.vec (ok := ok) (good := NullOK) a4 (e := constraintTypes) (ne := false) (suf := []) (pre := ks.map .int) (post := []) e1 (by simp) .nil
                          rwa [List.append_nil] at this
                        have fin : ∀ (b : Bool), ((b = true ↔ ConstraintType.NotNull ∉ ks ∧ ConstraintType.PrimaryKey ∉ ks)) →
                            ¬ (ConstraintType.Null ∈ ks ∧ (ConstraintType.NotNull ∈ ks ∨ ConstraintType.PrimaryKey ∈ ks)) →
                            ∀ (a : Nat), Sat ok NullOK columnDefP (.obj a .ColumnDefinition [.vec a4 (ks.map .int), .str a1 b1, .tup ty, .int (if b then 1 else 0), .vec a5 (refs ++ [])]) := by
                          intro b g1 g2 a
                          refine .obj a ?_ (fun _ => ⟨a4, ks, _, _, _, b, rfl, g1, g2⟩)
                          refine .cons hC (.cons (.str a1 hb1) (.cons s2' (.cons (.ints ?_) (.cons c2' .nil))))
                          cases b <;> simp
                        have hact : act 66 = columnDef := rfl
                        rw [hact] at h
                        have hguard : st'.res.errMsg = none := by
                          rcases hg with hg | hg
                          · exfalso
                            obtain ⟨_, _, _, _, _, _, e, _⟩ := hg []
                            cases e
                          · exact hg
                        by_cases k1 : ConstraintType.Null ∈ ks
                        · by_cases k2 : ConstraintType.NotNull ∈ ks
                          · exfalso
                            simp [columnDef, newColumnDefinition, mkEnv, run, evalRv, evalAtoms, evalAtom, evalCond, getP, putP, V.get, V.put, St.log, St.bump, V.isUndef, hasInt_map, k1, k2, strAt] at h
                            split at h
                            · cases h; simp [St.yyerror] at hguard
                            · cases h
                          · by_cases k3 : ConstraintType.PrimaryKey ∈ ks
                            · exfalso
                              simp [columnDef, newColumnDefinition, mkEnv, run, evalRv, evalAtoms, evalAtom, evalCond, getP, putP, V.get, V.put, St.log, St.bump, V.isUndef, hasInt_map, k1, k2, k3, strAt] at h
                              split at h
                              · cases h; simp [St.yyerror] at hguard
                              · cases h
                            · have := fin true (by simp [k2, k3]) (by simp [k2, k3])
                              simp [columnDef, newColumnDefinition, mkEnv, run, evalRv, evalAtoms, evalAtom, evalCond, getP, putP, V.get, V.put, St.log, St.bump, V.isUndef, hasInt_map, k1, k2, k3, strAt] at h
                              split at h
                              · cases h
                                simpa using this _
                              · cases h
                        · by_cases k2 : ConstraintType.NotNull ∈ ks
                          · have := fin false (by simp [k2]) (by simp [k1])
                            simp [columnDef, newColumnDefinition, mkEnv, run, evalRv, evalAtoms, evalAtom, evalCond, getP, putP, V.get, V.put, St.log, St.bump, V.isUndef, hasInt_map, k1, k2, strAt] at h
                            split at h
                            · cases h
                              simpa using this _
                            · cases h
                          · by_cases k3 : ConstraintType.PrimaryKey ∈ ks
                            · have := fin false (by simp [k3]) (by simp [k1])
                              simp [columnDef, newColumnDefinition, mkEnv, run, evalRv, evalAtoms, evalAtom, evalCond, getP, putP, V.get, V.put, St.log, St.bump, V.isUndef, hasInt_map, k1, k2, k3, strAt] at h
                              split at h
                              · cases h
                                simpa using this _
                              · cases h
                            · have := fin true (by simp [k2, k3]) (by simp [k2, k3])
                              simp [columnDef, newColumnDefinition, mkEnv, run, evalRv, evalAtoms, evalAtom, evalCond, getP, putP, V.get, V.put, St.log, St.bump, V.isUndef, hasInt_map, k1, k2, k3, strAt] at h
                              split at h
                              · cases h
                                simpa using this _
                              · cases h

end
end Verif.Sem

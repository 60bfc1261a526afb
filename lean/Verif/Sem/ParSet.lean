import Verif.Sem.Main
/-! Numbering parameters does not change which expressions are parameters. Proof-internal. -/
namespace Verif.Sem

theorem numOf_setIval (a : Nat) (n : Int) (v : V) : numOf (some (v.setIval a n)) = numOf (some v) := by
  cases v with
  | obj b c fs => simp only [V.setIval]; split <;> rfl
  | _ => rfl

theorem isPar_setIvalL (a : Nat) (n : Int) (c : Cls) (fs : List V) : isPar c (setIvalL a n fs) = isPar c fs := by
  cases fs with
  | nil => rfl
  | cons v fs =>
    cases v with
    | obj b c' gs =>
      simp only [setIvalL, V.setIval]
      split <;> cases c <;> rfl
    | _ => cases c <;> rfl

theorem parKey_setIvalL (a : Nat) (n : Int) (fs : List V) : parKey (setIvalL a n fs) = parKey fs := by
  unfold parKey
  rw [setIvalL_get]
  cases fs[11]? with
  | none => rfl
  | some v => exact numOf_setIval a n v

theorem parsL_set : ∀ (fs : List V) (i : Nat) (v w : V), fs[i]? = some v → w.pars = v.pars → parsL (fs.set i w) = parsL fs
  | [], _, _, _, h, _ => by simp at h
  | x :: fs, 0, v, w, h, hw => by
    simp only [List.getElem?_cons_zero, Option.some.injEq] at h
    subst h
    simp [parsL, hw]
  | x :: fs, i + 1, v, w, h, hw => by
    simp only [List.getElem?_cons_succ] at h
    simp [parsL, parsL_set fs i v w h hw]

theorem newIval_pars (n : Int) (c : Cls) (fs : List V) : isPar c (newIval n fs) = isPar c fs ∧ parKey (newIval n fs) = parKey fs ∧ parsL (newIval n fs) = parsL fs := by
  unfold newIval
  cases h : fs[10]? with
  | none => exact ⟨rfl, rfl, rfl⟩
  | some w =>
    simp only []
    by_cases hw : w.isNum = true
    · rw [if_pos hw]
      refine ⟨?_, ?_, ?_⟩
      · cases fs with
        | nil => rfl
        | cons v fs =>
          cases c <;> cases v <;> rfl
      · unfold parKey
        rw [List.getElem?_set_ne (by decide)]
      · refine parsL_set fs 10 w _ h ?_
        cases w <;> first | rfl | cases hw
    · rw [if_neg hw]; exact ⟨rfl, rfl, rfl⟩

mutual
theorem pars_setIval (a : Nat) (n : Int) : ∀ (v : V), (v.setIval a n).pars = v.pars
  | .obj b c fs => by
    simp only [V.setIval]
    split
    · obtain ⟨h1, h2, h3⟩ := newIval_pars n c fs
      simp only [V.pars, h1, h2, h3]
    · simp only [V.pars, isPar_setIvalL, parKey_setIvalL, parsL_setIvalL a n fs]
  | .vec b vs => by simp only [V.setIval, V.pars, parsL_setIvalL a n vs]
  | .tup fs => by simp only [V.setIval, V.pars, parsL_setIvalL a n fs]
  | .undef => rfl
  | .null => rfl
  | .int _ => rfl
  | .pos _ => rfl
  | .idx _ => rfl
  | .raw _ => rfl
  | .str _ _ => rfl
theorem parsL_setIvalL (a : Nat) (n : Int) : ∀ (vs : List V), parsL (setIvalL a n vs) = parsL vs
  | [] => rfl
  | v :: vs => by simp only [setIvalL, parsL, pars_setIval a n v, parsL_setIvalL a n vs]
end

theorem parsL_numberL : ∀ (l : List Nat) (k : Nat) (vs : List V), parsL (numberL l k vs) = parsL vs
  | [], _, _ => rfl
  | a :: l, k, vs => by rw [numberL, parsL_numberL l, parsL_setIvalL]

end Verif.Sem

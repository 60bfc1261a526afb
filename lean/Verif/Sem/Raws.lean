import Verif.Sem.Texts
/-! The numbers with a decimal point in a value: no action makes one up. Proof-internal. -/
namespace Verif.Sem
open Verif.LR Verif.Lex

mutual
/-- The numbers with a decimal point in a value. -/
def V.raws : V → List Bytes
  | .raw b => [b]
  | .obj _ _ fs => rawsL fs
  | .vec _ vs => rawsL vs
  | .tup fs => rawsL fs
  | _ => []
def rawsL : List V → List Bytes
  | [] => []
  | v :: vs => v.raws ++ rawsL vs
end

theorem mem_rawsL {x : Bytes} : ∀ {vs : List V}, x ∈ rawsL vs ↔ ∃ v ∈ vs, x ∈ v.raws
  | [] => by simp [rawsL]
  | v :: vs => by simp [rawsL, mem_rawsL (vs := vs)]
theorem get_raws {x : Bytes} : ∀ (p : List Sel) (v w : V), v.get p = some w → x ∈ w.raws → x ∈ v.raws
  | [], v, w, h, hx => by simp only [V.get] at h; cases h; exact hx
  | s :: p, v, w, h, hx => by
    cases s <;> cases v <;> simp only [V.get] at h <;> first | (cases h; done) | skip
    all_goals
      split at h
      · rename_i y hy
        have := get_raws p y w h hx
        simp only [V.raws, mem_rawsL]
        first
          | exact ⟨y, List.mem_of_getElem? hy, this⟩
          | exact ⟨y, List.mem_of_getLast? hy, this⟩
      · cases h
theorem put_raws {x : Bytes} : ∀ (p : List Sel) (v u v' : V), v.put p u = some v' → x ∈ v'.raws → x ∈ v.raws ∨ x ∈ u.raws
  | [], v, u, v', h, hx => by simp only [V.put] at h; cases h; exact .inr hx
  | s :: p, v, u, v', h, hx => by
    cases s <;> cases v <;> simp only [V.put] at h <;> first | (cases h; done) | skip
    all_goals
      split at h
      · rename_i y hy
        split at h
        · rename_i y' hy'
          cases h
          simp only [V.raws, mem_rawsL] at hx ⊢
          obtain ⟨z, hz, hx⟩ := hx
          have hz' : z = y' ∨ z ∈ ‹List V› := by
            first
              | (rcases List.mem_or_eq_of_mem_set hz with h | h
                 · exact .inr h
                 · exact .inl h)
              | (rcases List.mem_append.1 hz with h | h
                 · exact .inr (List.dropLast_subset _ h)
                 · exact .inl (by simpa using h))
          rcases hz' with rfl | hz'
          · rcases put_raws p y u _ hy' hx with h | h
            · left
              first
                | exact ⟨y, List.mem_of_getElem? hy, h⟩
                | exact ⟨y, List.mem_of_getLast? hy, h⟩
            · exact .inr h
          · exact .inl ⟨z, hz', hx⟩
        · cases h
      · cases h
theorem getP_raws {x : Bytes} {env : List V} {p : Path} {w : V} (h : getP env p = some w) (hx : x ∈ w.raws) : x ∈ rawsL env := by
  unfold getP at h
  split at h
  · rename_i v hv
    exact mem_rawsL.2 ⟨v, List.mem_of_getElem? hv, get_raws _ _ _ h hx⟩
  · cases h
theorem putP_raws {x : Bytes} {env env' : List V} {p : Path} {u : V} (h : putP env p u = some env') (hx : x ∈ rawsL env') : x ∈ rawsL env ∨ x ∈ u.raws := by
  unfold putP at h
  split at h
  · rename_i v hv
    split at h
    · rename_i v' hv'
      cases h
      rw [mem_rawsL] at hx ⊢
      obtain ⟨z, hz, hx⟩ := hx
      rcases List.mem_or_eq_of_mem_set hz with h | rfl
      · exact .inl ⟨z, h, hx⟩
      · rcases put_raws _ _ _ _ hv' hx with h | h
        · exact .inl ⟨v, List.mem_of_getElem? hv, h⟩
        · exact .inr h
    · cases h
  · cases h

def Atom.noUnit : Atom → Bool
  | .unit _ => false
  | _ => true
def Rv.noUnit : Rv → Bool
  | .atom a => a.noUnit
  | .obj _ fs => fs.all Atom.noUnit
  | .vec fs => fs.all Atom.noUnit
  | .tup fs => fs.all Atom.noUnit
/-- The unit of an interval is not read. -/
def Prog.noUnit : Prog → Bool
  | .ret => true
  | .fail => true
  | .set _ e k => e.noUnit && k.noUnit
  | .push _ e k => e.noUnit && k.noUnit
  | .insert _ e k => e.noUnit && k.noUnit
  | .del _ k => k.noUnit
  | .free _ k => k.noUnit
  | .ite _ t e => t.noUnit && e.noUnit
  | .err _ k => k.noUnit
  | .errName _ _ k => k.noUnit
  | .zeroLen k => k.noUnit
  | .regParam _ k => k.noUnit
  | .split _ _ k => k.noUnit
  | .finish => true

theorem evalAtom_raws {x : Bytes} {e : Atom} (hn : e.noUnit = true) {env env' : List V} {st : St} {v : V} (h : evalAtom e env st = some (v, env')) :
    (x ∈ v.raws → x ∈ rawsL env) ∧ (x ∈ rawsL env' → x ∈ rawsL env) := by
  unfold evalAtom at h
  split at h
  case h_8 =>
    split at h
    · cases h; exact ⟨by simp [V.raws], id⟩
    · rename_i hw; cases h; exact ⟨getP_raws hw, id⟩
    · cases h
  case h_9 =>
    split at h
    · rename_i w hw
      split at h
      · cases h
      · split at h
        · rename_i env2 hp
          cases h
          exact ⟨getP_raws hw, fun h => (putP_raws hp h).elim id (by simp [V.raws])⟩
        · cases h
    · cases h
  case h_10 =>
    split at h
    · split at h
      · cases h; exact ⟨by simp [V.raws], id⟩
      · cases h
    · cases h
  case h_11 => simp [Atom.noUnit] at hn
  all_goals (cases h; exact ⟨by simp [V.raws, rawsL], id⟩)
theorem evalAtoms_raws {x : Bytes} : ∀ (es : List Atom), es.all Atom.noUnit = true → ∀ {env env' : List V} {st : St} {vs : List V}, evalAtoms es env st = some (vs, env') →
    (x ∈ rawsL vs → x ∈ rawsL env) ∧ (x ∈ rawsL env' → x ∈ rawsL env)
  | [], _, env, env', st, vs, h => by simp only [evalAtoms] at h; cases h; exact ⟨by simp [rawsL], id⟩
  | e :: es, hn, env, env', st, vs, h => by
    simp only [evalAtoms] at h
    simp only [List.all_cons, Bool.and_eq_true] at hn
    split at h
    · rename_i v env1 he
      split at h
      · rename_i vs1 env2 hes
        cases h
        have h1 := evalAtom_raws (x := x) hn.1 he
        have h2 := evalAtoms_raws (x := x) es hn.2 hes
        refine ⟨fun h => ?_, fun h => h1.2 (h2.2 h)⟩
        rw [rawsL, List.mem_append] at h
        rcases h with h | h
        · exact h1.1 h
        · exact h1.2 (h2.1 h)
      · cases h
    · cases h
theorem evalRv_raws {x : Bytes} (A : Alloc) {e : Rv} (hn : e.noUnit = true) {env env' : List V} {st st' : St} {v : V} (h : evalRv A e env st = some (v, env', st')) :
    (x ∈ v.raws → x ∈ rawsL env) ∧ (x ∈ rawsL env' → x ∈ rawsL env) := by
  unfold evalRv at h
  split at h
  · split at h
    · rename_i he; cases h; exact evalAtom_raws hn he
    · cases h
  all_goals
    split at h
    · rename_i he; cases h; exact evalAtoms_raws _ hn he
    · cases h


/-- What `split` puts in is what has been there. -/
theorem filter_raws {x : Bytes} {p : V → Bool} {vs : List V} (h : x ∈ rawsL (vs.filter p)) : x ∈ rawsL vs := by
  rw [mem_rawsL] at *
  obtain ⟨v, hv, hx⟩ := h
  exact ⟨v, (List.mem_filter.1 hv).1, hx⟩

theorem run_raws {x : Bytes} (A : Alloc) (loc : Loc) : ∀ (k : Prog), k.noUnit = true → ∀ (env : List V) (st st' : St) (v : V), run A loc k env st = .ok v st' → x ∈ v.raws → x ∈ rawsL env
  | .ret, _, env, st, st', v, h, hx => by
    simp only [run] at h
    split at h
    · cases h
    · cases h; rw [rawsL, List.mem_append]; exact .inl hx
  | .fail, _, env, st, st', v, h, _ => by simp [run] at h
  | .set p e k, hn, env, st, st', v, h, hx => by
    simp only [Prog.noUnit, Bool.and_eq_true] at hn
    simp only [run] at h
    split at h
    · rename_i w env1 st1 he
      split at h
      · split at h
        · rename_i env2 hp
          have h1 := evalRv_raws (x := x) A hn.1 he
          rcases putP_raws hp (run_raws A loc k hn.2 _ _ _ _ h hx) with h | h
          · exact h1.2 h
          · exact h1.1 h
        · cases h
      · cases h
    · cases h
  | .push p e k, hn, env, st, st', v, h, hx => by
    simp only [Prog.noUnit, Bool.and_eq_true] at hn
    simp only [run] at h
    split at h
    · rename_i w env1 he
      split at h
      · rename_i b vs ho
        split at h
        · rename_i env2 hp
          have h1 := evalAtom_raws (x := x) hn.1 he
          rcases putP_raws hp (run_raws A loc k hn.2 _ _ _ _ h hx) with h | h
          · exact h1.2 h
          · simp only [V.raws, mem_rawsL, List.mem_append, List.mem_singleton] at h
            obtain ⟨y, hy | rfl, h⟩ := h
            · exact h1.2 (getP_raws ho (by rw [V.raws, mem_rawsL]; exact ⟨y, hy, h⟩))
            · exact h1.1 h
        · cases h
      · cases h
    · cases h
  | .insert p e k, hn, env, st, st', v, h, hx => by
    simp only [Prog.noUnit, Bool.and_eq_true] at hn
    simp only [run] at h
    split at h
    · rename_i n env1 he
      split at h
      · rename_i b vs ho
        split at h
        · rename_i env2 hp
          have h1 := evalAtom_raws (x := x) hn.1 he
          rcases putP_raws hp (run_raws A loc k hn.2 _ _ _ _ h hx) with h | h
          · exact h1.2 h
          · refine h1.2 (getP_raws ho ?_)
            rw [V.raws] at *
            split at h
            · exact h
            · rw [mem_rawsL] at *
              obtain ⟨y, hy, h⟩ := h
              rcases List.mem_append.1 hy with hy | hy
              · exact ⟨y, hy, h⟩
              · simp at hy; subst hy; simp [V.raws] at h
        · cases h
      · cases h
    · cases h
  | .del p k, hn, env, st, st', v, h, hx => by
    simp only [run] at h
    split at h
    · split at h
      · split at h
        · rename_i env2 hp
          exact (putP_raws hp (run_raws A loc k hn _ _ _ _ h hx)).elim id (by simp [V.raws])
        · cases h
      · cases h
    · cases h
  | .free p k, hn, env, st, st', v, h, hx => by
    simp only [run] at h
    split at h
    · split at h
      · split at h
        · rename_i env2 hp
          exact (putP_raws hp (run_raws A loc k hn _ _ _ _ h hx)).elim id (by simp [V.raws])
        · cases h
      · cases h
    · cases h
  | .ite c t e, hn, env, st, st', v, h, hx => by
    simp only [Prog.noUnit, Bool.and_eq_true] at hn
    simp only [run] at h
    split at h
    · exact run_raws A loc t hn.1 _ _ _ _ h hx
    · exact run_raws A loc e hn.2 _ _ _ _ h hx
    · cases h
  | .err msg k, hn, env, st, st', v, h, hx => by
    simp only [run] at h
    exact run_raws A loc k hn _ _ _ _ h hx
  | .errName msg p k, hn, env, st, st', v, h, hx => by
    simp only [run] at h
    split at h
    · exact run_raws A loc k hn _ _ _ _ h hx
    · cases h
  | .zeroLen k, hn, env, st, st', v, h, hx => by
    simp only [run] at h
    exact run_raws A loc k hn _ _ _ _ h hx
  | .regParam p k, hn, env, st, st', v, h, hx => by
    simp only [run] at h
    split at h
    · split at h
      · exact run_raws A loc k hn _ _ _ _ h hx
      · cases h
    · cases h
  | .split p q k, hn, env, st, st', v, h, hx => by
    simp only [run] at h
    split at h
    · rename_i b vs hq
      split at h
      · rename_i env1 h1
        split at h
        · split at h
          · rename_i env2 h2
            split at h
            · rename_i env3 h3
              have hv : x ∈ rawsL vs → x ∈ rawsL env := fun h => getP_raws hq (by rw [V.raws]; exact h)
              rcases putP_raws h3 (run_raws A loc k hn _ _ _ _ h hx) with h | h
              · rcases putP_raws h2 h with h | h
                · exact (putP_raws h1 h).elim id (by simp [V.raws, rawsL])
                · exact hv (filter_raws (by rw [V.raws] at h; exact h))
              · exact hv (filter_raws (by rw [V.raws] at h; exact h))
            · cases h
          · cases h
        · cases h
      · cases h
    · cases h
  | .finish, _, env, st, st', v, h, hx => by
    simp only [run] at h
    split at h
    · split at h
      · split at h
        · cases h; simp [V.raws] at hx
        · cases h
      · cases h
    · cases h

theorem mkEnv_raws {x : Bytes} {vs : List V} (h : x ∈ rawsL (mkEnv vs)) : x ∈ rawsL vs := by
  rw [mem_rawsL] at *
  obtain ⟨v, hv, hx⟩ := h
  unfold mkEnv at hv
  rw [List.cons_append, List.mem_cons, List.mem_append] at hv
  rcases hv with rfl | hv | hv
  · simp [V.raws] at hx
  · exact ⟨v, hv, hx⟩
  · rw [List.mem_replicate] at hv
    rw [hv.2] at hx; simp [V.raws] at hx

theorem noUnit_acts : (actions.take 295 ++ actions.drop 296).all Prog.noUnit = true := by decide +kernel
theorem noUnit_act {i : Nat} {p : Prog} (h : actions[i]? = some p) (hi : i ≠ 295) : p.noUnit = true := by
  refine List.all_eq_true.1 noUnit_acts p (List.mem_append.2 ?_)
  rcases Nat.lt_or_gt_of_ne hi with hl | hl
  · exact .inl (List.mem_of_getElem? (by rw [List.getElem?_take_of_lt hl]; exact h))
  · refine .inr (List.mem_of_getElem? (i := i - 296) ?_)
    rw [List.getElem?_drop, show 296 + (i - 296) = i by omega]; exact h

theorem evRule_raws {x : Bytes} {r : Nat} (hr : r ≠ 297) {vs : List V} {s s' : PS} {v : V} (h : evRule r vs s = some (v, s')) (hx : x ∈ v.raws) : x ∈ rawsL vs := by
  unfold evRule at h
  split at h
  · cases h; simp [V.raws] at hx
  · split at h
    · cases h
    · rename_i p hp
      split at h
      · rename_i hrun
        cases h
        exact mkEnv_raws (run_raws Z _ _ (noUnit_act hp (by omega)) _ _ _ _ hrun hx)
      · cases h

end Verif.Sem

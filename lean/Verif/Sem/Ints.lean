import Verif.Sem.Raws
/-! The integers in a value, other than small ones: no action makes one up, except those of intervals. Proof-internal. -/
namespace Verif.Sem
open Verif.LR Verif.Lex

/-- No enumerator and no flag is that large. -/
class Big (x : Int) : Prop where
  le : 40 ≤ x

mutual
/-- The integers in a value, with the numbers of parameters. -/
def V.ints : V → List Int
  | .int n => [n]
  | .idx i => [(i : Int)]
  | .obj _ _ fs => intsL fs
  | .vec _ vs => intsL vs
  | .tup fs => intsL fs
  | _ => []
def intsL : List V → List Int
  | [] => []
  | v :: vs => v.ints ++ intsL vs
end

theorem mem_intsL {x : Int} : ∀ {vs : List V}, x ∈ intsL vs ↔ ∃ v ∈ vs, x ∈ v.ints
  | [] => by simp [intsL]
  | v :: vs => by simp [intsL, mem_intsL (vs := vs)]
theorem get_ints {x : Int} : ∀ (p : List Sel) (v w : V), v.get p = some w → x ∈ w.ints → x ∈ v.ints
  | [], v, w, h, hx => by simp only [V.get] at h; cases h; exact hx
  | s :: p, v, w, h, hx => by
    cases s <;> cases v <;> simp only [V.get] at h <;> first | (cases h; done) | skip
    all_goals
      split at h
      · rename_i y hy
        have := get_ints p y w h hx
        simp only [V.ints, mem_intsL]
        first
          | exact ⟨y, List.mem_of_getElem? hy, this⟩
          | exact ⟨y, List.mem_of_getLast? hy, this⟩
      · cases h
theorem put_ints {x : Int} : ∀ (p : List Sel) (v u v' : V), v.put p u = some v' → x ∈ v'.ints → x ∈ v.ints ∨ x ∈ u.ints
  | [], v, u, v', h, hx => by simp only [V.put] at h; cases h; exact .inr hx
  | s :: p, v, u, v', h, hx => by
    cases s <;> cases v <;> simp only [V.put] at h <;> first | (cases h; done) | skip
    all_goals
      split at h
      · rename_i y hy
        split at h
        · rename_i y' hy'
          cases h
          simp only [V.ints, mem_intsL] at hx ⊢
          obtain ⟨z, hz, hx⟩ := hx
          have hz' : z = y' ∨ z ∈ ‹List V› := by
            first
              | (rcases List.mem_or_eq_of_mem_set hz with h | h
                 · exact .inr h
                 · exact .inl h)
              | (rcases List.mem_append.1 hz with h | h
                 · exact .inr (List.dropLast_subset _ h)
                 · exact .inl (by simpa using h))
          rcases hz' with rfl | hz'
          · rcases put_ints p y u _ hy' hx with h | h
            · left
              first
                | exact ⟨y, List.mem_of_getElem? hy, h⟩
                | exact ⟨y, List.mem_of_getLast? hy, h⟩
            · exact .inr h
          · exact .inl ⟨z, hz', hx⟩
        · cases h
      · cases h
theorem getP_ints {x : Int} {env : List V} {p : Path} {w : V} (h : getP env p = some w) (hx : x ∈ w.ints) : x ∈ intsL env := by
  unfold getP at h
  split at h
  · rename_i v hv
    exact mem_intsL.2 ⟨v, List.mem_of_getElem? hv, get_ints _ _ _ h hx⟩
  · cases h
theorem putP_ints {x : Int} {env env' : List V} {p : Path} {u : V} (h : putP env p u = some env') (hx : x ∈ intsL env') : x ∈ intsL env ∨ x ∈ u.ints := by
  unfold putP at h
  split at h
  · rename_i v hv
    split at h
    · rename_i v' hv'
      cases h
      rw [mem_intsL] at hx ⊢
      obtain ⟨z, hz, hx⟩ := hx
      rcases List.mem_or_eq_of_mem_set hz with h | rfl
      · exact .inl ⟨z, h, hx⟩
      · rcases put_ints _ _ _ _ hv' hx with h | h
        · exact .inl ⟨v, List.mem_of_getElem? hv, h⟩
        · exact .inr h
    · cases h
  · cases h

def Atom.lows : Atom → Bool
  | .int n => decide (n < 40)
  | .dur _ => false
  | .nParams => false
  | _ => true
def Rv.lows : Rv → Bool
  | .atom a => a.lows
  | .obj _ fs => fs.all Atom.lows
  | .vec fs => fs.all Atom.lows
  | .tup fs => fs.all Atom.lows
/-- The constants are less than 40, the text of an interval is not read, parameters are not counted. -/
def Prog.lows : Prog → Bool
  | .ret => true
  | .fail => true
  | .set _ e k => e.lows && k.lows
  | .push _ e k => e.lows && k.lows
  | .insert _ e k => e.lows && k.lows
  | .del _ k => k.lows
  | .free _ k => k.lows
  | .ite _ t e => t.lows && e.lows
  | .err _ k => k.lows
  | .errName _ _ k => k.lows
  | .zeroLen k => k.lows
  | .regParam _ k => k.lows
  | .split _ _ k => k.lows
  | .finish => true

theorem evalAtom_ints {x : Int} [hb : Big x] {e : Atom} (hn : e.lows = true) {env env' : List V} {st : St} {v : V} (h : evalAtom e env st = some (v, env')) :
    (x ∈ v.ints → x ∈ intsL env) ∧ (x ∈ intsL env' → x ∈ intsL env) := by
  unfold evalAtom at h
  split at h
  case h_8 =>
    split at h
    · rename_i hw; cases h; exact ⟨getP_ints hw, id⟩
    · rename_i hw; cases h; exact ⟨getP_ints hw, id⟩
    · cases h
  case h_9 =>
    split at h
    · rename_i w hw
      split at h
      · cases h
      · split at h
        · rename_i env2 hp
          cases h
          exact ⟨getP_ints hw, fun h => (putP_ints hp h).elim id (by simp [V.ints])⟩
        · cases h
    · cases h
  case h_10 => simp [Atom.lows] at hn
  case h_11 =>
    split at h
    · split at h
      · cases h; exact ⟨by simp [V.ints], id⟩
      · cases h
    · cases h
  case h_2 =>
    cases h
    simp only [Atom.lows, decide_eq_true_eq] at hn
    refine ⟨fun h => ?_, id⟩
    simp only [V.ints, List.mem_singleton] at h
    have := hb.le; omega
  case h_4 =>
    cases h
    refine ⟨fun h => ?_, id⟩
    have := hb.le
    simp [V.ints, intsL] at h; omega
  case h_7 => simp [Atom.lows] at hn
  all_goals (cases h; exact ⟨by simp [V.ints, intsL], id⟩)
theorem evalAtoms_ints {x : Int} [hb : Big x] : ∀ (es : List Atom), es.all Atom.lows = true → ∀ {env env' : List V} {st : St} {vs : List V}, evalAtoms es env st = some (vs, env') →
    (x ∈ intsL vs → x ∈ intsL env) ∧ (x ∈ intsL env' → x ∈ intsL env)
  | [], _, env, env', st, vs, h => by simp only [evalAtoms] at h; cases h; exact ⟨by simp [intsL], id⟩
  | e :: es, hn, env, env', st, vs, h => by
    simp only [evalAtoms] at h
    simp only [List.all_cons, Bool.and_eq_true] at hn
    split at h
    · rename_i v env1 he
      split at h
      · rename_i vs1 env2 hes
        cases h
        have h1 := evalAtom_ints (x := x) hn.1 he
        have h2 := evalAtoms_ints (x := x) es hn.2 hes
        refine ⟨fun h => ?_, fun h => h1.2 (h2.2 h)⟩
        rw [intsL, List.mem_append] at h
        rcases h with h | h
        · exact h1.1 h
        · exact h1.2 (h2.1 h)
      · cases h
    · cases h
theorem evalRv_ints {x : Int} [hb : Big x] (A : Alloc) {e : Rv} (hn : e.lows = true) {env env' : List V} {st st' : St} {v : V} (h : evalRv A e env st = some (v, env', st')) :
    (x ∈ v.ints → x ∈ intsL env) ∧ (x ∈ intsL env' → x ∈ intsL env) := by
  unfold evalRv at h
  split at h
  · split at h
    · rename_i he; cases h; exact evalAtom_ints hn he
    · cases h
  all_goals
    split at h
    · rename_i he; cases h; exact evalAtoms_ints _ hn he
    · cases h


/-- What `split` puts in is what has been there. -/
theorem filter_ints {x : Int} [hb : Big x] {p : V → Bool} {vs : List V} (h : x ∈ intsL (vs.filter p)) : x ∈ intsL vs := by
  rw [mem_intsL] at *
  obtain ⟨v, hv, hx⟩ := h
  exact ⟨v, (List.mem_filter.1 hv).1, hx⟩

theorem run_ints {x : Int} [hb : Big x] (A : Alloc) (loc : Loc) : ∀ (k : Prog), k.lows = true → ∀ (env : List V) (st st' : St) (v : V), run A loc k env st = .ok v st' → x ∈ v.ints → x ∈ intsL env
  | .ret, _, env, st, st', v, h, hx => by
    simp only [run] at h
    split at h
    · cases h
    · cases h; rw [intsL, List.mem_append]; exact .inl hx
  | .fail, _, env, st, st', v, h, _ => by simp [run] at h
  | .set p e k, hn, env, st, st', v, h, hx => by
    simp only [Prog.lows, Bool.and_eq_true] at hn
    simp only [run] at h
    split at h
    · rename_i w env1 st1 he
      split at h
      · split at h
        · rename_i env2 hp
          have h1 := evalRv_ints (x := x) A hn.1 he
          rcases putP_ints hp (run_ints A loc k hn.2 _ _ _ _ h hx) with h | h
          · exact h1.2 h
          · exact h1.1 h
        · cases h
      · cases h
    · cases h
  | .push p e k, hn, env, st, st', v, h, hx => by
    simp only [Prog.lows, Bool.and_eq_true] at hn
    simp only [run] at h
    split at h
    · rename_i w env1 he
      split at h
      · rename_i b vs ho
        split at h
        · rename_i env2 hp
          have h1 := evalAtom_ints (x := x) hn.1 he
          rcases putP_ints hp (run_ints A loc k hn.2 _ _ _ _ h hx) with h | h
          · exact h1.2 h
          · simp only [V.ints, mem_intsL, List.mem_append, List.mem_singleton] at h
            obtain ⟨y, hy | rfl, h⟩ := h
            · exact h1.2 (getP_ints ho (by rw [V.ints, mem_intsL]; exact ⟨y, hy, h⟩))
            · exact h1.1 h
        · cases h
      · cases h
    · cases h
  | .insert p e k, hn, env, st, st', v, h, hx => by
    simp only [Prog.lows, Bool.and_eq_true] at hn
    simp only [run] at h
    split at h
    · rename_i n env1 he
      split at h
      · rename_i b vs ho
        split at h
        · rename_i env2 hp
          have h1 := evalAtom_ints (x := x) hn.1 he
          rcases putP_ints hp (run_ints A loc k hn.2 _ _ _ _ h hx) with h | h
          · exact h1.2 h
          · simp only [V.ints] at h
            split at h
            · exact h1.2 (getP_ints ho (by rw [V.ints]; exact h))
            · rw [mem_intsL] at h
              obtain ⟨y, hy, h⟩ := h
              rcases List.mem_append.1 hy with hy | hy
              · exact h1.2 (getP_ints ho (by rw [V.ints, mem_intsL]; exact ⟨y, hy, h⟩))
              · simp at hy; subst hy; exact h1.1 h
        · cases h
      · cases h
    · cases h
  | .del p k, hn, env, st, st', v, h, hx => by
    simp only [run] at h
    split at h
    · split at h
      · split at h
        · rename_i env2 hp
          exact (putP_ints hp (run_ints A loc k hn _ _ _ _ h hx)).elim id (by simp [V.ints])
        · cases h
      · cases h
    · cases h
  | .free p k, hn, env, st, st', v, h, hx => by
    simp only [run] at h
    split at h
    · split at h
      · split at h
        · rename_i env2 hp
          exact (putP_ints hp (run_ints A loc k hn _ _ _ _ h hx)).elim id (by simp [V.ints])
        · cases h
      · cases h
    · cases h
  | .ite c t e, hn, env, st, st', v, h, hx => by
    simp only [Prog.lows, Bool.and_eq_true] at hn
    simp only [run] at h
    split at h
    · exact run_ints A loc t hn.1 _ _ _ _ h hx
    · exact run_ints A loc e hn.2 _ _ _ _ h hx
    · cases h
  | .err msg k, hn, env, st, st', v, h, hx => by
    simp only [run] at h
    exact run_ints A loc k hn _ _ _ _ h hx
  | .errName msg p k, hn, env, st, st', v, h, hx => by
    simp only [run] at h
    split at h
    · exact run_ints A loc k hn _ _ _ _ h hx
    · cases h
  | .zeroLen k, hn, env, st, st', v, h, hx => by
    simp only [run] at h
    exact run_ints A loc k hn _ _ _ _ h hx
  | .regParam p k, hn, env, st, st', v, h, hx => by
    simp only [run] at h
    split at h
    · split at h
      · exact run_ints A loc k hn _ _ _ _ h hx
      · cases h
    · cases h
  | .split p q k, hn, env, st, st', v, h, hx => by
    simp only [run] at h
    split at h
    · rename_i b vs hq
      split at h
      · rename_i env1 h1
        split at h
        · split at h
          · rename_i env2 h2
            split at h
            · rename_i env3 h3
              have hv : x ∈ intsL vs → x ∈ intsL env := fun h => getP_ints hq (by rw [V.ints]; exact h)
              rcases putP_ints h3 (run_ints A loc k hn _ _ _ _ h hx) with h | h
              · rcases putP_ints h2 h with h | h
                · exact (putP_ints h1 h).elim id (by simp [V.ints, intsL])
                · exact hv (filter_ints (by rw [V.ints] at h; exact h))
              · exact hv (filter_ints (by rw [V.ints] at h; exact h))
            · cases h
          · cases h
        · cases h
      · cases h
    · cases h
  | .finish, _, env, st, st', v, h, hx => by
    simp only [run] at h
    split at h
    · split at h
      · split at h
        · cases h; simp [V.ints] at hx
        · cases h
      · cases h
    · cases h

theorem mkEnv_ints {x : Int} [hb : Big x] {vs : List V} (h : x ∈ intsL (mkEnv vs)) : x ∈ intsL vs := by
  rw [mem_intsL] at *
  obtain ⟨v, hv, hx⟩ := h
  unfold mkEnv at hv
  rw [List.cons_append, List.mem_cons, List.mem_append] at hv
  rcases hv with rfl | hv | hv
  · simp [V.ints] at hx
  · exact ⟨v, hv, hx⟩
  · rw [List.mem_replicate] at hv
    rw [hv.2] at hx; simp [V.ints] at hx

/-- The two actions that read a number from a string. -/
theorem run_dur_ints {x : Int} [hb : Big x] (A : Alloc) (loc : Loc) {c : Cond} {k e : Prog} (hk : k.lows = true) (he : e.lows = true) {b : Bytes} {env : List V} (hs : strAt env ⟨2, []⟩ = some b)
    {st st' : St} {v : V} (h : run A loc (.ite c (.set ⟨10, []⟩ (.atom (.dur ⟨2, []⟩)) k) e) env st = .ok v st') (hx : x ∈ v.ints) : x ∈ intsL env ∨ ∃ r, scanD none b = some (x, r) := by
  simp only [run] at h
  split at h
  · split at h
    · rename_i w env1 st1 hv
      simp only [evalRv, evalAtom, hs] at hv
      split at hv
      · rename_i n env3 hd
        split at hd
        · rename_i m r hd'
          cases hd
          cases hv
          split at h
          · split at h
            · rename_i env2 hp
              rcases putP_ints hp (run_ints A loc k hk _ _ _ _ h hx) with h | h
              · exact .inl h
              · simp only [V.ints, List.mem_singleton] at h
                subst h
                exact .inr ⟨r, hd'⟩
            · cases h
          · cases h
        · cases hd
      · cases hv
    · cases h
  · exact .inl (run_ints A loc e he _ _ _ _ h hx)
  · cases h
theorem evRule_dur {x : Int} [hb : Big x] {r : Nat} (hr : r = 296 ∨ r = 297) {b : Bytes} {a : V} {vs : List V} {s s' : PS} {v : V} (h : evRule r (a :: .str 0 b :: vs) s = some (v, s')) (hx : x ∈ v.ints) :
    x ∈ intsL (a :: .str 0 b :: vs) ∨ ∃ q, scanD none b = some (x, q) := by
  have hm : strAt (mkEnv (a :: .str 0 b :: vs)) ⟨2, []⟩ = some b := rfl
  rcases hr with rfl | rfl
  · have h' : evRule 296 (a :: .str 0 b :: vs) s = match run Z ⟨0, 0, 0, 0⟩ intervalField (mkEnv (a :: .str 0 b :: vs)) (pureSt s) with | .ok v st => some (v, st.ps) | _ => none := rfl
    rw [h'] at h
    split at h
    · rename_i hrun
      cases h
      exact (run_dur_ints Z _ (by decide +kernel) (by decide +kernel) hm hrun hx).imp mkEnv_ints id
    · cases h
  · have h' : evRule 297 (a :: .str 0 b :: vs) s = match run Z ⟨0, 0, 0, 0⟩ intervalUnit (mkEnv (a :: .str 0 b :: vs)) (pureSt s) with | .ok v st => some (v, st.ps) | _ => none := rfl
    rw [h'] at h
    split at h
    · rename_i hrun
      cases h
      exact (run_dur_ints Z _ (by decide +kernel) (by decide +kernel) hm hrun hx).imp mkEnv_ints id
    · cases h

theorem lows_acts : (actions.take 294 ++ actions.drop 297).all Prog.lows = true := by decide +kernel
theorem lows_act {i : Nat} {p : Prog} (h : actions[i]? = some p) (hi : i < 294 ∨ 297 ≤ i) : p.lows = true := by
  refine List.all_eq_true.1 lows_acts p (List.mem_append.2 ?_)
  rcases hi with hl | hl
  · exact .inl (List.mem_of_getElem? (by rw [List.getElem?_take_of_lt hl]; exact h))
  · refine .inr (List.mem_of_getElem? (i := i - 297) ?_)
    rw [List.getElem?_drop, show 297 + (i - 297) = i by omega]; exact h

theorem evRule_ints {x : Int} [hb : Big x] {r : Nat} (hr : r < 296 ∨ 298 < r) {vs : List V} {s s' : PS} {v : V} (h : evRule r vs s = some (v, s')) (hx : x ∈ v.ints) : x ∈ intsL vs := by
  unfold evRule at h
  split at h
  · cases h; simp [V.ints] at hx
  · split at h
    · cases h
    · rename_i p hp
      split at h
      · rename_i hrun
        cases h
        exact mkEnv_ints (run_ints Z _ _ (lows_act hp (by omega)) _ _ _ _ hrun hx)
      · cases h

end Verif.Sem

import Verif.Sem.Sat
import Verif.Sem.Names
/-! Soundness of the checks for `delete` and for the absence of parameters. Proof-internal. -/
namespace Verif.Sem

/-- The treatment is defined, and unless `lk` leaks nothing. -/
def TrOK (lk : Bool) (h : How) (v : V) : Prop := ∃ f l, treat h v = some (f, l) ∧ (lk = false → l = [])
def TrOKFs (lk : Bool) (hs : List How) (vs : List V) : Prop := ∃ f l, treatFs hs vs = some (f, l) ∧ (lk = false → l = [])
def TrOKEl (lk : Bool) (e : How) (vs : List V) : Prop := ∃ f l, treatEl e vs = some (f, l) ∧ (lk = false → l = [])

section
variable {ok : Bytes → Prop} {good : List V → Prop}
local notation "S" => Sat ok good
local notation "SL" => SatL ok good

theorem TrOKEl.of {lk : Bool} {e : How} : ∀ {vs : List V}, (∀ v ∈ vs, TrOK lk e v) → TrOKEl lk e vs
  | [], _ => ⟨[], [], rfl, fun _ => rfl⟩
  | v :: vs, h => by
    obtain ⟨f, l, h1, h2⟩ := h v (by simp)
    obtain ⟨f', l', h3, h4⟩ := TrOKEl.of (vs := vs) fun w hw => h w (by simp [hw])
    refine ⟨f ++ f', l ++ l', by simp [treatEl, h1, h3, cat2], fun hl => by simp [h2 hl, h4 hl]⟩

theorem TrOKFs.of {lk : Bool} {f : How → P → Bool} : ∀ {hs : List How} {ps : List P} {vs : List V}, all2 f hs ps = true → SL ps vs →
    (∀ h p v, v ∈ vs → f h p = true → S p v → TrOK lk h v) → TrOKFs lk hs vs
  | [], [], vs, _, hL, _ => by cases hL; exact ⟨[], [], rfl, fun _ => rfl⟩
  | [], _ :: _, vs, h, _, _ => by simp [all2] at h
  | _ :: _, [], vs, h, _, _ => by simp [all2] at h
  | h :: hs, p :: ps, vs, ha, hL, hf => by
    simp only [all2, Bool.and_eq_true] at ha
    cases hL with
    | @cons _ v _ vs' h1 h2 =>
      obtain ⟨f, l, h3, h4⟩ := hf h p v (by simp) ha.1 h1
      obtain ⟨f', l', h5, h6⟩ := TrOKFs.of ha.2 h2 (fun h p w hw => hf h p w (by simp [hw]))
      exact ⟨f ++ f', l ++ l', by simp [treatFs, h3, h5, cat2], fun hl => by simp [h4 hl, h6 hl]⟩

theorem TrOK.null_del {lk : Bool} : TrOK lk .del .null := ⟨[], [], rfl, fun _ => rfl⟩

theorem size_fs {v : V} {a : Nat} {c : Cls} {fs : List V} (h : v ∈ fs) : sizeOf v < sizeOf (V.obj a c fs) := by
  have := List.sizeOf_lt_of_mem h
  simp; omega
theorem size_vec {v : V} {a : Nat} {fs : List V} (h : v ∈ fs) : sizeOf v < sizeOf (V.vec a fs) := by
  have := List.sizeOf_lt_of_mem h
  simp; omega
theorem size_tup {v : V} {fs : List V} (h : v ∈ fs) : sizeOf v < sizeOf (V.tup fs) := by
  have := List.sizeOf_lt_of_mem h
  simp; omega

theorem TrOKFs.obj_del {lk : Bool} {a : Nat} {c : Cls} {fs : List V} (h : TrOKFs lk (dtor c) fs) : TrOK lk .del (.obj a c fs) := by
  obtain ⟨f, l, h1, h2⟩ := h
  exact ⟨a :: f, l, by simp [treat, h1, cat2], h2⟩

theorem trA_sound {lk : Bool} {N : Nat} (IH : ∀ w t, sizeOf w < N → inDel t = true → S (.ref t) w → TrOK false .del w) :
    ∀ (n : Nat) {h : How} {p : P} {v : V}, sizeOf v < N → trA lk n h p = true → S p v → TrOK lk h v
  | 0, _, _, _, _, h, _ => by simp [trA] at h
  | n + 1, h, p, v, hN, ht, hS => by
    unfold trA at ht
    split at ht
    · rename_i t
      rw [Bool.or_eq_true] at ht
      rcases ht with ht | ht
      · obtain ⟨f, l, h1, h2⟩ := IH v t hN ht hS
        exact ⟨f, l, h1, fun _ => h2 rfl⟩
      · cases hS with
        | ref hm hS => exact trA_sound IH n hN (List.all_eq_true.1 ht _ hm) hS
    · refine ⟨[], v.addrs, by cases v <;> rfl, fun hl => ?_⟩
      rw [hl, Bool.false_or] at ht
      exact noAddr_sound hS ht
    · cases hS with
      | ref hm hS => exact trA_sound IH n hN (List.all_eq_true.1 ht _ hm) hS
    · cases hS
    · cases hS; exact ⟨[], [], rfl, fun _ => rfl⟩
    · cases hS; exact ⟨_, [], rfl, fun _ => rfl⟩
    · cases hS; exact ⟨_, [], rfl, fun _ => rfl⟩
    · cases hS; exact ⟨[], [], rfl, fun _ => rfl⟩
    · cases hS with
      | @obj a _ _ fs hL _ =>
        refine TrOKFs.obj_del (TrOKFs.of ht hL fun h p v hv => ?_)
        have := size_fs (a := a) (c := ‹Cls›) hv
        exact trA_sound IH n (by omega)
    · cases hS with
      | @vec a _ _ _ pre post g1 g2 gL =>
        refine ⟨[a], addrsL (pre ++ post), rfl, fun hl => ?_⟩
        rw [hl, Bool.false_or, Bool.and_eq_true] at ht
        rw [addrsL_append, addrsL_nil (fun v hv => noAddr_sound (g1 v hv) ht.1), noAddrAll_sound gL ht.2, List.append_nil]
    · cases hS; exact ⟨[], [], rfl, fun _ => rfl⟩
    · rw [Bool.and_eq_true] at ht
      cases hS with
      | @vec a _ _ _ pre post g1 g2 gL =>
        have : TrOKEl lk ‹How› (pre ++ post) := TrOKEl.of fun v hv => by
          have hsz := size_vec (a := a) hv
          rcases List.mem_append.1 hv with hv | hv
          · exact trA_sound IH n (by omega) ht.1 (g1 v hv)
          · obtain ⟨p, hp, hp'⟩ := gL.mem hv
            exact trA_sound IH n (by omega) (List.all_eq_true.1 ht.2 p hp) hp'
        obtain ⟨f, l, h1, h2⟩ := this
        exact ⟨a :: f, l, by simp [treat, h1, cat2], h2⟩
    · rw [Bool.and_eq_true] at ht
      cases hS with
      | @vec a _ _ _ pre post g1 g2 gL =>
        have : TrOKEl lk ‹How› (pre ++ post) := TrOKEl.of fun v hv => by
          have hsz := size_vec (a := a) hv
          rcases List.mem_append.1 hv with hv | hv
          · exact trA_sound IH n (by omega) ht.1 (g1 v hv)
          · obtain ⟨p, hp, hp'⟩ := gL.mem hv
            exact trA_sound IH n (by omega) (List.all_eq_true.1 ht.2 p hp) hp'
        obtain ⟨f, l, h1, h2⟩ := this
        exact ⟨a :: f, l, by simp [treat, h1, cat2], h2⟩
    · cases hS with
      | @obj a c _ fs hL _ =>
        have : TrOKFs lk ‹List How› fs := TrOKFs.of ht hL fun h p v hv => by
          have := size_fs (a := a) (c := ‹Cls›) hv
          exact trA_sound IH n (by omega)
        obtain ⟨f, l, h1, h2⟩ := this
        exact ⟨a :: f, l, by simp [treat, h1, cat2], h2⟩
    · cases hS with
      | @tup _ fs hL =>
        have : TrOKFs lk ‹List How› fs := TrOKFs.of ht hL fun h p v hv => by
          have := size_tup hv
          exact trA_sound IH n (by omega)
        obtain ⟨f, l, h1, h2⟩ := this
        exact ⟨f, l, by simp [treat, h1], h2⟩
    · cases ht

def isRef : P → Bool
  | .ref _ => true
  | _ => false

theorem delTable_ok : (delTable.all fun t => (alts t).all fun p => !isRef p && trA false 16 .del p) = true := by decide +kernel

theorem opt_cases {t : Ty} {v : V} (h : S (.ref (.opt t)) v) : v = .null ∨ S (.ref t) v := by
  cases h with
  | ref hm h =>
    simp only [alts, List.mem_cons, List.not_mem_nil, or_false] at hm
    rcases hm with rfl | rfl
    · cases h; exact .inl rfl
    · exact .inr h

theorem inDel_cases {t : Ty} (h : inDel t = true) : (∃ u ∈ delTable, t = .opt u) ∨ t ∈ delTable := by
  unfold inDel at h
  split at h
  · obtain ⟨u, h1, h2⟩ := List.any_eq_true.1 h
    rw [decide_eq_true_eq] at h2
    exact .inl ⟨u, h1, by rw [h2]⟩
  · obtain ⟨u, h1, h2⟩ := List.any_eq_true.1 h
    rw [decide_eq_true_eq] at h2
    exact .inr (h2 ▸ h1)

/-- `delete` is defined and leaks nothing for the shapes in the table. -/
theorem del_ok : ∀ (N : Nat) (v : V) (t : Ty), sizeOf v < N → inDel t = true → S (.ref t) v → TrOK false .del v
  | 0, _, _, h, _, _ => by omega
  | N + 1, v, t, hN, ht, hS => by
    have main : ∀ u ∈ delTable, S (.ref u) v → TrOK false .del v := by
      intro u hu hS
      cases hS with
      | @ref _ p _ hm hp =>
        have := List.all_eq_true.1 (List.all_eq_true.1 delTable_ok u hu) p hm
        rw [Bool.and_eq_true] at this
        obtain ⟨h1, h2⟩ := this
        have IH := fun w t (hw : sizeOf w < sizeOf v) => del_ok N w t (by omega)
        unfold trA at h2
        split at h2 <;> try contradiction
        · cases hp; exact TrOK.null_del
        · cases hp with
          | @obj a _ _ fs hL _ =>
            refine TrOKFs.obj_del (TrOKFs.of h2 hL fun h p v hv => ?_)
            exact trA_sound IH 15 (size_fs hv)
        · cases hp with
          | @vec a _ _ _ pre post g1 g2 gL =>
            refine ⟨[a], addrsL (pre ++ post), rfl, fun hl => ?_⟩
            rw [Bool.false_or, Bool.and_eq_true] at h2
            rw [addrsL_append, addrsL_nil (fun v hv => noAddr_sound (g1 v hv) h2.1), noAddrAll_sound gL h2.2, List.append_nil]
    rcases inDel_cases ht with ⟨u, hu, rfl⟩ | hu
    · rcases opt_cases hS with rfl | hS
      · exact TrOK.null_del
      · exact main u hu hS
    · exact main t hu hS

theorem trA_ok {lk : Bool} {n : Nat} {h : How} {p : P} {v : V} (ht : trA lk n h p = true) (hS : S p v) : TrOK lk h v :=
  trA_sound (N := sizeOf v + 1) (fun w t hw => del_ok (sizeOf w + 1) w t (by omega)) n (by omega) ht hS

/-! ## No parameters -/

theorem parsL_nil {vs : List V} (h : ∀ v ∈ vs, v.pars = []) : parsL vs = [] := by
  induction vs with
  | nil => rfl
  | cons v vs ih => simp only [parsL, h v (by simp), ih (fun w hw => h w (by simp [hw])), List.append_nil]

theorem notParam_sound {c : Cls} {ps : List P} {vs : List V} (h : notParam c ps = true) (hL : SL ps vs) : isPar c vs = false := by
  unfold isPar
  split
  · rename_i n vs
    unfold notParam at h
    split at h
    · cases hL with
      | cons h1 h2 =>
        cases h1 with
        | ints hm =>
          have := List.all_eq_true.1 h n hm
          simpa using this
    · cases h
    · contradiction
  · rfl

theorem pf_sound {N : Nat} (IH : ∀ w t, sizeOf w < N → inPf t = true → S (.ref t) w → w.pars = []) :
    ∀ (n : Nat) {p : P} {v : V}, sizeOf v < N → pf n p = true → S p v → v.pars = []
  | 0, _, _, _, h, _ => by simp [pf] at h
  | n + 1, p, v, hN, h, hS => by
    unfold pf at h
    split at h
    · exact IH v _ hN h hS
    · rw [Bool.and_eq_true] at h
      cases hS with
      | @vec a _ _ _ pre post g1 g2 gL =>
        simp only [V.pars]
        refine parsL_nil fun v hv => ?_
        have hsz := size_vec (a := a) hv
        rcases List.mem_append.1 hv with hv | hv
        · exact pf_sound IH n (by omega) h.1 (g1 v hv)
        · obtain ⟨p, hp, hp'⟩ := gL.mem hv
          exact pf_sound IH n (by omega) (List.all_eq_true.1 h.2 p hp) hp'
    · rw [Bool.and_eq_true] at h
      cases hS with
      | @obj a c _ fs hL _ =>
        simp only [V.pars, notParam_sound h.1 hL]
        rw [parsL_nil]
        · rfl
        intro v hv
        have hsz := size_fs (a := a) (c := ‹Cls›) hv
        obtain ⟨p, hp, hp'⟩ := hL.mem hv
        exact pf_sound IH n (by omega) (List.all_eq_true.1 h.2 p hp) hp'
    · cases hS with
      | @tup _ fs hL =>
        simp only [V.pars]
        refine parsL_nil fun v hv => ?_
        have hsz := size_tup hv
        obtain ⟨p, hp, hp'⟩ := hL.mem hv
        exact pf_sound IH n (by omega) (List.all_eq_true.1 h p hp) hp'
    · cases hS <;> first | rfl | (exfalso; simp_all; done)

theorem pfTable_ok : (pfTable.all fun t => (alts t).all fun p => !isRef p && pf 16 p) = true := by decide +kernel

theorem inPf_cases {t : Ty} (h : inPf t = true) : (∃ u ∈ pfTable, t = .opt u) ∨ t ∈ pfTable := by
  unfold inPf at h
  split at h
  · obtain ⟨u, h1, h2⟩ := List.any_eq_true.1 h
    rw [decide_eq_true_eq] at h2
    exact .inl ⟨u, h1, by rw [h2]⟩
  · obtain ⟨u, h1, h2⟩ := List.any_eq_true.1 h
    rw [decide_eq_true_eq] at h2
    exact .inr (h2 ▸ h1)

theorem pfTy_ok : ∀ (N : Nat) (v : V) (t : Ty), sizeOf v < N → inPf t = true → S (.ref t) v → v.pars = []
  | 0, _, _, h, _, _ => by omega
  | N + 1, v, t, hN, ht, hS => by
    have main : ∀ u ∈ pfTable, S (.ref u) v → v.pars = [] := by
      intro u hu hS
      cases hS with
      | @ref _ p _ hm hp =>
        have := List.all_eq_true.1 (List.all_eq_true.1 pfTable_ok u hu) p hm
        rw [Bool.and_eq_true] at this
        obtain ⟨h1, h2⟩ := this
        have IH := fun w t (hw : sizeOf w < sizeOf v) => pfTy_ok N w t (by omega)
        unfold pf at h2
        split at h2
        · simp [isRef] at h1
        · rw [Bool.and_eq_true] at h2
          cases hp with
          | @vec a _ _ _ pre post g1 g2 gL =>
            simp only [V.pars]
            refine parsL_nil fun v hv => ?_
            have hsz := size_vec (a := a) hv
            rcases List.mem_append.1 hv with hv | hv
            · exact pf_sound IH 15 (by omega) h2.1 (g1 v hv)
            · obtain ⟨p, hp, hp'⟩ := gL.mem hv
              exact pf_sound IH 15 (by omega) (List.all_eq_true.1 h2.2 p hp) hp'
        · rw [Bool.and_eq_true] at h2
          cases hp with
          | @obj a c _ fs hL _ =>
            simp only [V.pars, notParam_sound h2.1 hL]
            rw [parsL_nil]
            · rfl
            intro v hv
            obtain ⟨p, hp, hp'⟩ := hL.mem hv
            exact pf_sound IH 15 (size_fs hv) (List.all_eq_true.1 h2.2 p hp) hp'
        · cases hp with
          | @tup _ fs hL =>
            simp only [V.pars]
            refine parsL_nil fun v hv => ?_
            obtain ⟨p, hp, hp'⟩ := hL.mem hv
            exact pf_sound IH 15 (size_tup hv) (List.all_eq_true.1 h2 p hp) hp'
        · cases hp <;> first | rfl | (exfalso; simp_all; done)
    rcases inPf_cases ht with ⟨u, hu, rfl⟩ | hu
    · rcases opt_cases hS with rfl | hS
      · rfl
      · exact main u hu hS
    · exact main t hu hS

theorem pf_ok {n : Nat} {p : P} {v : V} (h : pf n p = true) (hS : S p v) : v.pars = [] :=
  pf_sound (N := sizeOf v + 1) (fun w t hw => pfTy_ok (sizeOf w + 1) w t (by omega)) n (by omega) h hS

theorem pfAll_ok {n : Nat} {ps : List P} {vs : List V} (h : ps.all (pf n) = true) (hL : SL ps vs) : parsL vs = [] := by
  refine parsL_nil fun v hv => ?_
  obtain ⟨p, hp, hS⟩ := hL.mem hv
  exact pf_ok (List.all_eq_true.1 h p hp) hS
end
end Verif.Sem

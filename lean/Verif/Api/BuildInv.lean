import Verif.Api.BuildOk
/-! Every operation that follows the rules keeps the invariant. Proof-internal. -/
namespace Verif.Build
open Verif.Sem

/-- The variables hold what the context says, nothing is lost, and every block allocated is freed or owned, once. -/
structure Inv (Γ : Ctx) (c : Client) : Prop where
  vars : HoldsAll Γ c.vars
  lost : c.lost = []
  acc : ∀ a, c.freed.count a + acL a c.vars = allocs heap a 0 c.next

theorem assign_ok {Γ Γ' : Ctx} {c : Client} {x : Nat} {k : Kind} {v : V} (h : HoldsAll Γ c.vars) (hl : c.lost = []) (hg : Γ.give x k = some Γ') (ho : Own k v)
    (ha : ∀ a, c.freed.count a + acL a c.vars + ac a v = allocs heap a 0 c.next) : ∃ c', assign x v c = some c' ∧ Inv Γ' c' := by
  unfold Ctx.give at hg
  split at hg
  · rename_i hx
    cases hg
    obtain ⟨w, hw, e⟩ := h.get hx
    cases e
    refine ⟨{ c with vars := c.vars.set x v, lost := c.lost ++ V.undef.addrs }, by simp [assign, hw], ?_, ?_, ?_⟩
    · exact h.set (k := some k) ho x
    · simp [hl, V.addrs]
    · intro a
      have := acL_set a c.vars x .undef v hw
      rw [ac_undef] at this
      have := ha a
      simp only
      omega
  · cases hg

theorem getVar {Γ : Ctx} {vs : List V} (h : HoldsAll Γ vs) {x f : Nat} {c : Cls} {nulls : List Nat} {lists : List (Nat × Elt)} (hx : Γ[x]? = some (some (.obj c nulls lists))) :
    ∃ a fs, vs[x]? = some (.obj a c fs) ∧ FreesFs (hows c) fs ∧ (∀ i ∈ nulls, fs[i]? = some .null) ∧
      (∀ p ∈ lists, (hows c)[p.1]? = some (.vec p.2.how) ∧ ∃ b vs, fs[p.1]? = some (.vec b vs)) ∧
      (∀ i ∈ nulls, isScalar c i = false) ∧ (∀ w, fs[f]? = some w → getP vs ⟨x, [.fld f]⟩ = some w ∧ ∀ y, putP vs ⟨x, [.fld f]⟩ y = some (vs.set x (.obj a c (fs.set f y)))) := by
  obtain ⟨v, hv, ho⟩ := h.get hx
  obtain ⟨a, fs, rfl, h1, h2, h3, h4⟩ := ho
  refine ⟨a, fs, hv, h1, h2, h3, h4, fun w hw => ⟨?_, fun y => ?_⟩⟩
  · simp [getP, hv, V.get, hw]
  · simp [putP, hv, V.put, hw]

theorem memberDisp_ok {c : Cls} {f : Nat} {d : Disp} (h : memberDisp c f = some d) : (hows c)[f]? = some d.how := by
  unfold memberDisp at h
  split at h <;> first | (cases h; assumption) | cases h

theorem asList_ok {f : Nat} {k : Kind} {v : V} (h : Own k v) {c : Cls} (hd : memberDisp c f = some k.disp) :
    ∀ p ∈ k.asList f, p.1 = f ∧ (hows c)[p.1]? = some (.vec p.2.how) ∧ ∃ b vs, v = .vec b vs := by
  have hd := memberDisp_ok hd
  cases k with
  | vec e =>
    obtain ⟨a, vs, rfl, _⟩ := h
    intro p hp
    simp only [Kind.asList, List.mem_singleton] at hp
    subst hp
    exact ⟨rfl, hd, a, vs, rfl⟩
  | str => intro p hp; cases hp
  | set => intro p hp; cases hp
  | obj c n l => intro p hp; cases hp

theorem lookup_mem {f : Nat} {e : Elt} : ∀ {l : List (Nat × Elt)}, l.lookup f = some e → (f, e) ∈ l
  | [], h => by cases h
  | (g, d) :: l, h => by
    rw [List.lookup_cons] at h
    split at h
    · rename_i hg
      cases h
      have := beq_iff_eq.1 hg
      subst this
      exact List.mem_cons_self
    · exact List.mem_cons_of_mem _ (lookup_mem h)

theorem vec_ac (a b : Nat) (vs : List V) (v : V) : ac a (.vec b (vs ++ [v])) = ac a (.vec b vs) + ac a v := by
  rw [ac_vec, ac_vec, acL_append, acL_cons, acL_nil]; omega

theorem check_ne {Γ Γ' : Ctx} {y : Ptr} {d : Disp} {x : Nat} {k : Option Kind} (hc : y.check d Γ = some Γ') (hx : Γ[x]? = some k) (hy : ¬ y = .var x) : Γ'[x]? = some k := by
  cases y with
  | nil =>
    simp only [Ptr.check] at hc
    split at hc
    · cases hc; exact hx
    · cases hc
  | var z =>
    simp only [Ptr.check, Ctx.take] at hc
    split at hc
    · split at hc
      · cases hc
        rw [List.getElem?_set, if_neg (fun e => hy (by rw [e]))]
        exact hx
      · cases hc
    · cases hc

theorem check_other {Γ Γ' : Ctx} {y : Ptr} {d : Disp} {x : Nat} {k : Kind} (hc : y.check d Γ = some Γ') (hx : Γ[x]? = some (some k)) (hd : k.disp ≠ d) : Γ'[x]? = some (some k) := by
  refine check_ne hc hx fun e => ?_
  subst e
  simp only [Ptr.check, Ctx.take, hx] at hc
  rw [if_neg (by simpa using hd)] at hc
  cases hc

theorem exec_ok {Γ Γ' : Ctx} {c : Client} (h : Inv Γ c) : ∀ {o : Op}, check o Γ = some Γ' → ∃ c', exec o c = some c' ∧ Inv Γ' c'
  | .strdup x b, hc => by
    refine assign_ok (c := { c with next := c.next + 1 }) h.vars h.lost hc ⟨_, _, rfl⟩ fun a => ?_
    have := h.acc a
    rw [← allocs_trans heap a (Nat.zero_le c.next) (Nat.le_succ _), allocs_one]
    simp only
    rw [show ac a (.str (heap.new c.next) b) = one a (heap.new c.next) from rfl]
    omega
  | .newVec x e, hc => by
    refine assign_ok (c := { c with next := c.next + 1 }) h.vars h.lost hc ⟨_, _, rfl, freesEl_nil⟩ fun a => ?_
    have := h.acc a
    rw [← allocs_trans heap a (Nat.zero_le c.next) (Nat.le_succ _), allocs_one, ac_vec, acL_nil]
    simp only
    omega
  | .newSet x, hc => by
    refine assign_ok (c := { c with next := c.next + 1 }) h.vars h.lost hc ⟨_, _, rfl, rfl⟩ fun a => ?_
    have := h.acc a
    rw [← allocs_trans heap a (Nat.zero_le c.next) (Nat.le_succ _), allocs_one, ac_vec, acL_nil]
    simp only
    omega
  | .insert x n, hc => by
    simp only [check] at hc
    split at hc
    · rename_i hx
      cases hc
      obtain ⟨v, hv, a, vs, rfl, he⟩ := h.vars.get hx
      have hz : addrsL (if hasInt n vs then vs else vs ++ [.int n]) = [] := by
        split
        · exact he
        · rw [addrsL_append, he]; rfl
      refine ⟨{ c with vars := c.vars.set x (.vec a (if hasInt n vs then vs else vs ++ [.int n])) }, by simp only [exec, hv], ?_, h.lost, fun b => ?_⟩
      · exact h.vars.set_same hx ⟨a, _, rfl, hz⟩
      · have h1 := acL_set b c.vars x _ (.vec a (if hasInt n vs then vs else vs ++ [.int n])) hv
        have h2 := h.acc b
        have h3 : acL b (if hasInt n vs then vs else vs ++ [.int n]) = acL b vs := by unfold acL; rw [hz, he]
        rw [ac_vec, ac_vec, h3] at h1
        simp only
        omega
    · cases hc
  | .call x m, hc => by
    simp only [check] at hc
    split at hc
    · rename_i Γ1 h1
      obtain ⟨ws, vs', e1, o1, h1, c1⟩ := args_ok h.vars h1
      obtain ⟨v, st', e2, l2, r2, _, o2⟩ := make_ok m o1 c.st
      simp only [exec, e1, e2]
      refine assign_ok h1 (by simp only; rw [l2]; exact h.lost) hc o2 fun a => ?_
      obtain ⟨hn, ht⟩ := run_ac_ok e2 a
      have e3 : st'.tot a = st'.freed.count a := ?_
      · rw [e3, acL_mkEnv] at ht
        have h4 : c.st.tot a = c.freed.count a := by
          simp [St.tot, Client.st, Res.errAddr, acL_nil, h.lost]
        rw [h4] at ht
        have := c1 a
        have := h.acc a
        rw [← allocs_trans heap a (Nat.zero_le c.next) hn]
        simp only
        have : c.st.nalloc = c.next := rfl
        rw [this] at ht
        omega
      · have hr : st'.res = c.st.res := r2
        simp [St.tot, hr, Client.st, Res.errAddr, acL_nil, l2, h.lost]
    · cases hc
  | .setPtr x f y, hc => by
    simp only [check] at hc
    split at hc
    · rename_i k hy
      split at hc
      · rename_i cl nulls lists hx
        split at hc
        · rename_i hcond
          cases hc
          obtain ⟨hn, hd⟩ := hcond
          have ht : Ctx.take Γ y (fun _ => true) = some (Γ.set y none) := by unfold Ctx.take; rw [hy]; rfl
          obtain ⟨k', v, vs', hk', _, ho, e1, h1, c1, _⟩ := take_ok h.vars ht
          rw [hy] at hk'
          cases hk'
          obtain ⟨a, fs, hv, g1, g2, g3, g0, g4⟩ := getVar (f := f) h1 hx
          have hnull := g2 f (by simpa using hn)
          obtain ⟨g5, g6⟩ := g4 _ hnull
          refine ⟨{ c with vars := vs'.set x (.obj a cl (fs.set f v)), lost := c.lost ++ V.null.addrs }, by simp only [exec, e1, g5, g6], ?_, by simp [h.lost, V.addrs], fun b => ?_⟩
          · refine h1.set (k := some _) ?_ x
            refine ⟨a, _, rfl, frees_set g1 (memberDisp_ok hd) ho.frees, fun i hi => ?_, fun p hp => ?_, fun i hi => g0 i (List.mem_filter.1 hi).1⟩
            · simp only [List.mem_filter, bne_iff_ne, ne_eq] at hi
              rw [List.getElem?_set, if_neg (fun e => hi.2 e.symm)]
              exact g2 i hi.1
            · rcases List.mem_append.1 hp with hp | hp
              · obtain ⟨rfl, q1, b, ws, rfl⟩ := asList_ok ho hd p hp
                refine ⟨q1, b, ws, ?_⟩
                rw [List.getElem?_set, if_pos rfl, if_pos ((List.getElem?_eq_some_iff.1 hnull).1)]
              · obtain ⟨q1, b, ws, q2⟩ := g3 p hp
                refine ⟨q1, b, ws, ?_⟩
                rw [List.getElem?_set, if_neg ?_]
                · exact q2
                · intro e; subst e; rw [hnull] at q2; cases q2
          · have q1 := acL_set b vs' x _ (.obj a cl (fs.set f v)) hv
            have q2 := acL_set b fs f .null v hnull
            have q3 := h.acc b
            have q4 := c1 b
            rw [ac_obj, ac_obj] at q1
            rw [ac_null] at q2
            simp only
            omega
        · cases hc
      · cases hc
    · cases hc
  | .setNum x f n, hc => by
    simp only [check] at hc
    split at hc
    · rename_i cl nulls lists hx
      split at hc
      · rename_i hs
        cases hc
        obtain ⟨a, fs, hv, g1, g2, g3, g0, g4⟩ := getVar (f := f) h.vars hx
        have hk : (hows cl)[f]? = some .keep := by
          unfold isScalar at hs
          split at hs
          · assumption
          · cases hs
        obtain ⟨w, hw, fw⟩ := frees_get g1 hk
        have fw := frees_keep.1 fw
        obtain ⟨g5, g6⟩ := g4 _ hw
        refine ⟨{ c with vars := c.vars.set x (.obj a cl (fs.set f (.int n))), lost := c.lost ++ w.addrs }, by simp only [exec, g5, g6], ?_, by simp [h.lost, fw], fun b => ?_⟩
        · refine h.vars.set_same hx ?_
          refine ⟨a, _, rfl, frees_set g1 hk (frees_keep.2 rfl), fun i hi => ?_, fun p hp => ?_, g0⟩
          · rw [List.getElem?_set, if_neg ?_]
            · exact g2 i hi
            · intro e; subst e
              have := g0 _ hi; rw [hs] at this; cases this
          · obtain ⟨q1, b, ws, q2⟩ := g3 p hp
            refine ⟨q1, b, ws, ?_⟩
            rw [List.getElem?_set, if_neg ?_]
            · exact q2
            · intro e; subst e; rw [hk] at q1; cases q1
        · have q1 := acL_set b c.vars x _ (.obj a cl (fs.set f (.int n))) hv
          have q2 := acL_set b fs f w (.int n) hw
          have q3 := h.acc b
          have q5 : ac b w = 0 := by unfold ac; rw [fw]; rfl
          rw [ac_obj, ac_obj] at q1
          rw [ac_int] at q2
          simp only
          omega
      · cases hc
    · cases hc
  | .push x y, hc => by
    simp only [check] at hc
    split at hc
    · rename_i e hx
      have hx' : Γ'[x]? = some (some (.vec e)) := check_other hc hx (by simp [Kind.disp])
      obtain ⟨v, vs', e1, _, hf, h1, c1⟩ := ptr_ok h.vars hc
      obtain ⟨w, hw, a, ws, rfl, hel⟩ := h1.get hx'
      refine ⟨{ c with vars := vs'.set x (.vec a (ws ++ [v])) }, by simp only [exec, e1, hw], ?_, h.lost, fun b => ?_⟩
      · exact h1.set_same hx' ⟨a, _, rfl, freesEl_snoc hf hel⟩
      · have q1 := acL_set b vs' x _ (.vec a (ws ++ [v])) hw
        have q3 := h.acc b
        have q4 := c1 b
        rw [vec_ac] at q1
        simp only
        omega
    · cases hc
  | .pushIn x f y, hc => by
    simp only [check] at hc
    split at hc
    · rename_i cl nulls lists hx
      split at hc
      · rename_i e hl
        split at hc
        · cases hc
        · rename_i hy
          have hx' : Γ'[x]? = some (some (.obj cl nulls lists)) := check_ne hc hx hy
          obtain ⟨v, vs', e1, _, hf, h1, c1⟩ := ptr_ok h.vars hc
          obtain ⟨a, fs, hv, g1, g2, g3, g0, g4⟩ := getVar (f := f) h1 hx'
          obtain ⟨q1, b, ws, hw⟩ := g3 _ (lookup_mem hl)
          obtain ⟨g5, g6⟩ := g4 _ hw
          obtain ⟨w', hw', fw⟩ := frees_get g1 q1
          simp only at hw
          rw [hw] at hw'
          cases hw'
          refine ⟨{ c with vars := vs'.set x (.obj a cl (fs.set f (.vec b (ws ++ [v])))) }, by simp only [exec, e1, g5, g6], ?_, h.lost, fun b' => ?_⟩
          · refine h1.set_same hx' ⟨a, _, rfl, frees_set g1 q1 (frees_vec.2 (freesEl_snoc hf (frees_vec.1 fw))), fun i hi => ?_, fun p hp => ?_, g0⟩
            · rw [List.getElem?_set, if_neg ?_]
              · exact g2 i hi
              · intro e; subst e; have := g2 _ hi; rw [hw] at this; cases this
            · obtain ⟨q1, b'', ws', q2⟩ := g3 p hp
              refine ⟨q1, ?_⟩
              rw [List.getElem?_set]
              split
              · rw [if_pos (by rename_i e; subst e; exact (List.getElem?_eq_some_iff.1 q2).1)]
                exact ⟨_, _, rfl⟩
              · exact ⟨b'', ws', q2⟩
          · have q1 := acL_set b' vs' x _ (.obj a cl (fs.set f (.vec b (ws ++ [v])))) hv
            have q2 := acL_set b' fs f _ (.vec b (ws ++ [v])) hw
            have q3 := h.acc b'
            have q4 := c1 b'
            rw [ac_obj, ac_obj] at q1
            rw [vec_ac] at q2
            simp only
            omega
      · cases hc
    · cases hc
  | .dispose x d, hc => by
    obtain ⟨k, v, vs', _, hk, ho, e1, h1, c1, _⟩ := take_ok h.vars hc
    have hk := of_decide_eq_true hk
    subst hk
    obtain ⟨f, hf⟩ := ho.frees
    refine ⟨{ c with vars := vs', freed := c.freed ++ f, lost := c.lost ++ [] }, by simp only [exec, e1, hf], h1, by simp [h.lost], fun a => ?_⟩
    have := treat_ac a _ _ _ _ hf
    have := c1 a
    have := h.acc a
    simp only [List.count_append, List.count_nil] at *
    omega

theorem execAll_ok : ∀ {os : List Op} {Γ Γ' : Ctx} {c : Client}, Inv Γ c → checkAll os Γ = some Γ' → ∃ c', execAll os c = some c' ∧ Inv Γ' c'
  | [], Γ, Γ', c, h, hc => by cases hc; exact ⟨c, rfl, h⟩
  | o :: os, Γ, Γ', c, h, hc => by
    rw [checkAll] at hc
    split at hc
    · rename_i Γ1 h1
      obtain ⟨c1, e1, i1⟩ := exec_ok h h1
      obtain ⟨c2, e2, i2⟩ := execAll_ok i1 hc
      exact ⟨c2, by rw [execAll, e1]; exact e2, i2⟩
    · cases hc

theorem fresh_holds : ∀ (n : Nat), HoldsAll (Ctx.fresh n) (List.replicate n .undef)
  | 0 => .nil
  | n + 1 => .cons (k := none) rfl (fresh_holds n)

theorem inv_fresh (n : Nat) : Inv (Ctx.fresh n) (Client.fresh n) := by
  refine ⟨fresh_holds n, rfl, fun a => ?_⟩
  show 0 + acL a (List.replicate n .undef) = _
  rw [acL_undefs]
  exact (allocs_refl heap a 0).symm
end Verif.Build

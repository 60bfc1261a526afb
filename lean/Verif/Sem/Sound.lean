import Verif.Sem.Del
/-! Soundness of the abstract interpreter. Proof-internal. -/
namespace Verif.Sem

/-- A string on which `sscanf` of the INTERVAL actions overflows. -/
def Overflow (b : Bytes) : Prop := durOk b = none ∨ durUnitOk b = none

section
variable {ok : Bytes → Prop} {good : List V → Prop}
local notation "S" => Sat ok good
local notation "SL" => SatL ok good

theorem expE_sound {d : Bool} {p : Path} {ae : AEnv} {env : List V} (h : SL ae env) : ∃ ae' ∈ expE d p ae, SL ae' env := by
  unfold expE
  split
  · rename_i q hq
    obtain ⟨v, hv, hS⟩ := h.get hq
    obtain ⟨q', h1, h2⟩ := expP_sound d p.sels hS
    exact ⟨_, List.mem_map.2 ⟨q', h1, rfl⟩, h.set' hv h2⟩
  · exact ⟨_, List.mem_singleton.2 rfl, h⟩

theorem expAll_sound : ∀ (l : List (Bool × Path)) {ae : AEnv} {env : List V}, SL ae env → ∃ ae' ∈ expAll l ae, SL ae' env
  | [], ae, env, h => ⟨ae, by simp [expAll], h⟩
  | (d, p) :: l, ae, env, h => by
    obtain ⟨ae1, h1, h2⟩ := expE_sound (d := d) (p := p) h
    obtain ⟨ae2, h3, h4⟩ := expAll_sound l h2
    exact ⟨ae2, List.mem_flatMap.2 ⟨ae1, h1, h3⟩, h4⟩

theorem getE_sound {p : Path} {ae : AEnv} {env : List V} {q : P} (h : SL ae env) (hg : getE ae p = some q) : ∃ w, getP env p = some w ∧ S q w := by
  unfold getE at hg
  split at hg
  · rename_i q' hq
    obtain ⟨v, hv, hS⟩ := h.get hq
    obtain ⟨w, h1, h2⟩ := getA_sound p.sels hS hg
    exact ⟨w, by simp only [getP, hv, h1], h2⟩
  · cases hg

theorem putE_sound {g : Bool} (hgd : g = true → ∀ fs, good fs) {p : Path} {ae ae' : AEnv} {env : List V} {x : P} {w : V} (h : SL ae env) (hx : S x w) (hg : putE g ae p x = some ae') :
    ∃ env' old, putP env p w = some env' ∧ getP env p = some old ∧ SL ae' env' ∧ ∀ a, pcL a env' + pc a old = pcL a env + pc a w := by
  unfold putE at hg
  split at hg
  · rename_i q' hq
    split at hg
    · rename_i q'' hq'
      cases hg
      obtain ⟨v, hv, hS⟩ := h.get hq
      obtain ⟨v', old, h1, h2, h3, h4⟩ := putA_sound hgd hx p.sels hS hq'
      refine ⟨env.set p.var v', old, by simp only [putP, hv, h1], by simp only [getP, hv, h2], h.set h3 _, ?_⟩
      intro a
      have := pcL_set a env p.var v v' hv
      have := h4 a
      omega
    · cases hg
  · cases hg

theorem strAt_of {env : List V} {p : Path} {w : V} {a : Nat} {b : Bytes} (h : getP env p = some w) (hw : w = .str a b) : strAt env p = some b := by
  simp [strAt, h, hw]

theorem evalAtom_sound {g : Bool} (hgd : g = true → ∀ fs, good fs) {a : Atom} {ae ae' : AEnv} {env : List V} {q : P} (st : St) (h : SL ae env)
    (he : evalAtomA g a ae = some (q, ae')) :
    ∃ v env', evalAtom a env st = some (v, env') ∧ S q v ∧ SL ae' env' ∧ ∀ b, pc b v + pcL b env' = pcL b env := by
  unfold evalAtomA at he
  split at he
  · cases he; exact ⟨_, _, rfl, .null, h, fun b => by simp [pc, V.pars]⟩
  · cases he; exact ⟨_, _, rfl, .ints (by simp), h, fun b => by simp [pc, V.pars]⟩
  · cases he; exact ⟨_, _, rfl, .undef, h, fun b => by simp [pc, V.pars]⟩
  · cases he
    exact ⟨_, _, rfl, .tup (.cons (.ints (by simp)) (.cons (.ints (by simp)) (.cons (.ints (by simp)) (.cons (.ints (by simp)) .nil)))), h,
      fun b => by simp [pc, V.pars, parsL]⟩
  · cases he; exact ⟨_, _, rfl, .pos _, h, fun b => by simp [pc, V.pars]⟩
  · cases he; exact ⟨_, _, rfl, .pos _, h, fun b => by simp [pc, V.pars]⟩
  · cases he; exact ⟨_, _, rfl, .idx _, h, fun b => by simp [pc, V.pars]⟩
  · split at he
    · rename_i hg
      obtain ⟨w, h1, h2⟩ := getE_sound h hg
      cases h2; cases he
      exact ⟨_, _, by simp only [evalAtom, h1]; rfl, .num _, h, fun b => by simp [pc, V.pars]⟩
    · rename_i hg
      obtain ⟨w, h1, h2⟩ := getE_sound h hg
      cases h2 with
      | ints hm =>
        cases he
        exact ⟨_, _, by simp only [evalAtom, h1], .ints hm, h, fun b => by simp [pc, V.pars]⟩
    · rename_i hg
      obtain ⟨w, h1, h2⟩ := getE_sound h hg
      cases h2; cases he
      exact ⟨_, _, by simp only [evalAtom, h1]; rfl, .raw _, h, fun b => by simp [pc, V.pars]⟩
    · cases he
  · split at he
    · rename_i q' hg
      split at he
      · rename_i hd hp
        cases he
        obtain ⟨w, h1, h2⟩ := getE_sound h hg
        obtain ⟨env', old, h3, h4, h5, h6⟩ := putE_sound hgd h (.undef) hp
        rw [h1] at h4; cases h4
        refine ⟨w, env', by simp only [evalAtom, h1, defd_sound h2 hd, h3]; rfl, h2, h5, ?_⟩
        intro b
        have := h6 b
        simp only [pc, V.pars, List.count_nil] at *
        omega
      · cases he
    · cases he
  · split at he
    · rename_i k hg
      obtain ⟨w, h1, h2⟩ := getE_sound h hg
      cases he
      cases h2 with
      | @strQ a b q hok hq =>
        have hs : (scanD none b).isSome := by
          cases k with
          | dur => exact hq
          | unit => exact hq.1
        obtain ⟨⟨n, r⟩, hr⟩ := Option.isSome_iff_exists.1 hs
        exact ⟨.int n, env, by simp only [evalAtom, strAt, h1, hr], .num _, h, fun b => by simp [pc, V.pars]⟩
    · cases he
  · split at he
    · rename_i hg
      obtain ⟨w, h1, h2⟩ := getE_sound h hg
      cases he
      cases h2 with
      | @strQ a b q hok hq =>
        obtain ⟨⟨n, r⟩, hr⟩ := Option.isSome_iff_exists.1 hq.2
        exact ⟨.raw n, env, by simp only [evalAtom, strAt, h1, hr], .raw _, h, fun b => by simp [pc, V.pars]⟩
    · cases he

theorem evalAtoms_sound {g : Bool} (hgd : g = true → ∀ fs, good fs) : ∀ (as : List Atom) {ae ae' : AEnv} {env : List V} {qs : List P} (st : St), SL ae env →
    evalAtomsA g as ae = some (qs, ae') →
    ∃ vs env', evalAtoms as env st = some (vs, env') ∧ SL qs vs ∧ SL ae' env' ∧ ∀ b, pcL b vs + pcL b env' = pcL b env
  | [], ae, ae', env, qs, st, h, he => by
    cases he
    exact ⟨[], env, rfl, .nil, h, fun b => by simp [pcL, parsL]⟩
  | a :: as, ae, ae', env, qs, st, h, he => by
    simp only [evalAtomsA] at he
    split at he
    · rename_i q ae1 h1
      split at he
      · rename_i qs' ae2 h2
        cases he
        obtain ⟨v, env1, e1, s1, l1, c1⟩ := evalAtom_sound hgd st h h1
        obtain ⟨vs, env2, e2, s2, l2, c2⟩ := evalAtoms_sound hgd as st l1 h2
        refine ⟨v :: vs, env2, by simp only [evalAtoms, e1, e2], .cons s1 s2, l2, ?_⟩
        intro b
        have := c1 b
        have := c2 b
        rw [pcL_cons]; omega
      · cases he
    · cases he

/-- What an allocation may change in the state. -/
theorem evalRv_sound (A : Alloc) {g : Bool} (hgd : g = true → ∀ fs, good fs) {e : Rv} {ae ae' : AEnv} {env : List V} {q : P} (st : St) (h : SL ae env)
    (he : evalRvA g e ae = some (q, ae')) :
    ∃ v env' n, evalRv A e env st = some (v, env', { st with nalloc := n }) ∧ S q v ∧ SL ae' env' ∧ ∀ b, pc b v + pcL b env' = pcL b env := by
  unfold evalRvA at he
  split at he
  · obtain ⟨v, env', h1, h2, h3, h4⟩ := evalAtom_sound hgd st h he
    exact ⟨v, env', st.nalloc, by simp only [evalRv, h1], h2, h3, h4⟩
  · rename_i c fs
    split at he
    · rename_i qs ae1 h1
      split at he
      · rename_i hn
        rw [Bool.and_eq_true] at hn
        cases he
        obtain ⟨vs, env', e1, s1, l1, c1⟩ := evalAtoms_sound hgd fs st h h1
        refine ⟨.obj _ c vs, env', _, by simp only [evalRv, e1]; rfl, .obj _ s1 ?_, l1, ?_⟩
        · intro hc; subst hc
          exact hgd hn.2 _
        · intro b
          have := c1 b
          rw [pc_obj, notParam_sound hn.1 s1]
          simpa using this
      · cases he
    · cases he
  · rename_i fs
    split at he
    · rename_i qs ae1 h1
      cases he
      obtain ⟨vs, env', e1, s1, l1, c1⟩ := evalAtoms_sound hgd fs st h h1
      refine ⟨.vec _ vs, env', _, by simp only [evalRv, e1]; rfl, ?_, l1, ?_⟩
      · exact .vec (pre := []) _ (by simp) (by simp) s1
      · intro b
        have := c1 b
        simpa [pc, V.pars] using this
    · cases he
  · rename_i fs
    split at he
    · rename_i qs ae1 h1
      cases he
      obtain ⟨vs, env', e1, s1, l1, c1⟩ := evalAtoms_sound hgd fs st h h1
      refine ⟨.tup vs, env', st.nalloc, by simp only [evalRv, e1], .tup s1, l1, ?_⟩
      intro b
      have := c1 b
      simpa [pc, V.pars] using this
    · cases he

theorem dropLast_last {α : Type} (l : List α) (x : α) (h : l.getLast? = some x) : l.dropLast ++ [x] = l := by
  cases l with
  | nil => simp at h
  | cons a l =>
    have := List.dropLast_concat_getLast (l := a :: l) (by simp)
    rw [List.getLast?_eq_some_getLast (by simp)] at h
    injection h with h
    rw [← h]; exact this

theorem mem2 (b : Bool) (ae : AEnv) : (b, ae) ∈ [(true, ae), (false, ae)] := by cases b <;> simp

theorem putP_self : ∀ (ss : List Sel) (v w v' : V), v.get ss = some w → v.put ss w = some v' → v' = v
  | [], v, w, v', h, h' => by
    rw [V.get] at h; rw [V.put] at h'
    cases h; cases h'; rfl
  | s :: ss, v, w, v', h, h' => by
    unfold V.get at h
    split at h
    · contradiction
    · rename_i a c fs i ss' heq
      injection heq with h1 h2
      subst h1 h2
      split at h
      · rename_i x hx
        simp only [V.put, hx] at h'
        split at h'
        · rename_i x' hx'
          cases h'
          have := putP_self ss x w x' h hx'
          subst this
          rw [set_self _ _ _ hx]
        · cases h'
      · cases h
    · rename_i fs i ss' heq
      injection heq with h1 h2
      subst h1 h2
      split at h
      · rename_i x hx
        simp only [V.put, hx] at h'
        split at h'
        · rename_i x' hx'
          cases h'
          have := putP_self ss x w x' h hx'
          subst this
          rw [set_self _ _ _ hx]
        · cases h'
      · cases h
    · rename_i a vs ss' heq
      injection heq with h1 h2
      subst h1 h2
      split at h
      · rename_i x hx
        simp only [V.put, hx] at h'
        split at h'
        · rename_i x' hx'
          cases h'
          have := putP_self ss x w x' h hx'
          subst this
          rw [dropLast_last _ _ hx]
        · cases h'
      · cases h
    · cases h

/-- Knowing more about the value at a path. -/
theorem refine_sound {g : Bool} (hgd : g = true → ∀ fs, good fs) {p : Path} {ae ae' : AEnv} {env : List V} {x : P} {w : V} (h : SL ae env) (hw : getP env p = some w) (hx : S x w)
    (hg : putE g ae p x = some ae') : SL ae' env := by
  obtain ⟨env', old, h1, h2, h3, _⟩ := putE_sound hgd h hx hg
  have : env' = env := by
    unfold putP at h1
    unfold getP at hw
    split at h1
    · rename_i v hv
      rw [hv] at hw
      simp only at hw
      split at h1
      · rename_i v' hv'
        cases h1
        rw [putP_self _ _ _ _ hw hv', set_self _ _ _ hv]
      · cases h1
    · cases h1
  rw [← this]; exact h3

theorem evalCond_sound {g : Bool} (hgd : g = true → ∀ fs, good fs) {c : Cond} {ae : AEnv} {env : List V} {l : List (Bool × AEnv)} (st : St) (h : SL ae env)
    (he : evalCondA g c ae = some l) :
    (∃ b ae', evalCond c env st = some b ∧ (b, ae') ∈ l ∧ SL ae' env) ∨ (evalCond c env st = none ∧ ∃ b, ok b ∧ Overflow b) := by
  unfold evalCondA at he
  split at he
  · rename_i p
    left
    split at he <;> try (cases he; done)
    all_goals
      rename_i hg
      obtain ⟨w, h1, h2⟩ := getE_sound h hg
      cases he
      cases h2
      exact ⟨_, _, by simp only [evalCond, h1]; rfl, by simp, h⟩
  · rename_i p n
    left
    split at he
    · rename_i hg
      obtain ⟨w, h1, h2⟩ := getE_sound h hg
      cases he
      cases h2 with
      | num m =>
        refine ⟨decide (m = n), ae, by simp only [evalCond, h1], ?_, h⟩
        cases decide (m = n) <;> simp
    · rename_i l' hg
      obtain ⟨w, h1, h2⟩ := getE_sound h hg
      cases h2 with
      | @ints _ m hm =>
        split at he
        · rename_i hall
          cases he
          have := List.all_eq_true.1 hall m hm
          exact ⟨true, ae, by simp only [evalCond, h1, this], by simp, h⟩
        · split at he
          · rename_i hany
            cases he
            have : decide (m = n) = false := by
              have := List.any_eq_false.1 hany m hm
              simpa using this
            exact ⟨false, ae, by simp only [evalCond, h1, this], by simp, h⟩
          · split at he
            · rename_i e1 e2 hp1 hp2
              cases he
              cases hd : decide (m = n) with
              | true =>
                refine ⟨true, e1, by simp only [evalCond, h1, hd], by simp, refine_sound hgd h h1 (.ints ?_) hp1⟩
                rw [decide_eq_true_eq] at hd
                simp [hd]
              | false =>
                refine ⟨false, e2, by simp only [evalCond, h1, hd], by simp, refine_sound hgd h h1 (.ints ?_) hp2⟩
                rw [List.mem_filter]
                exact ⟨hm, by rw [hd]; rfl⟩
            · cases he
    · cases he
  · rename_i p s
    left
    split at he <;> try (cases he; done)
    all_goals
      rename_i hg
      obtain ⟨w, h1, h2⟩ := getE_sound h hg
      cases he
      cases h2
      exact ⟨_, ae, by simp only [evalCond, strAt, h1, Option.map_some]; rfl, mem2 _ _, h⟩
  · rename_i p n
    left
    split at he
    · rename_i hg
      obtain ⟨w, h1, h2⟩ := getE_sound h hg
      cases he
      cases h2
      exact ⟨_, ae, by simp only [evalCond, h1]; rfl, mem2 _ _, h⟩
    · cases he
  · left
    cases he
    refine ⟨st.res.errMsg.isSome, ae, rfl, ?_, h⟩
    cases st.res.errMsg.isSome <;> simp
  · rename_i p
    left
    split at he
    · rename_i hg
      obtain ⟨w, h1, h2⟩ := getE_sound h hg
      cases he
      cases h2
      exact ⟨_, ae, by simp only [evalCond, strAt, h1, Option.map_some]; rfl, mem2 _ _, h⟩
    · cases he
  · rename_i p
    split at he
    · rename_i hg
      obtain ⟨w, h1, h2⟩ := getE_sound h hg
      cases h2 with
      | @str a b hok =>
        have e : evalCond (.durOk p) env st = durOk b := by simp only [evalCond, strAt, h1]
        cases hd : durOk b with
        | none => exact .inr ⟨by rw [e, hd], b, hok, .inl hd⟩
        | some x =>
          left
          split at he
          · rename_i e1 hp
            cases he
            cases x with
            | false => exact ⟨false, ae, by rw [e, hd], by simp, h⟩
            | true =>
              refine ⟨true, e1, by rw [e, hd], by simp, refine_sound hgd h h1 (.strQ a hok ?_) hp⟩
              unfold durOk at hd
              split at hd
              · rename_i hs; simp [SQ.holds, hs]
              · cases hd
          · cases he
    · cases he
  · rename_i p
    split at he
    · rename_i hg
      obtain ⟨w, h1, h2⟩ := getE_sound h hg
      cases h2 with
      | @str a b hok =>
        have e : evalCond (.durUnitOk p) env st = durUnitOk b := by simp only [evalCond, strAt, h1]
        cases hd : durUnitOk b with
        | none => exact .inr ⟨by rw [e, hd], b, hok, .inr hd⟩
        | some x =>
          left
          split at he
          · rename_i e1 hp
            cases he
            cases x with
            | false => exact ⟨false, ae, by rw [e, hd], by simp, h⟩
            | true =>
              refine ⟨true, e1, by rw [e, hd], by simp, refine_sound hgd h h1 (.strQ a hok ?_) hp⟩
              unfold durUnitOk at hd
              split at hd
              · rename_i hs
                split at hd
                · split at hd
                  · rename_i hu; simp [SQ.holds, hs, hu]
                  · cases hd
                · cases hd
              · cases hd
          · cases he
    · cases he

end
end Verif.Sem

import Verif.Sem.Sound
/-! Soundness of the check of a semantic action. Proof-internal. -/
namespace Verif.Sem

/-- The state after an action. -/
def Out.st? : Out → Option St
  | .ok _ st => some st
  | .error st => some st
  | .ub => none

/-- What every action (other than those of `input` and `param_expr`) leaves alone. -/
structure Frame (st st' : St) : Prop where
  ntok : st'.ntok = st.ntok
  nalloc : st.nalloc ≤ st'.nalloc
  plist : st'.plist = st.plist
  stmts : st'.res.stmts = st.res.stmts
  params : st'.res.params = st.res.params
  err : st'.res.errMsg = none → st.res.errMsg = none ∧ st'.res = st.res
  loc : st'.yylloc.loc = st.yylloc.loc
  total : st'.yylloc.total = st.yylloc.total
  len : st'.yylloc.len = st.yylloc.len ∨ st'.yylloc.len = 0

theorem Frame.refl (st : St) : Frame st st := ⟨rfl, Nat.le_refl _, rfl, rfl, rfl, fun h => ⟨h, rfl⟩, rfl, rfl, .inl rfl⟩

theorem Frame.trans {a b c : St} (h : Frame a b) (h' : Frame b c) : Frame a c where
  ntok := h'.ntok.trans h.ntok
  nalloc := Nat.le_trans h.nalloc h'.nalloc
  plist := h'.plist.trans h.plist
  stmts := h'.stmts.trans h.stmts
  params := h'.params.trans h.params
  err := fun e => by
    obtain ⟨h1, h2⟩ := h'.err e
    obtain ⟨h3, h4⟩ := h.err h1
    exact ⟨h3, h2.trans h4⟩
  loc := h'.loc.trans h.loc
  total := h'.total.trans h.total
  len := by
    rcases h'.len with e | e
    · rw [e]; exact h.len
    · exact .inr e

theorem Frame.log (st : St) (f l : List Nat) : Frame st (st.log f l) := ⟨rfl, Nat.le_refl _, rfl, rfl, rfl, fun h => ⟨h, rfl⟩, rfl, rfl, .inl rfl⟩
theorem Frame.bump (st : St) : Frame st st.bump := ⟨rfl, Nat.le_succ _, rfl, rfl, rfl, fun h => ⟨h, rfl⟩, rfl, rfl, .inl rfl⟩
theorem Frame.yyerror (A : Alloc) (st : St) (m : Bytes) (l c : Int) : Frame st (st.yyerror A m l c) :=
  ⟨rfl, Nat.le_succ _, rfl, rfl, rfl, fun h => by simp [St.yyerror] at h, rfl, rfl, .inl rfl⟩
theorem Frame.zero (st : St) : Frame st { st with yylloc := { st.yylloc with len := 0 } } :=
  ⟨rfl, Nat.le_refl _, rfl, rfl, rfl, fun h => ⟨h, rfl⟩, rfl, rfl, .inr rfl⟩

/-- No access to the parameter list, not `input`. -/
def plain : Prog → Bool
  | .ret => true
  | .fail => true
  | .finish => false
  | .set _ _ k => plain k
  | .push _ _ k => plain k
  | .insert _ _ k => plain k
  | .del _ k => plain k
  | .free _ k => plain k
  | .ite _ t e => plain t && plain e
  | .err _ k => plain k
  | .errName _ _ k => plain k
  | .zeroLen k => plain k
  | .regParam _ _ => false
  | .split _ _ k => plain k

theorem evalRv_frame {A : Alloc} {e : Rv} {env env' : List V} {st st' : St} {v : V} (h : evalRv A e env st = some (v, env', st')) : Frame st st' := by
  unfold evalRv at h
  split at h <;> split at h <;> cases h
  · exact .refl _
  · exact .bump _
  · exact .bump _
  · exact .refl _

theorem run_frame (A : Alloc) (loc : Loc) : ∀ (k : Prog) (env : List V) (st st' : St), plain k = true → (run A loc k env st).st? = some st' → Frame st st'
  | .ret, env, st, st', _, h => by
    unfold run at h
    split at h
    · cases h
    · cases h; exact .log _ _ _
  | .fail, env, st, st', _, h => by
    cases h; exact .log _ _ _
  | .finish, env, st, st', hp, h => by cases hp
  | .regParam _ _, env, st, st', hp, h => by cases hp
  | .set p e k, env, st, st', hp, h => by
    unfold run at h
    split at h
    · rename_i hev
      split at h
      · split at h
        · exact (evalRv_frame hev).trans ((Frame.log _ _ _).trans (run_frame A loc k _ _ st' hp h))
        · cases h
      · cases h
    · cases h
  | .push p e k, env, st, st', hp, h => by
    unfold run at h
    split at h
    · split at h
      · split at h
        · exact run_frame A loc k _ _ st' hp h
        · cases h
      · cases h
    · cases h
  | .insert p e k, env, st, st', hp, h => by
    unfold run at h
    split at h
    · split at h
      · split at h
        · exact run_frame A loc k _ _ st' hp h
        · cases h
      · cases h
    · cases h
  | .del p k, env, st, st', hp, h => by
    unfold run at h
    split at h
    · split at h
      · split at h
        · exact (Frame.log _ _ _).trans (run_frame A loc k _ _ st' hp h)
        · cases h
      · cases h
    · cases h
  | .free p k, env, st, st', hp, h => by
    unfold run at h
    split at h
    · split at h
      · split at h
        · exact (Frame.log _ _ _).trans (run_frame A loc k _ _ st' hp h)
        · cases h
      · cases h
    · cases h
  | .ite c t e, env, st, st', hp, h => by
    simp only [plain, Bool.and_eq_true] at hp
    unfold run at h
    split at h
    · exact run_frame A loc t _ _ st' hp.1 h
    · exact run_frame A loc e _ _ st' hp.2 h
    · cases h
  | .err m k, env, st, st', hp, h => by
    unfold run at h
    exact (Frame.yyerror _ _ _ _ _).trans (run_frame A loc k _ _ st' hp h)
  | .errName m p k, env, st, st', hp, h => by
    unfold run at h
    split at h
    · exact (Frame.yyerror _ _ _ _ _).trans (run_frame A loc k _ _ st' hp h)
    · cases h
  | .zeroLen k, env, st, st', hp, h => by
    unfold run at h
    exact (Frame.zero _).trans (run_frame A loc k _ _ st' hp h)
  | .split p q k, env, st, st', hp, h => by
    unfold run at h
    split at h
    · split at h
      · simp only [] at h
        split at h
        · split at h
          · split at h
            · exact (Frame.bump _).trans ((Frame.bump _).trans ((Frame.log _ _ _).trans (run_frame A loc k _ _ st' hp h)))
            · cases h
          · cases h
        · cases h
      · cases h
    · cases h

theorem neverRet_sound (A : Alloc) (loc : Loc) : ∀ (k : Prog) (env : List V) (st : St) (v : V) (st' : St), neverRet k = true → run A loc k env st ≠ .ok v st'
  | .ret, _, _, _, _, hn, _ => by cases hn
  | .fail, env, st, v, st', _, h => by cases h
  | .finish, _, _, _, _, hn, _ => by cases hn
  | .regParam _ k, env, st, v, st', hn, h => by
    unfold run at h
    split at h
    · split at h
      · exact neverRet_sound A loc k _ _ _ _ hn h
      · cases h
    · cases h
  | .set p e k, env, st, v, st', hn, h => by
    unfold run at h
    split at h
    · split at h
      · split at h
        · exact neverRet_sound A loc k _ _ _ _ hn h
        · cases h
      · cases h
    · cases h
  | .push p e k, env, st, v, st', hn, h => by
    unfold run at h
    split at h
    · split at h
      · split at h
        · exact neverRet_sound A loc k _ _ _ _ hn h
        · cases h
      · cases h
    · cases h
  | .insert p e k, env, st, v, st', hn, h => by
    unfold run at h
    split at h
    · split at h
      · split at h
        · exact neverRet_sound A loc k _ _ _ _ hn h
        · cases h
      · cases h
    · cases h
  | .del p k, env, st, v, st', hn, h => by
    unfold run at h
    split at h
    · split at h
      · split at h
        · exact neverRet_sound A loc k _ _ _ _ hn h
        · cases h
      · cases h
    · cases h
  | .free p k, env, st, v, st', hn, h => by
    unfold run at h
    split at h
    · split at h
      · split at h
        · exact neverRet_sound A loc k _ _ _ _ hn h
        · cases h
      · cases h
    · cases h
  | .ite c t e, env, st, v, st', hn, h => by
    simp only [neverRet, Bool.and_eq_true] at hn
    unfold run at h
    split at h
    · exact neverRet_sound A loc t _ _ _ _ hn.1 h
    · exact neverRet_sound A loc e _ _ _ _ hn.2 h
    · cases h
  | .err m k, env, st, v, st', hn, h => by
    unfold run at h
    exact neverRet_sound A loc k _ _ _ _ hn h
  | .errName m p k, env, st, v, st', hn, h => by
    unfold run at h
    split at h
    · exact neverRet_sound A loc k _ _ _ _ hn h
    · cases h
  | .zeroLen k, env, st, v, st', hn, h => by
    unfold run at h
    exact neverRet_sound A loc k _ _ _ _ hn h
  | .split p q k, env, st, v, st', hn, h => by
    unfold run at h
    split at h
    · split at h
      · simp only [] at h
        split at h
        · split at h
          · split at h
            · exact neverRet_sound A loc k _ _ _ _ hn h
            · cases h
          · cases h
        · cases h
      · cases h
    · cases h

section
variable {ok : Bytes → Prop} {good : List V → Prop}
local notation "S" => Sat ok good
local notation "SL" => SatL ok good

/-- At most one error is reported by the program, and none before. -/
def ErrOnce (k : Prog) (st : St) : Prop := noErr k = true ∨ (oneErr k = true ∧ st.res.errMsg = none)

/-- What `chk` guarantees. -/
def Post (ok : Bytes → Prop) (good : List V → Prop) (ty : P) (lk lf : Bool) (E : Prop) (env : List V) (st : St) : Out → Prop
  | .ok v st' => Sat ok good ty v ∧ (∀ a, pc a v = pcL a env) ∧ (lk = false → st'.res.errMsg = none → st'.leaked = st.leaked)
  | .error st' => lf = false → E → st'.leaked = st.leaked
  | .ub => ∃ b, ok b ∧ Overflow b

theorem Post.mono {ty : P} {lk lf : Bool} {E E' : Prop} {env env' : List V} {st st1 : St} {o : Out} (h : Post ok good ty lk lf E' env' st1 o)
    (he : ∀ v st', o = .ok v st' → ∀ a, pcL a env' = pcL a env) (hl : ∀ v st', o = .ok v st' → st'.res.errMsg = none → st1.leaked = st.leaked)
    (hx : E → E' ∧ st1.leaked = st.leaked) : Post ok good ty lk lf E env st o := by
  cases o with
  | ok v st' =>
    refine ⟨h.1, fun a => (h.2.1 a).trans (he _ _ rfl a), fun h1 h2 => (h.2.2 h1 h2).trans (hl _ _ rfl h2)⟩
  | error => exact fun h1 h2 => (h h1 (hx h2).1).trans (hx h2).2
  | ub => exact h

theorem ErrOnce.ite {c : Cond} {t e : Prog} {st : St} (h : ErrOnce (.ite c t e) st) : ErrOnce t st ∧ ErrOnce e st := by
  rcases h with h | ⟨h, h0⟩
  · simp only [noErr, Bool.and_eq_true] at h
    exact ⟨.inl h.1, .inl h.2⟩
  · simp only [oneErr, Bool.and_eq_true] at h
    exact ⟨.inr ⟨h.1, h0⟩, .inr ⟨h.2, h0⟩⟩

theorem pc_zero {v : V} (h : v.pars = []) (a : Nat × Int) : pc a v = 0 := by simp [pc, h]

theorem chk_sound (A : Alloc) (loc : Loc) {ty : P} {lk lf g : Bool} (hgd : g = true → ∀ fs, good fs) : ∀ (k : Prog) {ae : AEnv} {env : List V} (st : St), chk ty lk lf g k ae = true → plain k = true → SL ae env →
    Post ok good ty lk lf (ErrOnce k st) env st (run A loc k env st)
  | .ret, ae, env, st, h, hp, hL => by
    unfold chk at h
    split at h
    · cases h
    · rename_i q rest
      simp only [Bool.and_eq_true] at h
      obtain ⟨⟨h1, h2⟩, h3⟩ := h
      cases hL with
      | @cons _ v _ vs hq hr =>
        refine ⟨sub_sound 16 h1 hq, fun a => ?_, fun hl _ => ?_⟩
        · rw [pcL_cons, pcL, pfAll_ok h3 hr]; simp
        · have : addrsL vs = [] := noAddrAll_sound hr (by simpa [hl] using h2)
          simp [St.log, this]
  | .fail, ae, env, st, h, hp, hL => by
    unfold chk at h
    intro hl _
    have : addrsL env = [] := noAddrAll_sound hL (by simpa [hl] using h)
    simp [St.log, this]
  | .finish, ae, env, st, h, hp, hL => by cases hp
  | .regParam _ _, ae, env, st, h, hp, hL => by cases hp
  | .set p e k, ae, env, st, h, hp, hL => by
    unfold chk at h
    obtain ⟨ae1, hm, hL1⟩ := expAll_sound (rvPaths e ++ [(false, p)]) hL
    have h := List.all_eq_true.1 h _ hm
    split at h
    · rename_i q ae2 he
      split at h
      · rename_i old ae3 hg hput
        rw [Bool.and_eq_true] at h
        obtain ⟨v, env', n, e1, s1, l1, c1⟩ := evalRv_sound A hgd st hL1 he
        obtain ⟨env'', old', e2, e3, l2, c2⟩ := putE_sound hgd l1 s1 hput
        obtain ⟨w, e4, s4⟩ := getE_sound l1 hg
        rw [e3] at e4; cases e4
        have hno := noAddr_sound s4 h.1
        simp only [run, e1, e3, e2]
        refine Post.mono (chk_sound A loc hgd k (St.log { st with nalloc := n } [] old'.addrs) h.2 hp l2) ?_ ?_ (fun h => ⟨h, by simp [St.log, hno]⟩)
        · intro _ _ _ a
          have := c1 a
          have := c2 a
          have := pc_zero (pars_sub _ hno) a
          omega
        · intro _ _ _ _; simp [St.log, hno]
      · cases h
    · cases h
  | .push p e k, ae, env, st, h, hp, hL => by
    unfold chk at h
    obtain ⟨ae1, hm, hL1⟩ := expAll_sound (atomPaths e ++ [(true, p)]) hL
    have h := List.all_eq_true.1 h _ hm
    split at h
    · rename_i q ae2 he
      split at h
      · rename_i el ne suf hg
        split at h
        · rename_i ae3 hput
          obtain ⟨v, env', e1, s1, l1, c1⟩ := evalAtom_sound hgd st hL1 he
          obtain ⟨w, e4, s4⟩ := getE_sound l1 hg
          cases s4 with
          | @vec a _ _ _ pre post g1 g2 gL =>
            have hv : S (.vec el ne (suf ++ [q])) (.vec a ((pre ++ post) ++ [v])) := by
              rw [List.append_assoc]
              exact .vec a g1 g2 (gL.append (.cons s1 .nil))
            obtain ⟨env'', old', e2, e3, l2, c2⟩ := putE_sound hgd l1 hv hput
            rw [e3] at e4; cases e4
            simp only [run, e1, e3, e2]
            refine Post.mono (chk_sound A loc hgd k st h hp l2) ?_ ?_ (fun h => ⟨h, rfl⟩)
            · intro _ _ _ b
              have := c1 b
              have := c2 b
              have e : pc b (.vec a ((pre ++ post) ++ [v])) = pc b (.vec a (pre ++ post)) + pc b v := by
                simp [pc, V.pars, parsL_append, parsL, Nat.add_assoc]
              omega
            · intro _ _ _ _; rfl
        · cases h
      · cases h
    · cases h
  | .insert p e k, ae, env, st, h, hp, hL => by
    unfold chk at h
    obtain ⟨ae1, hm, hL1⟩ := expAll_sound (atomPaths e ++ [(true, p)]) hL
    have h := List.all_eq_true.1 h _ hm
    split at h
    · rename_i l ae2 he
      split at h
      · rename_i el ne hg
        split at h
        · rename_i ae3 hput
          rw [Bool.and_eq_true] at h
          obtain ⟨v, env', e1, s1, l1, c1⟩ := evalAtom_sound hgd st hL1 he
          obtain ⟨w, e4, s4⟩ := getE_sound l1 hg
          cases s1 with
          | @ints _ n hn =>
          cases s4 with
          | @vec a _ _ _ pre post g1 g2 gL =>
            cases gL
            rw [List.append_nil] at e4
            have hv : ∀ vs', (vs' = pre ∨ vs' = pre ++ [.int n]) → S (insP l el ne) (.vec a vs') := by
              intro vs' hvs
              have hmem : ∀ el', (∀ v ∈ pre, S el' v) → S el' (.int n) → ∀ v ∈ vs', S el' v := by
                intro el' h1 h2 v hv
                rcases hvs with rfl | rfl
                · exact h1 v hv
                · rcases List.mem_append.1 hv with hv | hv
                  · exact h1 v hv
                  · simp at hv; subst hv; exact h2
              have e0 : V.vec a vs' = .vec a (vs' ++ []) := by simp
              rw [e0]
              have h1 := h.1
              clear h e0
              unfold insP
              unfold insOk at h1
              split
              · refine .vec a (hmem _ ?_ (.ints hn)) (by simp) .nil
                intro v hv
                cases g1 v hv
              · rename_i hne
                refine .vec a (hmem _ g1 ?_) ?_ .nil
                · split at h1
                  · exact (hne rfl).elim
                  · exact sub_sound 16 h1 (.ints hn)
                · intro h0
                  have := g2 h0
                  rcases hvs with rfl | rfl
                  · exact this
                  · simp
            obtain ⟨env'', old', e2, e3, l2, c2⟩ := putE_sound hgd l1 (hv (if hasInt n pre then pre else pre ++ [.int n]) (by split <;> simp)) hput
            rw [e3] at e4; cases e4
            simp only [run, e1, e3, e2]
            refine Post.mono (chk_sound A loc hgd k st h.2 hp l2) ?_ ?_ (fun h => ⟨h, rfl⟩)
            · intro _ _ _ b
              have := c1 b
              have := c2 b
              have e : pc b (.vec a (if hasInt n pre then pre else pre ++ [.int n])) = pc b (.vec a pre) := by
                split <;> simp [pc, V.pars, parsL_append, parsL]
              have e' : pc b (.int n) = 0 := rfl
              omega
            · intro _ _ _ _; rfl
        · cases h
      · cases h
    · cases h
  | .del p k, ae, env, st, h, hp, hL => by
    unfold chk at h
    obtain ⟨ae1, hm, hL1⟩ := expAll_sound [(false, p)] hL
    have h := List.all_eq_true.1 h _ hm
    split at h
    · rename_i q ae2 hg hput
      simp only [Bool.and_eq_true] at h
      obtain ⟨⟨h1, h2⟩, h3⟩ := h
      obtain ⟨w, e4, s4⟩ := getE_sound hL1 hg
      obtain ⟨env'', old', e2, e3, l2, c2⟩ := putE_sound hgd hL1 .undef hput
      rw [e3] at e4; cases e4
      obtain ⟨f, l, h5, h6⟩ := trA_ok h1 s4
      simp only [run, e3, h5, e2]
      refine Post.mono (chk_sound A loc hgd k _ h3 hp l2) ?_ ?_ (fun h => ⟨h, by simp [St.log, h6]⟩)
      · intro v st' ho a
        have := c2 a
        rw [Bool.or_eq_true] at h2
        rcases h2 with h2 | h2
        · exact absurd ho (neverRet_sound A loc k _ _ _ _ h2)
        · have := pc_zero (pf_ok h2 s4) a
          have e' : pc a .undef = 0 := rfl
          omega
      · intro _ _ _ _; simp [St.log, h6]
    · cases h
  | .free p k, ae, env, st, h, hp, hL => by
    unfold chk at h
    obtain ⟨ae1, hm, hL1⟩ := expAll_sound [(true, p)] hL
    have h := List.all_eq_true.1 h _ hm
    split at h
    · rename_i q ae2 hg hput
      simp only [Bool.and_eq_true] at h
      obtain ⟨h1, h3⟩ := h
      obtain ⟨w, e4, s4⟩ := getE_sound hL1 hg
      obtain ⟨env'', old', e2, e3, l2, c2⟩ := putE_sound hgd hL1 .undef hput
      rw [e3] at e4; cases e4
      obtain ⟨f, l, h5, h6⟩ := trA_ok h1 s4
      simp only [run, e3, h5, e2]
      refine Post.mono (chk_sound A loc hgd k _ h3 hp l2) ?_ ?_ (fun h => ⟨h, by simp [St.log, h6]⟩)
      · intro v st' ho a
        have := c2 a
        have e' : pc a .undef = 0 := rfl
        have e'' : pc a w = 0 := by
          clear c2 s4 e3
          cases w <;> first | rfl | (simp [treat] at h5)
        omega
      · intro _ _ _ _; simp [St.log, h6]
    · cases h
  | .ite c t e, ae, env, st, h, hp, hL => by
    simp only [plain, Bool.and_eq_true] at hp
    unfold chk at h
    obtain ⟨ae1, hm, hL1⟩ := expAll_sound (condPaths c) hL
    have h := List.all_eq_true.1 h _ hm
    split at h
    · rename_i l he
      rcases evalCond_sound hgd st hL1 he with ⟨b, ae', e1, m1, l1⟩ | ⟨e1, hov⟩
      · have h := List.all_eq_true.1 h _ m1
        cases b with
        | true =>
          simp only [run, e1]
          exact Post.mono (chk_sound A loc hgd t st h hp.1 l1) (fun _ _ _ _ => rfl) (fun _ _ _ _ => rfl) (fun h => ⟨h.ite.1, rfl⟩)
        | false =>
          simp only [run, e1]
          exact Post.mono (chk_sound A loc hgd e st h hp.2 l1) (fun _ _ _ _ => rfl) (fun _ _ _ _ => rfl) (fun h => ⟨h.ite.2, rfl⟩)
      · simp only [run, e1]
        exact hov
    · cases h
  | .err m k, ae, env, st, h, hp, hL => by
    unfold chk at h
    unfold run
    refine Post.mono (chk_sound A loc hgd k _ h hp hL) (fun _ _ _ _ => rfl) ?_ (fun h => ?_)
    · intro v st' ho hn
      have := (run_frame A loc k _ _ st' hp (by rw [ho]; rfl)).err hn
      simp [St.yyerror] at this
    · rcases h with h | h
      · exact Bool.noConfusion h
      · exact ⟨.inl h.1, by simp [St.yyerror, h.2]⟩
  | .errName m p k, ae, env, st, h, hp, hL => by
    unfold chk at h
    split at h
    · rename_i hg
      obtain ⟨w, e4, s4⟩ := getE_sound hL hg
      cases s4 with
      | @str a b hok =>
        simp only [run, strAt, e4]
        refine Post.mono (chk_sound A loc hgd k _ h hp hL) (fun _ _ _ _ => rfl) ?_ (fun h => ?_)
        · intro v st' ho hn
          have := (run_frame A loc k _ _ st' hp (by rw [ho]; rfl)).err hn
          simp [St.yyerror] at this
        · rcases h with h | h
          · exact Bool.noConfusion h
          · exact ⟨.inl h.1, by simp [St.yyerror, h.2]⟩
    · cases h
  | .zeroLen k, ae, env, st, h, hp, hL => by
    unfold chk at h
    unfold run
    exact Post.mono (chk_sound A loc hgd k _ h hp hL) (fun _ _ _ _ => rfl) (fun _ _ _ _ => rfl) (fun h => ⟨h, rfl⟩)
  | .split p q k, ae, env, st, h, hp, hL => by
    unfold chk at h
    split at h
    · rename_i ne hg
      split at h
      · rename_i ae1 hput1
        split at h
        · rename_i o1 o2 ae2 hg1 hg2 hput2
          split at h
          · rename_i o3 ae3 hg3 hput3
            simp only [Bool.and_eq_true] at h
            obtain ⟨⟨⟨h1, h2⟩, h2'⟩, h3⟩ := h
            obtain ⟨w, e4, s4⟩ := getE_sound hL hg
            cases s4 with
            | @vec a _ _ _ pre post g1 g2 gL =>
            cases gL
            rw [List.append_nil] at e4
            have hemp : S (.vec .never false []) (.vec a []) := .vec (pre := []) (post := []) a (by simp) (by simp) .nil
            obtain ⟨env1, old1, e1, e1', l1, c1⟩ := putE_sound hgd hL hemp hput1
            rw [e1'] at e4; cases e4
            have hels : ∀ v ∈ pre, v.pars = [] ∧ ((isColumnDef v = true ∧ isConstraint v = false ∧ S columnDefP v) ∨ (isColumnDef v = false ∧ isConstraint v = true ∧ S (.ref .tableConstraint) v)) := by
              intro v hv
              have hs := g1 v hv
              refine ⟨pf_ok (n := 16) (by decide +kernel) hs, ?_⟩
              cases hs with
              | ref hm hs =>
                simp only [alts, List.mem_cons, List.not_mem_nil, or_false] at hm
                rcases hm with rfl | rfl | rfl
                · left; refine ⟨?_, ?_, hs⟩ <;> (unfold columnDefP at hs; cases hs; rfl)
                · right; refine ⟨?_, ?_, .ref (by simp [alts]) hs⟩ <;> (unfold keyP at hs; cases hs; rfl)
                · right; refine ⟨?_, ?_, .ref (by simp [alts]) hs⟩ <;> (unfold foreignKeyP at hs; cases hs; rfl)
            have hcols : S (.vec columnDefP false []) (.vec (A.new st.nalloc) (pre.filter isColumnDef)) := by
              rw [show V.vec (A.new st.nalloc) (pre.filter isColumnDef) = .vec (A.new st.nalloc) (pre.filter isColumnDef ++ []) by simp]
              refine .vec _ ?_ (by simp) .nil
              intro v hv
              rw [List.mem_filter] at hv
              rcases (hels v hv.1).2 with h | h
              · exact h.2.2
              · rw [h.1] at hv; cases hv.2
            have hcons : S (.vec (.ref .tableConstraint) false []) (.vec (A.new (st.nalloc + 1)) (pre.filter isConstraint)) := by
              rw [show V.vec (A.new (st.nalloc + 1)) (pre.filter isConstraint) = .vec (A.new (st.nalloc + 1)) (pre.filter isConstraint ++ []) by simp]
              refine .vec _ ?_ (by simp) .nil
              intro v hv
              rw [List.mem_filter] at hv
              rcases (hels v hv.1).2 with h | h
              · rw [h.2.1] at hv; cases hv.2
              · exact h.2.2
            obtain ⟨env2, old2, e2, e2', l2, c2⟩ := putE_sound hgd l1 hcols hput2
            obtain ⟨env3, old3, e3, e3', l3, c3⟩ := putE_sound hgd l2 hcons hput3
            obtain ⟨w1, e5, s5⟩ := getE_sound l1 hg1
            obtain ⟨w2, e6, s6⟩ := getE_sound l1 hg2
            obtain ⟨w3, e7, s7⟩ := getE_sound l2 hg3
            rw [e2'] at e5; cases e5
            rw [e3'] at e7; cases e7
            have n3 := noAddr_sound s7 h2'
            have n1 := noAddr_sound s5 h1
            have n2 := noAddr_sound s6 h2
            have hrest : pre.filter (fun v => !isColumnDef v && !isConstraint v) = [] := by
              rw [List.filter_eq_nil_iff]
              intro v hv
              rcases (hels v hv).2 with h | h
              · simp [h.1]
              · simp [h.2.1]
            simp only [run, e1', e1, e2', e6, e2, e3]
            refine Post.mono (chk_sound A loc hgd k _ h3 hp l3) ?_ ?_ (fun h => ⟨h, by simp [St.log, St.bump, n1, n2, hrest, addrsL]⟩)
            · intro _ _ _ b
              have z : ∀ n f, pc b (V.vec n (pre.filter f)) = 0 := by
                intro n f
                simp only [pc, V.pars]
                rw [parsL_nil]
                · rfl
                · intro v hv; rw [List.mem_filter] at hv; exact (hels v hv.1).1
              have z1 := z (A.new st.nalloc) isColumnDef
              have z2 := z (A.new (st.nalloc + 1)) isConstraint
              have z3 : pc b (.vec a pre) = 0 := by
                simp only [pc, V.pars]
                rw [parsL_nil fun v hv => (hels v hv).1]; rfl
              have z4 : pc b (.vec a []) = 0 := rfl
              have z5 := pc_zero (pars_sub _ n1) b
              have z6 := pc_zero (pars_sub _ n3) b
              have := c1 b
              have := c2 b
              have := c3 b
              omega
            · intro _ _ _ _; simp [St.log, St.bump, n1, n2, hrest, addrsL]
          · cases h
        · cases h
      · cases h
    · cases h
end
end Verif.Sem

import Verif.Sem.Looked
import Verif.LR.Reach
/-!
# Two runs that differ in strings nobody looks at

Proof-internal, but for `keep` and `ParseOut.er`.
-/
namespace Verif.Sem
open Verif.Lex Verif.LR

/-- Leave all strings as they are. -/
def keep : Nat → Bytes → Bytes := fun _ b => b

theorem keep_fixed (env : List V) (es : List Path) : Fixed keep env es := fun _ _ _ _ _ _ _ => rfl

section
variable {A : Alloc} {g : Nat → Bytes → Bytes}

/-- Tokens, the first being the `k`-th, that differ only in strings `g` replaces. -/
inductive TokRel (A : Alloc) (g : Nat → Bytes → Bytes) : Nat → List Tok → List Tok → Prop where
  | nil (k : Nat) : TokRel A g k [] []
  | cons {k : Nat} {t t' : Tok} {ts ts' : List Tok} : tsym t = tsym t' → (tokValue A k t.val).er g = (tokValue A k t'.val).er keep →
      TokRel A g (k + 1) ts ts' → TokRel A g k (t :: ts) (t' :: ts')

def eSV (g : Nat → Bytes → Bytes) (x : Nat × SV) : Nat × V := (x.1, x.2.1.er g)
def eLa (g : Nat → Bytes → Bytes) (x : Tok × SV) : Nat × V := (tsym x.1, x.2.1.er g)

structure Rel (A : Alloc) (g : Nat → Bytes → Bytes) (c c' : Cfg St SV) : Prop where
  stk : c.stk.map (eSV g) = c'.stk.map (eSV keep)
  la : c.la.map (eLa g) = c'.la.map (eLa keep)
  st : c.st.er g = c'.st.er keep
  toks : TokRel A g c.st.ntok c.toks c'.toks

/-- Two ends of runs. -/
structure DRel (g : Nat → Bytes → Bytes) (c c' : Cfg St SV) : Prop where
  stk : c.stk.map (eSV g) = c'.stk.map (eSV keep)
  la : c.la.map (eLa g) = c'.la.map (eLa keep)
  st : c.st.er g = c'.st.er keep
theorem Rel.d {c c' : Cfg St SV} (h : Rel A g c c') : DRel g c c' := ⟨h.stk, h.la, h.st⟩

def SRel (A : Alloc) (g : Nat → Bytes → Bytes) : SRes St SV → SRes St SV → Prop
  | .run c, .run c' => Rel A g c c'
  | .done o c, .done o' c' => o = o' ∧ DRel g c c'
  | .ub, .ub => True
  | _, _ => False

theorem ntok_er {st st' : St} (h : st.er g = st'.er keep) : st.ntok = st'.ntok := by
  have := congrArg St.ntok h; exact this

theorem topState_eSV (stk : List (Nat × SV)) : topState (stk.map (eSV g)) = topState stk := by cases stk <;> rfl

theorem Rel.top {c c' : Cfg St SV} (h : Rel A g c c') : topState c.stk = topState c'.stk := by
  rw [← topState_eSV (g := g), h.stk, topState_eSV]

theorem Rel.len {c c' : Cfg St SV} (h : Rel A g c c') : c.stk.length = c'.stk.length := by
  have := congrArg List.length h.stk; simpa using this

theorem readTok_er (t : Tok) (st : St) : (readTok A t st).2.er g = { st.er g with ntok := st.ntok + 1 } := rfl

theorem Rel.fetch {c c' : Cfg St SV} (h : Rel A g c c') : Rel A g (fetch (sem A) c) (fetch (sem A) c') := by
  obtain ⟨stk, la, toks, st⟩ := c
  obtain ⟨stk', la', toks', st'⟩ := c'
  obtain ⟨h1, h2, h3, h4⟩ := h
  simp only [] at h1 h2 h3 h4
  cases la with
  | some x =>
    cases la' with
    | none => cases h2
    | some x' => exact ⟨h1, h2, h3, h4⟩
  | none =>
    cases la' with
    | some x' => cases h2
    | none =>
      have hn := ntok_er h3
      cases h4 with
      | nil => exact ⟨h1, h2, h3, .nil _⟩
      | @cons k t t' ts ts' e1 e2 e3 =>
        refine ⟨h1, ?_, ?_, e3⟩
        · show some (tsym t, (tokValue A st.ntok t.val).er g) = some (tsym t', (tokValue A st'.ntok t'.val).er keep)
          rw [e1, e2, hn]
        · show (readTok A t st).2.er g = (readTok A t' st').2.er keep
          rw [readTok_er, readTok_er, h3, hn]

theorem Rel.prep {c c' : Cfg St SV} (h : Rel A g c c') : Rel A g (prep (sem A) c) (prep (sem A) c') := by
  unfold LR.prep
  rw [← h.top]
  split
  · exact h.fetch
  · exact h

theorem Rel.rem {c c' : Cfg St SV} (h : Rel A g c c') {t : Tok} {rem : List Tok} (hr : remOf c = t :: rem) : ∃ t' rem', remOf c' = t' :: rem' ∧ tsym t = tsym t' := by
  obtain ⟨stk, la, toks, st⟩ := c
  obtain ⟨stk', la', toks', st'⟩ := c'
  obtain ⟨h1, h2, h3, h4⟩ := h
  simp only [] at h1 h2 h3 h4
  cases la with
  | some x =>
    cases la' with
    | none => cases h2
    | some x' =>
      simp only [remOf, Option.map_some, Option.toList_some, List.cons_append, List.nil_append, List.cons.injEq] at hr
      refine ⟨x'.1, toks', rfl, ?_⟩
      rw [← hr.1]
      simp only [Option.map_some, Option.some.injEq, eLa, Prod.mk.injEq] at h2
      exact h2.1
  | none =>
    cases la' with
    | some x' => cases h2
    | none =>
      cases h4 with
      | nil => simp [remOf] at hr
      | @cons k t1 t' ts ts' e1 e2 e3 =>
        simp only [remOf, Option.map_none, Option.toList_none, List.nil_append, List.cons.injEq] at hr
        exact ⟨t', ts', rfl, by rw [← hr.1]; exact e1⟩

theorem mkEnv_er (vs : List V) : mkEnv (vs.map (V.er g)) = (mkEnv vs).map (V.er g) := by
  simp [mkEnv, V.er]

/-- The actions of two related reductions. -/
theorem run_rel {r : Nat} (h1 : 2 ≤ r) {p : Prog} (hp : actions[r - 2]? = some p) {vs vs' : List V} {st st' : St} (hv : vs.map (V.er g) = vs'.map (V.er keep)) (hs : st.er g = st'.er keep)
    (hf : Fixed g (mkEnv vs) (looked r)) (loc loc' : Loc) :
    (run A loc p (mkEnv vs) st).er g = (run A loc' p (mkEnv vs') st').er keep := by
  rcases looked_sees h1 hp with rfl | hk
  · rw [← finish_er, ← finish_er, ← mkEnv_er, ← mkEnv_er, hv, hs]
  · rw [← run_er A loc p _ hk _ _ hf, ← run_er A loc' p _ hk _ _ (keep_fixed _ _), ← mkEnv_er, ← mkEnv_er, hv, hs]

/-- The results of two related reductions. -/
def RedRel (g : Nat → Bytes → Bytes) : Red St SV → Red St SV → Prop
  | .ok v st, .ok v' st' => v.1.er g = v'.1.er keep ∧ st.er g = st'.er keep
  | .error st, .error st' => st.er g = st'.er keep
  | .ub, .ub => True
  | _, _ => False

theorem reduce_rel {r n : Nat} (h1 : 2 ≤ r) {stk stk' : List (Nat × SV)} {st st' : St} (hv : stk.map (eSV g) = stk'.map (eSV keep)) (hs : st.er g = st'.er keep)
    (hf : Fixed g (mkEnv (rhsVals stk n)) (looked r)) (b b' : Option SV) :
    RedRel g ((sem A).reduce r ((stk.take n).map Prod.snd).reverse b st) ((sem A).reduce r ((stk'.take n).map Prod.snd).reverse b' st') := by
  show RedRel g (reduceRule A r _ _ st) (reduceRule A r _ _ st')
  unfold reduceRule
  cases hp : actions[r - 2]? with
  | none => trivial
  | some p =>
    have e : (rhsVals stk n).map (V.er g) = (rhsVals stk' n).map (V.er keep) := by
      unfold rhsVals vals
      have := congrArg (fun l => ((l.take n).map Prod.snd).reverse) hv
      simpa [List.map_take, eSV, Function.comp_def] using this
    simp only [rhsVals_eq]
    have key := run_rel (A := A) h1 hp e hs hf (ruleLoc ((stk.take n).map Prod.snd).reverse b) (ruleLoc ((stk'.take n).map Prod.snd).reverse b')
    generalize run A (ruleLoc ((stk.take n).map Prod.snd).reverse b) p (mkEnv (rhsVals stk n)) st = o at key
    generalize run A (ruleLoc ((stk'.take n).map Prod.snd).reverse b') p (mkEnv (rhsVals stk' n)) st' = o' at key
    cases o <;> cases o' <;> simp only [Out.er, reduceCtorEq, Out.ok.injEq, Out.error.injEq] at key <;> first | exact key | trivial

theorem reduce_ntok {r : Nat} {c : Cfg St SV} {stk : TStk} (hat : RedAt c stk r) {v : SV} {st : St}
    (h : (sem A).reduce r ((c.stk.take (rhs r).length).map Prod.snd).reverse ((c.stk.drop (rhs r).length).head?.map Prod.snd) c.st = .ok v st) : st.ntok = c.st.ntok :=
  run_ntok hat.r1 hat.r2 (rhsVals_len hat) (reduce_ok hat.r1 hat.r2 h).2

variable {toks : List Tok} {r0 : Res} {lim : Nat}

theorem step_exh {S : LR.Sem St SV} {c : Cfg St SV} (h : lim ≤ c.stk.length + 1) : step S lim c = .done .exhausted c := by
  unfold step; rw [if_pos h]
theorem step_acc {S : LR.Sem St SV} {c : Cfg St SV} (h : ¬ lim ≤ c.stk.length + 1) (h69 : topState c.stk = 69) : step S lim c = .done .accept c := by
  unfold step
  rw [if_neg h]
  simp only []
  rw [if_pos (by rw [h69]; decide)]

theorem step_rel (hf : TokFix A g toks) {ts : List Tok} {e : Tok} {junk : List Tok} (hin : Input toks ts e junk) {n : Nat} {c c' : Cfg St SV} {stk : TStk}
    (h : Reach (sem A) lim toks (startSt r0) n c stk) (hc : Rel A g c c') :
    SRel A g (step (sem A) lim c) (step (sem A) lim c') := by
  by_cases hl : lim ≤ c.stk.length + 1
  · rw [step_exh hl, step_exh (by rw [← hc.len]; exact hl)]
    exact ⟨rfl, hc.d⟩
  by_cases h69 : topState c.stk = 69
  · rw [step_acc hl h69, step_acc (by rw [← hc.len]; exact hl) (by rw [← hc.top]; exact h69)]
    exact ⟨rfl, hc.d⟩
  have htop := h.inv.sim.top
  have hlen := h.inv.sim.len
  have hne : ∃ t rem, remOf c = t :: rem := by
    rcases h.rest hin with ⟨_, suf, h1, _⟩ | ⟨h1, _⟩
    · cases suf with
      | nil => exact ⟨e, junk, h1⟩
      | cons x suf => exact ⟨x, suf ++ e :: junk, h1⟩
    · exact absurd (htop.trans h1) h69
  obtain ⟨t, rem, hr⟩ := hne
  obtain ⟨t', rem', hr', ht⟩ := hc.rem hr
  rw [step_eq (sem A) (by omega) h69 hr, step_eq (sem A) (by rw [← hc.len]; omega) (by rw [← hc.top]; exact h69) hr', ← hc.top, ← ht]
  have hp := hc.prep
  cases ha : actionOn (topState c.stk) (tsym t) with
  | none => trivial
  | some a =>
    cases a with
    | error => exact ⟨rfl, hp.d⟩
    | shift s =>
      have hla := hp.la
      simp only [doAct]
      cases h1 : (prep (sem A) c).la with
      | none =>
        cases h2 : (prep (sem A) c').la with
        | none => trivial
        | some x' => rw [h1, h2] at hla; cases hla
      | some x =>
        cases h2 : (prep (sem A) c').la with
        | none => rw [h1, h2] at hla; cases hla
        | some x' =>
          rw [h1, h2] at hla
          simp only [Option.map_some, Option.some.injEq, eLa, Prod.mk.injEq] at hla
          refine ⟨?_, rfl, hp.st, hp.toks⟩
          show eSV g (s, x.2) :: (prep (sem A) c).stk.map (eSV g) = eSV keep (s, x'.2) :: (prep (sem A) c').stk.map (eSV keep)
          rw [hp.stk, eSV, eSV, hla.2]
    | reduce r =>
      have hat := h.redAt hr (by rw [← htop]; exact h69) (by rw [← hlen]; exact hl) (by rw [← htop]; exact ha)
      have hfx := red_fixed hf h.inv.ok (oinv_rc h.rc_prep) hat
      simp only [doAct, doReduce, ruleLen_eq (show 1 ≤ r by have := hat.r1; omega) hat.r2]
      cases hlh : ruleLhs r with
      | none => trivial
      | some B =>
        simp only []
        have hlen' := hp.len
        have hl1 := hat.len
        rw [if_neg (by omega), if_neg (by omega)]
        have key := reduce_rel (A := A) hat.r1 hp.stk hp.st hfx (((prep (sem A) c).stk.drop (rhs r).length).head?.map Prod.snd) (((prep (sem A) c').stk.drop (rhs r).length).head?.map Prod.snd)
        have hdr : ((prep (sem A) c).stk.drop (rhs r).length).map (eSV g) = ((prep (sem A) c').stk.drop (rhs r).length).map (eSV keep) := by
          rw [List.map_drop, List.map_drop, hp.stk]
        have htp : topState ((prep (sem A) c').stk.drop (rhs r).length) = topState ((prep (sem A) c).stk.drop (rhs r).length) := by
          rw [← topState_eSV (g := keep), ← hdr, topState_eSV]
        rw [htp]
        have hnt := fun v st => reduce_ntok (A := A) hat (v := v) (st := st)
        generalize hro : (sem A).reduce r (((prep (sem A) c).stk.take (rhs r).length).map Prod.snd).reverse (((prep (sem A) c).stk.drop (rhs r).length).head?.map Prod.snd) (prep (sem A) c).st = o at key hnt
        generalize (sem A).reduce r (((prep (sem A) c').stk.take (rhs r).length).map Prod.snd).reverse (((prep (sem A) c').stk.drop (rhs r).length).head?.map Prod.snd) (prep (sem A) c').st = o' at key
        cases o with
        | ub => cases o' with
          | ub => trivial
          | _ => cases key
        | error st =>
          cases o' with
          | error st' =>
            exact ⟨rfl, hdr, hp.la, key⟩
          | _ => cases key
        | ok v st =>
          cases o' with
          | ok v' st' =>
            simp only []
            cases gotoState (topState ((prep (sem A) c).stk.drop (rhs r).length)) B with
            | none => trivial
            | some s =>
              refine ⟨?_, hp.la, key.2, ?_⟩
              · show eSV g (s, v) :: _ = eSV keep (s, v') :: _
                rw [hdr, eSV, eSV, key.1]
              · show TokRel A g st.ntok _ _
                rw [hnt v st rfl]
                exact hp.toks
          | _ => cases key

/-- Two ends, or both undefined, or both still running. -/
def NRel (g : Nat → Bytes → Bytes) : Option (Option (Outcome × Cfg St SV)) → Option (Option (Outcome × Cfg St SV)) → Prop
  | some (some x), some (some y) => x.1 = y.1 ∧ DRel g x.2 y.2
  | some none, some none => True
  | none, none => True
  | _, _ => False

theorem runN_rel (hf : TokFix A g toks) {ts : List Tok} {e : Tok} {junk : List Tok} (hin : Input toks ts e junk) : ∀ (m n : Nat) (c c' : Cfg St SV) (stk : TStk),
    Reach (sem A) lim toks (startSt r0) n c stk → Rel A g c c' → NRel g (runN (sem A) lim m c) (runN (sem A) lim m c')
  | 0, _, _, _, _, _, _ => trivial
  | m + 1, n, c, c', stk, h, hc => by
    have hs := step_rel hf hin h hc
    unfold runN
    cases e1 : step (sem A) lim c with
    | ub =>
      cases e2 : step (sem A) lim c' with
      | ub => trivial
      | _ => rw [e1, e2] at hs; cases hs
    | done o d =>
      cases e2 : step (sem A) lim c' with
      | done o' d' => rw [e1, e2] at hs; exact hs
      | _ => rw [e1, e2] at hs; cases hs
    | run d =>
      cases e2 : step (sem A) lim c' with
      | run d' =>
        rw [e1, e2] at hs
        have hne : ∃ t rem, remOf c = t :: rem := by
          rcases h.rest hin with ⟨_, suf, h1, _⟩ | ⟨h1, _⟩
          · cases suf with
            | nil => exact ⟨e, junk, h1⟩
            | cons x suf => exact ⟨x, suf ++ e :: junk, h1⟩
          · exfalso
            have htop := h.inv.sim.top
            by_cases hl : lim ≤ c.stk.length + 1
            · rw [step_exh hl] at e1; cases e1
            · rw [step_acc hl (htop.trans h1)] at e1; cases e1
        obtain ⟨t, rem, hr⟩ := hne
        obtain ⟨stk', h'⟩ := h.next hr e1
        exact runN_rel hf hin m (n + 1) d d' stk' h' hs
      | _ => rw [e1, e2] at hs; cases hs

theorem destruct_er (sym : Nat) (v : V) (st : St) : (destruct sym v st).map (St.er g) = match treat (destructors.getD sym .keep) (v.er g) with
    | some (f, l) => some ((st.er g).log f l)
    | none => none := by
  unfold destruct
  rw [treat_er]
  cases treat (destructors.getD sym .keep) v with
  | none => rfl
  | some x => rfl

theorem destruct_rel {sym : Nat} {v v' : V} {st st' : St} (hv : v.er g = v'.er keep) (hs : st.er g = st'.er keep) :
    (destruct sym v st).map (St.er g) = (destruct sym v' st').map (St.er keep) := by
  rw [destruct_er, destruct_er, hv, hs]

theorem map_er_cases {x x' : Option St} (h : x.map (St.er g) = x'.map (St.er keep)) :
    (x = none ∧ x' = none) ∨ ∃ s s', x = some s ∧ x' = some s' ∧ s.er g = s'.er keep := by
  cases x <;> cases x' <;> simp_all

theorem popAll_rel : ∀ (stk stk' : List (Nat × SV)) (st st' : St), stk.map (eSV g) = stk'.map (eSV keep) → st.er g = st'.er keep →
    (popAll stk st).map (St.er g) = (popAll stk' st').map (St.er keep)
  | [], [], st, st', _, hs => by simp only [popAll, Option.map_some, hs]
  | [], _ :: _, _, _, h, _ => by cases h
  | _ :: _, [], _, _, h, _ => by cases h
  | (s, v) :: stk, (s', v') :: stk', st, st', h, hs => by
    simp only [List.map_cons, List.cons.injEq, eSV, Prod.mk.injEq] at h
    obtain ⟨⟨rfl, h2⟩, h3⟩ := h
    unfold popAll
    rcases map_er_cases (destruct_rel (sym := (yystos.getD s 0).toNat) h2 hs) with ⟨e1, e2⟩ | ⟨a, b, e1, e2, e3⟩
    · rw [e1, e2]; rfl
    · rw [e1, e2]
      exact popAll_rel stk stk' a b h3 e3

theorem dropLa_rel {la la' : Option (Tok × SV)} {st st' : St} (h : la.map (eLa g) = la'.map (eLa keep)) (hs : st.er g = st'.er keep) :
    (dropLookahead la st).map (St.er g) = (dropLookahead la' st').map (St.er keep) := by
  cases la with
  | none => cases la' with
    | none => simp only [dropLookahead, Option.map_some, hs]
    | some _ => cases h
  | some x => cases la' with
    | none => cases h
    | some x' =>
      simp only [Option.map_some, Option.some.injEq, eLa, Prod.mk.injEq] at h
      simp only [dropLookahead]
      rw [h.1]
      exact destruct_rel h.2 hs

theorem yyerror_rel {st st' : St} (hs : st.er g = st'.er keep) (m : Bytes) (x y x' y' : Int) : (st.yyerror A m x y).er g = (st'.yyerror A m x' y').er keep := by
  rw [yyerror_er, yyerror_er, hs]

/-- Two results of `hsql_parse`. -/
def eRet (g : Nat → Bytes → Bytes) (x : Int × St) : Int × St := (x.1, x.2.er g)

theorem finishRun_rel (o : Outcome) {c c' : Cfg St SV} (h : DRel g c c') : (finishRun A o c).map (eRet g) = (finishRun A o c').map (eRet keep) := by
  have htop : topState c.stk = topState c'.stk := by rw [← topState_eSV (g := g), h.stk, topState_eSV]
  have fin : ∀ (k : Int) {x x' : Option St}, x.map (St.er g) = x'.map (St.er keep) → (x.bind fun st => some (k, st)).map (eRet g) = (x'.bind fun st => some (k, st)).map (eRet keep) := by
    intro k x x' hx
    rcases map_er_cases hx with ⟨rfl, rfl⟩ | ⟨a, b, rfl, rfl, e⟩
    · rfl
    · simp only [Option.bind_some, Option.map_some, eRet, e]
  have bnd : ∀ {x x' : Option St} {f f' : St → Option (Int × St)}, x.map (St.er g) = x'.map (St.er keep) → (∀ s s', s.er g = s'.er keep → (f s).map (eRet g) = (f' s').map (eRet keep)) →
      (x.bind f).map (eRet g) = (x'.bind f').map (eRet keep) := by
    intro x x' f f' hx hf
    rcases map_er_cases hx with ⟨rfl, rfl⟩ | ⟨a, b, rfl, rfl, e⟩
    · rfl
    · exact hf a b e
  cases o with
  | accept =>
    simp only [finishRun, Option.bind_eq_bind]
    exact bnd (dropLa_rel h.la h.st) fun s s' e => fin 0 (popAll_rel _ _ _ _ h.stk e)
  | semError =>
    simp only [finishRun, Option.bind_eq_bind]
    exact bnd (popAll_rel _ _ _ _ h.stk h.st) fun s s' e => fin 1 (dropLa_rel h.la e)
  | exhausted =>
    simp only [finishRun, Option.bind_eq_bind]
    exact bnd (dropLa_rel h.la (yyerror_rel h.st _ _ _ _ _)) fun s s' e => fin 2 (popAll_rel _ _ _ _ h.stk e)
  | syntaxError =>
    simp only [finishRun, Option.bind_eq_bind]
    have hla := h.la
    cases h1 : c.la with
    | none =>
      cases h2 : c'.la with
      | none => rfl
      | some x' => rw [h1, h2] at hla; cases hla
    | some x =>
      cases h2 : c'.la with
      | none => rw [h1, h2] at hla; cases hla
      | some x' =>
        rw [h1, h2] at hla
        have ht : tsym x.1 = tsym x'.1 := by
          simp only [Option.map_some, Option.some.injEq, eLa, Prod.mk.injEq] at hla
          exact hla.1
        simp only [Option.bind_some, ht, htop]
        exact bnd (popAll_rel _ _ _ _ h.stk (yyerror_rel h.st _ _ _ _ _)) fun s s' e => fin 1 (dropLa_rel hla e)

theorem TokRel.len {k : Nat} {ts ts' : List Tok} (h : TokRel A g k ts ts') : ts.length = ts'.length := by
  induction h with
  | nil => rfl
  | cons _ _ _ ih => simp [ih]

theorem nrel_fin {x y : Option (Option (Outcome × Cfg St SV))} (h : NRel g x y) :
    (match x with | some (some (o, c)) => finishRun A o c | _ => none).map (eRet g) = (match y with | some (some (o, c)) => finishRun A o c | _ => none).map (eRet keep) := by
  cases x with
  | none => cases y with
    | none => rfl
    | some y => cases y <;> cases h
  | some x => cases x with
    | none => cases y with
      | none => cases h
      | some y => cases y with
        | none => rfl
        | some _ => cases h
    | some x => cases y with
      | none => cases h
      | some y => cases y with
        | none => cases h
        | some y =>
          obtain ⟨o, c⟩ := x
          obtain ⟨o', c'⟩ := y
          obtain ⟨h1, h2⟩ := h
          simp only [] at h1 h2
          subst h1
          exact finishRun_rel o h2

theorem hsqlParse_rel {toks toks' ts : List Tok} {e : Tok} {junk : List Tok} {r : Res} (hf : TokFix A g toks) (hin : Input toks ts e junk) (ht : TokRel A g 0 toks toks') (hr : r.er g = r.er keep) :
    (hsqlParse A toks r).map (eRet g) = (hsqlParse A toks' r).map (eRet keep) := by
  have hst : (startSt r).er g = (startSt r).er keep := by
    unfold startSt St.er
    rw [hr]
  have key := fun m => runN_rel (A := A) (g := g) (lim := stackSize) (r0 := r) hf hin m 0 (initCfg toks (startSt r)) (initCfg toks' (startSt r)) [] .init
    ⟨rfl, rfl, hst, ht⟩
  unfold hsqlParse runLR
  rw [← ht.len]
  exact nrel_fin (key _)

end

/-- In the outcome of a parse. -/
def ParseOut.er (g : Nat → Bytes → Bytes) (o : ParseOut) : ParseOut := { o with res := o.res.er g }

end Verif.Sem

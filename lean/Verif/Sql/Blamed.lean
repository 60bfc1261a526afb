import Verif.Sql.BlameProof
/-!
# Messages blame something in the text

`Blamed` is specification: some words of the text deserve the message, and the position reported is where they start. The rest is proof.
-/
set_option linter.all false
set_option maxRecDepth 20000
namespace Verif.Sql
open Verif.Lex Verif.LR Verif.Sem

/-- The text up to where the last token starts; for a string, up to its closing quote. -/
def before (ts : List Tok) : Bytes := ((ts.flatMap Tok.pieces).dropLast).flatten

/-- Some of the tokens, `u :: us`, are words that deserve the message `m`, and `line` and `col` are the position of the first of them. -/
def Blamed (toks : List Tok) (m : Bytes) (line col : Int) : Prop :=
  ∃ (pre ctx : List Tok) (u : Tok) (us post : List Tok) (b ws : List Word),
    toks = pre ++ ctx ++ (u :: us) ++ post ∧ Spelled b ctx ∧ Spelled ws (u :: us) ∧ Cause m b ws ∧
    line = lineOf (before (pre ++ ctx ++ [u])) ∧ col = colOf (before (pre ++ ctx ++ [u]))

section
variable {A : Alloc} {toks : List Tok} {r0 : Res} {c : Cfg Sem.St SV} {stk : TStk} {r : Nat}

/-- The rules that report errors start with a token. -/
theorem blame_start : ([37, 42, 44, 46, 48, 55, 66, 162, 179, 294, 296, 297].all fun r => match rhs r with
    | [] => false
    | X :: _ => Nat.blt X 199 || startsTok.contains X) = true := by decide +kernel

/-- Where a reduction is. -/
theorem red_start (h : RC (sem A) toks (startSt r0) c stk) (hat : RedAt c stk r) (hr : r ∈ [37, 42, 44, 46, 48, 55, 66, 162, 179, 294, 296, 297]) :
    ∃ u us, yieldL (popTrees (rhs r).length stk) = u :: us ∧ (redLoc c.stk (rhs r).length).fl = lineOf (before (stkYield (stk.drop (rhs r).length) ++ [u])) ∧
      (redLoc c.stk (rhs r).length).fc = colOf (before (stkYield (stk.drop (rhs r).length) ++ [u])) := by
  have hL := loc_rc h
  have hl := hat.len
  rw [hL.len] at hl
  have hlo := hL.red hl r
  have hs := List.all_eq_true.1 blame_start r hr
  have hw := hat.wf
  have hsy := hat.syms
  generalize popTrees (rhs r).length stk = cs at *
  cases cs with
  | nil => rw [← hsy] at hs; cases hs
  | cons d cs =>
    rw [← hsy] at hs
    simp only [List.map_cons, Bool.or_eq_true] at hs
    obtain ⟨u, us, e1, e2⟩ := locStart_tok (stkYield (stk.drop (rhs r).length)) d hw.2.2.2.1 (by
      rcases hs with h | h
      · exact .inl (by simpa [Nat.blt_eq] using h)
      · exact .inr (List.contains_iff_mem.1 h))
    refine ⟨u, us ++ yieldL cs, by rw [yieldL, e1]; rfl, ?_, ?_⟩
    · rw [hlo]; simp only [treeLoc, locStart, e2]; rfl
    · rw [hlo]; simp only [treeLoc, locStart, e2]; rfl

theorem blamed_red (ht : ∀ t ∈ toks, TokShape t) (h : RC (sem A) toks (startSt r0) c stk) (hat : RedAt c stk r) (hr : r ∈ [37, 42, 44, 46, 48, 55, 66, 162, 179, 294, 296, 297]) {m : Bytes} {pre ctx : List Tok} {b : List Word}
    (hpre : stkYield (stk.drop (rhs r).length) = pre ++ ctx) (hb : Spelled b ctx) (hc : Cause m b (wsL 0 (popTrees (rhs r).length stk))) :
    Blamed toks m (redLoc c.stk (rhs r).length).fl (redLoc c.stk (rhs r).length).fc := by
  obtain ⟨u, us, e1, e2, e3⟩ := red_start h hat hr
  have hsp := (toWords_spelled 0 _ (red_fits ht h hat)).1
  rw [wsL_eq, e1] at hsp
  have hy := yld_rc h
  rw [stkYield_split (rhs r).length, hpre, e1] at hy
  refine ⟨pre, ctx, u, us, (match c.la with | some x => [x.1] | none => []) ++ c.toks, b, _, ?_, hb, hsp, hc, ?_, ?_⟩
  · rw [← hy, List.append_assoc]; rfl
  · rw [e2, hpre]
  · rw [e3, hpre]

/-- A message left behind is that of a column. -/
theorem hist_rc (ht : ∀ t ∈ toks, TokShape t) (h0 : r0.errMsg = none) (h : RC (sem A) toks (startSt r0) c stk) {m : Bytes} (hm : c.st.res.errMsg.map Prod.snd = some m) :
    Blamed toks m c.st.res.errLine c.st.res.errCol := by
  induction h with
  | init =>
    have hm : r0.errMsg.map Prod.snd = some m := hm
    rw [h0] at hm; cases hm
  | rd c stk t ts h h1 h2 ih => exact ih hm
  | shift c stk t v s h h1 h2 h3 ih => exact ih hm
  | reduce c stk r s v st h hat hred ih =>
    obtain ⟨e1, e2⟩ := reduce_ok hat.r1 hat.r2 hred
    have hm : st.res.errMsg.map Prod.snd = some m := hm
    show Blamed toks m st.res.errLine st.res.errCol
    by_cases h2 : r = 2
    · subst h2
      obtain ⟨k1, k2, k3, _⟩ := run2_pos e2
      rw [k1] at hm
      rw [k2, k3]
      exact ih hm
    · by_cases h66 : r = 66
      · subst h66
        have hi := red_is ht h hat 0
        obtain ⟨c1, _, v1, _, hcs, hvs, i1, c2, _, v2, _, rfl, rfl, i2, c3, _, v3, _, rfl, rfl, i3, rfl, rfl⟩ : IsL [T.IDENTIFIER, N.column_type, N.opt_column_constraints] _ 0 _ true := hi
        obtain ⟨x, w1, rfl⟩ : ∃ x : Name, c1.ws _ = nm x ∧ v1 = .str 0 x := i1
        obtain ⟨y, w2, t1, t2, t3, t4, rfl, -⟩ : ∃ y : ColType, c2.ws _ = y.words ∧ tup4 v2 := i2
        obtain ⟨z, w3, rs, rfl⟩ : ∃ (z : ColCons), c3.ws _ = z.words ∧ ∃ rs, v3 = consV z.kinds rs := i3
        rcases run66 hvs e2 with hs | ⟨k1, k2, k3, k4, k5⟩
        · rw [hs] at hm ⊢
          exact ih hm
        · rw [k3] at hm
          cases hm
          rw [k4, k5]
          refine blamed_red ht h hat (by simp) (pre := stkYield (stk.drop (rhs 66).length)) (ctx := []) (b := []) (by simp) trivial ?_
          rw [hcs]
          simp only [wsL, w1, w2, w3]
          have := Cause.nullability x y z (ColCons.null_mem k1) (k2.imp ColCons.notNull_mem ColCons.pk_mem)
          simpa [cat] using this
      · rw [act_ok_res hat.r1 hat.r2 h2 h66 e2] at hm ⊢
        exact ih hm

/-! ## File types -/

theorem pred_fileType : allN 656 (fun s => bor (Nat.beq ((stF s).pred.find N.file_type) 0) (bor (Nat.beq (yystosT.get s) 1049) (Nat.beq (yystosT.get s) (Nat.add 1000 T.FROM)))) = true := by decide +kernel

/-- A file type follows `FORMAT` or `FROM`. -/
theorem fileType_after {lim : Nat} {stk : TStk} {f : List Tok} (hok : StkOK lim stk f) (h : PM (topState stk) N.file_type) :
    ∃ s t stk', stk = (s, .leaf t) :: stk' ∧ (tsym t = T.FORMAT ∨ tsym t = T.FROM) := by
  have hlt := topState_lt hok
  have hc := allN_spec pred_fileType _ hlt
  rw [bor_iff, bor_iff, beq_iff, beq_iff, beq_iff] at hc
  have hc := hc.resolve_left h
  have hg := yystos_get _ hlt
  cases stk with
  | nil =>
    have : yystosT.get (topState ([] : TStk)) = 1000 := by decide +kernel
    rw [this] at hc
    rcases hc with hc | hc <;> exact absurd hc (by decide)
  | cons x stk' =>
    obtain ⟨s, tr⟩ := x
    rw [StkOK] at hok
    obtain ⟨_, he, h1, h2, h5, _⟩ := hok
    have hst := stos_edge h1 h2 he
    have hts : topState ((s, tr) :: stk') = s := rfl
    rw [hts] at hg hc
    rw [List.getD_eq_getElem?_getD, hg, Option.getD_some] at hst
    have hsy : tr.sym = T.FORMAT ∨ tr.sym = T.FROM := by
      rcases hc with hc | hc <;> rw [hc] at hst <;> rw [← hst]
      · exact .inl rfl
      · exact .inr rfl
    cases tr with
    | leaf t => exact ⟨s, t, stk', rfl, hsy⟩
    | node r cs =>
      have := sym_node h5
      simp only [Tree.sym] at hsy this
      rcases hsy with h | h <;> rw [h] at this <;> exact absurd this (by decide)

/-! ## Actions that fail -/

theorem fail_rules : ∀ r ∈ [37, 42, 44, 46, 48, 55, 162, 179, 294, 296, 297], noName (act r) = true ∧ 2 ≤ r ∧ r < 358 ∧ r ≠ 2 := by decide +kernel

theorem fail_path {loc : Loc} {vs : List V} {st st' : Sem.St} (hr : r ∈ [37, 42, 44, 46, 48, 55, 162, 179, 294, 296, 297]) (h : run A loc (act r) (mkEnv vs) st = .error st') :
    evRule r (hL E0 vs) st.ps = none ∧ ∃ p ∈ errPaths (act r) [] [] none, Hold (hL E0 vs) p ∧ MsgIs loc st.res st'.res p.2 := by
  obtain ⟨hn, h1, h2, h3⟩ := fail_rules r hr
  refine ⟨by rw [evRule_run A loc h1 h2 h3, h], ?_⟩
  obtain ⟨p, hp, hh, hm⟩ := run_error A loc (r0 := st.res) (env0 := mkEnv vs) (s0 := st0 false) (act r) [] [] none (mkEnv vs) st st' hn h (fun q _ => rfl) (by simp) rfl
  refine ⟨p, hp, fun x hx => ?_, hm⟩
  rw [← mkEnv_h]
  exact (evalCond_h (f := E0) (strHom_id 0) x.1 (mkEnv vs) (sim_pure (st0 false))).trans (hh x hx)

theorem map_one {cs : List Tree} {X : Nat} (h : cs.map Tree.sym = [X]) : ∃ d, cs = [d] ∧ d.sym = X := by
  cases cs with
  | nil => cases h
  | cons d cs =>
    cases cs with
    | nil => exact ⟨d, rfl, by simpa using h⟩
    | cons e cs => cases h

theorem b179' {cs : List Tree} {b k : Nat} (hw : (Tree.node 179 cs).WF) (hpr : (Tree.node 179 cs).PrecOK b) (hf : ∀ m ∈ yieldL cs, Fits m) {s0 s1 : PS} {vs : List V} (hd : denL cs s0 = some (vs, s1))
    {p : List (Cond × Bool) × Option Bytes} (hp : p ∈ errPaths (act 179) [] [] none) (hh : Hold vs p) : ∃ m, p.2 = some m ∧ Cause m [] (wsL k cs) := by
  obtain ⟨d, rfl, hsy⟩ := map_one (X := N.literal) hw.2.2.1
  rw [denL] at hd
  cases hdd : den d s0 with
  | none => rw [hdd] at hd; cases hd
  | some y =>
    obtain ⟨v, s2⟩ := y
    rw [hdd] at hd
    simp only [denL, Option.some.injEq, Prod.mk.injEq] at hd
    rw [← hd.1] at hh
    exact b179 hw.2.2.2.1 hsy (fun m hm => hf m (by simp [yieldL, hm])) hdd hpr.2.2.1 hp hh

/-- An action that fails blames something in the text. -/
theorem fail_blamed {n : Nat} {st : Sem.St} (ht : ∀ t ∈ toks, TokShape t) (h0 : r0.errMsg = none) (hR : Reach (sem A) 200 toks (startSt r0) n c stk) (hat : RedAt (prep (sem A) c) stk r) (h2 : r ≠ 2)
    (hrun : run A (redLoc c.stk (rhs r).length) (act r) (mkEnv (rhsVals c.stk (rhs r).length)) (prep (sem A) c).st = .error st) {m : Bytes} (hm : st.res.errMsg.map Prod.snd = some m) :
    Blamed toks m st.res.errLine st.res.errCol := by
  have hrc := hR.rc_prep
  have hst := prep_stk (sem A) c
  have hr : r ∈ [37, 42, 44, 46, 48, 55, 56, 162, 179, 294, 296, 297] := by
    refine rule_fail hat.r1 hat.r2 ?_
    cases hb : noFail (act r) with
    | false => rfl
    | true => exact absurd (noFail_sound (act_err_rr hat.r1 hat.r2 h2 hrun) hb) (by simp)
  rw [← hst] at hrun
  by_cases h56 : r = 56
  · subst h56
    obtain ⟨p, hp, -, hmm⟩ := run_error A _ (r0 := (prep (sem A) c).st.res) (env0 := mkEnv (rhsVals (prep (sem A) c).stk (rhs 56).length)) (s0 := st0 false) (act 56) [] [] none _ _ _ (by decide +kernel) hrun (fun q _ => rfl) (by simp) rfl
    have hn : ∀ q ∈ errPaths (act 56) [] [] none, q.2 = none := by decide +kernel
    rw [hn p hp] at hmm
    have hmm : st.res = (prep (sem A) c).st.res := hmm
    rw [hmm] at hm ⊢
    exact hist_rc ht h0 hrc hm
  have hr' : r ∈ [37, 42, 44, 46, 48, 55, 162, 179, 294, 296, 297] := by
    simp only [List.mem_cons, List.not_mem_nil, or_false] at hr ⊢; omega
  have hr66 : r ∈ [37, 42, 44, 46, 48, 55, 66, 162, 179, 294, 296, 297] := by
    simp only [List.mem_cons, List.not_mem_nil, or_false] at hr' ⊢; omega
  obtain ⟨hev, p, hp, hh, hmm⟩ := fail_path hr' hrun
  have hi := red_is ht hrc hat 0
  by_cases h37 : r = 37
  · subst h37
    obtain ⟨hp2, x, hx, hno⟩ := b37 hi hev hp
    rw [hp2] at hmm
    obtain ⟨k1, k2, k3⟩ := hmm
    rw [k1] at hm; cases hm
    rw [k2, k3]
    have hok := hR.inv.ok
    have hpm := hat.pm
    have hpm : PM (topState (stk.drop 1)) N.file_type := hpm
    cases stk with
    | nil => have := hat.len; have e := congrArg List.length hat.sim; simp only [List.length_map, List.length_nil] at e; rw [e] at this; exact absurd this (by decide)
    | cons y stk' =>
      obtain ⟨s1, t1⟩ := y
      rw [StkOK] at hok
      obtain ⟨s, t, stk2, e, hs⟩ := fileType_after hok.1 hpm
      have hd : stkYield (((s1, t1) :: stk').drop (rhs 37).length) = stkYield stk2 ++ [t] := by
        show stkYield stk' = _
        rw [e, stkYield_cons]; rfl
      have hmem : t ∈ toks := by
        rw [← yld_rc hrc, stkYield_split (rhs 37).length, hd]; simp
      have hval : t.val = .none := by
        have := ht t hmem
        unfold TokShape at this
        cases hv : t.val with
        | none => rfl
        | ival n => rw [hv] at this; simp only [] at this; rcases hs with h | h <;> rw [h] at this <;> exact absurd this (by decide)
        | fval n => rw [hv] at this; simp only [] at this; rcases hs with h | h <;> rw [h] at this <;> exact absurd this (by decide)
        | sval n => rw [hv] at this; simp only [] at this; rcases hs with h | h <;> rw [h] at this <;> exact absurd this (by decide)
      refine blamed_red ht hrc hat hr66 hd (b := [.kw (tsym t)]) ⟨rfl, hval, trivial⟩ ?_
      rw [hx]
      exact .fileType x _ hs hno
  · have key : ∃ m', p.2 = some m' ∧ Cause m' [] (wsL 0 (popTrees (rhs r).length stk)) := by
      simp only [List.mem_cons, List.not_mem_nil, or_false] at hr'
      rcases hr' with h | rfl | rfl | rfl | rfl | rfl | rfl | rfl | rfl | rfl | rfl
      · exact absurd h h37
      · exact b42 hi hp hh
      · exact b44 hi hp hh
      · exact b46 hi hev hp hh
      · exact b48 hi hev hp
      · exact b55 hi hp hh
      · exact b162 hi hev hp
      · obtain ⟨s0, hd⟩ := red_den hrc hat
        obtain ⟨b, hpr⟩ := hat.prec
        exact b179' hat.wf hpr (red_fits ht hrc hat) hd hp hh
      · exact b294 hi hp hh
      · exact b296 hi hp hh
      · exact b297 hi hev hp hh
    obtain ⟨m', e, hca⟩ := key
    rw [e] at hmm
    obtain ⟨k1, k2, k3⟩ := hmm
    rw [k1] at hm; cases hm
    rw [k2, k3]
    exact blamed_red ht hrc hat hr66 (ctx := []) (b := []) (by simp; rfl) trivial hca
end

end Verif.Sql

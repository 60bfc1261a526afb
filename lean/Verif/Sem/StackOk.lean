import Verif.Sem.StackMsg
/-! `yyparse` on its arrays does what `hsqlParse` does. Proof-internal. -/
namespace Verif.Sem
open Verif.Lex Verif.LR

/-- The variables of `yyparse` stand for the configuration `c`. -/
structure RelY (c : Cfg St SV) (y : YY) : Prop where
  arr : Arr c.stk y
  state : y.state = topState c.stk
  la : LaOk c.la y
  loc : ∀ t v, c.la = some (t, v) → v.2 = c.st.yylloc.loc
  toks : y.toks = c.toks
  st : y.st = c.st
  len : y.len = 0
  err : y.errstatus = 0
  msg : y.msg.length = y.msgAlloc
  own : y.own = false
  blocks : y.blocks = 0

theorem table_small : (yytable.all fun v => decide (v < 656)) = true := by decide +kernel
theorem defgoto_small : (yydefgoto.all fun v => decide (v < 656)) = true := by decide +kernel

theorem at_mem {l : List Int} {i v : Int} (h : at? l i = some v) : v ∈ l := by
  unfold at? at h
  split at h
  · exact List.mem_of_getElem? h
  · cases h

theorem tokenAct_lt {s a s' : Nat} (h : tokenAct s a = some (.shift s')) : s' < 656 := by
  unfold tokenAct at h
  have hd : ∀ {s}, defaultAct s ≠ some (.shift s') := by
    intro s h
    unfold defaultAct at h
    split at h
    · cases h
    · split at h
      · cases h
      · split at h <;> cases h
  split at h
  · cases h
  · simp only [] at h
    split at h
    · exact absurd h hd
    · split at h
      · cases h
      · split at h
        · exact absurd h hd
        · split at h
          · cases h
          · rename_i v hv
            split at h
            · split at h <;> cases h
            · cases h
              have := List.all_eq_true.1 table_small v (at_mem hv)
              simp only [decide_eq_true_eq] at this
              omega

theorem defaultAct_noShift {s s' : Nat} : defaultAct s ≠ some (.shift s') := by
  intro h
  unfold defaultAct at h
  split at h
  · cases h
  · split at h
    · cases h
    · split at h <;> cases h

theorem gotoState_lt {s A s' : Nat} (h : gotoState s A = some s') : s' < 656 := by
  have hd : ∀ {l : List Int} {i : Int}, (l.all fun v => decide (v < 656)) = true → ((at? l i).bind fun d => if 0 ≤ d then some d.toNat else none) = some s' → s' < 656 := by
    intro l i hl h
    cases hv : at? l i with
    | none => rw [hv] at h; cases h
    | some v =>
      rw [hv, Option.bind_some] at h
      split at h
      · cases h
        have := List.all_eq_true.1 hl v (at_mem hv)
        simp only [decide_eq_true_eq] at this
        omega
      · cases h
  unfold gotoState at h
  split at h
  · cases h
  · simp only [] at h
    split at h
    · split at h
      · cases h
      · split at h
        · exact hd table_small h
        · exact hd defgoto_small h
    · exact hd defgoto_small h

theorem act_loc {A : Alloc} {loc : Loc} {r : Nat} {p : Prog} (hp : actions[r - 2]? = some p) {env : List V} {st st' : St} {v : V} (h : run A loc p env st = .ok v st') :
    st'.yylloc.loc = st.yylloc.loc := by
  have hlt : r - 2 < 356 := by
    have h1 : actions.length = 356 := actions_len
    rcases Nat.lt_or_ge (r - 2) actions.length with h | h
    · omega
    · rw [List.getElem?_eq_none h] at hp; cases hp
  have e : act (r - 2 + 2) = p := by
    have := act_get (r := r - 2 + 2) (by omega) (by omega)
    rw [Nat.add_sub_cancel, hp] at this
    cases this; rfl
  rw [← e] at h
  by_cases h2 : r - 2 + 2 = 2
  · rw [h2] at h; rw [(run2 h).2.2.2.2.1]
  · exact (rr_y (act_ok_rr (by omega) (by omega) h2 h)).1

theorem tsym_lt (t : Tok) : tsym t < 199 := by
  have h : (yytranslate.all fun v => decide (v < 199)) = true := by decide +kernel
  unfold tsym tokSym
  split
  · decide
  · split
    · rw [List.getD_eq_getElem?_getD]
      cases hv : yytranslate[t.code.toNat]? with
      | none => decide
      | some v =>
        have := List.all_eq_true.1 h v (List.mem_of_getElem? hv)
        simp only [decide_eq_true_eq] at this
        simp only [Option.getD_some]
        omega
    · decide

/-- A step of `yyparse` against a step of the driver. -/
def SimY (A : Alloc) (x : SRes St SV) (z : Option YRes) : Prop :=
  match x with
  | .ub => True
  | .run c' => ∃ y', z = some (.run y') ∧ RelY c' y'
  | .done o c' => ∀ r st, finishRun A o c' = some (r, st) → z = some (.ret r st 0)

theorem rhs_ok {stk : Stk} {y : YY} (ha : Arr stk y) {n : Nat} (hn : n ≤ stk.length) :
    rhsOf y.vs y.vsp n = some (((stk.take n).map Prod.snd).reverse.map Prod.fst) := by
  obtain ⟨v0, t, ht⟩ := ha.vs
  have hs := ha.small
  unfold rhsOf
  rw [if_pos ⟨by rw [ha.vsp]; omega, by rw [ha.vsp, ha.vsl]; omega⟩, ha.vsp, ← ht]
  congr 1
  have e : stk.length + 1 - n = (used v0 (fun p : Nat × SV => p.2.1) (stk.drop n)).length := by rw [used_len, List.length_drop]; omega
  have e2 : used v0 (fun p : Nat × SV => p.2.1) stk = used v0 (fun p : Nat × SV => p.2.1) (stk.drop n) ++ ((stk.take n).map fun p => p.2.1).reverse := by
    unfold used
    rw [List.cons_append, ← List.reverse_append, ← List.map_append, List.take_append_drop]
  rw [e2, e, List.append_assoc, List.drop_left, List.take_left' (by simp; omega), ← List.map_reverse, ← List.map_reverse, List.map_map]
  rfl

theorem get_entry {stk : Stk} {y : YY} (ha : Arr stk y) {n : Nat} (h1 : 1 ≤ n) (hn : n ≤ stk.length) :
    y.ls[stk.length + 1 - n]? = (((stk.take n).map Prod.snd).reverse.head?).map Prod.snd := by
  have e2 : used (⟨0, 0, 0, 0⟩ : Loc) (fun p : Nat × SV => p.2.2) stk = used ⟨0, 0, 0, 0⟩ (fun p : Nat × SV => p.2.2) (stk.drop n) ++ ((stk.take n).map fun p => p.2.2).reverse := by
    unfold used
    rw [List.cons_append, ← List.reverse_append, ← List.map_append, List.take_append_drop]
  have e : stk.length + 1 - n = (used (⟨0, 0, 0, 0⟩ : Loc) (fun p : Nat × SV => p.2.2) (stk.drop n)).length := by rw [used_len, List.length_drop]; omega
  have hne : ((stk.take n).map Prod.snd).reverse ≠ [] := by
    intro h
    have := congrArg List.length h
    rw [List.length_reverse, List.length_map, List.length_take] at this
    simp only [List.length_nil] at this
    omega
  have e3 : ((stk.take n).map fun p => p.2.2).reverse = (((stk.take n).map Prod.snd).reverse).map Prod.snd := by
    rw [← List.map_reverse, ← List.map_reverse, List.map_map]; rfl
  have hp := ha.ls
  rw [e2, e3] at hp
  obtain ⟨a, as, hx⟩ := List.exists_cons_of_ne_nil hne
  rw [hx] at hp ⊢
  refine prefix_get hp ?_
  rw [List.getElem?_append_right (Nat.le_of_eq e.symm), e, Nat.sub_self]
  rfl

theorem lloc_ok {stk : Stk} {y : YY} (ha : Arr stk y) {n : Nat} (hn : n ≤ stk.length) :
    lloc y.ls y.lsp n = some (ruleLoc ((stk.take n).map Prod.snd).reverse ((stk.drop n).head?.map Prod.snd)) := by
  unfold lloc
  have htop := prefix_get ha.ls (used_top _ _ stk)
  by_cases h0 : n = 0
  · subst h0
    rw [if_pos rfl, ha.lsp, htop]
    cases stk with
    | nil => rfl
    | cons a t => rfl
  · rw [if_neg h0, ha.lsp, sub_ok (by omega), Option.bind_eq_bind, Option.bind_some, get_entry ha (by omega) hn, htop]
    match stk, hn with
    | a :: t, hn =>
      have hl : ((List.take n (a :: t)).map Prod.snd).reverse.getLast? = some a.2 := by
        rw [List.getLast?_reverse, List.head?_map]
        match n, h0 with
        | n + 1, _ => rfl
      unfold ruleLoc
      rw [hl]
      cases hh : ((List.take n (a :: t)).map Prod.snd).reverse.head? with
      | none =>
        exfalso
        rw [List.head?_eq_none_iff] at hh
        have := congrArg List.length hh
        simp at this; omega
      | some f => rfl
    | [], hn => simp at hn; omega

theorem reduce_sim {A : Alloc} {c : Cfg St SV} {y : YY} (h : RelY c y) (hs : c.stk.length + 1 < 200) (r : Nat) : SimY A (doReduce (sem A) r c) (yyreduce A r y) := by
  unfold doReduce
  cases hl : ruleLen r with
  | none => trivial
  | some n =>
    cases hA : ruleLhs r with
    | none => trivial
    | some B =>
      simp only
      by_cases hn : c.stk.length < n
      · rw [if_pos hn]; trivial
      · rw [if_neg hn]
        have hn : n ≤ c.stk.length := by omega
        have ha := h.arr
        have hvs : ∃ v, y.vs[c.stk.length + 1 - n]? = some v := ⟨_, List.getElem?_eq_getElem (by rw [ha.vsl]; omega)⟩
        have hls : ∃ v, y.ls[c.stk.length + 1 - n]? = some v := ⟨_, List.getElem?_eq_getElem (by rw [ha.lsl]; omega)⟩
        obtain ⟨v1, hv1⟩ := hvs
        have hsubv : sub? (y.vsp + 1) n = some (c.stk.length + 1 - n) := by rw [ha.vsp]; exact sub_ok (by omega)
        have hsubl : sub? (y.lsp + 1) n = some (c.stk.length + 1 - n) := by rw [ha.lsp]; exact sub_ok (by omega)
        obtain ⟨l1, hl1⟩ := hls
        have hlo := lloc_ok ha hn
        have hrh := rhs_ok ha hn
        generalize hloc : ruleLoc ((c.stk.take n).map Prod.snd).reverse ((c.stk.drop n).head?.map Prod.snd) = loc at hlo
        have e0 : (sem A).reduce r ((c.stk.take n).map Prod.snd).reverse ((c.stk.drop n).head?.map Prod.snd) c.st =
            reduceRule A r ((c.stk.take n).map Prod.snd).reverse ((c.stk.drop n).head?.map Prod.snd) c.st := rfl
        rw [e0]
        unfold reduceRule
        cases hp : actions[r - 2]? with
        | none => trivial
        | some p =>
          simp only [hloc]
          have hpop : ∀ y1 : YY, y1.ss = y.ss → y1.vs = y.vs → y1.ls = y.ls → y1.ssp = y.ssp → y1.vsp = y.vsp → y1.lsp = y.lsp →
              popStack n y1 = some { y1 with vsp := c.stk.length - n, ssp := c.stk.length - n, lsp := c.stk.length - n } :=
            fun y1 g1 g2 g3 g4 g5 g6 => pop_ok (ha.congr g1 g2 g3 g4 g5 g6) hn
          unfold yyreduce
          simp only [Option.bind_eq_bind, hl, Option.bind_some, hsubv, hsubl, hv1, hl1, hp, hA, hlo, hrh, h.st]
          cases hrun : run A loc p (mkEnv (((c.stk.take n).map Prod.snd).reverse.map Prod.fst)) c.st with
          | ub => trivial
          | error st =>
            simp only
            intro r' st' hf
            simp only [finishRun, Option.bind_eq_bind] at hf
            cases hp1 : popAll (c.stk.drop n) st with
            | none => rw [hp1] at hf; cases hf
            | some st1 =>
              rw [hp1, Option.bind_some] at hf
              cases hp2 : dropLookahead c.la st1 with
              | none => rw [hp2] at hf; cases hf
              | some st2 =>
                rw [hp2, Option.bind_some] at hf
                cases hf
                rw [hpop { y with st := st, range1 := l1, len := n } rfl rfl rfl rfl rfl rfl, Option.bind_some]
                have ha2 : Arr (c.stk.drop n) { y with st := st, range1 := l1, len := n, vsp := c.stk.length - n, ssp := c.stk.length - n, lsp := c.stk.length - n } :=
                  ha.popped n rfl rfl rfl rfl rfl rfl
                have ht := ha2.top
                simp only at ht ⊢
                rw [ht, Option.bind_some]
                exact errlab1_ok (c.stk.drop n) 201 _ c.la _ _ (by rw [List.length_drop]; omega) (ha2.congr rfl rfl rfl rfl rfl rfl) rfl h.la rfl hp1 hp2
                  (by show y.blocks = _; rw [h.own, h.blocks]; rfl)
          | ok v st =>
            simp only
            rw [hpop { y with st := st, len := n } rfl rfl rfl rfl rfl rfl, Option.bind_some]
            have ha2 : Arr (c.stk.drop n) { y with st := st, len := n, vsp := c.stk.length - n, ssp := c.stk.length - n, lsp := c.stk.length - n } :=
              ha.popped n rfl rfl rfl rfl rfl rfl
            have ht := ha2.top
            simp only at ht ⊢
            rw [ht, Option.bind_some]
            cases hg : gotoState (topState (c.stk.drop n)) B with
            | none => trivial
            | some s =>
              rw [Option.bind_some]
              have ha3 : Arr (c.stk.drop n) { y with st := st, len := 0, vsp := c.stk.length - n, ssp := c.stk.length - n, lsp := c.stk.length - n } :=
                ha2.congr rfl rfl rfl rfl rfl rfl
              obtain ⟨ss, vs, ls, k1, k2⟩ := push_ok ha3 (by rw [List.length_drop]; omega) (gotoState_lt hg) v loc
              simp only at k1
              rw [k1, Option.bind_some]
              refine ⟨_, rfl, ?_⟩
              refine ⟨k2 _ rfl rfl rfl rfl rfl rfl, rfl, h.la, ?_, h.toks, rfl, rfl, h.err, h.msg, h.own, h.blocks⟩
              intro t w hw
              show w.2 = st.yylloc.loc
              rw [act_loc hp hrun]
              exact h.loc t w hw

theorem act_sim {A : Alloc} {J : Junk} (hJ : ∀ n, (J.heap n).length = n) {c : Cfg St SV} {y : YY} (h : RelY c y) (hs : c.stk.length + 1 < 200) (a : Option Act)
    (hlt : ∀ s, a = some (.shift s) → s < 656) : SimY A (doAct (sem A) a c) (yyact A J a y) := by
  cases a with
  | none => trivial
  | some a =>
    cases a with
    | reduce r => exact reduce_sim h hs r
    | shift s =>
      unfold doAct yyact
      simp only [Option.bind_eq_bind, Option.bind_some]
      cases hla : c.la with
      | none => trivial
      | some tv =>
        obtain ⟨t, v⟩ := tv
        have hl := h.la
        rw [hla] at hl
        obtain ⟨k1, k2⟩ := hl
        have k3 := h.loc t v hla
        have ha1 : Arr c.stk { y with errstatus := y.errstatus - 1, chr := -2 } := h.arr.congr rfl rfl rfl rfl rfl rfl
        obtain ⟨ss, vs, ls, p1, p2⟩ := push_ok ha1 hs (hlt s rfl) y.lval y.st.yylloc.loc
        simp only at p1 ⊢
        rw [p1, Option.bind_some]
        refine ⟨_, rfl, ?_⟩
        have e : (v : SV) = (y.lval, y.st.yylloc.loc) := by
          rw [k2, h.st, ← k3]
        refine ⟨?_, rfl, rfl, ?_, h.toks, h.st, h.len, ?_, h.msg, h.own, h.blocks⟩
        · rw [e]; exact p2 _ rfl rfl rfl rfl rfl rfl
        · intro t w hw; cases hw
        · show y.errstatus - 1 = 0; rw [h.err]
    | error =>
      unfold doAct yyact
      simp only [Option.bind_eq_bind, Option.bind_some]
      intro r st hf
      simp only [finishRun, Option.bind_eq_bind] at hf
      cases hla : c.la with
      | none => rw [hla] at hf; cases hf
      | some tv =>
        obtain ⟨t, v⟩ := tv
        rw [hla, Option.bind_some] at hf
        have hl := h.la
        rw [hla] at hl
        obtain ⟨k1, k2⟩ := hl
        have htr : yytr y.chr = some (tsym t) := by rw [k1, yytr_ok]
        simp only at hf
        cases hp1 : popAll c.stk (c.st.yyerror A (syntaxMsg (topState c.stk) (tsym t)) c.st.yylloc.loc.fl c.st.yylloc.loc.fc) with
        | none => rw [hp1] at hf; cases hf
        | some st1 =>
          rw [hp1, Option.bind_some] at hf
          cases hp2 : dropLookahead (some (t, v)) st1 with
          | none => rw [hp2] at hf; cases hf
          | some st2 =>
            rw [hp2, Option.bind_some] at hf
            cases hf
            obtain ⟨msg, al, o, b, e1, e2⟩ := report_ok A hJ (tsym_lt t) h.arr h.msg h.own h.blocks
            have hc : ¬ y.chr = -2 := by rw [k1]; split <;> omega
            unfold errlab
            simp only [Option.bind_eq_bind, htr, Option.map_some, if_neg hc, Option.bind_some, h.err, if_true]
            have e1' : report A J (Int.ofNat (tsym t)) y = _ := e1
            rw [e1', Option.bind_some]
            simp only [Bool.false_eq_true, if_false]
            rw [if_neg (by rw [h.err]; decide)]
            refine errlab1_ok c.stk 201 _ (some (t, v)) _ _ (by omega) (h.arr.congr rfl rfl rfl rfl rfl rfl) h.state ⟨k1, k2⟩ h.len ?_ hp2 e2
            show popAll c.stk (y.st.yyerror A _ _ _) = _
            rw [h.st]; exact hp1

theorem step_sim {A : Alloc} {J : Junk} (hJ : ∀ n, (J.heap n).length = n) {c : Cfg St SV} {y : YY} (h : RelY c y) : SimY A (step (sem A) stackSize c) (yystep A J y) := by
  have hb : y.blocks = if y.own then 1 else 0 := by rw [h.own, h.blocks]; rfl
  unfold step yystep
  rw [h.arr.ssp]
  by_cases hx : stackSize ≤ c.stk.length + 1
  · rw [if_pos hx, if_pos (show stackSize - 1 ≤ c.stk.length by unfold stackSize at hx ⊢; omega)]
    intro r st hf
    simp only [finishRun, Option.bind_eq_bind] at hf
    cases hp1 : dropLookahead c.la (c.st.yyerror A b!"memory exhausted" c.st.yylloc.loc.fl c.st.yylloc.loc.fc) with
    | none => rw [hp1] at hf; cases hf
    | some st1 =>
      rw [hp1, Option.bind_some] at hf
      cases hp2 : popAll c.stk st1 with
      | none => rw [hp2] at hf; cases hf
      | some st2 =>
        rw [hp2, Option.bind_some] at hf
        cases hf
        unfold yyexhausted
        refine yyreturn_ok (stk := c.stk) (la := c.la) 2 (h.arr.congr rfl rfl rfl rfl rfl rfl) h.la h.len ?_ hp2 hb
        simp only [h.st]; exact hp1
  · rw [if_neg hx, if_neg (show ¬ stackSize - 1 ≤ c.stk.length by unfold stackSize at hx ⊢; omega), h.state]
    have hs : c.stk.length + 1 < 200 := by unfold stackSize at hx; omega
    simp only
    by_cases h69 : (topState c.stk : Int) = YYFINAL
    · rw [if_pos h69, if_pos h69]
      intro r st hf
      simp only [finishRun, Option.bind_eq_bind] at hf
      cases hp1 : dropLookahead c.la c.st with
      | none => rw [hp1] at hf; cases hf
      | some st1 =>
        rw [hp1, Option.bind_some] at hf
        cases hp2 : popAll c.stk st1 with
        | none => rw [hp2] at hf; cases hf
        | some st2 =>
          rw [hp2, Option.bind_some] at hf
          cases hf
          exact yyreturn_ok 0 h.arr h.la h.len (by rw [h.st]; exact hp1) hp2 hb
    · rw [if_neg h69, if_neg h69]
      cases hno : noToken (topState c.stk) with
      | none => trivial
      | some b =>
        rw [Option.bind_eq_bind, Option.bind_some]
        cases b with
        | true => exact act_sim hJ h hs _ (fun s e => absurd e defaultAct_noShift)
        | false =>
          simp only
          have fin : ∀ (c1 : Cfg St SV) (y1 : YY) (t : Tok) (v : SV), c1.la = some (t, v) → (∀ z, z = (if t.code ≤ 0 then 0 else t.code) → RelY c1 { y1 with chr := z }) →
              c1.stk = c.stk → y1.state = topState c.stk → (y1.chr = t.code ∨ y1.chr = if t.code ≤ 0 then 0 else t.code) →
              SimY A (doAct (sem A) (tokenAct (topState c.stk) (tsym t)) c1)
                (if y1.chr ≤ 0 then yyact A J (tokenAct y1.state 0) { y1 with chr := 0 } else (yytr y1.chr).bind fun tok => yyact A J (tokenAct y1.state tok) y1) := by
            intro c1 y1 t v hla hr hst hys hch
            by_cases ht : t.code ≤ 0
            · have : y1.chr ≤ 0 := by rcases hch with e | e <;> rw [e] <;> simp [ht]
              rw [if_pos this, show tokenAct y1.state 0 = tokenAct (topState c.stk) 0 by rw [hys]]
              have e0 : tsym t = 0 := by unfold tsym tokSym; rw [if_pos ht]
              rw [e0]
              exact act_sim hJ (hr 0 (by rw [if_pos ht])) (by rw [hst]; exact hs) _ (fun s e => tokenAct_lt e)
            · have hce : y1.chr = t.code := by
                rcases hch with e | e
                · exact e
                · rw [e, if_neg ht]
              rw [if_neg (by rw [hce]; exact ht), hys]
              have htr : yytr y1.chr = some (tsym t) := by
                have := yytr_ok t
                rw [if_neg ht, ← hce] at this; exact this
              rw [htr, Option.bind_some]
              have e1 : ({ y1 with chr := y1.chr } : YY) = y1 := rfl
              exact act_sim hJ (e1 ▸ hr y1.chr (by rw [hce, if_neg ht])) (by rw [hst]; exact hs) _ (fun s e => tokenAct_lt e)
          cases hla : c.la with
          | some tv =>
            obtain ⟨t, v⟩ := tv
            have hl := h.la
            rw [hla] at hl
            obtain ⟨k1, k2⟩ := hl
            have hc : ¬ y.chr = -2 := by rw [k1]; split <;> omega
            have er : yyread A y = some y := by unfold yyread; rw [if_neg hc]
            rw [er, Option.bind_eq_bind, Option.bind_some]
            refine fin c y t v hla ?_ rfl h.state (.inr k1)
            intro z hz
            rw [← k1] at hz; rw [hz]; exact h
          | none =>
            have hc : y.chr = -2 := by have := h.la; rw [hla] at this; exact this
            cases ht : c.toks with
            | nil => trivial
            | cons t ts =>
              simp only
              have er : yyread A y = some { y with chr := t.code, lval := (readTok A t y.st).1.1, toks := ts, st := (readTok A t y.st).2 } := by
                unfold yyread; rw [if_pos hc, h.toks, ht]
              rw [er, Option.bind_eq_bind, Option.bind_some]
              refine fin { c with la := some (t, (readTok A t c.st).1), toks := ts, st := (readTok A t c.st).2 } _ t (readTok A t c.st).1 rfl ?_ rfl h.state (.inl rfl)
              intro z hz
              refine ⟨h.arr.congr rfl rfl rfl rfl rfl rfl, h.state, ⟨hz, by rw [h.st]⟩, ?_, rfl, by rw [h.st], h.len, h.err, h.msg, h.own, h.blocks⟩
              intro t' w hw
              cases hw; rfl

theorem loop_sim {A : Alloc} {J : Junk} (hJ : ∀ n, (J.heap n).length = n) : ∀ (f : Nat) (c : Cfg St SV) (y : YY) (o : Outcome) (c' : Cfg St SV) (r : Int) (st : St), RelY c y →
    runN (sem A) stackSize f c = some (some (o, c')) → finishRun A o c' = some (r, st) → yyloop A J f y = some (r, st, 0) := by
  intro f
  induction f with
  | zero => intro c y o c' r st _ h; cases h
  | succ f ih =>
    intro c y o c' r st h hr hf
    have hs := step_sim (A := A) hJ h
    unfold runN at hr
    unfold yyloop
    cases hx : step (sem A) stackSize c with
    | ub => rw [hx] at hr; cases hr
    | run c1 =>
      rw [hx] at hr hs
      obtain ⟨y', e1, e2⟩ := hs
      rw [e1, Option.bind_eq_bind, Option.bind_some]
      exact ih c1 y' o c' r st e2 hr hf
    | done o' c1 =>
      rw [hx] at hr hs
      cases hr
      rw [hs r st hf]; rfl

/-- The sizes of the arrays. -/
structure Junk.Ok (J : Junk) : Prop where
  ss : J.ss.length = 200
  vs : J.vs.length = 200
  ls : J.ls.length = 200
  msg : J.msg.length = 128
  heap : ∀ n, (J.heap n).length = n

theorem yyparse_ok {A : Alloc} {J : Junk} (hJ : J.Ok) {toks : List Tok} {r : Res} {x : Int} {st : St} (h : hsqlParse A toks r = some (x, st)) :
    yyparse A J toks r = some (x, st, 0) := by
  unfold hsqlParse at h
  split at h
  · rename_i o c hr
    unfold yyparse yyinit
    rw [wr_ok (by rw [hJ.ls]; decide), wr_ok (by rw [hJ.ss]; decide)]
    simp only [Option.bind_eq_bind, Option.bind_some]
    refine loop_sim hJ.heap _ (initCfg toks (startSt r)) _ o c x st ?_ hr h
    obtain ⟨s0, ss, e1⟩ : ∃ a l, J.ss = a :: l := List.exists_cons_of_ne_nil (by intro e; have := hJ.ss; rw [e] at this; cases this)
    obtain ⟨v0, vs, e2⟩ : ∃ a l, J.vs = a :: l := List.exists_cons_of_ne_nil (by intro e; have := hJ.vs; rw [e] at this; cases this)
    obtain ⟨l0, ls, e3⟩ : ∃ a l, J.ls = a :: l := List.exists_cons_of_ne_nil (by intro e; have := hJ.ls; rw [e] at this; cases this)
    refine ⟨⟨?_, ?_, ⟨v0, ?_⟩, hJ.vs, ?_, ?_, rfl, rfl, rfl, ?_⟩, rfl, rfl, ?_, rfl, rfl, rfl, rfl, hJ.msg, rfl, rfl⟩
    · simp only [e1, List.set_cons_zero]
      exact (List.prefix_append [0] ss)
    · simp only [List.length_set, hJ.ss]
    · simp only [e2]
      exact (List.prefix_append [v0] vs)
    · simp only [e3, List.set_cons_zero]
      exact (List.prefix_append [_] ls)
    · simp only [List.length_set, hJ.ls]
    · intro p hp; cases hp
    · intro t v e; cases e
  · cases h

end Verif.Sem

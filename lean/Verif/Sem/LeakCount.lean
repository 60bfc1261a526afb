import Verif.Sem.Leak
/-! How much an accepted text leaks. Proof-internal. -/
namespace Verif.Sem
open Verif.LR Verif.Lex

section
variable {ok : Bytes → Prop} {good : List V → Prop} {A : Alloc} {loc : Loc}

theorem run274_leak {vs : List V} (hv : SatL ok good ((rhs 274).map symTy) vs) {v : V} {st st' : St} (h : run A loc (act 274) (mkEnv vs) st = .ok v st') :
    st'.leaked.length = st.leaked.length + 1 := by
  have er : rhs 274 = [N.operand, T.LBRACKET, N.int_literal, T.RBRACKET] := by decide +kernel
  rw [er] at hv
  cases hv with
  | @cons _ v1 _ _ h1 hv =>
  cases hv with
  | @cons _ v2 _ _ h2 hv =>
  cases hv with
  | @cons _ v3 _ _ h3 hv =>
  cases hv with
  | @cons _ v4 _ _ h4 hv =>
  cases hv
  have e2 : symTy T.LBRACKET = .undef := rfl
  have e4 : symTy T.RBRACKET = .undef := rfl
  rw [e2] at h2; rw [e4] at h4
  cases h2; cases h4
  have e3 : symTy N.int_literal = Kind.int.p := rfl
  rw [e3] at h3
  have hno : ∃ a fs, v3 = .obj a .Expr fs ∧ addrsL fs = [] ∧ fs.length = 18 := by
    unfold Kind.int ExprP.p at h3
    cases h3 with
    | @obj a c fs _ hfs _ => 
      refine ⟨a, _, rfl, noAddrAll_sound hfs (by decide +kernel), ?_⟩
      have := hfs.len
      simpa using this.symm
  obtain ⟨a, fs, rfl, hf, hl⟩ := hno
  match fs, hl with
  | [x0, x1, x2, x3, x4, x5, x6, x7, x8, x9, x10, x11, x12, x13, x14, x15, x16, x17], _ =>
    have e : act 274 = act274 := rfl
    rw [e] at h
    simp [act274, makeArrayIndex, newE, setF, newExpr, mkEnv, run, evalRv, evalAtoms, evalAtom, getP, putP, V.get, V.put, St.log, St.bump] at h
    by_cases hu : v1.isUndef = true
    · simp [hu] at h
    · simp [hu, V.get, V.put, Expr.expr, Expr.ival] at h
      cases x10 <;> simp [V.get, V.put] at h
      all_goals
        obtain ⟨_, rfl⟩ := h
        simp only [addrsL, List.append_eq_nil_iff] at hf
        simp [addrsL, V.addrs, hf]

theorem run309_val {v1 v : V} {st st' : St} (h : run A loc (act 309) (mkEnv [v1]) st = .ok v st') : ∃ w, v = .tup [.null, w] := by
  have e : act 309 = act309 := rfl
  rw [e] at h
  by_cases hu : v1.isUndef = true
  · simp [act309, mkEnv, run, evalRv, evalAtoms, evalAtom, getP, putP, V.get, V.put, St.log, TableName.schema, TableName.name, hu] at h
  · simp [act309, mkEnv, run, evalRv, evalAtoms, evalAtom, getP, putP, V.get, V.put, St.log, TableName.schema, TableName.name, hu] at h
    exact ⟨_, h.1.symm⟩

theorem run310_val {v1 v2 v3 v : V} {st st' : St} (h : run A loc (act 310) (mkEnv [v1, v2, v3]) st = .ok v st') : ∃ w, v = .tup [v1, w] := by
  have e : act 310 = act310 := rfl
  rw [e] at h
  by_cases hu : v1.isUndef = true
  · simp [act310, mkEnv, run, evalRv, evalAtoms, evalAtom, getP, putP, V.get, V.put, St.log, TableName.schema, TableName.name, hu] at h
  · by_cases hu3 : v3.isUndef = true
    · simp [act310, mkEnv, run, evalRv, evalAtoms, evalAtom, getP, putP, V.get, V.put, St.log, TableName.schema, TableName.name, hu, hu3] at h
    · simp [act310, mkEnv, run, evalRv, evalAtoms, evalAtom, getP, putP, V.get, V.put, St.log, TableName.schema, TableName.name, hu, hu3] at h
      exact ⟨_, h.1.symm⟩

theorem run58_leak {v3 v4 v8 s n : V} {v : V} {st st' : St} (h : run A loc (act 58) (mkEnv [.undef, .undef, v3, v4, .undef, .tup [s, n], .undef, v8, .undef]) st = .ok v st') :
    st'.leaked.length = st.leaked.length + s.addrs.length := by
  have e : act 58 = act58 := rfl
  rw [e] at h
  by_cases hu4 : v4.isUndef = true
  · simp [act58, newCreateStatement, mkEnv, run, evalRv, evalAtoms, evalAtom, getP, putP, V.get, V.put, St.log, St.bump, CreateStatement.indexName, hu4] at h
  by_cases hun : n.isUndef = true
  · cases v3 <;> simp [act58, newCreateStatement, mkEnv, run, evalRv, evalAtoms, evalAtom, getP, putP, V.get, V.put, St.log, St.bump, CreateStatement.indexName, CreateStatement.ifNotExists, CreateStatement.tableName, TableName.name, hu4, hun] at h
  by_cases hu8 : v8.isUndef = true
  · cases v3 <;> simp [act58, newCreateStatement, mkEnv, run, evalRv, evalAtoms, evalAtom, getP, putP, V.get, V.put, St.log, St.bump, CreateStatement.indexName, CreateStatement.ifNotExists, CreateStatement.tableName, TableName.name, CreateStatement.indexColumns, hu4, hun, hu8] at h
  cases v3 <;> simp [act58, newCreateStatement, mkEnv, run, evalRv, evalAtoms, evalAtom, getP, putP, V.get, V.put, St.log, St.bump, CreateStatement.indexName, CreateStatement.ifNotExists, CreateStatement.tableName, TableName.name, CreateStatement.indexColumns, hu4, hun, hu8] at h
  all_goals
    obtain ⟨_, rfl⟩ := h
    simp [addrsL, V.addrs]
end

/-- One if the tree is a table name with a schema (rule 310). -/
def tblLeak : Option Tree → Nat
  | some (.node 310 _) => 1
  | _ => 0

/-- The blocks the action of a rule leaks, given the children: one for an array index `a[1]` (rule 274), one for CREATE INDEX (rule 58)
with a table name that has a schema (rule 310). -/
def ownLeak (r : Nat) (cs : List Tree) : Nat :=
  if r = 274 then 1 else if r = 58 then tblLeak cs[5]? else 0

mutual
/-- The blocks the actions for a tree leak. -/
def leaksT : Tree → Nat
  | .leaf _ => 0
  | .node r cs => ownLeak r cs + leaksL cs
def leaksL : List Tree → Nat
  | [] => 0
  | t :: l => leaksT t + leaksL l
end

theorem leaksL_append : ∀ (a b : List Tree), leaksL (a ++ b) = leaksL a + leaksL b
  | [], b => by simp [leaksL]
  | x :: a, b => by simp [leaksL, leaksL_append a b]; omega

theorem leaksL_reverse : ∀ (a : List Tree), leaksL a.reverse = leaksL a
  | [] => rfl
  | x :: a => by simp [leaksL, leaksL_append, leaksL_reverse a]; omega

def stkLeaks (stk : TStk) : Nat := leaksL (stk.map Prod.snd)

theorem stkLeaks_pop (n : Nat) (stk : TStk) : leaksL (popTrees n stk) + stkLeaks (stk.drop n) = stkLeaks stk := by
  unfold popTrees stkLeaks
  rw [leaksL_reverse, ← leaksL_append, ← List.map_append, List.take_append_drop]

/-- What the values of table names look like. -/
def TblVal (cs : List (Nat × SV)) (ts : TStk) : Prop := ∀ (i : Nat) x y, cs[i]? = some x → ts[i]? = some y →
  (∀ c, y.2 = .node 309 c → ∃ w, x.2.1 = .tup [.null, w]) ∧ (∀ c, y.2 = .node 310 c → ∃ a b w, x.2.1 = .tup [.str a b, w])

theorem TblVal.drop {cs : List (Nat × SV)} {ts : TStk} (h : TblVal cs ts) (n : Nat) : TblVal (cs.drop n) (ts.drop n) := by
  intro i x y hx hy
  rw [List.getElem?_drop] at hx hy
  exact h _ x y hx hy

theorem TblVal.cons {cs : List (Nat × SV)} {ts : TStk} (h : TblVal cs ts) {x : Nat × SV} {y : Nat × Tree}
    (h1 : (∀ c, y.2 = .node 309 c → ∃ w, x.2.1 = .tup [.null, w]) ∧ (∀ c, y.2 = .node 310 c → ∃ a b w, x.2.1 = .tup [.str a b, w])) : TblVal (x :: cs) (y :: ts) := by
  intro i x' y' hx hy
  cases i with
  | zero => simp only [List.getElem?_cons_zero, Option.some.injEq] at hx hy; subst hx; subst hy; exact h1
  | succ i => simp only [List.getElem?_cons_succ] at hx hy; exact h i _ _ hx hy

theorem tbl_rules : allN 358 (fun r => bor (bnot (Nat.beq (lhsF r) N.table_name)) (bor (Nat.beq r 309) (Nat.beq r 310))) = true := by decide +kernel

section
variable {A : Alloc} {toks : List Tok} {r0 : Res}

theorem rhs58 : rhs 58 = [T.CREATE, T.INDEX, N.opt_not_exists, N.opt_index_name, T.ON, N.table_name, T.LPAREN, N.ident_commalist, T.RPAREN] := by decide +kernel
theorem rhs309 : rhs 309 = [T.IDENTIFIER] := by decide +kernel
theorem rhs310 : rhs 310 = [T.IDENTIFIER, T.DOT, T.IDENTIFIER] := by decide +kernel

theorem child_at {n : Nat} {cs : List (Nat × SV)} {ts : TStk} (hn : n ≤ cs.length) (hsim : cs.map Prod.fst = ts.map Prod.fst) {j : Nat} (hj : j < n) :
    ∃ x y, cs[n - 1 - j]? = some x ∧ ts[n - 1 - j]? = some y ∧ (rhsVals cs n)[j]? = some x.2.1 ∧ (popTrees n ts)[j]? = some y.2 := by
  have hl : cs.length = ts.length := by simpa using congrArg List.length hsim
  have h1 : n - 1 - j < cs.length := by omega
  have h2 : n - 1 - j < ts.length := by omega
  refine ⟨cs[n - 1 - j], ts[n - 1 - j], List.getElem?_eq_getElem h1, List.getElem?_eq_getElem h2, ?_, ?_⟩
  · unfold rhsVals vals
    rw [List.getElem?_reverse (by simp; omega), List.getElem?_map, List.getElem?_take]
    simp only [List.length_map, List.length_take, Nat.min_eq_left hn]
    rw [if_pos (by omega), List.getElem?_eq_getElem h1]; rfl
  · unfold popTrees
    rw [List.getElem?_reverse (by simp; omega), List.getElem?_map, List.getElem?_take]
    simp only [List.length_map, List.length_take, Nat.min_eq_left (show n ≤ ts.length by omega)]
    rw [if_pos (by omega), List.getElem?_eq_getElem h2]; rfl

/-- As long as no error was reported, the number of leaked blocks is what the trees say. -/
theorem count_rc (ht : ∀ t ∈ toks, TokShape t) {c : Cfg St SV} {stk : TStk} (h : RC (sem A) toks (startSt r0) c stk) :
    TblVal c.stk stk ∧ (c.st.res.errMsg = none → c.st.leaked.length = stkLeaks stk) := by
  have hty : ∀ c stk, RC (sem A) toks (startSt r0) c stk → Typed (fun b => ∃ t ∈ toks, t.val = .sval b) (fun _ => True) c stk := by
    intro c stk h
    exact (typed_rc (A := A) (r0 := r0) good66_true ht (fun t h1 b h2 => ⟨t, h1, h2⟩) h).2 (.inl fun _ => trivial)
  induction h with
  | init => exact ⟨fun i x y hx => by simp [initCfg] at hx, fun _ => rfl⟩
  | rd c stk t ts h h1 h2 ih => exact ih
  | shift c stk t v s h h1 h2 h3 ih =>
    refine ⟨ih.1.cons ⟨fun c h => (by cases h), fun c h => (by cases h)⟩, fun hm => ?_⟩
    rw [ih.2 hm]
    simp [stkLeaks, leaksL, leaksT]
  | reduce c stk r s v st h hat hred ih =>
    obtain ⟨i4, i5⟩ := ih
    obtain ⟨e1, e2⟩ := reduce_ok hat.r1 hat.r2 hred
    have hT := hty c stk h
    have hv := hT.rhs hat
    refine ⟨(i4.drop _).cons ⟨fun cs h => ?_, fun cs h => ?_⟩, fun hm => ?_⟩
    · cases h
      rw [rhs309] at hv e2
      generalize rhsVals c.stk _ = vs at hv e2
      cases hv with
      | @cons _ v1 _ _ hv1 hv =>
      cases hv
      exact run309_val e2
    · cases h
      rw [rhs310] at hv e2
      generalize rhsVals c.stk _ = vs at hv e2
      cases hv with
      | @cons _ v1 _ _ hv1 hv =>
      cases hv with
      | @cons _ v2 _ _ hv2 hv =>
      cases hv with
      | @cons _ v3 _ _ hv3 hv =>
      cases hv
      have e : symTy T.IDENTIFIER = .str := rfl
      rw [e] at hv1
      cases hv1 with
      | str a _ =>
        obtain ⟨w, hw⟩ := run310_val e2
        exact ⟨_, _, w, hw⟩
    · have hm : st.res.errMsg = none := hm
      have hm' := run_err hat.r1 hat.r2 (rhsVals_len hat) e2 hm
      have hsum : stkLeaks ((s, .node r (popTrees (rhs r).length stk)) :: stk.drop (rhs r).length) = stkLeaks stk + ownLeak r (popTrees (rhs r).length stk) := by
        have := stkLeaks_pop (rhs r).length stk
        simp only [stkLeaks, List.map_cons, leaksL, leaksT] at this ⊢
        omega
      rw [hsum, ← i5 hm']
      show st.leaked.length = _
      by_cases h3 : r = 2
      · subst h3
        have er : (rhs 2).map symTy = [symTy N.statement_list, .undef] := by
          have : rhs 2 = [N.statement_list, N.opt_semicolon] := by decide +kernel
          rw [this]; rfl
        rw [er] at hv
        generalize rhsVals c.stk (rhs 2).length = vs at hv e2
        cases hv with
        | @cons _ v1 _ _ hv1 hv2 =>
          cases hv2 with
          | @cons _ v2 _ _ hv3 hv4 =>
            cases hv4; cases hv3
            have : ∃ b l, v1 = .vec b l := by
              have e : act 2 = .finish := rfl
              rw [e] at e2
              cases v1 <;> first | exact ⟨_, _, rfl⟩ | (simp [run, mkEnv, getP, V.get] at e2)
            obtain ⟨b, l, rfl⟩ := this
            rw [run2_leak e2]
            rfl
      by_cases h274 : r = 274
      · subst h274
        rw [run274_leak hv e2]
        rfl
      by_cases h58 : r = 58
      · subst h58
        obtain ⟨x, y, hx, hy, hxv, hyt⟩ := child_at (j := 5) hat.len hat.sim (by rw [rhs58]; decide)
        have hsy : y.2.sym = N.table_name := by
          have h5 : ((popTrees (rhs 58).length stk).map Tree.sym)[5]? = some y.2.sym := by rw [List.getElem?_map, hyt]; rfl
          rw [hat.syms, rhs58] at h5
          simpa using h5.symm
        have hwf := hat.wf
        simp only [Tree.WF] at hwf
        have hyw : y.2.WF := by
          have hmem := List.mem_of_getElem? hyt
          have : ∀ (l : List Tree), WFL l → ∀ t ∈ l, t.WF := by
            intro l
            induction l with
            | nil => intro _ t ht; cases ht
            | cons a l ih =>
              intro h t ht
              rcases List.mem_cons.1 ht with rfl | ht
              · exact h.1
              · exact ih h.2 t ht
          exact this _ hwf.2.2.2 _ hmem
        have hown : ownLeak 58 (popTrees (rhs 58).length stk) = tblLeak (some y.2) := by
          unfold ownLeak
          rw [if_neg (by decide), if_pos rfl, hyt]
        rw [hown]
        have hlen := rhsVals_len hat
        rw [rhs58] at hv e2 hxv hlen
        generalize rhsVals c.stk _ = vs at hv e2 hxv hlen
        have hval := i4 _ x y hx hy
        have key : ∀ s n, x.2.1 = .tup [s, n] → st.leaked.length = c.st.leaked.length + s.addrs.length := by
          intro s' n' hsn
          cases hv with
          | @cons _ v1 _ _ hv1 hv =>
          cases hv with
          | @cons _ v2 _ _ hv2 hv =>
          cases hv with
          | @cons _ v3 _ _ hv3 hv =>
          cases hv with
          | @cons _ v4 _ _ hv4 hv =>
          cases hv with
          | @cons _ v5 _ _ hv5 hv =>
          cases hv with
          | @cons _ v6 _ _ hv6 hv =>
          cases hv with
          | @cons _ v7 _ _ hv7 hv =>
          cases hv with
          | @cons _ v8 _ _ hv8 hv =>
          cases hv with
          | @cons _ v9 _ _ hv9 hv =>
          cases hv
          simp only [List.getElem?_cons_succ, List.getElem?_cons_zero, Option.some.injEq] at hxv
          subst hxv
          have e : ∀ t, t = T.CREATE ∨ t = T.INDEX ∨ t = T.ON ∨ t = T.LPAREN ∨ t = T.RPAREN → symTy t = .undef := by
            rintro t (rfl | rfl | rfl | rfl | rfl) <;> rfl
          rw [e _ (by simp)] at hv1 hv2 hv5 hv7 hv9
          cases hv1; cases hv2; cases hv5; cases hv7; cases hv9
          rw [hsn] at e2
          exact run58_leak e2
        cases hyt' : y.2 with
        | leaf t =>
          exfalso
          rw [hyt'] at hsy
          have := tsym_lt t
          simp only [Tree.sym] at hsy
          rw [hsy] at this
          exact absurd this (by decide)
        | node r' cs =>
          rw [hyt'] at hsy hyw
          simp only [Tree.WF, rules_len] at hyw
          have hr := allN_spec tbl_rules r' hyw.2.1
          rw [bor_iff, bnot_iff, bor_iff, beq_iff, beq_iff, ← lhs_eq hyw.2.1] at hr
          simp only [Tree.sym] at hsy
          rcases hr with hr | rfl | rfl
          · rw [hsy] at hr; exact absurd hr (by decide)
          · obtain ⟨w, hw⟩ := hval.1 _ hyt'
            rw [key _ _ hw]; rfl
          · obtain ⟨a, b, w, hw⟩ := hval.2 _ hyt'
            rw [key _ _ hw]; rfl
      · have := rule_sound A (redLoc c.stk (rhs r).length) hat.r1 hat.r2 h3 (fun _ _ => trivial) hv c.st
        rw [e2] at this
        have hl : leaky r = false := by simp [leaky, h274, h58]
        rw [this.2.2.1 hl hm]
        simp [ownLeak, h274, h58]

/-- An accepted parse leaks what the derivation tree says. -/
theorem leak_count {ts : List Tok} {e : Tok} {junk : List Tok} (hin : Input toks ts e junk) (ht : ∀ t ∈ toks, TokShape t) (h0 : r0.errMsg = none)
    {st : St} (hp : hsqlParse A toks r0 = some (0, st)) : ∃ t, Derives ts t ∧ st.leaked.length = leaksT t := by
  obtain ⟨n, c, stk, x, hR, hx, hs, hrun⟩ := run_main hin (sem A) (startSt r0)
  have hty : Typed (fun b => ∃ t ∈ toks, t.val = .sval b) (fun _ => True) c stk :=
    (typed_rc (A := A) (r0 := r0) good66_true ht (fun t h1 b h2 => ⟨t, h1, h2⟩) hR.rc).2 (.inl fun _ => trivial)
  have hi := hR.inv
  have hsim := hi.sim.1
  unfold hsqlParse at hp
  rw [hrun] at hp
  cases hs with
  | accept s t h1 h2 h3 h4 =>
    simp only [finishRun, Option.bind_eq_bind, Option.bind_eq_some_iff] at hp
    obtain ⟨s1, e1, s2, e2, e3⟩ := hp
    cases e3
    have hsy : t.sym = N.input := h3.2.1
    have hm : c.st.res.errMsg = none := by
      rcases err_rc h0 hR.rc with h | ⟨p, hp, hc⟩
      · exact h
      · exfalso
        rw [h1] at hp
        simp only [List.mem_cons, List.not_mem_nil, or_false] at hp
        have hge := List.all_eq_true.1 carriers_behind _ hc
        rw [Bool.and_eq_true] at hge
        rcases hp with rfl | rfl
        · have := tsym_lt e
          have := Nat.le_of_ble_eq_true hge.2
          simp only [Tree.sym] at this
          omega
        · rw [hsy] at hc; exact absurd hc (by decide)
    have hst : c.stk.map (fun x => (yystos.getD x.1 0).toNat) = syms stk := by
      have h1 : c.stk.map (fun x => (yystos.getD x.1 0).toNat) = (c.stk.map Prod.fst).map (fun s => (yystos.getD s 0).toNat) := by simp [Function.comp_def]
      rw [h1, hsim, List.map_map]
      exact List.map_congr_left (fun x hx => stk_stos hi.ok x hx)
    have hclean : Clean c.stk stk := by
      have hc : ((List.range 199).all fun s => !leakySyms.contains s) = true := by decide +kernel
      have he := List.all_eq_true.1 hc (tsym e) (by have := tsym_lt e; simp; omega)
      rw [h1]
      have he' : leakySyms.contains (tsym e) = false := by simpa using he
      have hi' : leakySyms.contains t.sym = false := by rw [hsy]; decide
      generalize c.stk = l
      cases l with
      | nil => simp only [Clean]
      | cons a l =>
        refine And.intro (.inl he') ?_
        cases l with
        | nil => simp only [Clean]
        | cons b l =>
          refine And.intro (.inl hi') ?_
          cases l <;> simp only [Clean]
    rw [popAll_clean c.stk stk hst (sym_lt hi.ok) hty.stk hclean e2, dropLa_clean hty.la e1]
    refine ⟨t, h3, ?_⟩
    rw [(count_rc ht hR.rc).2 hm, h1]
    simp [stkLeaks, leaksL, leaksT]
  | exhausted h1 =>
    simp [finishRun, Option.bind_eq_some_iff] at hp
  | syntaxError t rem h1 h2 h3 =>
    simp [finishRun, Option.bind_eq_some_iff] at hp
  | semError r st h1 h2 h3 h4 h5 h6 h7 =>
    simp [finishRun, Option.bind_eq_some_iff] at hp
  | ub r => cases hp
end

mutual
/-- The number of CREATE INDEX statements (rule 58) whose table name has a schema (rule 310). -/
def qualIdx : Tree → Nat
  | .leaf _ => 0
  | .node r cs => (if r = 58 then tblLeak cs[5]? else 0) + qualIdxL cs
def qualIdxL : List Tree → Nat
  | [] => 0
  | t :: l => qualIdx t + qualIdxL l
end

/-- How many of the tokens are the terminal `s`. -/
def countSym (s : Nat) (ts : List Tok) : Nat := (ts.map tsym).count s

theorem countSym_append (s : Nat) (a b : List Tok) : countSym s (a ++ b) = countSym s a + countSym s b := by simp [countSym]

theorem bracket_rules : allN 358 (fun r => Nat.beq ((rhsF r).count T.LBRACKET) ((rhsF r).count T.ARRAY + bif Nat.beq r 274 then 1 else 0)) = true := by decide +kernel

mutual
theorem brackets : ∀ {t : Tree}, t.WF → countSym T.LBRACKET t.yield + [t.sym].count T.ARRAY + qualIdx t = countSym T.ARRAY t.yield + leaksT t + [t.sym].count T.LBRACKET
  | .leaf t, _ => by simp [Tree.yield, countSym, Tree.sym, qualIdx, leaksT]; omega
  | .node r cs, h => by
    simp only [Tree.WF, rules_len] at h
    obtain ⟨g1, g2, g3, g4⟩ := h
    have hl := bracketsL g4
    rw [g3] at hl
    have hb := allN_spec bracket_rules r g2
    rw [beq_iff, ← rhs_eq g2] at hb
    have hge : 199 ≤ lhs r := lhs_ge (by omega) g2
    have c1 : [lhs r].count T.ARRAY = 0 := by
      rw [List.count_eq_zero]; simp only [List.mem_singleton]; intro h
      rw [← h] at hge; exact absurd hge (by decide)
    have c2 : [lhs r].count T.LBRACKET = 0 := by
      rw [List.count_eq_zero]; simp only [List.mem_singleton]; intro h
      rw [← h] at hge; exact absurd hge (by decide)
    simp only [Tree.yield, Tree.sym, qualIdx, leaksT, ownLeak, c1, c2]
    by_cases h274 : r = 274
    · subst h274
      have : (bif Nat.beq 274 274 then 1 else 0) = 1 := rfl
      rw [this] at hb
      simp only [if_pos]
      have : ¬ (274 = 58) := by decide
      rw [if_neg this]
      omega
    · have : (bif Nat.beq r 274 then 1 else 0) = 0 := by
        cases hq : Nat.beq r 274 with
        | true => exact absurd (Nat.eq_of_beq_eq_true hq) h274
        | false => rfl
      rw [this] at hb
      rw [if_neg h274]
      omega
theorem bracketsL : ∀ {l : List Tree}, WFL l →
    countSym T.LBRACKET (yieldL l) + (l.map Tree.sym).count T.ARRAY + qualIdxL l = countSym T.ARRAY (yieldL l) + leaksL l + (l.map Tree.sym).count T.LBRACKET
  | [], _ => by simp [yieldL, countSym, qualIdxL, leaksL]
  | t :: l, h => by
    have h1 := brackets h.1
    have h2 := bracketsL h.2
    have e : ∀ s, ((t :: l).map Tree.sym).count s = [t.sym].count s + (l.map Tree.sym).count s := by
      intro s; rw [List.map_cons, ← List.singleton_append, List.count_append]
    simp only [yieldL, countSym_append, qualIdxL, leaksL, e]
    omega
end
end Verif.Sem

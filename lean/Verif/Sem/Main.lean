import Verif.Sem.Clean
/-! The run of `hsql_parse` as a whole: ownership, typing, parameters. Proof-internal. -/
namespace Verif.Sem
open Verif.LR Verif.Lex

/-- The allocator returns every address once, and none that the result already uses; the addresses used by the
result are distinct. -/
structure AllocOK (A : Alloc) (r : Res) : Prop where
  tok : ∀ i j, A.tok i = A.tok j → i = j
  new : ∀ i j, A.new i = A.new j → i = j
  ne : ∀ i j, A.tok i ≠ A.new j
  old : (r.errAddr ++ addrsL r.stmts).Nodup
  tokOld : ∀ i, A.tok i ∉ r.errAddr ++ addrsL r.stmts
  newOld : ∀ i, A.new i ∉ r.errAddr ++ addrsL r.stmts

/-- The result contains well-formed statements only, and its parameters point into them. -/
structure ResOK (ok : Bytes → Prop) (good : List V → Prop) (r : Res) : Prop where
  stmts : ∀ v ∈ r.stmts, Sat ok good (.ref .stmt) v
  params : ∀ a ∈ r.params, ∃ n : Int, ivalAtL a r.stmts = some (.int n)

mutual
theorem Sat.mono {ok ok' : Bytes → Prop} {good good' : List V → Prop} (h1 : ∀ b, ok b → ok' b) (h2 : ∀ fs, good fs → good' fs) : ∀ {p : P} {v : V}, Sat ok good p v → Sat ok' good' p v
  | _, _, .undef => .undef
  | _, _, .null => .null
  | _, _, .num _ => .num _
  | _, _, .pos _ => .pos _
  | _, _, .idx _ => .idx _
  | _, _, .posnum1 _ => .posnum1 _
  | _, _, .posnum2 _ => .posnum2 _
  | _, _, .ints h => .ints h
  | _, _, .raw _ => .raw _
  | _, _, .str _ h => .str _ (h1 _ h)
  | _, _, .strQ _ h h' => .strQ _ (h1 _ h) h'
  | _, _, .ref hm hs => .ref hm (Sat.mono h1 h2 hs)
  | _, _, .vec a g1 g2 g3 => .vec a (fun v hv => Sat.mono h1 h2 (g1 v hv)) g2 (SatL.mono h1 h2 g3)
  | _, _, .obj a h hg => .obj a (SatL.mono h1 h2 h) (fun hc => h2 _ (hg hc))
  | _, _, .tup h => .tup (SatL.mono h1 h2 h)
theorem SatL.mono {ok ok' : Bytes → Prop} {good good' : List V → Prop} (h1 : ∀ b, ok b → ok' b) (h2 : ∀ fs, good fs → good' fs) : ∀ {ps : List P} {vs : List V}, SatL ok good ps vs → SatL ok' good' ps vs
  | _, _, .nil => .nil
  | _, _, .cons h hs => .cons (Sat.mono h1 h2 h) (SatL.mono h1 h2 hs)
end

theorem allocs_le {A : Alloc} (h : ∀ i j, A.new i = A.new j → i = j) (a n m : Nat) : allocs A a n m ≤ 1 := by
  unfold allocs
  have : ((List.range' n (m - n)).map A.new).Nodup := by
    refine (List.pairwise_map.2 ?_)
    refine (List.nodup_range' (s := n) (n := m - n)).imp ?_
    intro x y hxy he
    exact hxy (h _ _ he)
  exact List.nodup_iff_count.1 this a

theorem allocs_pos {A : Alloc} {a n m : Nat} (h : 1 ≤ allocs A a n m) : ∃ i, A.new i = a := by
  unfold allocs at h
  obtain ⟨i, _, hi⟩ := List.mem_map.1 (List.count_pos_iff.1 h)
  exact ⟨i, hi⟩

theorem tokValue_ac (A : Alloc) (k a : Nat) (v : TokVal) : ac a (tokValue A k v) = 0 ∨ (A.tok k = a ∧ ac a (tokValue A k v) = 1) := by
  cases v with
  | sval b =>
    by_cases h : A.tok k = a
    · exact .inr ⟨h, by simp [ac, tokValue, V.addrs, h]⟩
    · left; simp [ac, tokValue, V.addrs, h]
  | _ => left; rfl

theorem strs_pos {A : Alloc} {a : Nat} : ∀ {k : Nat} {ts : List Tok}, 1 ≤ strs A a k ts → ∃ i, k ≤ i ∧ A.tok i = a
  | k, [], h => by simp [strs] at h
  | k, t :: ts, h => by
    simp only [strs] at h
    rcases tokValue_ac A k a t.val with h1 | ⟨h1, _⟩
    · rw [h1] at h
      obtain ⟨i, hi, e⟩ := strs_pos (k := k + 1) (ts := ts) (by rw [Nat.zero_add] at h; exact h)
      exact ⟨i, by omega, e⟩
    · exact ⟨k, Nat.le_refl _, h1⟩

theorem strs_le {A : Alloc} (h : ∀ i j, A.tok i = A.tok j → i = j) (a : Nat) : ∀ (k : Nat) (ts : List Tok), strs A a k ts ≤ 1
  | k, [] => by simp [strs]
  | k, t :: ts => by
    simp only [strs]
    have ih := strs_le h a (k + 1) ts
    rcases tokValue_ac A k a t.val with h1 | ⟨h1, h2⟩
    · omega
    · rcases Nat.lt_or_ge 0 (strs A a (k + 1) ts) with h3 | h3
      · obtain ⟨i, hi, e⟩ := strs_pos h3
        have := h i k (by rw [e, h1])
        omega
      · omega

/-- Every address is handed out at most once. -/
theorem total_le {A : Alloc} {r : Res} (h : AllocOK A r) (a : Nat) (rd : List Tok) (n : Nat) :
    r.errAddr.count a + acL a r.stmts + strs A a 0 rd + allocs A a 0 n ≤ 1 := by
  have h1 : r.errAddr.count a + acL a r.stmts ≤ 1 := by
    have := List.nodup_iff_count.1 h.old a
    rw [List.count_append] at this
    exact this
  have h1' : 1 ≤ r.errAddr.count a + acL a r.stmts → a ∈ r.errAddr ++ addrsL r.stmts := by
    intro hh
    refine List.count_pos_iff.1 ?_
    rw [List.count_append]; exact hh
  have h2 := strs_le h.tok a 0 rd
  have h3 := allocs_le h.new a 0 n
  have h4 : ¬ (1 ≤ strs A a 0 rd ∧ 1 ≤ allocs A a 0 n) := by
    rintro ⟨x, y⟩
    obtain ⟨i, _, hi⟩ := strs_pos x
    obtain ⟨j, hj⟩ := allocs_pos y
    exact h.ne i j (by rw [hi, hj])
  have h5 : ¬ (1 ≤ r.errAddr.count a + acL a r.stmts ∧ 1 ≤ strs A a 0 rd) := by
    rintro ⟨x, y⟩
    obtain ⟨i, _, hi⟩ := strs_pos y
    exact h.tokOld i (by rw [hi]; exact h1' x)
  have h6 : ¬ (1 ≤ r.errAddr.count a + acL a r.stmts ∧ 1 ≤ allocs A a 0 n) := by
    rintro ⟨x, y⟩
    obtain ⟨i, hi⟩ := allocs_pos y
    exact h.newOld i (by rw [hi]; exact h1' x)
  omega

section
variable {ok : Bytes → Prop} {good : List V → Prop} {A : Alloc} {toks : List Tok} {r0 : Res}

theorem exprOKL_append : ∀ {u v : List V}, exprOKL u → exprOKL v → exprOKL (u ++ v)
  | [], _, _, h => h
  | _ :: u, _, ⟨h1, h2⟩, h => ⟨h1, exprOKL_append h2 h⟩
theorem exprOKL_of : ∀ {u : List V}, (∀ v ∈ u, v.exprOK) → exprOKL u
  | [], _ => trivial
  | _ :: u, h => ⟨h _ (by simp), exprOKL_of (u := u) fun v hv => h v (List.mem_cons_of_mem _ hv)⟩

theorem ivalAtL_left {a : Nat} {u v : List V} {w : V} (h : ivalAtL a u = some w) : ivalAtL a (u ++ v) = some w := by
  induction u with
  | nil => simp [ivalAtL] at h
  | cons x u ih =>
    simp only [ivalAtL, List.cons_append] at h ⊢
    cases hx : x.ivalAt a with
    | some y => rw [hx] at h; exact h
    | none => rw [hx] at h; exact ih h
theorem ivalAtL_right {a : Nat} {u v : List V} (h : acL a u = 0) : ivalAtL a (u ++ v) = ivalAtL a v := by
  induction u with
  | nil => rfl
  | cons x u ih =>
    rw [acL_cons] at h
    simp only [ivalAtL, List.cons_append]
    rw [ivalAt_none a x (by omega)]
    exact ih (by omega)

/-- What the action of `input` does: the new statements, and the registered parameters. -/
structure Fin (ok : Bytes → Prop) (good : List V → Prop) (r0 : Res) (lst : V) (plist : List Nat) (r : Res) : Prop where
  vs : ∃ b vs, lst = .vec b vs ∧ vs ≠ [] ∧ (∀ v ∈ vs, Sat ok good (.ref .stmt) v) ∧ r.stmts = numberL plist 0 (r0.stmts ++ vs) ∧
    (keyed 0 plist).Perm (parsL vs)
  perm : r.params.Perm (r0.params ++ plist)
  nodup : plist.Nodup
  res : ResOK ok good r
  fresh : r0.params = [] → r.params = plist ∧ Numbered r.stmts 0 plist

theorem rhs2 : rhs 2 = [N.statement_list, N.opt_semicolon] := by decide +kernel

theorem pars_count {l : List Nat} {vs : List V} (h : ∀ a, (keyed 0 l).count a = pcL a vs) : (keyed 0 l).Perm (parsL vs) := by
  rw [List.perm_iff_count]; exact h

theorem fin_red (hA : AllocOK A r0) (ht : ∀ t ∈ toks, TokShape t) {c : Cfg St SV} {stk : TStk} (hg' : ∀ a n fs, good fs → good (setIvalL a n fs))
    (h : RC (sem A) toks (startSt r0) c stk) (hty : Typed ok good c stk) (hat : RedAt c stk 2) (hr : ResOK ok good r0) :
    ∃ b vs, rhsVals c.stk (rhs 2).length = [.vec b vs, .undef] ∧ ∃ r, addParams c.st.plist 0 { c.st.res with stmts := c.st.res.stmts ++ vs } = some r ∧
      Fin ok good r0 (.vec b vs) c.st.plist r ∧
      run A (redLoc c.stk (rhs 2).length) (act 2) (mkEnv (rhsVals c.stk (rhs 2).length)) c.st = .ok .undef { c.st with res := r, freed := c.st.freed ++ [b] } := by
  have hty2 := hty.rhs hat
  have hlen : c.stk.length = 2 := by
    have e1 := congrArg List.length hat.sim
    have e2 := congrArg List.length (hat.input rfl)
    have e3 := hat.len
    rw [rhs2] at e2 e3
    simp at e1 e2 e3
    omega
  have hdrop : c.stk.drop (rhs 2).length = [] := by rw [rhs2]; simp; omega
  obtain ⟨b, vs, hvals, hvs, hne⟩ : ∃ b vs, rhsVals c.stk (rhs 2).length = [.vec b vs, .undef] ∧ (∀ v ∈ vs, Sat ok good (.ref .stmt) v) ∧ vs ≠ [] := by
    have e : (rhs 2).map symTy = [.vec1 (.ref .stmt), .undef] := by rw [rhs2]; rfl
    rw [e] at hty2
    generalize rhsVals c.stk (rhs 2).length = vl at hty2
    cases hty2 with
    | cons h1 h2 =>
      cases h2 with
      | cons h3 h4 =>
        cases h4
        cases h3
        cases h1 with
        | vec a g1 g2 g3 =>
          cases g3
          refine ⟨a, _, rfl, ?_, ?_⟩
          · intro v hv; rw [List.append_nil] at hv; exact g1 v hv
          · rw [List.append_nil]; exact g2 rfl
  have hp := pending_rc ht h hat.before
  obtain ⟨rd, _, _, hown⟩ := (owned_rc h).acc
  have hpar : ∀ a, (keyed 0 c.st.plist).count a = pcL a vs := by
    intro a
    rw [hp.pars a, pcL_split a (rhs 2).length, hvals, hdrop]
    show _ = pcL a vs
    simp [pcL, vals, parsL, V.pars]
  have hacc : ∀ a, acL a c.st.res.stmts + acL a vs ≤ 1 := by
    intro a
    have h1 := hown a
    have h2 := total_le hA a rd c.st.nalloc
    rw [acL_split a (rhs 2).length, hvals, acL_cons, ac_vec] at h1
    simp only [St.tot] at h1
    omega
  have hperm := pars_count hpar
  have hfst : (c.st.plist).Perm ((parsL vs).map Prod.fst) := by
    have := hperm.map Prod.fst
    rw [keyed_fst] at this
    exact this
  have hfc : ∀ a, c.st.plist.count a = fcL a vs := by
    intro a
    exact List.perm_iff_count.1 hfst a
  have hnd : c.st.plist.Nodup := by
    refine List.nodup_iff_count.2 ?_
    intro a
    have := fcL_le_acL a vs
    have := hacc a
    rw [hfc a]; omega
  have hok1 : exprOKL vs := exprOKL_of fun v hv => sat_exprOK (hvs v hv) rfl
  have hok0 : exprOKL c.st.res.stmts := by
    rw [hp.stmts]; exact exprOKL_of fun v hv => sat_exprOK (hr.stmts v hv) rfl
  have hfind : ∀ a ∈ c.st.plist, ∃ w, ivalAtL a (c.st.res.stmts ++ vs) = some w ∧ w.isNum = true := by
    intro a ha
    have h1 : 1 ≤ fcL a vs := by rw [← hfc a]; exact List.count_pos_iff.2 ha
    have h2 := fcL_le_acL a vs
    have h3 := hacc a
    rw [ivalAtL_right (by omega)]
    exact ivalAtL_some a vs (by omega) h1 hok1
  have hsat : ∀ v ∈ c.st.res.stmts ++ vs, Sat ok good (.ref .stmt) v := by
    intro v hv
    rcases List.mem_append.1 hv with hv | hv
    · rw [hp.stmts] at hv; exact hr.stmts v hv
    · exact hvs v hv
  have hpars0 : ∀ a ∈ c.st.res.params, ∃ n : Int, ivalAtL a (c.st.res.stmts ++ vs) = some (.int n) := by
    intro a ha
    rw [hp.params] at ha
    obtain ⟨n, hn⟩ := hr.params a ha
    rw [hp.stmts]
    exact ⟨n, ivalAtL_left hn⟩
  obtain ⟨ps, hadd, hps⟩ := addParams_some c.st.plist 0 { c.st.res with stmts := c.st.res.stmts ++ vs } (exprOKL_append hok0 hok1) hfind hpars0
  refine ⟨b, vs, hvals, _, hadd, ⟨?_, ?_, hnd, ⟨?_, ?_⟩, ?_⟩, ?_⟩
  · exact ⟨b, vs, rfl, hne, hvs, by rw [← hp.stmts], hperm⟩
  · show ps.Perm _; rw [← hp.params]; exact hps
  · exact numberL_sat hg' rfl _ _ _ hsat
  · intro a ha
    have ha : a ∈ c.st.res.params ++ c.st.plist := hps.mem_iff.1 ha
    show ∃ n : Int, ivalAtL a (numberL c.st.plist 0 (c.st.res.stmts ++ vs)) = some (.int n)
    exact numberL_int _ _ _ (exprOKL_append hok0 hok1) a
      (by
        rcases List.mem_append.1 ha with ha | ha
        · exact .inl (hpars0 a ha)
        · exact .inr ⟨ha, hfind a ha⟩)
  · intro hfr
    have h0 : c.st.res.params = [] := by rw [hp.params]; exact hfr
    have hn := addParams_numbered c.st.plist { c.st.res with stmts := c.st.res.stmts ++ vs } (exprOKL_append hok0 hok1) (by
      show (c.st.res.params ++ c.st.plist).Nodup
      rw [h0]; exact hnd) (by
      show Numbered _ 0 c.st.res.params
      rw [h0]; intro i a hi; simp at hi) hfind
    have e : ({ c.st.res with stmts := c.st.res.stmts ++ vs } : Res).params.length = 0 := by
      show c.st.res.params.length = 0
      rw [h0]; rfl
    rw [e] at hn
    have := hn.1
    rw [hadd] at this
    injection this with this
    have e1 : ps = c.st.res.params ++ c.st.plist := congrArg Res.params this
    rw [h0] at e1
    refine ⟨e1, ?_⟩
    have := hn.2
    show Numbered (numberL c.st.plist 0 (c.st.res.stmts ++ vs)) 0 c.st.plist
    simpa [h0] using this
  · have e : act 2 = .finish := rfl
    rw [e, hvals]
    simp only [run, mkEnv, getP, putP, V.get, V.put, List.cons_append, List.getElem?_cons_succ, List.getElem?_cons_zero, List.set_cons_succ, List.set_cons_zero, hadd]
    simp [addrsL, V.addrs]
where
  numberL_int : ∀ (l : List Nat) (id : Nat) (vs : List V), exprOKL vs → ∀ a, ((∃ n : Int, ivalAtL a vs = some (.int n)) ∨ (a ∈ l ∧ ∃ w, ivalAtL a vs = some w ∧ w.isNum = true)) →
      ∃ n : Int, ivalAtL a (numberL l id vs) = some (.int n)
    | [], _, _, _, a, h => by
      rcases h with h | ⟨h, _⟩
      · exact h
      · simp at h
    | b :: l, id, vs, hok, a, h => by
      rw [numberL]
      refine numberL_int l (id + 1) _ (setIvalL_exprOK b id vs hok) a ?_
      by_cases hab : a = b
      · subst hab
        left
        rcases h with ⟨n, h⟩ | ⟨_, w, h, hw⟩
        · exact ⟨id, by rw [ivalAtL_setL, h]; rfl⟩
        · exact ⟨id, by rw [ivalAtL_setL, h, Option.map_some, renum, if_pos hw]⟩
      · rw [ivalAtL_set_ne hab id vs hok]
        rcases h with h | ⟨h1, h2⟩
        · exact .inl h
        · exact .inr ⟨(List.mem_cons.1 h1).resolve_left hab, h2⟩

end
end Verif.Sem

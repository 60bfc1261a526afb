import Verif.Sql.BlameRules
import Verif.Sem.Where
import Verif.Sem.Ends
import Verif.Sem.Msgs
set_option linter.all false
set_option maxRecDepth 20000
namespace Verif.Sql
open Verif.Lex Verif.LR Verif.Sem

theorem h_str {v : V} {b : Bytes} (h : v.h E0 = .str 0 b) : ∃ a, v = .str a b := by
  cases v <;> simp only [V.h] at h <;> cases h
  exact ⟨_, rfl⟩
theorem h_tup {v : V} {fs : List V} (h : v.h E0 = .tup fs) : ∃ fs', v = .tup fs' := by
  cases v <;> simp only [V.h] at h <;> cases h
  exact ⟨_, rfl⟩
theorem h_vec {v : V} {a : Nat} {fs : List V} (h : v.h E0 = .vec a fs) : ∃ b fs', v = .vec b fs' ∧ hL E0 fs' = fs := by
  cases v <;> simp only [V.h] at h <;> cases h
  exact ⟨_, _, rfl, rfl⟩
theorem h_obj {v : V} {a : Nat} {c : Cls} {fs : List V} (h : v.h E0 = .obj a c fs) : ∃ b fs', v = .obj b c fs' ∧ hL E0 fs' = fs := by
  cases v <;> simp only [V.h] at h <;> cases h
  exact ⟨_, _, rfl, rfl⟩
theorem h_ints : ∀ {vs : List V} {ks : List Int}, hL E0 vs = ks.map .int → vs = ks.map .int
  | [], [], _ => rfl
  | v :: vs, [], h => by cases h
  | [], k :: ks, h => by cases h
  | v :: vs, k :: ks, h => by
    simp only [hL, List.map_cons, List.cons.injEq] at h
    obtain ⟨h1, h2⟩ := h
    rw [List.map_cons, h_ints h2]
    congr 1
    cases v <;> simp only [V.h] at h1 <;> cases h1
    rfl

theorem h_cons {vs : List V} {x : V} {xs : List V} (h : hL E0 vs = x :: xs) : ∃ v vs', vs = v :: vs' ∧ v.h E0 = x ∧ hL E0 vs' = xs := by
  cases vs with
  | nil => cases h
  | cons v vs => cases h; exact ⟨v, vs, rfl, rfl, rfl⟩
theorem h_nil {vs : List V} (h : hL E0 vs = []) : vs = [] := by cases vs <;> first | rfl | cases h

theorem run_del_ret {A : Alloc} {loc : Loc} {p : Path} {env : List V} {st st' : Sem.St} {v : V} (h : run A loc (.del p .ret) env st = .ok v st') : st'.res = st.res := by
  simp only [run] at h
  repeat' split at h
  all_goals cases h
  rfl
theorem run_set_del_ret {A : Alloc} {loc : Loc} {p q : Path} {e : Rv} {env : List V} {st st' : Sem.St} {v : V} (h : run A loc (.set q e (.del p .ret)) env st = .ok v st') : st'.res = st.res := by
  rw [run] at h
  split at h
  · rename_i h1
    split at h
    · split at h
      · rw [run_del_ret h]
        exact (evalRv_facts h1).1
      · cases h
    · cases h
  · cases h

theorem run66 {A : Alloc} {loc : Loc} {vs : List V} {n : Name} {fs rs : List V} {ks : List Int} {st st' : Sem.St} {v : V} (hv : hL E0 vs = [str n, .tup fs, consV ks rs]) (h : run A loc (act 66) (mkEnv vs) st = .ok v st') :
    st'.res = st.res ∨ (ks.contains ConstraintType.Null = true ∧ (ks.contains ConstraintType.NotNull = true ∨ ks.contains ConstraintType.PrimaryKey = true) ∧
      st'.res.errMsg.map Prod.snd = some (b!"Conflicting nullability constraints for " ++ n) ∧ st'.res.errLine = loc.fl ∧ st'.res.errCol = loc.fc) := by
  obtain ⟨v1, _, rfl, h1, hv⟩ := h_cons hv
  obtain ⟨v2, _, rfl, h2, hv⟩ := h_cons hv
  obtain ⟨v3, _, rfl, h3, hv⟩ := h_cons hv
  obtain rfl := h_nil hv
  obtain ⟨a, rfl⟩ := h_str h1
  obtain ⟨ts, rfl⟩ := h_tup h2
  obtain ⟨b, us, rfl, g3⟩ := h_obj h3
  obtain ⟨u1, _, rfl, g4, g5⟩ := h_cons g3
  obtain ⟨u2, _, rfl, g6, g7⟩ := h_cons g5
  obtain rfl := h_nil g7
  obtain ⟨d, kk, rfl, h4⟩ := h_vec g4
  obtain ⟨d', rr, rfl, _⟩ := h_vec g6
  rw [h_ints h4] at h
  have h : run A loc columnDef _ _ = _ := h
  unfold columnDef at h
  simp only [] at h
  rw [run] at h
  have he : evalRv A (newColumnDefinition (.mv ⟨1, []⟩) (.mv ⟨2, []⟩) (.mv ⟨3, [ColumnConstraints.constraints]⟩) (.mv ⟨3, [ColumnConstraints.references]⟩)) (mkEnv [.str a n, .tup ts, .obj b .ColumnConstraints [.vec d (ks.map .int), .vec d' rr]]) st =
    some (.obj (A.new st.nalloc) .ColumnDefinition [.vec d (ks.map .int), .str a n, .tup ts, .int 1, .vec d' rr], mkEnv [.undef, .undef, .obj b .ColumnConstraints [.undef, .undef]], { st with nalloc := st.nalloc + 1 }) := rfl
  rw [he] at h
  simp only [] at h
  have hg : getP (mkEnv [V.undef, V.undef, V.obj b .ColumnConstraints [V.undef, V.undef]]) ⟨0, []⟩ = some .undef := rfl
  rw [hg] at h
  simp only [] at h
  have hp : ∀ x, putP (mkEnv [V.undef, V.undef, V.obj b .ColumnConstraints [V.undef, V.undef]]) ⟨0, []⟩ x = some (x :: (mkEnv [V.undef, V.undef, V.obj b .ColumnConstraints [V.undef, V.undef]]).tail) := fun _ => rfl
  rw [hp] at h
  simp only [] at h
  generalize (mkEnv [V.undef, V.undef, V.obj b .ColumnConstraints [V.undef, V.undef]]).tail = tl at h
  have hc : ∀ k s, evalCond (.has ⟨0, [ColumnDefinition.column_constraints]⟩ k) (.obj (A.new st.nalloc) .ColumnDefinition [.vec d (ks.map .int), .str a n, .tup ts, .int 1, .vec d' rr] :: tl) s = some (ks.contains k) := by
    intro k s
    rw [← hasInt_map]; rfl
  have hs : strAt (.obj (A.new st.nalloc) .ColumnDefinition [.vec d (ks.map .int), .str a n, .tup ts, .int 1, .vec d' rr] :: tl) ⟨0, [ColumnDefinition.name]⟩ = some n := rfl
  have hpk : ∀ s : Sem.St, s.res = st.res → run A loc (.ite (.has ⟨0, [ColumnDefinition.column_constraints]⟩ ConstraintType.Null) (.errName b!"Conflicting nullability constraints for " ⟨0, [ColumnDefinition.name]⟩ (.del ⟨3, []⟩ .ret))
      (.set ⟨0, [ColumnDefinition.nullable]⟩ (.atom (.int 0)) (.del ⟨3, []⟩ .ret))) (.obj (A.new st.nalloc) .ColumnDefinition [.vec d (ks.map .int), .str a n, .tup ts, .int 1, .vec d' rr] :: tl) s = .ok v st' →
      st'.res = st.res ∨ (ks.contains ConstraintType.Null = true ∧ st'.res.errMsg.map Prod.snd = some (b!"Conflicting nullability constraints for " ++ n) ∧ st'.res.errLine = loc.fl ∧ st'.res.errCol = loc.fc) := by
    intro s hs0 h
    rw [run, hc] at h
    cases hb : ks.contains ConstraintType.Null with
    | true =>
      rw [hb] at h
      simp only [] at h
      rw [run, hs] at h
      simp only [] at h
      rw [run_del_ret h]
      exact .inr ⟨rfl, rfl, rfl, rfl⟩
    | false =>
      rw [hb] at h
      simp only [] at h
      exact .inl (by rw [run_set_del_ret h, hs0])
  rw [run, hc] at h
  cases hb : ks.contains ConstraintType.NotNull with
  | true =>
    rw [hb] at h
    rcases hpk _ (by rfl) h with h | ⟨h1, h2⟩
    · exact .inl h
    · exact .inr ⟨h1, .inl rfl, h2⟩
  | false =>
    rw [hb] at h
    simp only [] at h
    rw [run, hc] at h
    cases hb2 : ks.contains ConstraintType.PrimaryKey with
    | true =>
      rw [hb2] at h
      rcases hpk _ (by rfl) h with h | ⟨h1, h2⟩
      · exact .inl h
      · exact .inr ⟨h1, .inr rfl, h2⟩
    | false =>
      rw [hb2] at h
      simp only [] at h
      exact .inl (by rw [run_del_ret h]; rfl)

/-! ## Reductions of reachable configurations -/

/-- No right-hand side has the end of input or the undefined token. -/
theorem rhs_sane : ((List.range 358).all fun r => Nat.ble r 1 || (rhs r).all fun X => !(Nat.beq X 0) && !(Nat.beq X 2)) = true := by decide +kernel
theorem wf_rhs {r : Nat} {cs : List Tree} (hw : (Tree.node r cs).WF) : ∀ X ∈ rhs r, X ≠ 0 ∧ X ≠ 2 := by
  have hr2 : r < 358 := by have := hw.2.1; rwa [rules_len] at this
  have h := List.all_eq_true.1 rhs_sane r (List.mem_range.2 hr2)
  have h1 : Nat.ble r 1 = false := by
    cases hb : Nat.ble r 1 with
    | false => rfl
    | true => have := Nat.le_of_ble_eq_true hb; have := hw.1; omega
  rw [h1, Bool.false_or] at h
  intro X hX
  have := List.all_eq_true.1 h X hX
  simp only [Bool.and_eq_true, Bool.not_eq_true', ← Bool.not_eq_true, Nat.beq_eq] at this
  exact this
mutual
theorem yield_sane : ∀ (t : Tree), t.WF → (t.sym ≠ 0 ∧ t.sym ≠ 2) → ∀ m ∈ t.yield, tsym m ≠ 0 ∧ tsym m ≠ 2
  | .leaf t, _, h, m, hm => by
    rw [Tree.yield, List.mem_singleton] at hm
    subst hm; exact h
  | .node r cs, hw, _, m, hm => by
    rw [Tree.yield] at hm
    exact yieldL_sane cs hw.2.2.2 (by rw [hw.2.2.1]; exact wf_rhs hw) m hm
theorem yieldL_sane : ∀ (cs : List Tree), WFL cs → (∀ X ∈ cs.map Tree.sym, X ≠ 0 ∧ X ≠ 2) → ∀ m ∈ yieldL cs, tsym m ≠ 0 ∧ tsym m ≠ 2
  | [], _, _, m, hm => by cases hm
  | c :: cs, hw, h, m, hm => by
    rw [yieldL, List.mem_append] at hm
    rcases hm with hm | hm
    · exact yield_sane c hw.1 (h _ (by simp)) m hm
    · exact yieldL_sane cs hw.2 (fun X hX => h X (by simp only [List.map_cons, List.mem_cons]; exact .inr hX)) m hm
end

section
variable {A : Alloc} {toks : List Tok} {r0 : Res} {c : Cfg Sem.St SV} {stk : TStk} {r : Nat}

/-- The values of the children. -/
theorem red_den (h : RC (sem A) toks (startSt r0) c stk) (hat : RedAt c stk r) :
    ∃ s0, denL (popTrees (rhs r).length stk) s0 = some (hL E0 (rhsVals c.stk (rhs r).length), c.st.ps) := by
  have hs := (den_rc h).stk
  rw [denStk_split (rhs r).length] at hs
  cases h1 : denStk (stk.drop (rhs r).length) ⟨0, r0.errMsg.isSome⟩ with
  | none => rw [h1] at hs; cases hs
  | some y =>
    obtain ⟨vs, s'⟩ := y
    rw [h1] at hs
    simp only [] at hs
    cases h3 : denL (popTrees (rhs r).length stk) s' with
    | none => rw [h3] at hs; cases hs
    | some y =>
      obtain ⟨ws, s''⟩ := y
      rw [h3] at hs
      simp only [Option.some.injEq, Prod.mk.injEq] at hs
      obtain ⟨hs1, hs2⟩ := hs
      have hsplit : (vals c.stk).reverse = (vals (c.stk.drop (rhs r).length)).reverse ++ rhsVals c.stk (rhs r).length := by
        rw [rhsVals, ← List.reverse_append, vals, vals, vals, ← List.map_append, List.take_append_drop]
      have hlen : ws.length = (hL E0 (rhsVals c.stk (rhs r).length)).length := by
        rw [denL_len h3, hL_map, List.length_map]
        have := congrArg List.length hat.sim
        simp only [List.length_map] at this
        have hl := hat.len
        simp only [rhsVals, List.length_reverse, List.length_map, List.length_take, vals, popTrees]
        omega
      rw [hsplit, hL_map, List.map_append, ← hL_map, ← hL_map] at hs1
      have := List.append_inj' hs1 hlen
      refine ⟨s', ?_⟩
      rw [h3, this.2, hs2]

theorem red_fits (ht : ∀ t ∈ toks, TokShape t) (h : RC (sem A) toks (startSt r0) c stk) (hat : RedAt c stk r) : ∀ m ∈ yieldL (popTrees (rhs r).length stk), Fits m := by
  intro m hm
  have hs := yieldL_sane _ hat.wf.2.2.2 (by rw [hat.wf.2.2.1]; exact wf_rhs hat.wf) m hm
  refine ⟨ht m ?_, hs.1, hs.2⟩
  rw [← yld_rc h, stkYield_split (rhs r).length]
  simp [hm]

/-- What the children are. -/
theorem red_is (ht : ∀ t ∈ toks, TokShape t) (h : RC (sem A) toks (startSt r0) c stk) (hat : RedAt c stk r) (k : Nat) :
    IsL (rhs r) (popTrees (rhs r).length stk) k (hL E0 (rhsVals c.stk (rhs r).length)) true := by
  obtain ⟨s0, hd⟩ := red_den h hat
  obtain ⟨b, hp⟩ := hat.prec
  have := list_is Verif.Sql.Read.u358 _ hat.wf.2.2.2 (red_fits ht h hat) k s0 hp.2.2 hd (e := true) (fun _ => rfl)
  rwa [hat.wf.2.2.1] at this
end

end Verif.Sql

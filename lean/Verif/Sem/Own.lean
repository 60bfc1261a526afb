import Verif.Sem.Typed
import Verif.Sem.Addrs
/-! Ownership along a run: every address is accounted for; the parameters registered are those on the stack. Proof-internal. -/
namespace Verif.Sem
open Verif.LR Verif.Lex

/-- How often `a` is the address of a string among the tokens `ts`, the first of which is the `k`-th. -/
def strs (A : Alloc) (a : Nat) : Nat → List Tok → Nat
  | _, [] => 0
  | k, t :: ts => ac a (tokValue A k t.val) + strs A a (k + 1) ts

theorem strs_snoc (A : Alloc) (a : Nat) : ∀ (k : Nat) (ts : List Tok) (t : Tok), strs A a k (ts ++ [t]) = strs A a k ts + ac a (tokValue A (k + ts.length) t.val)
  | k, [], t => by simp [strs]
  | k, u :: ts, t => by
    rw [List.cons_append]
    simp only [strs]
    rw [strs_snoc A a (k + 1) ts t, List.length_cons, show k + 1 + ts.length = k + (ts.length + 1) by omega]; omega

/-- The addresses of the lookahead. -/
def laAc (a : Nat) (la : Option (Tok × SV)) : Nat := match la with
  | some (_, v) => ac a v.1
  | none => 0

theorem acL_reverse (a : Nat) (vs : List V) : acL a vs.reverse = acL a vs := by
  induction vs with
  | nil => rfl
  | cons v vs ih => rw [List.reverse_cons, acL_append, acL_cons, acL_cons, ih, acL_nil]; omega
theorem pcL_reverse (a : Nat × Int) (vs : List V) : pcL a vs.reverse = pcL a vs := by
  induction vs with
  | nil => rfl
  | cons v vs ih => rw [List.reverse_cons, pcL_append, pcL_cons, pcL_cons, ih]; show _ + (_ + 0) = _; omega

theorem acL_undefs (a n : Nat) : acL a (List.replicate n .undef) = 0 := by
  induction n with
  | zero => rfl
  | succ n ih => rw [List.replicate_succ, acL_cons, ih, ac_undef]
theorem acL_mkEnv (a : Nat) (vs : List V) : acL a (mkEnv vs) = acL a vs := by
  unfold mkEnv
  rw [List.cons_append, acL_cons, acL_append, acL_undefs, ac_undef]; omega

theorem acL_split (a n : Nat) (stk : List (Nat × SV)) : acL a (vals stk) = acL a (rhsVals stk n) + acL a (vals (stk.drop n)) := by
  rw [rhsVals, acL_reverse, ← acL_append]
  congr 1
  rw [← List.map_append, List.take_append_drop]
theorem pcL_split (a : Nat × Int) (n : Nat) (stk : List (Nat × SV)) : pcL a (vals stk) = pcL a (rhsVals stk n) + pcL a (vals (stk.drop n)) := by
  rw [rhsVals, pcL_reverse, ← pcL_append]
  congr 1
  rw [← List.map_append, List.take_append_drop]

theorem tokValue_pars (A : Alloc) (k : Nat) (v : TokVal) : (tokValue A k v).pars = [] := by cases v <;> rfl

section
variable {A : Alloc} {toks : List Tok} {r0 : Res} {c : Cfg St SV} {stk : TStk}

/-- Every address is accounted for. -/
structure Owned (A : Alloc) (toks : List Tok) (r0 : Res) (c : Cfg St SV) : Prop where
  acc : ∃ rd, rd ++ c.toks = toks ∧ c.st.ntok = rd.length ∧
    ∀ a, acL a (vals c.stk) + laAc a c.la + c.st.tot a = r0.errAddr.count a + acL a r0.stmts + strs A a 0 rd + allocs A a 0 c.st.nalloc

theorem run_ac_ok {A : Alloc} {loc : Loc} {k : Prog} {env : List V} {st st' : St} {v : V} (h : run A loc k env st = .ok v st') (a : Nat) :
    st.nalloc ≤ st'.nalloc ∧ ac a v + st'.tot a = acL a env + st.tot a + allocs A a st.nalloc st'.nalloc := by
  have := run_ac A loc a k env st (by rw [h]; rfl)
  rw [h] at this
  exact this

theorem run_ac_err {A : Alloc} {loc : Loc} {k : Prog} {env : List V} {st st' : St} (h : run A loc k env st = .error st') (a : Nat) :
    st.nalloc ≤ st'.nalloc ∧ st'.tot a = acL a env + st.tot a + allocs A a st.nalloc st'.nalloc := by
  have := run_ac A loc a k env st (by rw [h]; rfl)
  rw [h] at this
  exact this

theorem run_ntok {r : Nat} (h1 : 2 ≤ r) (h2 : r < 358) {loc : Loc} {vs : List V} {st st' : St} {v : V} (hl : vs.length = (rhs r).length)
    (h : run A loc (act r) (mkEnv vs) st = .ok v st') : st'.ntok = st.ntok := by
  by_cases h3 : r = 2
  · subst h3; exact (run2 h).2.2.1
  · by_cases h4 : r = 298
    · subst h4
      have e : rhs 298 = [T.QMARK] := by decide +kernel
      rw [e] at hl
      match vs, hl with
      | [v1], _ => rw [run298] at h; cases h; rfl
    · exact (run_frame A loc (act r) (mkEnv vs) st st' (rule_chk h1 h2 h3 h4).2 (by rw [h]; rfl)).ntok

theorem owned_rc (h : RC (sem A) toks (startSt r0) c stk) : Owned A toks r0 c := by
  refine RC.ind (I := fun c _ => Owned A toks r0 c) ?_ ?_ ?_ ?_ h
  · refine ⟨[], rfl, rfl, ?_⟩
    intro a
    simp only [initCfg, vals, List.map_nil, acL_nil, laAc, startSt, St.tot, strs, allocs_refl, List.count_nil]
    omega
  · intro c stk t ts ⟨rd, h1, h2, h3⟩ hla htk
    refine ⟨rd ++ [t], ?_, ?_, ?_⟩
    · rw [← h1, htk]; simp
    · show c.st.ntok + 1 = _; rw [h2]; simp
    · intro a
      have := h3 a
      rw [hla] at this
      rw [strs_snoc]
      show acL a (vals c.stk) + ac a (tokValue A c.st.ntok t.val) + c.st.tot a = _ + _ + _ + allocs A a 0 c.st.nalloc
      rw [h2, show 0 + rd.length = rd.length by omega]
      simp only [laAc] at this
      omega
  · intro c stk t v s ⟨rd, h1, h2, h3⟩ hla h69 ha
    refine ⟨rd, h1, h2, ?_⟩
    intro a
    have := h3 a
    rw [hla] at this
    show acL a (v.1 :: vals c.stk) + 0 + _ = _
    rw [acL_cons]
    simp only [laAc] at this
    show _ + c.st.tot a = _ + allocs A a 0 c.st.nalloc
    omega
  · intro c stk r s v st ⟨rd, h1, h2, h3⟩ hat hred
    obtain ⟨e1, e2⟩ := reduce_ok hat.r1 hat.r2 hred
    refine ⟨rd, h1, ?_, ?_⟩
    · show st.ntok = _; rw [← h2]; exact run_ntok hat.r1 hat.r2 (rhsVals_len hat) e2
    · intro a
      have h3 := h3 a
      obtain ⟨g1, g2⟩ := run_ac_ok e2 a
      rw [acL_mkEnv] at g2
      have g3 := allocs_trans A a (Nat.zero_le _) g1
      rw [acL_split a (rhs r).length] at h3
      show acL a (v.1 :: vals (c.stk.drop (rhs r).length)) + laAc a c.la + st.tot a = _ + allocs A a 0 st.nalloc
      rw [acL_cons]
      omega

/-- Before the end: nothing was added to the result, and the registered parameters are those on the stack. -/
structure Pending (r0 : Res) (c : Cfg St SV) : Prop where
  stmts : c.st.res.stmts = r0.stmts
  params : c.st.res.params = r0.params
  pars : ∀ a, (keyed 0 c.st.plist).count a = pcL a (vals c.stk)
  la : ∀ t v, c.la = some (t, v) → v.1.pars = []

theorem pending_rc (ht : ∀ t ∈ toks, TokShape t) (h : RC (sem A) toks (startSt r0) c stk) (hb : ∀ p ∈ stk, p.2.sym ≠ N.input) : Pending r0 c := by
  have key : (∀ t ∈ c.toks, t ∈ toks) ∧ Typed (fun _ => True) (fun _ => True) c stk ∧ ((∀ p ∈ stk, p.2.sym ≠ N.input) → Pending r0 c) := by
    refine RC.ind (I := fun c stk => (∀ t ∈ c.toks, t ∈ toks) ∧ Typed (fun _ => True) (fun _ => True) c stk ∧ ((∀ p ∈ stk, p.2.sym ≠ N.input) → Pending r0 c)) ?_ ?_ ?_ ?_ h
    · refine ⟨fun t h => h, ⟨.nil, by intro t v h; cases h⟩, fun _ => ⟨rfl, rfl, fun _ => rfl, ?_⟩⟩
      intro t v h; cases h
    · intro c stk t ts ⟨i1, i2, i3⟩ hla htk
      rw [htk] at i1
      refine ⟨fun u hu => i1 u (List.mem_cons_of_mem _ hu), ⟨i2.stk, ?_⟩, fun hb => ?_⟩
      · intro t' v' h
        cases h
        exact tokValue_sat A _ (ht t (i1 t (by simp))) (fun _ _ => trivial)
      · obtain ⟨p1, p2, p3, p4⟩ := i3 hb
        refine ⟨p1, p2, p3, ?_⟩
        intro t' v' h
        cases h
        exact tokValue_pars A _ _
    · intro c stk t v s ⟨i1, i2, i3⟩ hla h69 ha
      refine ⟨i1, ⟨.cons (i2.la t v hla) i2.stk, by intro t' v' h; cases h⟩, fun hb => ?_⟩
      obtain ⟨p1, p2, p3, p4⟩ := i3 (fun p hp => hb p (List.mem_cons_of_mem _ hp))
      refine ⟨p1, p2, ?_, by intro t' v' h; cases h⟩
      intro a
      show (keyed 0 c.st.plist).count a = pcL a (v.1 :: vals c.stk)
      rw [pcL_cons, p3 a, pc, p4 t v hla]; simp
    · intro c stk r s v st ⟨i1, i2, i3⟩ hat hred
      obtain ⟨e1, e2⟩ := reduce_ok hat.r1 hat.r2 hred
      have hty : Sat (fun _ => True) (fun _ => True) (symTy (lhs r)) v.1 ∧ ((∀ p ∈ stk, p.2.sym ≠ N.input) → lhs r ≠ N.input → Pending r0 { c with stk := (s, v) :: c.stk.drop (rhs r).length, st := st }) := by
        by_cases h3 : r = 2
        · subst h3
          refine ⟨by rw [lhs_undef, (run2 e2).1]; exact .undef, fun _ h => absurd lhs2 h⟩
        · have := rule_sound A (redLoc c.stk (rhs r).length) hat.r1 hat.r2 h3 (fun _ _ => trivial) (i2.rhs hat) c.st
          rw [e2] at this
          obtain ⟨q1, ⟨new, q2, q3⟩, _, q4⟩ := this
          refine ⟨q1, fun hb _ => ?_⟩
          obtain ⟨p1, p2, p3, p4⟩ := i3 hb
          refine ⟨by rw [← p1]; exact q4.stmts, by rw [← p2]; exact q4.params, ?_, p4⟩
          intro a
          show (keyed 0 st.plist).count a = pcL a (v.1 :: vals (c.stk.drop (rhs r).length))
          rw [pcL_cons, q2, keyed_append, List.count_append, p3 a, Nat.zero_add, q3 a, pcL_split a (rhs r).length c.stk]
          omega
      refine ⟨i1, ⟨.cons hty.1 (i2.drop _), i2.la⟩, fun hb => ?_⟩
      have hl : lhs r ≠ N.input := hb _ List.mem_cons_self
      exact hty.2 hat.before hl
  exact key.2.2 hb

end
end Verif.Sem

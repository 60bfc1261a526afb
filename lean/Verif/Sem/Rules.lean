import Verif.Sem.Chk
import Verif.Sem.Parse
import Verif.LR.Top
/-! Every semantic action, applied to values of the right shapes. Proof-internal. -/
namespace Verif.Sem
open Verif.LR Verif.Lex

theorem rules_ok : ((List.range 356).all fun i => i == 0 || i == 296 || (chkRule (i + 2) && plain (actions.getD i .fail))) = true := by decide +kernel

theorem actions_len : actions.length = 356 := by decide +kernel

/-- The action of rule `r`. -/
def act (r : Nat) : Prog := actions.getD (r - 2) .fail

theorem act_get {r : Nat} (h1 : 2 ≤ r) (h2 : r < 358) : actions[r - 2]? = some (act r) := by
  unfold act
  have : r - 2 < actions.length := by rw [actions_len]; omega
  rw [List.getElem?_eq_getElem this, List.getD_eq_getElem?_getD, List.getElem?_eq_getElem this]; rfl

theorem rule_chk {r : Nat} (h1 : 2 ≤ r) (h2 : r < 358) (h3 : r ≠ 2) (h4 : r ≠ 298) :
    chk (symTy (lhs r)) (leaky r) (failLeaky r) (r == 66) (act r) (startEnv r) = true ∧ plain (act r) = true := by
  have := List.all_eq_true.1 rules_ok (r - 2) (by simp; omega)
  have e : r - 2 + 2 = r := by omega
  rw [e] at this
  have n1 : (r - 2 == 0) = false := by simp; omega
  have n2 : (r - 2 == 296) = false := by simp; omega
  rw [n1, n2] at this
  simp only [Bool.false_or, Bool.and_eq_true] at this
  obtain ⟨a, b⟩ := this
  unfold chkRule at a
  rw [act_get h1 h2] at a
  exact ⟨a, b⟩

theorem errs_ok : (actions.all oneErr) = true := by decide +kernel
theorem one_err {r : Nat} (h1 : 2 ≤ r) (h2 : r < 358) (_ : r ≠ 2) : oneErr (act r) = true :=
  List.all_eq_true.1 errs_ok _ (List.mem_of_getElem? (act_get h1 h2))

theorem symTy_len {l : List Nat} {ok : Bytes → Prop} {good : List V → Prop} {vs : List V} (h : SatL ok good (l.map symTy) vs) : vs.length = l.length := by
  have := h.len; simpa using this.symm

theorem undefs {ok : Bytes → Prop} {good : List V → Prop} : ∀ (n : Nat), SatL ok good (List.replicate n .undef) (List.replicate n .undef)
  | 0 => .nil
  | n + 1 => .cons .undef (undefs n)

theorem startEnv_sat {ok : Bytes → Prop} {good : List V → Prop} {r : Nat} {vs : List V} (h : SatL ok good ((rhs r).map symTy) vs) : SatL ok good (startEnv r) (mkEnv vs) := by
  unfold startEnv mkEnv
  have hl := h.len
  simp only
  refine SatL.append (.cons .undef h) ?_
  have e : ((List.map symTy (rules.getD r (0, [])).2).length) = vs.length := hl
  rw [e]
  exact undefs _

theorem pcL_undefs (a : Nat × Int) (n : Nat) : pcL a (List.replicate n .undef) = 0 := by
  induction n with
  | zero => rfl
  | succ n ih => rw [List.replicate_succ, pcL_cons, ih]; rfl

theorem pcL_mkEnv (a : Nat × Int) (vs : List V) : pcL a (mkEnv vs) = pcL a vs := by
  unfold mkEnv
  rw [pcL_append, pcL_undefs]
  rw [pcL_cons]; show 0 + _ + 0 = _; omega

/-- What every action but that of `input` leaves alone. -/
structure Frame' (st st' : St) : Prop where
  ntok : st'.ntok = st.ntok
  nalloc : st.nalloc ≤ st'.nalloc
  stmts : st'.res.stmts = st.res.stmts
  params : st'.res.params = st.res.params
  err : st'.res.errMsg = none → st.res.errMsg = none ∧ st'.res = st.res
  loc : st'.yylloc.loc = st.yylloc.loc
  total : st'.yylloc.total = st.yylloc.total
  len : st'.yylloc.len = st.yylloc.len ∨ st'.yylloc.len = 0

theorem Frame.weak {st st' : St} (h : Frame st st') : Frame' st st' := ⟨h.ntok, h.nalloc, h.stmts, h.params, h.err, h.loc, h.total, h.len⟩

/-- The value of a parameter. -/
def paramV (a : Nat) (ival : V) (id : Nat) : V :=
  .obj a .Expr [.int ExprType.kExprParameter, .null, .null, .null, .null, .null, .null, .null, .null, .int 0, ival, .idx id, .int DatetimeField.kDatetimeNone,
    .tup [.int 0, .int 0, .int 0, .int 0], .int 0, .int OperatorType.kOpNone, .int 0, .null]

theorem run298 (A : Alloc) (loc : Loc) (v1 : V) (st : St) : run A loc (act 298) (mkEnv [v1]) st =
    .ok (paramV (A.new st.nalloc) (.pos st.yylloc.total) st.plist.length)
      { st with nalloc := st.nalloc + 1, plist := st.plist ++ [A.new st.nalloc], leaked := st.leaked ++ v1.addrs } := by
  have : act 298 = act298 := rfl
  rw [this]
  simp [act298, mkEnv, run, makeParameter, newE, setF, newExpr, evalRv, evalAtoms, evalAtom, getP, putP, V.get, V.put, St.log, St.bump, V.addr?, V.addrs, addrsL, paramV]

section
variable {ok : Bytes → Prop} {good : List V → Prop}

theorem paramV_sat (a : Nat) {ival : V} (hi : ival.isNum = true) (id : Nat) : Sat ok good Kind.param.p (paramV a ival id) := by
  unfold paramV Kind.param ExprP.p
  refine .obj a ?_ (by simp)
  have hct : Sat ok good (.ref .colType) (.tup [.int 0, .int 0, .int 0, .int 0]) := by
    refine .ref (p := colTypeP) (by simp [alts]) (.tup ?_)
    exact .cons (.ints (by decide)) (.cons (.num _) (.cons (.num _) (.cons (.num _) .nil)))
  have hiv : Sat ok good .posnum ival := by
    cases ival <;> simp [V.isNum] at hi
    · exact .posnum2 _
    · exact .posnum1 _
  exact .cons (.ints (by simp)) (.cons .null (.cons .null (.cons .null (.cons .null (.cons .null (.cons .null (.cons .null (.cons .null
    (.cons (.ints (by simp)) (.cons hiv (.cons (.idx _) (.cons (.ints (by simp)) (.cons hct (.cons (.ints (by simp)) (.cons (.ints (by simp)) (.cons (.ints (by simp)) (.cons .null .nil)))))))))))))))))

theorem paramV_pars (a : Nat) {ival : V} (hi : ival.isNum = true) (id : Nat) : (paramV a ival id).pars = [(a, (id : Int))] := by
  cases ival <;> simp [V.isNum] at hi <;> rfl

/-- Number a list of addresses. -/
def keyed : Nat → List Nat → List (Nat × Int)
  | _, [] => []
  | k, a :: l => (a, (k : Int)) :: keyed (k + 1) l

theorem keyed_append : ∀ (k : Nat) (u v : List Nat), keyed k (u ++ v) = keyed k u ++ keyed (k + u.length) v
  | k, [], v => by simp [keyed]
  | k, a :: u, v => by simp only [List.cons_append, keyed, keyed_append (k + 1) u v, List.length_cons]; rw [show k + 1 + u.length = k + (u.length + 1) by omega]
theorem keyed_fst : ∀ (k : Nat) (u : List Nat), (keyed k u).map Prod.fst = u
  | _, [] => rfl
  | k, a :: u => by simp only [keyed, List.map_cons, keyed_fst (k + 1) u]
theorem keyed_len : ∀ (k : Nat) (u : List Nat), (keyed k u).length = u.length
  | _, [] => rfl
  | k, a :: u => by simp only [keyed, List.length_cons, keyed_len (k + 1) u]

/-- What every action but that of `input` guarantees. -/
def RPost (ok : Bytes → Prop) (good : List V → Prop) (r : Nat) (vs : List V) (st : St) : Out → Prop
  | .ok v st' => Sat ok good (symTy (lhs r)) v ∧ (∃ new, st'.plist = st.plist ++ new ∧ ∀ a, pc a v = pcL a vs + (keyed st.plist.length new).count a) ∧
      (leaky r = false → st'.res.errMsg = none → st'.leaked = st.leaked) ∧ Frame' st st'
  | .error st' => Frame' st st' ∧ (failLeaky r = false → st.res.errMsg = none → st'.leaked = st.leaked)
  | .ub => ∃ b, ok b ∧ Overflow b

theorem rule_sound (A : Alloc) (loc : Loc) {r : Nat} (h1 : 2 ≤ r) (h2 : r < 358) (h3 : r ≠ 2) (h66 : r = 66 → ∀ fs, good fs) {vs : List V}
    (hv : SatL ok good ((rhs r).map symTy) vs) (st : St) : RPost ok good r vs st (run A loc (act r) (mkEnv vs) st) := by
  by_cases h4 : r = 298
  · subst h4
    have e : rhs 298 = [T.QMARK] := by decide +kernel
    rw [e] at hv
    cases hv with
    | @cons p v ps vs hv1 hv2 =>
      cases hv2
      have et : symTy T.QMARK = .undef := rfl
      rw [et] at hv1
      cases hv1
      rw [run298]
      have el : symTy (lhs 298) = Kind.param.p := by
        have : lhs 298 = N.param_expr := by decide +kernel
        rw [this]; rfl
      refine ⟨by rw [el]; exact paramV_sat _ rfl _, ⟨[A.new st.nalloc], rfl, ?_⟩, ?_, ?_⟩
      · intro a
        show List.count a (paramV _ _ _).pars = _
        rw [paramV_pars _ rfl]
        show _ = 0 + (keyed st.plist.length [A.new st.nalloc]).count a
        have : keyed st.plist.length [A.new st.nalloc] = [(A.new st.nalloc, (st.plist.length : Int))] := rfl
        rw [this]; omega
      · intro _ _; simp [V.addrs]
      · exact ⟨rfl, Nat.le_succ _, rfl, rfl, fun h => ⟨h, rfl⟩, rfl, rfl, .inl rfl⟩
  · obtain ⟨c1, c2⟩ := rule_chk h1 h2 h3 h4
    have hp := chk_sound (ok := ok) (good := good) A loc (g := (r == 66)) (by simpa using h66) (act r) st c1 c2 (startEnv_sat hv)
    have hf := run_frame A loc (act r) (mkEnv vs) st
    cases ho : run A loc (act r) (mkEnv vs) st with
    | ok v st' =>
      rw [ho] at hp hf
      have hf := hf st' c2 rfl
      refine ⟨hp.1, ⟨[], by rw [hf.plist]; simp, ?_⟩, hp.2.2, hf.weak⟩
      intro a
      rw [hp.2.1 a, pcL_mkEnv]; rfl
    | error st' =>
      rw [ho] at hf
      rw [ho] at hp
      exact ⟨(hf st' c2 rfl).weak, fun h5 h6 => hp h5 (.inr ⟨one_err h1 h2 h3, h6⟩)⟩
    | ub => rw [ho] at hp; exact hp
end

end Verif.Sem

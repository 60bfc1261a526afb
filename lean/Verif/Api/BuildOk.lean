import Verif.Api.BuildRules
import Verif.Api.BuildSpec
import Verif.Sem.Own
/-! A client that follows the rules: the invariant, and that every operation keeps it. Proof-internal. -/
namespace Verif.Build
open Verif.Sem

/-- Disposing of the value frees it completely. -/
def Frees (h : How) (v : V) : Prop := ∃ f, treat h v = some (f, [])
def FreesFs (hs : List How) (vs : List V) : Prop := ∃ f, treatFs hs vs = some (f, [])
def FreesEl (h : How) (vs : List V) : Prop := ∃ f, treatEl h vs = some (f, [])

theorem cat2_nil {x y : Option (List Nat × List Nat)} : (∃ f, cat2 x y = some (f, [])) ↔ (∃ f, x = some (f, [])) ∧ ∃ f, y = some (f, []) := by
  constructor
  · rintro ⟨f, h⟩
    unfold cat2 at h
    split at h
    · simp only [Option.some.injEq, Prod.mk.injEq, List.append_eq_nil_iff] at h
      obtain ⟨_, h1, h2⟩ := h
      subst h1 h2
      exact ⟨⟨_, rfl⟩, ⟨_, rfl⟩⟩
    · cases h
  · rintro ⟨⟨f, rfl⟩, ⟨g, rfl⟩⟩
    exact ⟨f ++ g, rfl⟩

theorem frees_cons {h : How} {hs : List How} {v : V} {vs : List V} : FreesFs (h :: hs) (v :: vs) ↔ Frees h v ∧ FreesFs hs vs := by
  unfold FreesFs Frees
  rw [treatFs]
  exact cat2_nil
theorem frees_nil : FreesFs [] [] := ⟨[], by rw [treatFs]⟩
theorem freesEl_cons {h : How} {v : V} {vs : List V} : FreesEl h (v :: vs) ↔ Frees h v ∧ FreesEl h vs := by
  unfold FreesEl Frees
  rw [treatEl]
  exact cat2_nil
theorem freesEl_nil {h : How} : FreesEl h [] := ⟨[], by rw [treatEl]⟩
theorem freesEl_snoc {h : How} {v : V} (hv : Frees h v) : ∀ {vs : List V}, FreesEl h vs → FreesEl h (vs ++ [v])
  | [], _ => freesEl_cons.2 ⟨hv, freesEl_nil⟩
  | w :: vs, hs => freesEl_cons.2 ⟨(freesEl_cons.1 hs).1, freesEl_snoc hv (freesEl_cons.1 hs).2⟩

theorem frees_get : ∀ {hs : List How} {vs : List V}, FreesFs hs vs → ∀ {i : Nat} {h : How}, hs[i]? = some h → ∃ v, vs[i]? = some v ∧ Frees h v
  | [], _, _, _, _, hi => by simp at hi
  | h :: hs, [], hf, _, _, _ => by obtain ⟨f, hf⟩ := hf; simp [treatFs] at hf
  | h :: hs, v :: vs, hf, 0, _, hi => by
    simp only [List.getElem?_cons_zero, Option.some.injEq] at hi
    subst hi
    exact ⟨v, rfl, (frees_cons.1 hf).1⟩
  | h :: hs, v :: vs, hf, i + 1, _, hi => by
    simp only [List.getElem?_cons_succ] at hi ⊢
    exact frees_get (frees_cons.1 hf).2 hi

theorem frees_set : ∀ {hs : List How} {vs : List V}, FreesFs hs vs → ∀ {i : Nat} {h : How}, hs[i]? = some h → ∀ {x : V}, Frees h x → FreesFs hs (vs.set i x)
  | [], _, _, _, _, hi, _, _ => by simp at hi
  | h :: hs, [], hf, _, _, _, _, _ => by obtain ⟨f, hf⟩ := hf; simp [treatFs] at hf
  | h :: hs, v :: vs, hf, 0, _, hi, x, hx => by
    simp only [List.getElem?_cons_zero, Option.some.injEq] at hi
    subst hi
    exact frees_cons.2 ⟨hx, (frees_cons.1 hf).2⟩
  | h :: hs, v :: vs, hf, i + 1, _, hi, x, hx => by
    simp only [List.getElem?_cons_succ] at hi
    exact frees_cons.2 ⟨(frees_cons.1 hf).1, frees_set (frees_cons.1 hf).2 hi hx⟩

theorem frees_keep {v : V} : Frees .keep v ↔ v.addrs = [] := by
  unfold Frees
  rw [treat]
  constructor
  · rintro ⟨f, h⟩; simp at h; exact h.2
  · intro h; rw [h]; exact ⟨_, rfl⟩
theorem frees_null_str : Frees .str .null := ⟨[], by rw [treat]⟩
theorem frees_null_del : Frees .del .null := ⟨[], by rw [treat]⟩
theorem frees_null_vec {e : How} : Frees (.vec e) .null := ⟨[], by rw [treat]⟩
theorem frees_str {a : Nat} {b : Bytes} : Frees .str (.str a b) := ⟨[a], by rw [treat]⟩
theorem frees_vec {e : How} {a : Nat} {vs : List V} : Frees (.vec e) (.vec a vs) ↔ FreesEl e vs := by
  unfold Frees FreesEl
  rw [treat, cat2_nil]
  exact ⟨fun h => h.2, fun h => ⟨⟨[a], rfl⟩, h⟩⟩
theorem frees_vecNN {e : How} {a : Nat} {vs : List V} : Frees (.vecNN e) (.vec a vs) ↔ FreesEl e vs := by
  unfold Frees FreesEl
  rw [treat, cat2_nil]
  exact ⟨fun h => h.2, fun h => ⟨⟨[a], rfl⟩, h⟩⟩
theorem frees_obj {c : Cls} {a : Nat} {fs : List V} : Frees .del (.obj a c fs) ↔ FreesFs (dtor c) fs := by
  unfold Frees FreesFs
  rw [treat, cat2_nil]
  exact ⟨fun h => h.2, fun h => ⟨⟨[a], rfl⟩, h⟩⟩
theorem frees_fields {hs : List How} {c : Cls} {a : Nat} {fs : List V} : Frees (.fields hs) (.obj a c fs) ↔ FreesFs hs fs := by
  unfold Frees FreesFs
  rw [treat, cat2_nil]
  exact ⟨fun h => h.2, fun h => ⟨⟨[a], rfl⟩, h⟩⟩
theorem frees_set_vec {a : Nat} {vs : List V} (h : addrsL vs = []) : Frees .del (.vec a vs) := ⟨[a], by rw [treat, h]⟩

/-- A value of a kind. -/
def Own : Kind → V → Prop
  | .str, v => ∃ a b, v = .str a b
  | .vec e, v => ∃ a vs, v = .vec a vs ∧ FreesEl e.how vs
  | .set, v => ∃ a vs, v = .vec a vs ∧ addrsL vs = []
  | .obj c nulls lists, v => ∃ a fs, v = .obj a c fs ∧ FreesFs (hows c) fs ∧ (∀ i ∈ nulls, fs[i]? = some .null) ∧
      (∀ p ∈ lists, (hows c)[p.1]? = some (.vec p.2.how) ∧ ∃ b vs, fs[p.1]? = some (.vec b vs)) ∧ ∀ i ∈ nulls, isScalar c i = false

theorem frees_obj' {c : Cls} {a : Nat} {fs : List V} (h : FreesFs (hows c) fs) : Frees (eltOf c).how (.obj a c fs) := by
  unfold hows at h
  cases e : eltOf c with
  | str => cases c <;> cases e
  | obj => rw [e] at h; exact frees_obj.2 h
  | lock => rw [e] at h; exact frees_fields.2 h
  | update => rw [e] at h; exact frees_fields.2 h

theorem Own.frees : ∀ {k : Kind} {v : V}, Own k v → Frees k.disp.how v
  | .str, _, ⟨_, _, e⟩ => e ▸ frees_str
  | .vec _, _, ⟨_, _, e, h⟩ => e ▸ frees_vec.2 h
  | .set, _, ⟨_, _, e, h⟩ => e ▸ frees_set_vec h
  | .obj _ _ _, _, ⟨_, _, e, h, _⟩ => e ▸ frees_obj' h

theorem Own.defined : ∀ {k : Kind} {v : V}, Own k v → v.isUndef = false
  | .str, _, ⟨_, _, e⟩ => e ▸ rfl
  | .vec _, _, ⟨_, _, e, _⟩ => e ▸ rfl
  | .set, _, ⟨_, _, e, _⟩ => e ▸ rfl
  | .obj _ _ _, _, ⟨_, _, e, _⟩ => e ▸ rfl

/-- What a variable holds. -/
def Holds : Option Kind → V → Prop
  | none, v => v = .undef
  | some k, v => Own k v

/-- The variables hold what the context says. -/
inductive HoldsAll : Ctx → List V → Prop
  | nil : HoldsAll [] []
  | cons {k : Option Kind} {v : V} {Γ : Ctx} {vs : List V} : Holds k v → HoldsAll Γ vs → HoldsAll (k :: Γ) (v :: vs)

theorem HoldsAll.get {Γ : Ctx} {vs : List V} (h : HoldsAll Γ vs) : ∀ {i : Nat} {k : Option Kind}, Γ[i]? = some k → ∃ v, vs[i]? = some v ∧ Holds k v := by
  induction h with
  | nil => intro i k hi; simp at hi
  | cons h1 h2 ih =>
    intro i k hi
    cases i with
    | zero => simp only [List.getElem?_cons_zero, Option.some.injEq] at hi; subst hi; exact ⟨_, rfl, h1⟩
    | succ i => simp only [List.getElem?_cons_succ] at hi ⊢; exact ih hi

theorem HoldsAll.set {Γ : Ctx} {vs : List V} (h : HoldsAll Γ vs) {k : Option Kind} {v : V} (hk : Holds k v) : ∀ (i : Nat), HoldsAll (Γ.set i k) (vs.set i v) := by
  induction h with
  | nil => intro i; exact .nil
  | cons h1 h2 ih =>
    intro i
    cases i with
    | zero => exact .cons hk h2
    | succ i => exact .cons h1 (ih i)

theorem HoldsAll.set_same {Γ : Ctx} {vs : List V} (h : HoldsAll Γ vs) {k : Option Kind} {v : V} {i : Nat} (hi : Γ[i]? = some k) (hk : Holds k v) : HoldsAll Γ (vs.set i v) := by
  have := h.set hk i
  rwa [List.set_eq_of_getElem? hi] at this
where
  List.set_eq_of_getElem? {Γ : Ctx} {i : Nat} {k : Option Kind} (h : Γ[i]? = some k) : Γ.set i k = Γ := by
    apply List.ext_getElem?
    intro j
    rw [List.getElem?_set]
    split
    · rename_i e; subst e; split
      · exact h.symm
      · rename_i hl; rw [List.getElem?_eq_none (by omega)]
    · rfl

theorem take_ok {Γ Γ' : Ctx} {vs : List V} (h : HoldsAll Γ vs) {x : Nat} {ok : Kind → Bool} (ht : Γ.take x ok = some Γ') :
    ∃ k v vs', Γ[x]? = some (some k) ∧ ok k = true ∧ Own k v ∧ takeVar x vs = some (v, vs') ∧ HoldsAll Γ' vs' ∧ (∀ a, ac a v + acL a vs' = acL a vs) ∧ vs'.length = vs.length := by
  unfold Ctx.take at ht
  split at ht
  · rename_i k hk
    split at ht
    · rename_i hok
      cases ht
      obtain ⟨v, hv, ho⟩ := h.get hk
      refine ⟨k, v, vs.set x .undef, hk, hok, ho, ?_, h.set (k := none) rfl x, ?_, by simp⟩
      · unfold takeVar
        rw [hv]
        simp only []
        rw [if_neg (by rw [Own.defined ho]; decide)]
      · intro a
        have := acL_set a vs x v .undef hv
        rw [ac_undef] at this
        omega
    · cases ht
  · cases ht

/-- What an argument evaluates to. -/
def ArgOK : Arg → V → Prop
  | .ptr _ d, v => v.isUndef = false ∧ Frees d.how v
  | .expr _, v => ∃ a fs, v = .obj a .Expr fs ∧ FreesFs (dtor .Expr) fs
  | .list _ e, v => ∃ a vs, v = .vec a vs ∧ FreesEl e.how vs
  | .val x, v => v = x.v

inductive ArgsOK : List Arg → List V → Prop
  | nil : ArgsOK [] []
  | cons {a : Arg} {v : V} {as : List Arg} {vs : List V} : ArgOK a v → ArgsOK as vs → ArgsOK (a :: as) (v :: vs)

theorem frees_null (d : Disp) (h : d ≠ .one .lock ∧ d ≠ .one .update) : Frees d.how .null := by
  cases d with
  | all e => exact frees_null_vec
  | one e => cases e with
    | str => exact frees_null_str
    | obj => exact frees_null_del
    | lock => simp at h
    | update => simp at h

theorem ptr_ok {Γ Γ' : Ctx} {vs : List V} (h : HoldsAll Γ vs) {p : Ptr} {d : Disp} (hc : p.check d Γ = some Γ') :
    ∃ v vs', p.take vs = some (v, vs') ∧ v.isUndef = false ∧ Frees d.how v ∧ HoldsAll Γ' vs' ∧ ∀ a, ac a v + acL a vs' = acL a vs := by
  cases p with
  | nil =>
    simp only [Ptr.check] at hc
    split at hc
    · rename_i hd
      cases hc
      exact ⟨.null, vs, rfl, rfl, frees_null d hd, h, fun a => by rw [ac_null]; omega⟩
    · cases hc
  | var x =>
    obtain ⟨k, v, vs', _, hk, ho, e, h', ha, _⟩ := take_ok h hc
    have hk := of_decide_eq_true hk
    exact ⟨v, vs', e, ho.defined, hk ▸ ho.frees, h', ha⟩

theorem arg_ok {Γ Γ' : Ctx} {vs : List V} (h : HoldsAll Γ vs) {a : Arg} (hc : a.check Γ = some Γ') :
    ∃ v vs', a.take vs = some (v, vs') ∧ ArgOK a v ∧ HoldsAll Γ' vs' ∧ ∀ b, ac b v + acL b vs' = acL b vs := by
  cases a with
  | ptr p d =>
    obtain ⟨v, vs', e, h1, h2, h3, h4⟩ := ptr_ok h hc
    exact ⟨v, vs', e, ⟨h1, h2⟩, h3, h4⟩
  | expr x =>
    obtain ⟨k, v, vs', _, hk, ho, e, h', ha, _⟩ := take_ok h hc
    refine ⟨v, vs', e, ?_, h', ha⟩
    cases k with
    | obj c n l =>
      cases c <;> first | cases hk | skip
      obtain ⟨a, fs, e, hf, _⟩ := ho
      exact ⟨a, fs, e, hf⟩
    | _ => cases hk
  | list x e =>
    obtain ⟨k, v, vs', _, hk, ho, e, h', ha, _⟩ := take_ok h hc
    have hk := of_decide_eq_true hk
    subst hk
    exact ⟨v, vs', e, ho, h', ha⟩
  | val x =>
    cases hc
    refine ⟨x.v, vs, rfl, rfl, h, fun b => ?_⟩
    have : ac b x.v = 0 := by cases x <;> simp [Val.v, ac, V.addrs, addrsL]
    omega

theorem args_ok : ∀ {as : List Arg} {Γ Γ' : Ctx} {vs : List V}, HoldsAll Γ vs → checkArgs as Γ = some Γ' →
    ∃ ws vs', takeAll as vs = some (ws, vs') ∧ ArgsOK as ws ∧ HoldsAll Γ' vs' ∧ ∀ b, acL b ws + acL b vs' = acL b vs
  | [], Γ, Γ', vs, h, hc => by
    cases hc
    exact ⟨[], vs, rfl, .nil, h, fun b => by rw [acL_nil]; omega⟩
  | a :: as, Γ, Γ', vs, h, hc => by
    rw [checkArgs] at hc
    split at hc
    · rename_i Γ1 h1
      obtain ⟨v, vs1, e1, o1, h1, c1⟩ := arg_ok h h1
      obtain ⟨ws, vs2, e2, o2, h2, c2⟩ := args_ok h1 hc
      refine ⟨v :: ws, vs2, ?_, .cons o1 o2, h2, fun b => ?_⟩
      · rw [takeAll, e1]; simp only []; rw [e2]
      · have := c1 b; have := c2 b; rw [acL_cons]; omega
    · cases hc

/-! ## The library functions -/

theorem bit_own {hs : List How} {c : Cls} {nulls : List Nat} {lists : List (Nat × Elt)} {a : Nat} {fs : List V} (h1 : hows c = hs) (h0 : ∀ i ∈ nulls, isScalar c i = false) (h : FreesFs hs fs)
    (hn : ∀ i ∈ nulls, fs[i]? = some .null) (hl : ∀ p ∈ lists, (hows c)[p.1]? = some (.vec p.2.how) ∧ ∃ b vs, fs[p.1]? = some (.vec b vs)) : Own (.obj c nulls lists) (.obj a c fs) :=
  ⟨a, fs, rfl, h1 ▸ h, hn, hl, h0⟩

/-- The function returns what it should; nothing is lost; the value is of the kind promised. -/
def MakeOK (m : Make) (vs : List V) : Prop :=
  ∀ st, ∃ v st', run heap ⟨0, 0, 0, 0⟩ m.prog (mkEnv vs) st = .ok v st' ∧ st'.leaked = st.leaked ∧ st'.res = st.res ∧ v = m.made (heap.new st.nalloc) (heap.new (st.nalloc + 1)) vs ∧ Own m.kind v

theorem undef_int (n : Int) : (V.int n).isUndef = false := rfl
theorem undef_raw (b : Bytes) : (V.raw b).isUndef = false := rfl
theorem undef_tup (b : List V) : (V.tup b).isUndef = false := rfl
theorem undef_null : V.null.isUndef = false := rfl
theorem undef_vec (a : Nat) (b : List V) : (V.vec a b).isUndef = false := rfl

macro "runs" h:term,* : tactic => `(tactic| simp [Make.prog, Sem.make, makeOpUnary, makeOpBinary, makeBetween, makeCaseList, makeCaseListElement,
  makeLiteralInt, makeLiteralFloat, makeLiteralString, makeLiteralBool, makeNullLiteral, makeDateLiteral, makeIntervalLiteral, makeColumnRef,
  makeColumnRefTable, makeStar, makeStarTable, makeFunctionRef, makeFunctionRefSchema, makeArray, makeArrayIndex, makeParameter, makeSelect, makeExists,
  makeInOperatorList, makeInOperatorSelect, makeExtract, makeCast, newExpr, newFrameBound, newFrameDescription, newWindowDescription, newOrderDescription,
  newLimitDescription, newGroupByDescription, newWithDescription, newSetOperation, newLockingClause, newSelectStatement, newAlias, newTableRef,
  newJoinDefinition, newTableConstraint, newReferencesSpecification, newForeignKeyConstraint, newColumnDefinition, newCreateStatement, newCsvOptions,
  newImportExportOptions, newImportStatement, newExportStatement, newInsertStatement, newDeleteStatement, newUpdateClause, newUpdateStatement,
  newDropStatement, newDropColumnAction, newAlterStatement, newExecuteStatement, newPrepareStatement, newShowStatement, newTransactionStatement,
  mkEnv, run, evalRv, evalAtoms, evalAtom, getP, putP, V.get, V.put, Val.v, undef_int, undef_raw, undef_tup, undef_null, undef_vec, St.log, St.bump, addrsL, V.addrs, List.replicate,
  Make.made, Fields.at, bit, $[$h:term],*])

macro "frees" h:term,* : tactic => `(tactic| simp [dtor, hows, eltOf, frees_cons, frees_nil, frees_null_del, frees_null_str, frees_null_vec, frees_keep, V.addrs, addrsL,
  frees_vec, frees_vecNN, freesEl_cons, freesEl_nil, How.strs, How.objs, $[$h:term],*])

theorem make_make (t : Int) {vs : List V} (h : ArgsOK (Make.args (.make t)) vs) : MakeOK (.make t) vs := by
  cases h with | cons h1 h => cases h with | nil =>
  cases h1
  intro st
  refine ⟨_, st.bump, (by runs heap), rfl, rfl, rfl, bit_own rfl (by decide) ?_ (by simp) (by frees Elt.how)⟩
  frees heap

theorem make_opUnary (op : Int) (e : Ptr) {vs : List V} (h : ArgsOK (Make.args (.opUnary op e)) vs) : MakeOK (.opUnary op e) vs := by
  cases h with | cons h1 h => cases h with | cons h2 h => cases h with | nil =>
  cases h1
  obtain ⟨u2, f2⟩ := h2
  intro st
  refine ⟨_, st.bump, (by runs u2), rfl, rfl, rfl, bit_own rfl (by decide) ?_ (by simp) (by frees Elt.how)⟩
  simp only [Disp.how, Elt.how] at f2
  frees f2

theorem make_opBinary (a : Ptr) (op : Int) (b : Ptr) {vs : List V} (h : ArgsOK (Make.args (.opBinary a op b)) vs) : MakeOK (.opBinary a op b) vs := by
  cases h with | cons h1 h => cases h with | cons h2 h => cases h with | cons h3 h => cases h with | nil =>
  obtain ⟨u1, f1⟩ := h1
  cases h2
  obtain ⟨u3, f3⟩ := h3
  intro st
  refine ⟨_, st.bump, (by runs u1, u3), rfl, rfl, rfl, bit_own rfl (by decide) ?_ (by simp) (by frees Elt.how)⟩
  simp only [Disp.how, Elt.how] at f1
  simp only [Disp.how, Elt.how] at f3
  frees f1, f3

theorem make_between (e l r : Ptr) {vs : List V} (h : ArgsOK (Make.args (.between e l r)) vs) : MakeOK (.between e l r) vs := by
  cases h with | cons h1 h => cases h with | cons h2 h => cases h with | cons h3 h => cases h with | nil =>
  obtain ⟨u1, f1⟩ := h1
  obtain ⟨u2, f2⟩ := h2
  obtain ⟨u3, f3⟩ := h3
  intro st
  refine ⟨_, st.bump.bump, (by runs u1, u2, u3), rfl, rfl, rfl, bit_own rfl (by decide) ?_ (by simp) (by frees Elt.how)⟩
  simp only [Disp.how, Elt.how] at f1
  simp only [Disp.how, Elt.how] at f2
  simp only [Disp.how, Elt.how] at f3
  frees f1, f2, f3

theorem make_caseList (el : Ptr) {vs : List V} (h : ArgsOK (Make.args (.caseList el)) vs) : MakeOK (.caseList el) vs := by
  cases h with | cons h1 h => cases h with | nil =>
  obtain ⟨u1, f1⟩ := h1
  intro st
  refine ⟨_, st.bump.bump, (by runs u1), rfl, rfl, rfl, bit_own rfl (by decide) ?_ (by simp) (by frees Elt.how)⟩
  simp only [Disp.how, Elt.how] at f1
  frees f1

theorem make_caseListElement (w t : Ptr) {vs : List V} (h : ArgsOK (Make.args (.caseListElement w t)) vs) : MakeOK (.caseListElement w t) vs := by
  cases h with | cons h1 h => cases h with | cons h2 h => cases h with | nil =>
  obtain ⟨u1, f1⟩ := h1
  obtain ⟨u2, f2⟩ := h2
  intro st
  refine ⟨_, st.bump, (by runs u1, u2), rfl, rfl, rfl, bit_own rfl (by decide) ?_ (by simp) (by frees Elt.how)⟩
  simp only [Disp.how, Elt.how] at f1
  simp only [Disp.how, Elt.how] at f2
  frees f1, f2

theorem make_literalInt (n : Int) {vs : List V} (h : ArgsOK (Make.args (.literalInt n)) vs) : MakeOK (.literalInt n) vs := by
  cases h with | cons h1 h => cases h with | nil =>
  cases h1
  intro st
  refine ⟨_, st.bump, (by runs heap), rfl, rfl, rfl, bit_own rfl (by decide) ?_ (by simp) (by frees Elt.how)⟩
  frees heap

theorem make_literalFloat (b : Bytes) {vs : List V} (h : ArgsOK (Make.args (.literalFloat b)) vs) : MakeOK (.literalFloat b) vs := by
  cases h with | cons h1 h => cases h with | nil =>
  cases h1
  intro st
  refine ⟨_, st.bump, (by runs heap), rfl, rfl, rfl, bit_own rfl (by decide) ?_ (by simp) (by frees Elt.how)⟩
  frees heap

theorem make_literalString (s : Ptr) {vs : List V} (h : ArgsOK (Make.args (.literalString s)) vs) : MakeOK (.literalString s) vs := by
  cases h with | cons h1 h => cases h with | nil =>
  obtain ⟨u1, f1⟩ := h1
  intro st
  refine ⟨_, st.bump, (by runs u1), rfl, rfl, rfl, bit_own rfl (by decide) ?_ (by simp) (by frees Elt.how)⟩
  simp only [Disp.how, Elt.how] at f1
  frees f1

theorem make_literalBool (b : Bool) {vs : List V} (h : ArgsOK (Make.args (.literalBool b)) vs) : MakeOK (.literalBool b) vs := by
  cases h with | cons h1 h => cases h with | nil =>
  cases h1
  intro st
  refine ⟨_, st.bump, (by runs heap), rfl, rfl, rfl, bit_own rfl (by decide) ?_ (by simp) (by frees Elt.how)⟩
  frees heap

theorem make_nullLiteral  {vs : List V} (h : ArgsOK (Make.args (.nullLiteral)) vs) : MakeOK (.nullLiteral) vs := by
  cases h with | nil =>
  intro st
  refine ⟨_, st.bump, (by runs heap), rfl, rfl, rfl, bit_own rfl (by decide) ?_ (by simp) (by frees Elt.how)⟩
  frees heap

theorem make_dateLiteral (s : Ptr) {vs : List V} (h : ArgsOK (Make.args (.dateLiteral s)) vs) : MakeOK (.dateLiteral s) vs := by
  cases h with | cons h1 h => cases h with | nil =>
  obtain ⟨u1, f1⟩ := h1
  intro st
  refine ⟨_, st.bump, (by runs u1), rfl, rfl, rfl, bit_own rfl (by decide) ?_ (by simp) (by frees Elt.how)⟩
  simp only [Disp.how, Elt.how] at f1
  frees f1

theorem make_intervalLiteral (n u : Int) {vs : List V} (h : ArgsOK (Make.args (.intervalLiteral n u)) vs) : MakeOK (.intervalLiteral n u) vs := by
  cases h with | cons h1 h => cases h with | cons h2 h => cases h with | nil =>
  cases h1
  cases h2
  intro st
  refine ⟨_, st.bump, (by runs heap), rfl, rfl, rfl, bit_own rfl (by decide) ?_ (by simp) (by frees Elt.how)⟩
  frees heap

theorem make_columnRef (n : Ptr) {vs : List V} (h : ArgsOK (Make.args (.columnRef n)) vs) : MakeOK (.columnRef n) vs := by
  cases h with | cons h1 h => cases h with | nil =>
  obtain ⟨u1, f1⟩ := h1
  intro st
  refine ⟨_, st.bump, (by runs u1), rfl, rfl, rfl, bit_own rfl (by decide) ?_ (by simp) (by frees Elt.how)⟩
  simp only [Disp.how, Elt.how] at f1
  frees f1

theorem make_columnRefTable (t n : Ptr) {vs : List V} (h : ArgsOK (Make.args (.columnRefTable t n)) vs) : MakeOK (.columnRefTable t n) vs := by
  cases h with | cons h1 h => cases h with | cons h2 h => cases h with | nil =>
  obtain ⟨u1, f1⟩ := h1
  obtain ⟨u2, f2⟩ := h2
  intro st
  refine ⟨_, st.bump, (by runs u1, u2), rfl, rfl, rfl, bit_own rfl (by decide) ?_ (by simp) (by frees Elt.how)⟩
  simp only [Disp.how, Elt.how] at f1
  simp only [Disp.how, Elt.how] at f2
  frees f1, f2

theorem make_star  {vs : List V} (h : ArgsOK (Make.args (.star)) vs) : MakeOK (.star) vs := by
  cases h with | nil =>
  intro st
  refine ⟨_, st.bump, (by runs heap), rfl, rfl, rfl, bit_own rfl (by decide) ?_ (by simp) (by frees Elt.how)⟩
  frees heap

theorem make_starTable (t : Ptr) {vs : List V} (h : ArgsOK (Make.args (.starTable t)) vs) : MakeOK (.starTable t) vs := by
  cases h with | cons h1 h => cases h with | nil =>
  obtain ⟨u1, f1⟩ := h1
  intro st
  refine ⟨_, st.bump, (by runs u1), rfl, rfl, rfl, bit_own rfl (by decide) ?_ (by simp) (by frees Elt.how)⟩
  simp only [Disp.how, Elt.how] at f1
  frees f1

theorem make_functionRef (n es : Ptr) (d : Bool) (w : Ptr) {vs : List V} (h : ArgsOK (Make.args (.functionRef n es d w)) vs) : MakeOK (.functionRef n es d w) vs := by
  cases h with | cons h1 h => cases h with | cons h2 h => cases h with | cons h3 h => cases h with | cons h4 h => cases h with | nil =>
  obtain ⟨u1, f1⟩ := h1
  obtain ⟨u2, f2⟩ := h2
  cases h3
  obtain ⟨u4, f4⟩ := h4
  intro st
  refine ⟨_, st.bump, (by runs u1, u2, u4), rfl, rfl, rfl, bit_own rfl (by decide) ?_ (by simp) (by frees Elt.how)⟩
  simp only [Disp.how, Elt.how] at f1
  simp only [Disp.how, Elt.how] at f2
  simp only [Disp.how, Elt.how] at f4
  frees f1, f2, f4

theorem make_functionRefSchema (n s es : Ptr) (d : Bool) (w : Ptr) {vs : List V} (h : ArgsOK (Make.args (.functionRefSchema n s es d w)) vs) : MakeOK (.functionRefSchema n s es d w) vs := by
  cases h with | cons h1 h => cases h with | cons h2 h => cases h with | cons h3 h => cases h with | cons h4 h => cases h with | cons h5 h => cases h with | nil =>
  obtain ⟨u1, f1⟩ := h1
  obtain ⟨u2, f2⟩ := h2
  obtain ⟨u3, f3⟩ := h3
  cases h4
  obtain ⟨u5, f5⟩ := h5
  intro st
  refine ⟨_, st.bump, (by runs u1, u2, u3, u5), rfl, rfl, rfl, bit_own rfl (by decide) ?_ (by simp) (by frees Elt.how)⟩
  simp only [Disp.how, Elt.how] at f1
  simp only [Disp.how, Elt.how] at f2
  simp only [Disp.how, Elt.how] at f3
  simp only [Disp.how, Elt.how] at f5
  frees f1, f2, f3, f5

theorem make_array (es : Ptr) {vs : List V} (h : ArgsOK (Make.args (.array es)) vs) : MakeOK (.array es) vs := by
  cases h with | cons h1 h => cases h with | nil =>
  obtain ⟨u1, f1⟩ := h1
  intro st
  refine ⟨_, st.bump, (by runs u1), rfl, rfl, rfl, bit_own rfl (by decide) ?_ (by simp) (by frees Elt.how)⟩
  simp only [Disp.how, Elt.how] at f1
  frees f1

theorem make_arrayIndex (e : Ptr) (i : Int) {vs : List V} (h : ArgsOK (Make.args (.arrayIndex e i)) vs) : MakeOK (.arrayIndex e i) vs := by
  cases h with | cons h1 h => cases h with | cons h2 h => cases h with | nil =>
  obtain ⟨u1, f1⟩ := h1
  cases h2
  intro st
  refine ⟨_, st.bump, (by runs u1), rfl, rfl, rfl, bit_own rfl (by decide) ?_ (by simp) (by frees Elt.how)⟩
  simp only [Disp.how, Elt.how] at f1
  frees f1

theorem make_parameter (n : Int) {vs : List V} (h : ArgsOK (Make.args (.parameter n)) vs) : MakeOK (.parameter n) vs := by
  cases h with | cons h1 h => cases h with | nil =>
  cases h1
  intro st
  refine ⟨_, st.bump, (by runs heap), rfl, rfl, rfl, bit_own rfl (by decide) ?_ (by simp) (by frees Elt.how)⟩
  frees heap

theorem make_select (s : Ptr) {vs : List V} (h : ArgsOK (Make.args (.select s)) vs) : MakeOK (.select s) vs := by
  cases h with | cons h1 h => cases h with | nil =>
  obtain ⟨u1, f1⟩ := h1
  intro st
  refine ⟨_, st.bump, (by runs u1), rfl, rfl, rfl, bit_own rfl (by decide) ?_ (by simp) (by frees Elt.how)⟩
  simp only [Disp.how, Elt.how] at f1
  frees f1

theorem make_exists_ (s : Ptr) {vs : List V} (h : ArgsOK (Make.args (.exists_ s)) vs) : MakeOK (.exists_ s) vs := by
  cases h with | cons h1 h => cases h with | nil =>
  obtain ⟨u1, f1⟩ := h1
  intro st
  refine ⟨_, st.bump, (by runs u1), rfl, rfl, rfl, bit_own rfl (by decide) ?_ (by simp) (by frees Elt.how)⟩
  simp only [Disp.how, Elt.how] at f1
  frees f1

theorem make_inList (e es : Ptr) {vs : List V} (h : ArgsOK (Make.args (.inList e es)) vs) : MakeOK (.inList e es) vs := by
  cases h with | cons h1 h => cases h with | cons h2 h => cases h with | nil =>
  obtain ⟨u1, f1⟩ := h1
  obtain ⟨u2, f2⟩ := h2
  intro st
  refine ⟨_, st.bump, (by runs u1, u2), rfl, rfl, rfl, bit_own rfl (by decide) ?_ (by simp) (by frees Elt.how)⟩
  simp only [Disp.how, Elt.how] at f1
  simp only [Disp.how, Elt.how] at f2
  frees f1, f2

theorem make_inSelect (e s : Ptr) {vs : List V} (h : ArgsOK (Make.args (.inSelect e s)) vs) : MakeOK (.inSelect e s) vs := by
  cases h with | cons h1 h => cases h with | cons h2 h => cases h with | nil =>
  obtain ⟨u1, f1⟩ := h1
  obtain ⟨u2, f2⟩ := h2
  intro st
  refine ⟨_, st.bump, (by runs u1, u2), rfl, rfl, rfl, bit_own rfl (by decide) ?_ (by simp) (by frees Elt.how)⟩
  simp only [Disp.how, Elt.how] at f1
  simp only [Disp.how, Elt.how] at f2
  frees f1, f2

theorem make_extract (f : Int) (e : Ptr) {vs : List V} (h : ArgsOK (Make.args (.extract f e)) vs) : MakeOK (.extract f e) vs := by
  cases h with | cons h1 h => cases h with | cons h2 h => cases h with | nil =>
  cases h1
  obtain ⟨u2, f2⟩ := h2
  intro st
  refine ⟨_, st.bump, (by runs u2), rfl, rfl, rfl, bit_own rfl (by decide) ?_ (by simp) (by frees Elt.how)⟩
  simp only [Disp.how, Elt.how] at f2
  frees f2

theorem make_cast (e : Ptr) (a b c d : Int) {vs : List V} (h : ArgsOK (Make.args (.cast e a b c d)) vs) : MakeOK (.cast e a b c d) vs := by
  cases h with | cons h1 h => cases h with | cons h2 h => cases h with | nil =>
  obtain ⟨u1, f1⟩ := h1
  cases h2
  intro st
  refine ⟨_, st.bump, (by runs u1), rfl, rfl, rfl, bit_own rfl (by decide) ?_ (by simp) (by frees Elt.how)⟩
  simp only [Disp.how, Elt.how] at f1
  frees f1

theorem make_frameBound (o t : Int) (u : Bool) {vs : List V} (h : ArgsOK (Make.args (.frameBound o t u)) vs) : MakeOK (.frameBound o t u) vs := by
  cases h with | cons h1 h => cases h with | cons h2 h => cases h with | cons h3 h => cases h with | nil =>
  cases h1
  cases h2
  cases h3
  intro st
  refine ⟨_, st.bump, (by runs heap), rfl, rfl, rfl, bit_own rfl (by decide) ?_ (by simp) (by frees Elt.how)⟩
  frees heap

theorem make_frame (t : Int) (s e : Ptr) {vs : List V} (h : ArgsOK (Make.args (.frame t s e)) vs) : MakeOK (.frame t s e) vs := by
  cases h with | cons h1 h => cases h with | cons h2 h => cases h with | cons h3 h => cases h with | nil =>
  cases h1
  obtain ⟨u2, f2⟩ := h2
  obtain ⟨u3, f3⟩ := h3
  intro st
  refine ⟨_, st.bump, (by runs u2, u3), rfl, rfl, rfl, bit_own rfl (by decide) ?_ (by simp) (by frees Elt.how)⟩
  simp only [Disp.how, Elt.how] at f2
  simp only [Disp.how, Elt.how] at f3
  frees f2, f3

theorem make_window (p o f : Ptr) {vs : List V} (h : ArgsOK (Make.args (.window p o f)) vs) : MakeOK (.window p o f) vs := by
  cases h with | cons h1 h => cases h with | cons h2 h => cases h with | cons h3 h => cases h with | nil =>
  obtain ⟨u1, f1⟩ := h1
  obtain ⟨u2, f2⟩ := h2
  obtain ⟨u3, f3⟩ := h3
  intro st
  refine ⟨_, st.bump, (by runs u1, u2, u3), rfl, rfl, rfl, bit_own rfl (by decide) ?_ (by simp) (by frees Elt.how)⟩
  simp only [Disp.how, Elt.how] at f1
  simp only [Disp.how, Elt.how] at f2
  simp only [Disp.how, Elt.how] at f3
  frees f1, f2, f3

theorem make_order (t : Int) (e : Ptr) (n : Int) {vs : List V} (h : ArgsOK (Make.args (.order t e n)) vs) : MakeOK (.order t e n) vs := by
  cases h with | cons h1 h => cases h with | cons h2 h => cases h with | cons h3 h => cases h with | nil =>
  cases h1
  obtain ⟨u2, f2⟩ := h2
  cases h3
  intro st
  refine ⟨_, st.bump, (by runs u2), rfl, rfl, rfl, bit_own rfl (by decide) ?_ (by simp) (by frees Elt.how)⟩
  simp only [Disp.how, Elt.how] at f2
  frees f2

theorem make_limit (l o : Ptr) {vs : List V} (h : ArgsOK (Make.args (.limit l o)) vs) : MakeOK (.limit l o) vs := by
  cases h with | cons h1 h => cases h with | cons h2 h => cases h with | nil =>
  obtain ⟨u1, f1⟩ := h1
  obtain ⟨u2, f2⟩ := h2
  intro st
  refine ⟨_, st.bump, (by runs u1, u2), rfl, rfl, rfl, bit_own rfl (by decide) ?_ (by simp) (by frees Elt.how)⟩
  simp only [Disp.how, Elt.how] at f1
  simp only [Disp.how, Elt.how] at f2
  frees f1, f2

theorem make_groupBy  {vs : List V} (h : ArgsOK (Make.args (.groupBy)) vs) : MakeOK (.groupBy) vs := by
  cases h with | nil =>
  intro st
  refine ⟨_, st.bump, (by runs heap), rfl, rfl, rfl, bit_own rfl (by decide) ?_ (by simp) (by frees Elt.how)⟩
  frees heap

theorem make_withDescription  {vs : List V} (h : ArgsOK (Make.args (.withDescription)) vs) : MakeOK (.withDescription) vs := by
  cases h with | nil =>
  intro st
  refine ⟨_, st.bump, (by runs heap), rfl, rfl, rfl, bit_own rfl (by decide) ?_ (by simp) (by frees Elt.how)⟩
  frees heap

theorem make_setOperation  {vs : List V} (h : ArgsOK (Make.args (.setOperation)) vs) : MakeOK (.setOperation) vs := by
  cases h with | nil =>
  intro st
  refine ⟨_, st.bump, (by runs heap), rfl, rfl, rfl, bit_own rfl (by decide) ?_ (by simp) (by frees Elt.how)⟩
  frees heap

theorem make_locking  {vs : List V} (h : ArgsOK (Make.args (.locking)) vs) : MakeOK (.locking) vs := by
  cases h with | nil =>
  intro st
  refine ⟨_, st.bump, (by runs heap), rfl, rfl, rfl, bit_own rfl (by decide) ?_ (by simp) (by frees Elt.how)⟩
  frees heap

theorem make_selectStatement  {vs : List V} (h : ArgsOK (Make.args (.selectStatement)) vs) : MakeOK (.selectStatement) vs := by
  cases h with | nil =>
  intro st
  refine ⟨_, st.bump, (by runs heap), rfl, rfl, rfl, bit_own rfl (by decide) ?_ (by simp) (by frees Elt.how)⟩
  frees heap

theorem make_alias (n cs : Ptr) {vs : List V} (h : ArgsOK (Make.args (.alias n cs)) vs) : MakeOK (.alias n cs) vs := by
  cases h with | cons h1 h => cases h with | cons h2 h => cases h with | nil =>
  obtain ⟨u1, f1⟩ := h1
  obtain ⟨u2, f2⟩ := h2
  intro st
  refine ⟨_, st.bump, (by runs u1, u2), rfl, rfl, rfl, bit_own rfl (by decide) ?_ (by simp) (by frees Elt.how)⟩
  simp only [Disp.how, Elt.how] at f1
  simp only [Disp.how, Elt.how] at f2
  frees f1, f2

theorem make_tableRef (t : Int) {vs : List V} (h : ArgsOK (Make.args (.tableRef t)) vs) : MakeOK (.tableRef t) vs := by
  cases h with | cons h1 h => cases h with | nil =>
  cases h1
  intro st
  refine ⟨_, st.bump, (by runs heap), rfl, rfl, rfl, bit_own rfl (by decide) ?_ (by simp) (by frees Elt.how)⟩
  frees heap

theorem make_join  {vs : List V} (h : ArgsOK (Make.args (.join)) vs) : MakeOK (.join) vs := by
  cases h with | nil =>
  intro st
  refine ⟨_, st.bump, (by runs heap), rfl, rfl, rfl, bit_own rfl (by decide) ?_ (by simp) (by frees Elt.how)⟩
  frees heap

theorem make_tableConstraint (t : Int) (cs : Nat) {vs : List V} (h : ArgsOK (Make.args (.tableConstraint t cs)) vs) : MakeOK (.tableConstraint t cs) vs := by
  cases h with | cons h1 h => cases h with | cons h2 h => cases h with | nil =>
  cases h1
  obtain ⟨a2, ws2, e2, f2⟩ := h2
  subst e2
  intro st
  refine ⟨_, st.bump, (by runs heap), rfl, rfl, rfl, bit_own rfl (by decide) ?_ (by simp) (by frees Elt.how)⟩
  simp only [Disp.how, Elt.how] at f2
  frees f2

theorem make_references (s t cs : Ptr) {vs : List V} (h : ArgsOK (Make.args (.references s t cs)) vs) : MakeOK (.references s t cs) vs := by
  cases h with | cons h1 h => cases h with | cons h2 h => cases h with | cons h3 h => cases h with | nil =>
  obtain ⟨u1, f1⟩ := h1
  obtain ⟨u2, f2⟩ := h2
  obtain ⟨u3, f3⟩ := h3
  intro st
  refine ⟨_, st.bump, (by runs u1, u2, u3), rfl, rfl, rfl, bit_own rfl (by decide) ?_ (by simp) (by frees Elt.how)⟩
  simp only [Disp.how, Elt.how] at f1
  simp only [Disp.how, Elt.how] at f2
  simp only [Disp.how, Elt.how] at f3
  frees f1, f2, f3

theorem make_foreignKey (cs : Nat) (r : Ptr) {vs : List V} (h : ArgsOK (Make.args (.foreignKey cs r)) vs) : MakeOK (.foreignKey cs r) vs := by
  cases h with | cons h1 h => cases h with | cons h2 h => cases h with | nil =>
  obtain ⟨a1, ws1, e1, f1⟩ := h1
  subst e1
  obtain ⟨u2, f2⟩ := h2
  intro st
  refine ⟨_, st.bump, (by runs u2), rfl, rfl, rfl, bit_own rfl (by decide) ?_ (by simp) (by frees Elt.how)⟩
  simp only [Disp.how, Elt.how] at f1
  simp only [Disp.how, Elt.how] at f2
  frees f1, f2

theorem make_columnDefinition (n : Ptr) (a b c d : Int) (k r : Ptr) {vs : List V} (h : ArgsOK (Make.args (.columnDefinition n a b c d k r)) vs) : MakeOK (.columnDefinition n a b c d k r) vs := by
  cases h with | cons h1 h => cases h with | cons h2 h => cases h with | cons h3 h => cases h with | cons h4 h => cases h with | nil =>
  obtain ⟨u1, f1⟩ := h1
  cases h2
  obtain ⟨u3, f3⟩ := h3
  obtain ⟨u4, f4⟩ := h4
  intro st
  refine ⟨_, st.bump, (by runs u1, u3, u4), rfl, rfl, rfl, bit_own rfl (by decide) ?_ (by simp) (by frees Elt.how)⟩
  simp only [Disp.how, Elt.how] at f1
  simp only [Disp.how, Elt.how] at f3
  simp only [Disp.how, Elt.how] at f4
  frees f1, f3, f4

theorem make_createStatement (t : Int) {vs : List V} (h : ArgsOK (Make.args (.createStatement t)) vs) : MakeOK (.createStatement t) vs := by
  cases h with | cons h1 h => cases h with | nil =>
  cases h1
  intro st
  refine ⟨_, st.bump, (by runs heap), rfl, rfl, rfl, bit_own rfl (by decide) ?_ (by simp) (by frees Elt.how)⟩
  frees heap

theorem make_csvOptions  {vs : List V} (h : ArgsOK (Make.args (.csvOptions)) vs) : MakeOK (.csvOptions) vs := by
  cases h with | nil =>
  intro st
  refine ⟨_, st.bump, (by runs heap), rfl, rfl, rfl, bit_own rfl (by decide) ?_ (by simp) (by frees Elt.how)⟩
  frees heap

theorem make_importExportOptions  {vs : List V} (h : ArgsOK (Make.args (.importExportOptions)) vs) : MakeOK (.importExportOptions) vs := by
  cases h with | nil =>
  intro st
  refine ⟨_, st.bump, (by runs heap), rfl, rfl, rfl, bit_own rfl (by decide) ?_ (by simp) (by frees Elt.how)⟩
  frees heap

theorem make_importStatement (t : Int) {vs : List V} (h : ArgsOK (Make.args (.importStatement t)) vs) : MakeOK (.importStatement t) vs := by
  cases h with | cons h1 h => cases h with | nil =>
  cases h1
  intro st
  refine ⟨_, st.bump, (by runs heap), rfl, rfl, rfl, bit_own rfl (by decide) ?_ (by simp) (by frees Elt.how)⟩
  frees heap

theorem make_exportStatement (t : Int) {vs : List V} (h : ArgsOK (Make.args (.exportStatement t)) vs) : MakeOK (.exportStatement t) vs := by
  cases h with | cons h1 h => cases h with | nil =>
  cases h1
  intro st
  refine ⟨_, st.bump, (by runs heap), rfl, rfl, rfl, bit_own rfl (by decide) ?_ (by simp) (by frees Elt.how)⟩
  frees heap

theorem make_insertStatement (t : Int) {vs : List V} (h : ArgsOK (Make.args (.insertStatement t)) vs) : MakeOK (.insertStatement t) vs := by
  cases h with | cons h1 h => cases h with | nil =>
  cases h1
  intro st
  refine ⟨_, st.bump, (by runs heap), rfl, rfl, rfl, bit_own rfl (by decide) ?_ (by simp) (by frees Elt.how)⟩
  frees heap

theorem make_deleteStatement  {vs : List V} (h : ArgsOK (Make.args (.deleteStatement)) vs) : MakeOK (.deleteStatement) vs := by
  cases h with | nil =>
  intro st
  refine ⟨_, st.bump, (by runs heap), rfl, rfl, rfl, bit_own rfl (by decide) ?_ (by simp) (by frees Elt.how)⟩
  frees heap

theorem make_updateClause  {vs : List V} (h : ArgsOK (Make.args (.updateClause)) vs) : MakeOK (.updateClause) vs := by
  cases h with | nil =>
  intro st
  refine ⟨_, st.bump, (by runs heap), rfl, rfl, rfl, bit_own rfl (by decide) ?_ (by simp) (by frees Elt.how)⟩
  frees heap

theorem make_updateStatement  {vs : List V} (h : ArgsOK (Make.args (.updateStatement)) vs) : MakeOK (.updateStatement) vs := by
  cases h with | nil =>
  intro st
  refine ⟨_, st.bump, (by runs heap), rfl, rfl, rfl, bit_own rfl (by decide) ?_ (by simp) (by frees Elt.how)⟩
  frees heap

theorem make_dropStatement (t : Int) {vs : List V} (h : ArgsOK (Make.args (.dropStatement t)) vs) : MakeOK (.dropStatement t) vs := by
  cases h with | cons h1 h => cases h with | nil =>
  cases h1
  intro st
  refine ⟨_, st.bump, (by runs heap), rfl, rfl, rfl, bit_own rfl (by decide) ?_ (by simp) (by frees Elt.how)⟩
  frees heap

theorem make_dropColumn (n : Ptr) {vs : List V} (h : ArgsOK (Make.args (.dropColumn n)) vs) : MakeOK (.dropColumn n) vs := by
  cases h with | cons h1 h => cases h with | nil =>
  obtain ⟨u1, f1⟩ := h1
  intro st
  refine ⟨_, st.bump, (by runs u1), rfl, rfl, rfl, bit_own rfl (by decide) ?_ (by simp) (by frees Elt.how)⟩
  simp only [Disp.how, Elt.how] at f1
  frees f1

theorem make_alterStatement (n x : Ptr) {vs : List V} (h : ArgsOK (Make.args (.alterStatement n x)) vs) : MakeOK (.alterStatement n x) vs := by
  cases h with | cons h1 h => cases h with | cons h2 h => cases h with | nil =>
  obtain ⟨u1, f1⟩ := h1
  obtain ⟨u2, f2⟩ := h2
  intro st
  refine ⟨_, st.bump, (by runs u1, u2), rfl, rfl, rfl, bit_own rfl (by decide) ?_ (by simp) (by frees Elt.how)⟩
  simp only [Disp.how, Elt.how] at f1
  simp only [Disp.how, Elt.how] at f2
  frees f1, f2

theorem make_executeStatement  {vs : List V} (h : ArgsOK (Make.args (.executeStatement)) vs) : MakeOK (.executeStatement) vs := by
  cases h with | nil =>
  intro st
  refine ⟨_, st.bump, (by runs heap), rfl, rfl, rfl, bit_own rfl (by decide) ?_ (by simp) (by frees Elt.how)⟩
  frees heap

theorem make_prepareStatement  {vs : List V} (h : ArgsOK (Make.args (.prepareStatement)) vs) : MakeOK (.prepareStatement) vs := by
  cases h with | nil =>
  intro st
  refine ⟨_, st.bump, (by runs heap), rfl, rfl, rfl, bit_own rfl (by decide) ?_ (by simp) (by frees Elt.how)⟩
  frees heap

theorem make_showStatement (t : Int) {vs : List V} (h : ArgsOK (Make.args (.showStatement t)) vs) : MakeOK (.showStatement t) vs := by
  cases h with | cons h1 h => cases h with | nil =>
  cases h1
  intro st
  refine ⟨_, st.bump, (by runs heap), rfl, rfl, rfl, bit_own rfl (by decide) ?_ (by simp) (by frees Elt.how)⟩
  frees heap

theorem make_transactionStatement (t : Int) {vs : List V} (h : ArgsOK (Make.args (.transactionStatement t)) vs) : MakeOK (.transactionStatement t) vs := by
  cases h with | cons h1 h => cases h with | nil =>
  cases h1
  intro st
  refine ⟨_, st.bump, (by runs heap), rfl, rfl, rfl, bit_own rfl (by decide) ?_ (by simp) (by frees Elt.how)⟩
  frees heap

theorem frees_uncons {h : How} {hs : List How} : ∀ {vs : List V}, FreesFs (h :: hs) vs → ∃ v vs', vs = v :: vs' ∧ Frees h v ∧ FreesFs hs vs'
  | [], hf => by obtain ⟨f, hf⟩ := hf; simp [treatFs] at hf
  | v :: vs, hf => ⟨v, vs, rfl, (frees_cons.1 hf).1, (frees_cons.1 hf).2⟩
theorem frees_unnil : ∀ {vs : List V}, FreesFs [] vs → vs = []
  | [], _ => rfl
  | v :: vs, hf => by obtain ⟨f, hf⟩ := hf; simp [treatFs] at hf
theorem frees_defined {v : V} {e : How} (h : Frees (.vec e) v) : v.isUndef = false := by
  obtain ⟨f, h⟩ := h
  cases v <;> simp [treat, V.isUndef] at h ⊢

theorem make_case (e : Ptr) (l : Nat) (els : Ptr) {vs : List V} (h : ArgsOK (Make.args (.case e l els)) vs) : MakeOK (.case e l els) vs := by
  cases h with | cons h1 h => cases h with | cons h2 h => cases h with | cons h3 h => cases h with | nil =>
  obtain ⟨u1, f1⟩ := h1
  obtain ⟨a, fs, e2, hf⟩ := h2
  obtain ⟨u3, f3⟩ := h3
  subst e2
  unfold dtor at hf
  obtain ⟨x0, fs, rfl, q0, hf⟩ := frees_uncons hf
  obtain ⟨x1, fs, rfl, q1, hf⟩ := frees_uncons hf
  obtain ⟨x2, fs, rfl, q2, hf⟩ := frees_uncons hf
  obtain ⟨x3, fs, rfl, q3, hf⟩ := frees_uncons hf
  have u4 := frees_defined q3
  intro st
  have hd : Frees .del (.obj a .Expr (x0 :: x1 :: x2 :: .null :: fs)) := by
    refine frees_obj.2 ?_
    unfold dtor
    exact frees_cons.2 ⟨q0, frees_cons.2 ⟨q1, frees_cons.2 ⟨q2, frees_cons.2 ⟨frees_null_vec, hf⟩⟩⟩⟩
  obtain ⟨f, hd⟩ := hd
  refine ⟨_, st.bump.log f [], (by
    simp [Make.prog, makeCase, newExpr, mkEnv, run, evalRv, evalAtoms, evalAtom, getP, putP, V.get, V.put, Val.v, undef_int, u1, u3, u4, St.log, St.bump,
      addrsL, V.addrs, List.replicate, Make.made, Fields.at, bit, listOf, hd]), (by simp [St.log, St.bump]), rfl, rfl, bit_own rfl (by decide) ?_ (by simp) (by frees Elt.how)⟩
  simp only [Disp.how, Elt.how] at f1 f3
  frees f1, f3, listOf, q3

theorem make_ok (m : Make) {vs : List V} (h : ArgsOK m.args vs) : MakeOK m vs := by
  cases m with
  | make t => exact make_make t h
  | opUnary op e => exact make_opUnary op e h
  | opBinary a op b => exact make_opBinary a op b h
  | between e l r => exact make_between e l r h
  | caseList el => exact make_caseList el h
  | caseListElement w t => exact make_caseListElement w t h
  | literalInt n => exact make_literalInt n h
  | literalFloat b => exact make_literalFloat b h
  | literalString s => exact make_literalString s h
  | literalBool b => exact make_literalBool b h
  | nullLiteral => exact make_nullLiteral h
  | dateLiteral s => exact make_dateLiteral s h
  | intervalLiteral n u => exact make_intervalLiteral n u h
  | columnRef n => exact make_columnRef n h
  | columnRefTable t n => exact make_columnRefTable t n h
  | star => exact make_star h
  | starTable t => exact make_starTable t h
  | functionRef n es d w => exact make_functionRef n es d w h
  | functionRefSchema n s es d w => exact make_functionRefSchema n s es d w h
  | array es => exact make_array es h
  | arrayIndex e i => exact make_arrayIndex e i h
  | parameter n => exact make_parameter n h
  | select s => exact make_select s h
  | exists_ s => exact make_exists_ s h
  | inList e es => exact make_inList e es h
  | inSelect e s => exact make_inSelect e s h
  | extract f e => exact make_extract f e h
  | cast e a b c d => exact make_cast e a b c d h
  | frameBound o t u => exact make_frameBound o t u h
  | frame t s e => exact make_frame t s e h
  | window p o f => exact make_window p o f h
  | order t e n => exact make_order t e n h
  | limit l o => exact make_limit l o h
  | groupBy => exact make_groupBy h
  | withDescription => exact make_withDescription h
  | setOperation => exact make_setOperation h
  | locking => exact make_locking h
  | selectStatement => exact make_selectStatement h
  | alias n cs => exact make_alias n cs h
  | tableRef t => exact make_tableRef t h
  | join => exact make_join h
  | tableConstraint t cs => exact make_tableConstraint t cs h
  | references s t cs => exact make_references s t cs h
  | foreignKey cs r => exact make_foreignKey cs r h
  | columnDefinition n a b c d k r => exact make_columnDefinition n a b c d k r h
  | createStatement t => exact make_createStatement t h
  | csvOptions => exact make_csvOptions h
  | importExportOptions => exact make_importExportOptions h
  | importStatement t => exact make_importStatement t h
  | exportStatement t => exact make_exportStatement t h
  | insertStatement t => exact make_insertStatement t h
  | deleteStatement => exact make_deleteStatement h
  | updateClause => exact make_updateClause h
  | updateStatement => exact make_updateStatement h
  | dropStatement t => exact make_dropStatement t h
  | dropColumn n => exact make_dropColumn n h
  | alterStatement n x => exact make_alterStatement n x h
  | executeStatement => exact make_executeStatement h
  | prepareStatement => exact make_prepareStatement h
  | showStatement t => exact make_showStatement t h
  | transactionStatement t => exact make_transactionStatement t h
  | case e l els => exact make_case e l els h
end Verif.Build

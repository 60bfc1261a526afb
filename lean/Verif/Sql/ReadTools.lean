import Verif.Sql.ReadIs
/-! Operators: the words and the edges of their trees. Proof-internal. -/
set_option linter.all false
namespace Verif.Sql
open Verif.Lex Verif.LR Verif.Sem

theorem prec_first {c d : Tree} {cs : List Tree} {r k a b : Nat} (hp : (Tree.node r (c :: d :: cs)).PrecOK b) (w : d.ws k = [.kw a]) : c.PrecOK a := by
  have h : c.PrecOK (nextSym (yieldL (d :: cs)) b) := hp.2.2.1
  rwa [yieldL, next_kw w] at h

theorem bin_is (o : BinOp) {r a : Nat} (ha : a ∈ opB) (h1 : lv a = o.tokLevel) (ho : o.words = [.kw a]) (h2 : o.tokLevel = o.level) (hr : opRule r o.level = true) (hr2 : (rhs r).take 2 = [N.operand, a])
    {c1 c2 c3 : Tree} {x1 x3 : Expr} {k k2 k3 b : Nat} (e2 : k2 = k + qmarks c1.yield) (e3 : k3 = k2 + qmarks c2.yield) (hp : (Tree.node r [c1, c2, c3]).PrecOK b)
    (w1 : c1.ws k = x1.words) (o1 : OpE x1 c1) (w2 : c2.ws k2 = [.kw a]) (w3 : c3.ws k3 = x3.words) (o3 : OpE x3 c3) :
    ∃ x : Expr, (Tree.node r [c1, c2, c3]).ws k = x.words ∧ OpE x (Tree.node r [c1, c2, c3]) := by
  subst e2 e3
  have f1 : x1.fitL o.tokLevel = true := by rw [← h1]; exact o1.fitL ha (prec_first hp w2)
  have f3 : x3.fitR o.level = true := o3.fitR hr (by cases o <;> decide) rfl hp.2.1
  have g1 := f1
  have g3 := f3
  unfold Expr.fitL at g1
  unfold Expr.fitR at g3
  refine ⟨.bin o x1 x3, ?_, rfl, ?_, ?_⟩
  · rw [ws_node]; simp only [wsL, w1, w2, w3, Expr.words, f1, f3, par, cond_true, ho, cat]
  · intro b hb hp
    simp only [Expr.lev, g3, cond_true]
    exact o3.right hr rfl hb hp
  · right
    simp only [Expr.lev, g1, cond_true]
    have := o1.left ha hr2 [c2, c3]
    rwa [h1] at this

theorem notLike_is {c1 c2 c3 c4 : Tree} {x1 x4 : Expr} {k k2 k3 k4 b : Nat} (e2 : k2 = k + qmarks c1.yield) (e3 : k3 = k2 + qmarks c2.yield) (e4 : k4 = k3 + qmarks c3.yield) (hp : (Tree.node 214 [c1, c2, c3, c4]).PrecOK b)
    (w1 : c1.ws k = x1.words) (o1 : OpE x1 c1) (w2 : c2.ws k2 = [.kw T.NOT]) (w3 : c3.ws k3 = [.kw T.LIKE]) (w4 : c4.ws k4 = x4.words) (o4 : OpE x4 c4) :
    ∃ x : Expr, (Tree.node 214 [c1, c2, c3, c4]).ws k = x.words ∧ OpE x (Tree.node 214 [c1, c2, c3, c4]) := by
  subst e2 e3 e4
  have ha : T.NOT ∈ opB := by decide
  have h1 : lv T.NOT = 2 := by decide +kernel
  have hr : opRule 214 3 = true := by decide +kernel
  have f1 : x1.fitL 2 = true := by rw [← h1]; exact o1.fitL ha (prec_first hp w2)
  have f3 : x4.fitR 3 = true := o4.fitR hr (by decide) rfl hp.2.1
  have g1 := f1
  have g3 := f3
  unfold Expr.fitL at g1
  unfold Expr.fitR at g3
  refine ⟨.bin .notLike x1 x4, ?_, rfl, ?_, ?_⟩
  · rw [ws_node]; simp only [wsL, w1, w2, w3, w4, Expr.words, BinOp.tokLevel, BinOp.level, f1, f3, par, cond_true, BinOp.words, cat, List.append_assoc]
  · intro b hb hp
    simp only [Expr.lev, BinOp.level, g3, cond_true]
    exact o4.right hr rfl hb hp
  · right
    simp only [Expr.lev, BinOp.tokLevel, g1, cond_true]
    have := o1.left (r := 214) ha (by decide +kernel) [c2, c3, c4]
    rwa [h1] at this

theorem pre_is {r a p : Nat} (f : Expr → Expr) (hf : ∀ e, (f e).words = cat [kw a, par (e.fitR p) e.words]) (ho : ∀ e, (f e).isOpnd = true)
    (hl : ∀ e, (f e).lev = (closed, min p (bif e.isOpnd && tightR p e.lev.1 then e.lev.2 else closed))) (hp100 : p < 100) (hr : opRule r p = true)
    {c1 c2 : Tree} {x2 : Expr} {k k2 b : Nat} (e2 : k2 = k + qmarks c1.yield) (hp : (Tree.node r [c1, c2]).PrecOK b)
    (w1 : c1.ws k = [.kw a]) (w2 : c2.ws k2 = x2.words) (o2 : OpE x2 c2) :
    ∃ x : Expr, (Tree.node r [c1, c2]).ws k = x.words ∧ OpE x (Tree.node r [c1, c2]) := by
  subst e2
  have f3 : x2.fitR p = true := o2.fitR hr hp100 rfl hp.2.1
  have g3 := f3
  unfold Expr.fitR at g3
  refine ⟨f x2, ?_, ho _, ?_, ?_⟩
  · rw [ws_node]; simp only [wsL, w1, w2, hf, f3, par, cond_true, cat]
  · intro b hb hp
    rw [hl]
    simp only [g3, cond_true]
    exact o2.right hr rfl hb hp
  · left; rw [hl]

/-- Operators behind the operand. -/
theorem post_is {r a p : Nat} (f : Expr → Expr) (us : List Word) (hf : ∀ e, (f e).words = cat [par (e.fitL p) e.words, us]) (ho : ∀ e, (f e).isOpnd = true)
    (hl : ∀ e, (f e).lev = (min p (bif e.isOpnd && tightL p e.lev.2 then e.lev.1 else closed), closed)) (ha : a ∈ opB) (hp1 : lv a = p) (hr2 : (rhs r).take 2 = [N.operand, a])
    {c1 c2 : Tree} {cs : List Tree} {x1 : Expr} {k k2 b : Nat} (e2 : k2 = k + qmarks c1.yield) (hp : (Tree.node r (c1 :: c2 :: cs)).PrecOK b)
    (w1 : c1.ws k = x1.words) (o1 : OpE x1 c1) (w2 : c2.ws k2 = [.kw a]) (w3 : wsL k2 (c2 :: cs) = us) :
    ∃ x : Expr, (Tree.node r (c1 :: c2 :: cs)).ws k = x.words ∧ OpE x (Tree.node r (c1 :: c2 :: cs)) := by
  subst e2
  have f1 : x1.fitL p = true := by rw [← hp1]; exact o1.fitL ha (prec_first hp w2)
  have g1 := f1
  unfold Expr.fitL at g1
  refine ⟨f x1, ?_, ho _, ?_, ?_⟩
  · rw [ws_node, wsL, w3]; simp only [w1, hf, f1, par, cond_true, cat]
  · intro b hb hp
    rw [hl]
    exact tight_lt (lv_small b hb)
  · right
    rw [hl]
    simp only [g1, cond_true]
    have := o1.left ha hr2 (c2 :: cs)
    rwa [hp1] at this

theorem logic_is (o : LogOp) {r a : Nat} (ha : a ∈ exB) (hk : o.kw = a) (h1 : lv a = o.level) (hr : exRule r o.level = true) (hr2 : (rhs r).take 2 = [N.expr, a])
    {c1 c2 c3 : Tree} {x1 x3 : Expr} {k k2 k3 b : Nat} (e2 : k2 = k + qmarks c1.yield) (e3 : k3 = k2 + qmarks c2.yield) (hp : (Tree.node r [c1, c2, c3]).PrecOK b)
    (w1 : c1.ws k = x1.words) (o1 : ExE x1 c1) (w2 : c2.ws k2 = [.kw a]) (w3 : c3.ws k3 = x3.words) (o3 : ExE x3 c3) :
    ∃ x : Expr, (Tree.node r [c1, c2, c3]).ws k = x.words ∧ ExE x (Tree.node r [c1, c2, c3]) := by
  subst e2 e3
  have f1 : x1.fitLogL o.level = true := by rw [← h1]; exact o1.fitL ha (prec_first hp w2)
  have f3 : x3.fitLogR o.level = true := o3.fitR hr (by cases o <;> decide) rfl hp.2.1
  have g1 := f1
  have g3 := f3
  unfold Expr.fitLogL at g1
  unfold Expr.fitLogR at g3
  refine ⟨.logic o x1 x3, ?_, ?_, ?_⟩
  · rw [ws_node]; simp only [wsL, w1, w2, w3, Expr.words, f1, f3, par, cond_true, hk, cat]
  · intro b hb hp
    simp only [Expr.lev, g3, cond_true]
    exact o3.right hr rfl hb hp
  · right
    simp only [Expr.lev, g1, cond_true]
    have := o1.left ha hr2 [c2, c3]
    rwa [h1] at this

/-- The action fails after an error. -/
def needsOk : Prog → Bool
  | .set _ _ k => needsOk k
  | .del _ k => needsOk k
  | .split _ _ k => needsOk k
  | .ite .err t _ => neverRet t
  | _ => false

theorem pev_needsOk : ∀ (k : Prog) (env : List V), needsOk k = true → pev k env true = none
  | .set p x k, env, h => by
    unfold pev
    repeat' split
    all_goals first | rfl | exact pev_needsOk k _ h
  | .del p k, env, h => by
    unfold pev
    repeat' split
    all_goals first | rfl | exact pev_needsOk k _ h
  | .split p q k, env, h => by
    unfold pev
    repeat' split
    all_goals first | rfl | exact pev_needsOk k _ h
  | .ite c t f, env, h => by
    cases c with
    | err => rw [pev_t rfl]; exact pev_never _ _ _ h
    | _ => cases h
  | .ret, _, h | .fail, _, h | .finish, _, h | .regParam _ _, _, h | .push _ _ _, _, h | .insert _ _ _, _, h | .free _ _, _, h | .err _ _, _, h | .errName _ _ _, _, h | .zeroLen _, _, h => by cases h

/-- There was no error before the end of a `CREATE TABLE`. -/
theorem ev56_err {vs : List V} {s : PS} {v : V} {s' : PS} (h : evRule 56 vs s = some (v, s')) : s.err = false := by
  obtain ⟨n, er⟩ := s
  cases er with
  | false => rfl
  | true => rw [evRule_pev (by omega) (by omega) (by omega), pev_needsOk (act 56) _ rfl] at h; cases h

/-! ## The values of rules -/

theorem ev_inv {r : Nat} {vs : List V} {s : PS} {v : V} {s' : PS} {w : V} (h1 : (Nat.ble 3 r && Nat.blt r 358 && !(Nat.beq r 298)) = true) (h : evRule r vs s = some (v, s'))
    (hp : pev (act r) (mkEnv vs) s.err = some (w, s.err)) : v = w := by
  obtain ⟨n, er⟩ := s
  rw [ev_of h1 hp] at h
  cases h; rfl

theorem ite_inv {c : Cond} {t f : Prog} {env : List V} {e : Bool} {x : V × Bool} (h : pev (.ite c t f) env e = some x) (hf : neverRet f = true) :
    evalCond c env (st0 e) = some true ∧ pev t env e = some x := by
  cases hc : evalCond c env (st0 e) with
  | none => rw [pev, hc] at h; cases h
  | some b =>
    cases b with
    | true => rw [pev_t hc] at h; exact ⟨rfl, h⟩
    | false => rw [pev_f hc, pev_never _ _ _ hf] at h; cases h

theorem ev_pev_inv {r : Nat} {vs : List V} {s : PS} {v : V} {s' : PS} (h1 : (Nat.ble 3 r && Nat.blt r 358 && !(Nat.beq r 298)) = true) (h : evRule r vs s = some (v, s')) :
    pev (act r) (mkEnv vs) s.err = some (v, s'.err) := by
  obtain ⟨n, er⟩ := s
  simp only [Bool.and_eq_true, Nat.ble_eq, Nat.blt_eq, Bool.not_eq_true', ← Bool.not_eq_true, Nat.beq_eq] at h1
  rw [evRule_pev h1.1.1 h1.1.2 h1.2] at h
  cases hp : pev (act r) (mkEnv vs) er with
  | none => rw [hp] at h; cases h
  | some x => rw [hp] at h; cases h; rfl

theorem inv294 {a : V} {b : Bytes} {s : PS} {v : V} {s' : PS} (h : evRule 294 [a, .str 0 b] s = some (v, s')) : dateOk b = true := by
  have h := ev_pev_inv rfl h
  have := (ite_inv (show pev (.ite _ _ _) _ _ = _ from h) rfl).1
  exact Option.some.inj this

theorem inv296 {a c : V} {b : Bytes} {s : PS} {v : V} {s' : PS} (h : evRule 296 [a, .str 0 b, c] s = some (v, s')) : durOk b = some true := by
  have h := ev_pev_inv rfl h
  exact (ite_inv (show pev (.ite _ _ _) _ _ = _ from h) rfl).1

theorem pev_set_none {p : Path} {x : Rv} {k : Prog} {env : List V} {e : Bool} (h : evalRv Z x env (st0 e) = none) : pev (.set p x k) env e = none := by rw [pev, h]
theorem eval_unit_none {p : Path} {env : List V} {st : Sem.St} {s : Bytes} (h : strAt env p = some s) (h2 : scanUnit s = none) : evalRv Z (.atom (.unit p)) env st = none := by
  simp only [evalRv, evalAtom, h, h2]

theorem inv297 {a : V} {b : Bytes} {s : PS} {v : V} {s' : PS} (h : evRule 297 [a, .str 0 b] s = some (v, s')) : durUnitOk b = some true ∧
    ∃ f : Field, ∃ w r, scanUnit b = some (w, r) ∧ (eqNoCase w f.name = true ∨ eqNoCase w (f.name ++ b!"s") = true) := by
  have h := ev_pev_inv rfl h
  obtain ⟨h1, h2⟩ := ite_inv (show pev (.ite _ _ _) _ _ = _ from h) rfl
  have h1 : durUnitOk b = some true := h1
  refine ⟨h1, ?_⟩
  obtain ⟨r, hr⟩ := durUnitOk_val h1
  rw [pev_set (eval_dur rfl hr)] at h2
  have h2 : pev (.set _ _ _) _ _ = _ := h2
  cases hw : scanUnit b with
  | none =>
    rw [pev_set_none (eval_unit_none rfl hw)] at h2; cases h2
  | some x =>
    obtain ⟨w, r'⟩ := x
    rw [pev_set (eval_unit rfl hw)] at h2
    have h2 : pev (.ite _ _ _) [.undef, a, .undef, .undef, .undef, .undef, .undef, .undef, .undef, .undef, .int (durVal b), .raw w] s.err = _ := h2
    have hc : ∀ c, eqNoCase w c = false → evalCond (.strIs ⟨11, []⟩ c) [.undef, a, .undef, .undef, .undef, .undef, .undef, .undef, .undef, .undef, .int (durVal b), .raw w] (st0 s.err) = some false := fun c h => by rw [← h]; rfl
    suffices hs : ∃ f : Field, eqNoCase w f.name = true ∨ eqNoCase w (f.name ++ b!"s") = true by
      obtain ⟨f, hf⟩ := hs; exact ⟨f, w, r', rfl, hf⟩
    apply Classical.byContradiction
    intro hno
    have g : ∀ f : Field, eqNoCase w f.name = false ∧ eqNoCase w (f.name ++ b!"s") = false := by
      intro f
      constructor
      · cases hq : eqNoCase w f.name with
        | false => rfl
        | true => exact absurd ⟨f, .inl hq⟩ hno
      · cases hq : eqNoCase w (f.name ++ b!"s") with
        | false => rfl
        | true => exact absurd ⟨f, .inr hq⟩ hno
    rw [pev_f (by exact hc _ (g .second).1), pev_f (by exact hc _ (g .second).2), pev_f (by exact hc _ (g .minute).1), pev_f (by exact hc _ (g .minute).2), pev_f (by exact hc _ (g .hour).1), pev_f (by exact hc _ (g .hour).2), pev_f (by exact hc _ (g .day).1), pev_f (by exact hc _ (g .day).2), pev_f (by exact hc _ (g .month).1), pev_f (by exact hc _ (g .month).2), pev_f (by exact hc _ (g .year).1), pev_f (by exact hc _ (g .year).2), pev_never _ _ _ rfl] at h2
    cases h2

theorem inv55 {i : Bool} {t : TName} {w p : Bytes} {s : PS} {v : V} {s' : PS}
    (h : evRule 55 [.undef, .undef, flag i, .tup [ostr t.schema, str t.name], .undef, .str 0 w, .undef, str p] s = some (v, s')) : eqNoCase w b!"tbl" = true := by
  have h := ev_pev_inv rfl h
  cases hq : eqNoCase w b!"tbl" with
  | true => rfl
  | false =>
    exfalso
    have hc : ∀ env st, strAt env ⟨6, []⟩ = some w → evalCond (.strIs ⟨6, []⟩ b!"tbl") env st = some false := by
      intro env st he; simp only [evalCond, he, Option.map_some, hq]
    obtain ⟨sc, n⟩ := t
    have h : pev act55 _ _ = _ := h
    unfold act55 at h
    cases sc <;>
    · rw [pev_set rfl] at h
      have h : pev (.set _ _ _) _ _ = _ := h
      rw [pev_set rfl] at h
      have h : pev (.set _ _ _) _ _ = _ := h
      rw [pev_set rfl] at h
      have h : pev (.set _ _ _) _ _ = _ := h
      rw [pev_set rfl] at h
      have h : pev (.ite _ _ _) _ _ = _ := h
      rw [pev_f (hc _ _ rfl), pev_never _ _ _ rfl] at h
      cases h

theorem inv66 {n : Name} {a b c d : V} {ks : List Int} {rs : List V} {s : PS} {v : V} {s' : PS}
    (h : evRule 66 [str n, .tup [a, b, c, d], consV ks rs] s = some (v, s')) (hE : s'.err = false) :
    ((ks.contains ConstraintType.NotNull || ks.contains ConstraintType.PrimaryKey) && ks.contains ConstraintType.Null) = false := by
  have h := ev_pev_inv rfl h
  have h : pev columnDef _ _ = _ := h
  unfold columnDef at h
  rw [pev_set (v := .obj 0 .ColumnDefinition [.vec 0 (ks.map .int), str n, .tup [a, b, c, d], .int 1, .vec 0 rs]) rfl] at h
  have h : pev (.ite _ _ _) _ _ = _ := h
  rw [hE] at h
  cases h2 : ks.contains ConstraintType.Null with
  | false => simp
  | true =>
    cases h1 : ks.contains ConstraintType.NotNull with
    | true =>
      rw [pev_t (by show some (hasInt _ _) = _; rw [hasInt_map, h1]), pev_t (by show some (hasInt _ _) = _; rw [hasInt_map, h2])] at h
      cases h
    | false =>
      rw [pev_f (by show some (hasInt _ _) = _; rw [hasInt_map, h1])] at h
      cases h3 : ks.contains ConstraintType.PrimaryKey with
      | true =>
        rw [pev_t (by show some (hasInt _ _) = _; rw [hasInt_map, h3]), pev_t (by show some (hasInt _ _) = _; rw [hasInt_map, h2])] at h
        cases h
      | false => rfl

theorem inv93 {k : Int} {ks : List Int} {rs : List V} {s : PS} {v : V} {s' : PS} (h : evRule 93 [consV ks rs, .int k] s = some (v, s')) : v = consV (insertKind k ks) rs := by
  refine ev_inv rfl h ?_
  unfold consV
  rw [← insert_map]
  rfl
theorem inv95 {t : TName} {c : Option Names} {ks : List Int} {rs : List V} {s : PS} {v : V} {s' : PS} (h : evRule 95 [consV ks rs, refV t c] s = some (v, s')) :
    v = consV (insertKind ConstraintType.ForeignKey ks) (rs ++ [refV t c]) := by
  refine ev_inv rfl h ?_
  unfold consV
  rw [← insert_map]
  rfl
theorem inv179 {m : Nat} {s : PS} {v : V} {s' : PS} (h : evRule 179 [paramV 0 (.pos 0) m] s = some (v, s')) : False := by
  have h := ev_pev_inv rfl h
  have h : pev act179 _ _ = _ := h
  unfold act179 at h
  rw [pev_t rfl, pev_never _ _ _ rfl] at h
  cases h

end Verif.Sql

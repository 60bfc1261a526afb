import Verif.Sql.Small
/-! One step of the derivation of expressions and queries. Proof-internal. -/
namespace Verif.Sql
open Verif.Lex Verif.LR Verif.Sem

/-- The parts so far are known not to be undefined. -/
macro "evo" : term => `(fun _ => ev_op rfl rfl (by simp [V.isNumber]))

theorem DL.ck {S : Nat → Prop} {X Y : Nat} {Xs : List Nat} {ws us : List Word} {v : V} {vs : List V} (h : D X ws v) (hL : DerL S Any Any (Y :: Xs) us vs) (hn : ∀ b, Safe (first us b) := by intro _; rfl) :
    DerL S Any Any (X :: Y :: Xs) (ws ++ us) (v :: vs) := DerL.cons h hL fun b _ => hn b

/-! ## Operators -/

theorem bin_rule {Z X r a p q m1 l1 m2 l2 : Nat} {as as' : Assoc} {w1 w2 : List Word} {v1 v2 v : V} (h1 : Der (SS m1) (LL l1) Z w1 v1) (h2 : Der (SS m2) (LL l2) Z w2 v2) (t1 : tightL q m1 = true) (t2 : tightR p l2 = true)
    (hX : lhs r = X) (hr : rhs r = [Z, a, Z]) (h3 : 3 ≤ r ∧ r < 358) (ha : tokPrec a = some (q, as)) (hp : rulePrec r = some (p, as')) (hl : leftAssoc q = true → as = .left) (h2' : q = 2 → as = .right)
    (he : ∀ n, evRule r [v1, .undef, v2] ⟨n, false⟩ = some (v, ⟨n, false⟩)) : Der (SS (min p m2)) (LL (min q l1)) X (w1 ++ ([.kw a] ++ w2)) v := by
  have e2 : DerL (SS (min p m2)) (LL l2) (LL l2) [Z] w2 [v2] := DerL.last (h2.weaken (fun b hb => hb.mono (Nat.min_le_right ..)) fun _ _ h => h)
  have e3 : DerL (SS (min p m2)) Any (LL l2) [a, Z] ([.kw a] ++ w2) [.undef, v2] := DerL.cons (Der.kw (S := Top) a) e2 fun _ _ => trivial
  have e4 : DerL (SS (min p m2)) (LL l1) (LL l2) [Z, a, Z] (w1 ++ ([.kw a] ++ w2)) [v1, .undef, v2] := DerL.cons h1 e3 fun _ _ => SS.tok ha t1 hl
  refine Der.op h3 hX hr e4 he ?_ ?_ ?_ ?_
  · intro b hb; exact hb r p as' h3.2 hp (Nat.min_le_left ..)
  · intro Y a hY _ hL; exact hL r p as' h3.2 hY hp t2
  · intro Y a' h _
    rw [hr] at h
    simp only [List.take_succ_cons, List.take_zero, List.cons.injEq, and_true] at h
    obtain ⟨rfl, rfl⟩ := h
    exact LL.tok ha (Nat.min_le_left ..) h2'
  · intro Y a h; exact h.mono (Nat.min_le_right ..)

/-- `NOT LIKE` -/
theorem bin_rule2 {Z X r a a2 p q m1 l1 m2 l2 : Nat} {as as' : Assoc} {w1 w2 : List Word} {v1 v2 v : V} (h1 : Der (SS m1) (LL l1) Z w1 v1) (h2 : Der (SS m2) (LL l2) Z w2 v2) (t1 : tightL q m1 = true) (t2 : tightR p l2 = true)
    (hX : lhs r = X) (hr : rhs r = [Z, a, a2, Z]) (h3 : 3 ≤ r ∧ r < 358) (ha : tokPrec a = some (q, as)) (hp : rulePrec r = some (p, as')) (hl : leftAssoc q = true → as = .left) (h2' : q = 2 → as = .right)
    (he : ∀ n, evRule r [v1, .undef, .undef, v2] ⟨n, false⟩ = some (v, ⟨n, false⟩)) : Der (SS (min p m2)) (LL (min q l1)) X (w1 ++ ([.kw a] ++ ([.kw a2] ++ w2))) v := by
  have e2 : DerL (SS (min p m2)) (LL l2) (LL l2) [Z] w2 [v2] := DerL.last (h2.weaken (fun b hb => hb.mono (Nat.min_le_right ..)) fun _ _ h => h)
  have e3 : DerL (SS (min p m2)) Any (LL l2) [a2, Z] ([.kw a2] ++ w2) [.undef, v2] := DerL.cons (Der.kw (S := Top) a2) e2 fun _ _ => trivial
  have e3' : DerL (SS (min p m2)) Any (LL l2) [a, a2, Z] ([.kw a] ++ ([.kw a2] ++ w2)) [.undef, .undef, v2] := DerL.cons (Der.kw (S := Top) a) e3 fun _ _ => trivial
  have e4 : DerL (SS (min p m2)) (LL l1) (LL l2) [Z, a, a2, Z] (w1 ++ ([.kw a] ++ ([.kw a2] ++ w2))) [v1, .undef, .undef, v2] := DerL.cons h1 e3' fun _ _ => SS.tok ha t1 hl
  refine Der.op h3 hX hr e4 he ?_ ?_ ?_ ?_
  · intro b hb; exact hb r p as' h3.2 hp (Nat.min_le_left ..)
  · intro Y a hY _ hL; exact hL r p as' h3.2 hY hp t2
  · intro Y a' h _
    rw [hr] at h
    simp only [List.take_succ_cons, List.take_zero, List.cons.injEq, and_true] at h
    obtain ⟨rfl, rfl⟩ := h
    exact LL.tok ha (Nat.min_le_left ..) h2'
  · intro Y a h; exact h.mono (Nat.min_le_right ..)

theorem pre_rule {Z X r a p m2 l2 : Nat} {as' : Assoc} {w2 : List Word} {v2 v : V} (h2 : Der (SS m2) (LL l2) Z w2 v2) (t2 : tightR p l2 = true)
    (hX : lhs r = X) (hr : rhs r = [a, Z]) (h3 : 3 ≤ r ∧ r < 358) (hZ : 199 ≤ Z) (hp : rulePrec r = some (p, as'))
    (he : ∀ n, evRule r [.undef, v2] ⟨n, false⟩ = some (v, ⟨n, false⟩)) : Der (SS (min p m2)) (LL closed) X ([.kw a] ++ w2) v := by
  have e2 : DerL (SS (min p m2)) (LL l2) (LL l2) [Z] w2 [v2] := DerL.last (h2.weaken (fun b hb => hb.mono (Nat.min_le_right ..)) fun _ _ h => h)
  have e3 : DerL (SS (min p m2)) (LL closed) (LL l2) [a, Z] ([.kw a] ++ w2) [.undef, v2] := DerL.cons (Der.kw (S := Top) a) e2 fun _ _ => trivial
  refine Der.op h3 hX hr e3 he ?_ ?_ ?_ ?_
  · intro b hb; exact hb r p as' h3.2 hp (Nat.min_le_left ..)
  · intro Y a hY _ hL; exact hL r p as' h3.2 hY hp t2
  · intro Y a' h hlt
    rw [hr] at h
    simp only [List.take_succ_cons, List.take_zero, List.cons.injEq, and_true] at h
    obtain ⟨rfl, rfl⟩ := h
    omega
  · intro Y a h; exact h

/-- Rules that begin with an operand and that precedence does not concern otherwise. -/
theorem post_rule {Z X r a m1 l1 l : Nat} {Xs : List Nat} {S : Nat → Prop} {w1 us : List Word} {v1 v : V} {vs : List V} (h1 : Der (SS m1) (LL l1) Z w1 v1) (hs : SS m1 a) (hL : DerL S Any Any (a :: Xs) us vs)
    (hu : ∀ b, first us b = a) (hX : lhs r = X) (hr : rhs r = Z :: a :: Xs) (h2 : (Nat.ble 3 r && Nat.blt r 358 && !opRules.contains r) = true) (hl : l ≤ l1) (ha : ∀ Y, LL l Y a)
    (he : ∀ n, evRule r (v1 :: vs) ⟨n, false⟩ = some (v, ⟨n, false⟩)) : Der S (LL l) X (w1 ++ us) v := by
  simp only [Bool.and_eq_true, Nat.ble_eq, Nat.blt_eq, Bool.not_eq_true'] at h2
  have e : DerL S (LL l1) Any (Z :: a :: Xs) (w1 ++ us) (v1 :: vs) := DerL.cons h1 hL fun b _ => by rw [hu]; exact hs
  refine Der.op ⟨h2.1.1, h2.1.2⟩ hX hr e he ?_ ?_ ?_ ?_
  · intro b _; unfold forbidReduce; rw [not_contested h2.1.2 h2.2, Bool.false_and]
  · intro Y a _ _ _; unfold forbidShift; rw [not_contested h2.1.2 h2.2, Bool.false_and]
  · intro Y a' h _
    rw [hr] at h
    simp only [List.take_succ_cons, List.take_zero, List.cons.injEq, and_true] at h
    obtain ⟨rfl, rfl⟩ := h
    exact ha _
  · intro Y a h; exact h.mono hl

/-! ## Expressions -/

structure Good (e : Expr) : Prop where
  opnd : e.isOpnd = true → Der (SS e.lev.2) (LL e.lev.1) N.operand e.words e.r.v
  exp : Der (SS e.lev.2) (LL e.lev.1) N.expr e.words e.r.v

theorem Good.d {e : Expr} (h : Good e) : D N.expr e.words e.r.v := h.exp.weaken (fun _ hb => SS.safe hb) (fun _ _ _ => trivial)

theorem good_op {e : Expr} {l m : Nat} (hl : e.lev = (l, m)) (h : Der (SS m) (LL l) N.operand e.words e.r.v) : Good e := by
  have h' : Der (SS e.lev.2) (LL e.lev.1) N.operand e.words e.r.v := by rw [hl]; exact h
  exact ⟨fun _ => h', Der.unit 183 rfl rfl h' ev⟩

theorem good_ex {e : Expr} {l m : Nat} (hi : e.isOpnd = false) (hl : e.lev = (l, m)) (h : Der (SS m) (LL l) N.expr e.words e.r.v) : Good e := by
  refine ⟨fun h => ?_, by rw [hl]; exact h⟩
  rw [hi] at h; cases h

theorem good_atom {e : Expr} (hl : e.lev = (closed, closed)) (h : DN N.operand e.words e.r.v) : Good e :=
  good_op hl (h.weaken (fun _ _ => trivial) fun _ _ h => LL.noL h)

theorem paren_der {ws : List Word} {r : ExprV} (h : D N.expr ws r.v) : DN N.operand (cat [kw T.LPAREN, ws, kw T.RPAREN]) r.v :=
  Der.closedL 188 rfl rfl (DL.kw (DL.ck h DL.kw1)) ev

theorem Good.par {e : Expr} (h : Good e) {bare : Bool} (hb : bare = true → e.isOpnd = true) :
    Der (SS (bif bare then e.lev.2 else closed)) (LL (bif bare then e.lev.1 else closed)) N.operand (par bare e.words) e.r.v := by
  cases bare with
  | true => exact h.opnd (hb rfl)
  | false => exact (paren_der h.d).weaken (fun _ _ => trivial) fun _ _ h => LL.noL h

theorem Good.parE {e : Expr} (h : Good e) {bare : Bool} :
    Der (SS (bif bare then e.lev.2 else closed)) (LL (bif bare then e.lev.1 else closed)) N.expr (Sql.par bare e.words) e.r.v := by
  cases bare with
  | true => exact h.exp
  | false => exact Der.unit 183 rfl rfl ((paren_der h.d).weaken (fun _ _ => trivial) fun _ _ h => LL.noL h) ev

theorem fitL_opnd {e : Expr} {q : Nat} (h : e.fitL q = true) : e.isOpnd = true := by
  simp only [Expr.fitL, Bool.and_eq_true] at h; exact h.1
theorem fitR_opnd {e : Expr} {q : Nat} (h : e.fitR q = true) : e.isOpnd = true := by
  simp only [Expr.fitR, Bool.and_eq_true] at h; exact h.1
theorem tight_closedL {q : Nat} (h : q < 100) : tightL q closed = true := by simp [tightL, closed, h]
theorem tight_closedR {q : Nat} (h : q < 100) : tightR q closed = true := by simp [tightR, closed, h]
theorem fitL_tight {e : Expr} {q : Nat} (hq : q < 100) : tightL q (bif e.fitL q then e.lev.2 else closed) = true := by
  cases h : e.fitL q with
  | true => simp only [Expr.fitL, Bool.and_eq_true] at h; exact h.2
  | false => exact tight_closedL hq
theorem fitR_tight {e : Expr} {q : Nat} (hq : q < 100) : tightR q (bif e.fitR q then e.lev.1 else closed) = true := by
  cases h : e.fitR q with
  | true => simp only [Expr.fitR, Bool.and_eq_true] at h; exact h.2
  | false => exact tight_closedR hq
theorem fitLogL_tight {e : Expr} {q : Nat} (hq : q < 100) : tightL q (bif e.fitLogL q then e.lev.2 else closed) = true := by
  cases h : e.fitLogL q with
  | true => exact h
  | false => exact tight_closedL hq
theorem fitLogR_tight {e : Expr} {q : Nat} (hq : q < 100) : tightR q (bif e.fitLogR q then e.lev.1 else closed) = true := by
  cases h : e.fitLogR q with
  | true => exact h
  | false => exact tight_closedR hq

theorem cond_le {b : Bool} {n : Nat} (h : b = true → 2 ≤ n) : 2 ≤ (bif b then n else closed) := by
  cases b with
  | true => exact h rfl
  | false => exact (by decide : 2 ≤ 100)

theorem opnd_lev : ∀ (e : Expr), e.isOpnd = true → 2 ≤ e.lev.2
  | .neg e, _ => by
    have := opnd_lev e
    simp only [Expr.lev]
    have := cond_le (b := e.isOpnd && tightR 8 e.lev.1) (n := e.lev.2) (fun h => this (by simp only [Bool.and_eq_true] at h; exact h.1))
    omega
  | .not e, _ => by
    have := opnd_lev e
    simp only [Expr.lev]
    have := cond_le (b := e.isOpnd && tightR 2 e.lev.1) (n := e.lev.2) (fun h => this (by simp only [Bool.and_eq_true] at h; exact h.1))
    omega
  | .bin o a b, _ => by
    have := opnd_lev b
    simp only [Expr.lev]
    have := cond_le (b := b.isOpnd && tightR o.level b.lev.1) (n := b.lev.2) (fun h => this (by simp only [Bool.and_eq_true] at h; exact h.1))
    have : 2 ≤ o.level := by cases o <;> decide
    omega
  | .isNull true e, _ | .isNull false e, _ | .isNotNull e, _ | .index e _, _ => by simp only [Expr.lev]; decide
  | .lit _, _ | .param _, _ | .col _ _, _ | .star _, _ | .paren _, _ | .query _, _ | .case _ _ _, _ | .call _ _ _ _, _ | .extract _ _, _ | .cast _ _, _ | .array _, _ => by simp only [Expr.lev]; decide
  | .logic .., h | .inList .., h | .inQuery .., h | .between .., h | .exist .., h => by cases h

/-- A unit rule that passes the value on. -/
theorem Der.up {S : Nat → Prop} {Lf : Nat → Nat → Prop} {X Y : Nat} {ws : List Word} {v : V} (r : Nat) (hX : lhs r = X) (hr : rhs r = [Y])
    (he : ∀ n, evRule r [v] ⟨n, false⟩ = some (v, ⟨n, false⟩)) (h : Der S Lf Y ws v) (h2 : (Nat.ble 3 r && Nat.blt r 358 && !opRules.contains r) = true := by decide) : Der S Lf X ws v :=
  Der.unit r hX hr h he h2

theorem neg_good {e : Expr} (h : Good e) : Good (.neg e) := by
  refine good_op (by simp only [Expr.lev]; rfl) (Der.up 191 rfl rfl ev ?_)
  exact pre_rule (r := 201) (p := 8) (h.par fitR_opnd) (fitR_tight (by decide)) rfl rfl (by decide) (by decide) rfl ev
theorem not_good {e : Expr} (h : Good e) : Good (.not e) := by
  refine good_op (by simp only [Expr.lev]; rfl) (Der.up 191 rfl rfl ev ?_)
  exact pre_rule (r := 202) (p := 2) (h.par fitR_opnd) (fitR_tight (by decide)) rfl rfl (by decide) (by decide) rfl ev

theorem Der.ss {m : Nat} {Lf : Nat → Nat → Prop} {X : Nat} {ws : List Word} {v : V} (h : Der Top Lf X ws v) : Der (SS m) Lf X ws v := h.weaken (fun _ _ => trivial) fun _ _ h => h

theorem isNull_good {b : Bool} {e : Expr} (h : Good e) : Good (.isNull b e) := by
  cases b with
  | true =>
    refine good_op (by simp only [Expr.lev]; rfl) (Der.up 191 rfl rfl ev (Der.ss ?_))
    exact post_rule (r := 203) (a := T.ISNULL) (h.par fitL_opnd) (SS.tok (q := 6) rfl (fitL_tight (by decide)) (by decide)) DL.kw1 (fun _ => rfl) rfl rfl (by decide) (Nat.min_le_right ..)
      (fun _ => LL.tok (q := 6) rfl (Nat.min_le_left ..) (by decide)) ev
  | false =>
    refine good_op (by simp only [Expr.lev]; rfl) (Der.up 191 rfl rfl ev (Der.ss ?_))
    exact post_rule (r := 204) (a := T.IS) (h.par fitL_opnd) (SS.tok (q := 7) rfl (fitL_tight (by decide)) (by decide)) (DL.kw DL.kw1) (fun _ => rfl) rfl rfl (by decide) (Nat.min_le_right ..)
      (fun _ => LL.tok (q := 7) rfl (Nat.min_le_left ..) (by decide)) ev

theorem isNotNull_good {e : Expr} (h : Good e) : Good (.isNotNull e) := by
  refine good_op (by simp only [Expr.lev]; rfl) (Der.up 191 rfl rfl ev (Der.ss ?_))
  exact post_rule (r := 205) (a := T.IS) (h.par fitL_opnd) (SS.tok (q := 7) rfl (fitL_tight (by decide)) (by decide)) (DL.kw (DL.kw DL.kw1)) (fun _ => rfl) rfl rfl (by decide) (Nat.min_le_right ..)
    (fun _ => LL.tok (q := 7) rfl (Nat.min_le_left ..) (by decide)) ev

theorem index_good {e : Expr} {n : Int} (h : Good e) : Good (.index e n) := by
  refine good_op (by simp only [Expr.lev]; rfl) (Der.up 189 rfl rfl ev (Der.ss ?_))
  exact post_rule (r := 274) (a := T.LBRACKET) (h.par fitL_opnd) (SS.tok (q := 13) rfl (fitL_tight (by decide)) (by decide)) (DL.kw (DL.top (int_der n).any DL.kw1)) (fun _ => rfl) rfl rfl (by decide) (Nat.min_le_right ..)
    (fun _ => LL.tok (q := 13) rfl (Nat.min_le_left ..) (by decide)) ev

theorem inList_good {b : Bool} {e : Expr} {l : Items} (h : Good e) (hl : D N.expr_list l.words (.vec 0 l.vals)) : Good (.inList b e l) := by
  cases b with
  | false =>
    refine good_ex rfl (by simp only [Expr.lev]; rfl) (Der.up 187 rfl rfl ev (Der.ss ?_))
    exact post_rule (r := 219) (a := T.IN) (h.par id) (SS.none rfl) (DL.kw (DL.kw (DL.ck hl DL.kw1))) (fun _ => rfl) rfl rfl (by decide) (Nat.le_refl _)
      (fun _ => LL.none rfl) ev
  | true =>
    refine good_ex rfl (by simp only [Expr.lev]; rfl) (Der.up 187 rfl rfl ev (Der.ss ?_))
    exact post_rule (r := 220) (a := T.NOT) (h.par fitL_opnd) (SS.tok (q := 2) rfl (fitL_tight (by decide)) (by decide)) (DL.kw (DL.kw (DL.kw (DL.ck hl DL.kw1)))) (fun _ => rfl) rfl rfl (by decide) (Nat.min_le_right ..)
      (fun _ => LL.tok (q := 2) rfl (Nat.min_le_left ..) (by decide)) ev

theorem inQuery_good {b : Bool} {e : Expr} {s : Sel} (h : Good e) (hl : D N.select_no_paren s.words s.r.v) : Good (.inQuery b e s) := by
  cases b with
  | false =>
    refine good_ex rfl (by simp only [Expr.lev]; rfl) (Der.up 187 rfl rfl ev (Der.ss ?_))
    exact post_rule (r := 221) (a := T.IN) (h.par id) (SS.none rfl) (DL.kw (DL.kw (DL.ck hl DL.kw1))) (fun _ => rfl) rfl rfl (by decide) (Nat.le_refl _)
      (fun _ => LL.none rfl) ev
  | true =>
    refine good_ex rfl (by simp only [Expr.lev]; rfl) (Der.up 187 rfl rfl ev (Der.ss ?_))
    exact post_rule (r := 222) (a := T.NOT) (h.par fitL_opnd) (SS.tok (q := 2) rfl (fitL_tight (by decide)) (by decide)) (DL.kw (DL.kw (DL.kw (DL.ck hl DL.kw1)))) (fun _ => rfl) rfl rfl (by decide) (Nat.min_le_right ..)
      (fun _ => LL.tok (q := 2) rfl (Nat.min_le_left ..) (by decide)) ev

theorem between_good {e lo hi : Expr} (h : Good e) (hlo : Good lo) (hhi : Good hi) : Good (.between e lo hi) := by
  refine good_ex rfl (by simp only [Expr.lev]; rfl) (Der.up 184 rfl rfl ev ?_)
  have hm : tightL 1 (bif lo.isOpnd then lo.lev.2 else closed) = true := by
    cases hb : lo.isOpnd with
    | true => have := opnd_lev lo hb; simp only [cond_true, tightL, Bool.or_eq_true, decide_eq_true_eq]; left; omega
    | false => rfl
  have e1 := DerL.cons (hlo.par (bare := lo.isOpnd) id).any (DL.kw (a := T.AND) (DerL.last (hhi.par (bare := hi.isOpnd) id).any)) (fun _ _ => SS.tok (q := 1) rfl hm (by decide))
  exact post_rule (r := 275) (a := T.BETWEEN) (h.par id) (SS.none rfl) (DL.kw e1) (fun _ => rfl) rfl rfl (by decide) (Nat.le_refl _)
      (fun _ => LL.none rfl) ev

theorem exist_good {b : Bool} {s : Sel} (hl : D N.select_no_paren s.words s.r.v) : Good (.exist b s) := by
  cases b with
  | false =>
    refine good_ex rfl (by simp only [Expr.lev]; rfl) (Der.weaken (S := Top) (Lf := NoL) ?_ (fun _ _ => trivial) fun _ _ h => LL.noL h)
    exact Der.up 186 rfl rfl ev (Der.closedL 229 rfl rfl (DL.kw (DL.kw (DL.ck hl DL.kw1))) ev)
  | true =>
    refine good_ex rfl (by simp only [Expr.lev]; rfl) (Der.weaken (S := Top) (Lf := NoL) ?_ (fun _ _ => trivial) fun _ _ h => LL.noL h)
    exact Der.up 186 rfl rfl ev (Der.closedL 230 rfl rfl (DL.kw (DL.kw (DL.kw (DL.ck hl DL.kw1)))) ev)

theorem logic_good {o : LogOp} {a b : Expr} (ha : Good a) (hb : Good b) : Good (.logic o a b) := by
  cases o with
  | and =>
    refine good_ex rfl (by simp only [Expr.lev]; rfl) (Der.up 185 rfl rfl ev ?_)
    exact bin_rule (r := 217) (p := 1) (q := 1) (a := T.AND) ha.parE hb.parE (fitLogL_tight (by decide)) (fitLogR_tight (by decide)) rfl rfl (by decide) rfl rfl (by decide) (by decide) ev
  | or =>
    refine good_ex rfl (by simp only [Expr.lev]; rfl) (Der.up 185 rfl rfl ev ?_)
    exact bin_rule (r := 218) (p := 0) (q := 0) (a := T.OR) ha.parE hb.parE (fitLogL_tight (by decide)) (fitLogR_tight (by decide)) rfl rfl (by decide) rfl rfl (by decide) (by decide) ev

theorem bin_good {o : BinOp} {a b : Expr} (ha : Good a) (hb : Good b) : Good (.bin o a b) := by
  cases o with
  | minus =>
    refine good_op (by simp only [Expr.lev]; rfl) (Der.up 192 rfl rfl ev ?_)
    exact bin_rule (r := 207) (p := 8) (q := 8) (a := T.HYPHEN) (ha.par fitL_opnd) (hb.par fitR_opnd) (fitL_tight (by decide)) (fitR_tight (by decide)) rfl rfl (by decide) rfl rfl (by decide) (by decide) ev
  | plus =>
    refine good_op (by simp only [Expr.lev]; rfl) (Der.up 192 rfl rfl ev ?_)
    exact bin_rule (r := 208) (p := 8) (q := 8) (a := T.PLUS) (ha.par fitL_opnd) (hb.par fitR_opnd) (fitL_tight (by decide)) (fitR_tight (by decide)) rfl rfl (by decide) rfl rfl (by decide) (by decide) ev
  | slash =>
    refine good_op (by simp only [Expr.lev]; rfl) (Der.up 192 rfl rfl ev ?_)
    exact bin_rule (r := 209) (p := 9) (q := 9) (a := T.SLASH) (ha.par fitL_opnd) (hb.par fitR_opnd) (fitL_tight (by decide)) (fitR_tight (by decide)) rfl rfl (by decide) rfl rfl (by decide) (by decide) ev
  | star =>
    refine good_op (by simp only [Expr.lev]; rfl) (Der.up 192 rfl rfl ev ?_)
    exact bin_rule (r := 210) (p := 9) (q := 9) (a := T.STAR) (ha.par fitL_opnd) (hb.par fitR_opnd) (fitL_tight (by decide)) (fitR_tight (by decide)) rfl rfl (by decide) rfl rfl (by decide) (by decide) ev
  | percent =>
    refine good_op (by simp only [Expr.lev]; rfl) (Der.up 192 rfl rfl ev ?_)
    exact bin_rule (r := 211) (p := 9) (q := 9) (a := T.PERCENT) (ha.par fitL_opnd) (hb.par fitR_opnd) (fitL_tight (by decide)) (fitR_tight (by decide)) rfl rfl (by decide) rfl rfl (by decide) (by decide) ev
  | caret =>
    refine good_op (by simp only [Expr.lev]; rfl) (Der.up 192 rfl rfl ev ?_)
    exact bin_rule (r := 212) (p := 10) (q := 10) (a := T.CARET) (ha.par fitL_opnd) (hb.par fitR_opnd) (fitL_tight (by decide)) (fitR_tight (by decide)) rfl rfl (by decide) rfl rfl (by decide) (by decide) ev
  | like =>
    refine good_op (by simp only [Expr.lev]; rfl) (Der.up 192 rfl rfl ev ?_)
    exact bin_rule (r := 213) (p := 3) (q := 3) (a := T.LIKE) (ha.par fitL_opnd) (hb.par fitR_opnd) (fitL_tight (by decide)) (fitR_tight (by decide)) rfl rfl (by decide) rfl rfl (by decide) (by decide) ev
  | ilike =>
    refine good_op (by simp only [Expr.lev]; rfl) (Der.up 192 rfl rfl ev ?_)
    exact bin_rule (r := 215) (p := 3) (q := 3) (a := T.ILIKE) (ha.par fitL_opnd) (hb.par fitR_opnd) (fitL_tight (by decide)) (fitR_tight (by decide)) rfl rfl (by decide) rfl rfl (by decide) (by decide) ev
  | concat =>
    refine good_op (by simp only [Expr.lev]; rfl) (Der.up 192 rfl rfl ev ?_)
    exact bin_rule (r := 216) (p := 11) (q := 11) (a := T.CONCAT) (ha.par fitL_opnd) (hb.par fitR_opnd) (fitL_tight (by decide)) (fitR_tight (by decide)) rfl rfl (by decide) rfl rfl (by decide) (by decide) ev
  | eq =>
    refine good_op (by simp only [Expr.lev]; rfl) (Der.up 192 rfl rfl ev (Der.up 206 rfl rfl ev ?_))
    exact bin_rule (r := 231) (p := 3) (q := 3) (a := T.EQ) (ha.par fitL_opnd) (hb.par fitR_opnd) (fitL_tight (by decide)) (fitR_tight (by decide)) rfl rfl (by decide) rfl rfl (by decide) (by decide) ev
  | eq2 =>
    refine good_op (by simp only [Expr.lev]; rfl) (Der.up 192 rfl rfl ev (Der.up 206 rfl rfl ev ?_))
    exact bin_rule (r := 232) (p := 3) (q := 3) (a := T.EQUALS) (ha.par fitL_opnd) (hb.par fitR_opnd) (fitL_tight (by decide)) (fitR_tight (by decide)) rfl rfl (by decide) rfl rfl (by decide) (by decide) ev
  | ne =>
    refine good_op (by simp only [Expr.lev]; rfl) (Der.up 192 rfl rfl ev (Der.up 206 rfl rfl ev ?_))
    exact bin_rule (r := 233) (p := 3) (q := 3) (a := T.NOTEQUALS) (ha.par fitL_opnd) (hb.par fitR_opnd) (fitL_tight (by decide)) (fitR_tight (by decide)) rfl rfl (by decide) rfl rfl (by decide) (by decide) ev
  | lt =>
    refine good_op (by simp only [Expr.lev]; rfl) (Der.up 192 rfl rfl ev (Der.up 206 rfl rfl ev ?_))
    exact bin_rule (r := 234) (p := 4) (q := 4) (a := T.LT) (ha.par fitL_opnd) (hb.par fitR_opnd) (fitL_tight (by decide)) (fitR_tight (by decide)) rfl rfl (by decide) rfl rfl (by decide) (by decide) ev
  | gt =>
    refine good_op (by simp only [Expr.lev]; rfl) (Der.up 192 rfl rfl ev (Der.up 206 rfl rfl ev ?_))
    exact bin_rule (r := 235) (p := 4) (q := 4) (a := T.GT) (ha.par fitL_opnd) (hb.par fitR_opnd) (fitL_tight (by decide)) (fitR_tight (by decide)) rfl rfl (by decide) rfl rfl (by decide) (by decide) ev
  | le =>
    refine good_op (by simp only [Expr.lev]; rfl) (Der.up 192 rfl rfl ev (Der.up 206 rfl rfl ev ?_))
    exact bin_rule (r := 236) (p := 4) (q := 4) (a := T.LESSEQ) (ha.par fitL_opnd) (hb.par fitR_opnd) (fitL_tight (by decide)) (fitR_tight (by decide)) rfl rfl (by decide) rfl rfl (by decide) (by decide) ev
  | ge =>
    refine good_op (by simp only [Expr.lev]; rfl) (Der.up 192 rfl rfl ev (Der.up 206 rfl rfl ev ?_))
    exact bin_rule (r := 237) (p := 4) (q := 4) (a := T.GREATEREQ) (ha.par fitL_opnd) (hb.par fitR_opnd) (fitL_tight (by decide)) (fitR_tight (by decide)) rfl rfl (by decide) rfl rfl (by decide) (by decide) ev
  | notLike =>
    refine good_op (by simp only [Expr.lev]; rfl) (Der.up 192 rfl rfl ev ?_)
    exact bin_rule2 (r := 214) (p := 3) (q := 2) (a := T.NOT) (a2 := T.LIKE) (ha.par fitL_opnd) (hb.par fitR_opnd) (fitL_tight (by decide)) (fitR_tight (by decide)) rfl rfl (by decide) rfl rfl (by decide) (by decide) ev

end Verif.Sql

import Verif.Sql.All
import Verif.LR.Transport
/-! Operators that are not associative cannot be chained. Proof-internal. -/
namespace Verif.Sql
open Verif.Lex Verif.LR Verif.Sem

theorem step_shift {lim : Nat} {stk : TStk} {t : Tok} {rem : List Tok} {s : Nat} (hl : stk.length + 1 < lim) (hs : topState stk < 656) (h69 : topState stk ≠ 69)
    (ha : actF (topState stk) (tsym t) = 2 * s + 2) : tstep lim stk (t :: rem) = .run ((s, .leaf t) :: stk) rem := by
  rw [tstep_act hl h69, (act_iff hs (.shift s)).2 ha]; rfl

theorem step_eps {lim : Nat} {stk : TStk} {t : Tok} {rem : List Tok} {r : Nat} (hl : stk.length + 1 < lim) (hs : topState stk < 656) (h69 : topState stk ≠ 69)
    (ha : actF (topState stk) (tsym t) = 2 * r + 1) (hr : 1 ≤ r ∧ r < 358) (he : rhs r = []) (hA : 200 ≤ lhs r ∧ lhs r ≤ 334) :
    tstep lim stk (t :: rem) = .run ((gotoF (topState stk) (lhs r), .node r []) :: stk) (t :: rem) := by
  rw [tstep_act hl h69, (act_iff hs (.reduce r)).2 ha]
  simp only [tAct, tReduce]
  rw [ruleLen_eq hr.1 hr.2, ruleLhs_eq hr.1 hr.2, he]
  simp only [List.length_nil, Nat.not_lt_zero, if_false, List.drop_zero]
  rw [goto_spec hs hA.1 hA.2]
  rfl

/-- What the automaton does after `SELECT`, `SELECT x`, `SELECT x op`. -/
def opSt : BinOp → Nat × Nat × Nat
  | .like => (312, 213, 2) | .notLike => (422, 214, 3) | .ilike => (317, 215, 2) | .eq => (318, 231, 2) | .eq2 => (319, 232, 2) | .ne => (320, 233, 2)
  | .lt => (321, 234, 2) | .gt => (322, 235, 2) | .le => (323, 236, 2) | .ge => (324, 237, 2)
  | _ => (0, 0, 0)
def chainOps : List BinOp := [.like, .notLike, .ilike, .eq, .eq2, .ne, .lt, .gt, .le, .ge]
def opTok : BinOp → Nat
  | .like => T.LIKE | .notLike => T.NOT | .ilike => T.ILIKE | .eq => T.EQ | .eq2 => T.EQUALS | .ne => T.NOTEQUALS | .lt => T.LT | .gt => T.GT | .le => T.LESSEQ | .ge => T.GREATEREQ
  | .minus => T.HYPHEN | .plus => T.PLUS | .slash => T.SLASH | .star => T.STAR | .percent => T.PERCENT | .caret => T.CARET | .concat => T.CONCAT

theorem st_start : (Nat.beq (actF 0 T.SELECT) (2 * 335 + 1) && Nat.beq (gotoF 0 N.opt_with_clause) 37 && Nat.beq (actF 37 T.SELECT) (2 * 75 + 2) && Nat.beq (gotoF 75 N.opt_top) 108 &&
    Nat.beq (gotoF 108 N.opt_distinct) 174 && Nat.beq (gotoF 174 N.operand) 225) = true := by decide +kernel
theorem st_top : allN 199 (fun a => bor (bnot (tb (firstF N.operand) a)) (band (Nat.beq (actF 75 a) (2 * 164 + 1)) (Nat.beq (actF 108 a) (2 * 142 + 1)))) = true := by decide +kernel
theorem st_ops : chainOps.all (fun o => (match o with
      | .notLike => Nat.beq (actF 225 T.NOT) (2 * 313 + 2) && Nat.beq (actF 313 T.LIKE) (2 * 422 + 2)
      | o => Nat.beq (actF 225 (opTok o)) (2 * (opSt o).1 + 2)) && tb ((stF 174).pred.find N.operand) (opTok o)) = true := by decide +kernel
theorem st_chain : chainOps.all (fun o => chainOps.all fun p => !(o.level == p.tokLevel) ||
    (tb ((stF (opSt o).1).pred.find N.operand) (opTok p) && Nat.beq (actF (gotoF (opSt o).1 N.operand) (opTok p)) 0 && Nat.blt (gotoF (opSt o).1 N.operand) 656 &&
     !(Nat.beq (gotoF (opSt o).1 N.operand) 69))) = true := by decide +kernel
theorem st_kern : chainOps.all (fun o => !(Nat.beq ((stF (opSt o).1).kern.find (opSt o).2.1 (opSt o).2.2) 0)) = true := by decide +kernel
theorem st_prec : chainOps.all (fun o => decide (rulePrec (opSt o).2.1 = some (o.level, .nonassoc)) && Nat.blt (opSt o).2.1 358 && Nat.blt (opSt o).1 656 && !(Nat.beq (opSt o).1 69)) = true := by decide +kernel
theorem st_174 : (!(Nat.beq ((stF 174).kern.find 140 3) 0)) = true := by decide +kernel

theorem der_first {S : Nat → Prop} {Lf : Nat → Nat → Prop} {ws : List Word} {v : V} {ts : List Tok} {k : Nat} (h : Der S Lf N.operand ws v) (hs : Spelled ws ts) (hn : Numbered k ws) :
    ∃ t r, ts = t :: r ∧ (firstF N.operand).testBit (tsym t) = true := by
  obtain ⟨t, g1, g2, g3, _⟩ := h ts k hs hn
  obtain ⟨f1, f2⟩ := first_tree t g1
  rw [g2, g3] at f1 f2
  cases ts with
  | nil => have : tb nullM N.operand = false := by decide +kernel
           rw [f1 rfl] at this; cases this
  | cons a b => exact ⟨a, b, rfl, f2 a b rfl⟩

theorem HShift.of {s r k : Nat} {t : Tree} {Lf : Nat → Nat → Prop} (hs : s < 656) (h69 : s ≠ 69) (hw : t.WF) (hp : PM s t.sym) (hk : KM s r k)
    (hl : ∀ Y a, a < 199 → t.Leads Y a → Lf Y a) (hf : k + 1 = (rhs r).length → ∀ X a, a < 199 → (rhs r)[k]? = some X → Lf X a → forbidShift r a = false) : HShift s t := by
  intro X a hX ha hL
  apply Classical.byContradiction
  intro hns
  obtain ⟨m, hm1, hm2, hm3, hm4⟩ := leads_pm hs h69 t hw hp hL
  obtain ⟨f1, f2, f3⟩ := fscomp hs h69 hm1 hm2 hm3 hm4 hX ha hns r k hk
  rw [hf f1 X a ha f2 (hl X a ha hL)] at f3
  cases f3

theorem chain_mem {o : BinOp} (h : o.level = 3 ∨ o.level = 4) : o ∈ chainOps := by
  cases o <;> first | (simp [BinOp.level] at h; done) | simp [chainOps]

theorem chain_tok {o : BinOp} (h : o ∈ chainOps) : (∃ as, tokPrec (opTok o) = some (o.tokLevel, as)) ∧ leftAssoc o.tokLevel = false ∧ o.tokLevel < 100 ∧ o.level < 100 := by
  have : chainOps.all (fun o => (match tokPrec (opTok o) with | some (l, _) => l == o.tokLevel | none => false) && !(leftAssoc o.tokLevel) && decide (o.tokLevel < 100) && decide (o.level < 100)) = true := by decide +kernel
  have := List.all_eq_true.1 this o h
  simp only [Bool.and_eq_true, decide_eq_true_eq, Bool.not_eq_true'] at this
  obtain ⟨⟨⟨h1, h2⟩, h3⟩, h4⟩ := this
  refine ⟨?_, h2, h3, h4⟩
  split at h1
  · rename_i l as e; rw [beq_iff_eq] at h1; subst h1; exact ⟨as, e⟩
  · cases h1

theorem nbeq {a b : Nat} (h : (!(Nat.beq a b)) = true) : a ≠ b := by
  intro e; subst e; rw [Nat.beq_refl] at h; cases h

/-- The automaton rejects the second operator. -/
theorem chain {x y : Expr} {o p : BinOp} (ho : o ∈ chainOps) (hp : p ∈ chainOps) (hl : o.level = p.tokLevel) {ts : List Tok} {u : Tok}
    (hs : Spelled (Sql.kw T.SELECT ++ (par (x.fitL o.tokLevel) x.words ++ (o.words ++ par (y.fitR o.level && y.fitL p.tokLevel) y.words))) ts)
    (hn : Numbered 0 (Sql.kw T.SELECT ++ (par (x.fitL o.tokLevel) x.words ++ (o.words ++ par (y.fitR o.level && y.fitL p.tokLevel) y.words))))
    (hu : tsym u = opTok p) {ts' : List Tok} {tr : Tree} (hd : Derives ts' tr) : ¬ (ts ++ [u]).map tsym <+: ts'.map tsym ++ [0] := by
  obtain ⟨a1, t1, rfl, s1, hs⟩ := spelled_append hs
  obtain ⟨a2, t2, rfl, s2, hs⟩ := spelled_append hs
  obtain ⟨a3, a4, rfl, s3, s4⟩ := spelled_append hs
  obtain ⟨n1, hn⟩ := numbered_append hn
  obtain ⟨n2, hn⟩ := numbered_append hn
  obtain ⟨n3, n4⟩ := numbered_append hn
  obtain ⟨w, rfl, w1, _⟩ := spelled_one s1
  have gx := (Expr.good x).par (bare := x.fitL o.tokLevel) fitL_opnd
  have gy := (Expr.good y).par (bare := y.fitR o.level && y.fitL p.tokLevel) (fun h => fitL_opnd (Bool.and_eq_true .. ▸ h).2)
  obtain ⟨f, a2', rfl, hf⟩ := der_first gx s2 n2
  obtain ⟨tx, x1, x2, x3, x4, x5, _⟩ := gx _ _ s2 n2
  obtain ⟨ty, y1, y2, y3, y4, y5, _⟩ := gy _ _ s4 n4
  have h0 := st_start
  simp only [Bool.and_eq_true, Nat.beq_eq] at h0
  obtain ⟨⟨⟨⟨⟨c1, c2⟩, c3⟩, c4⟩, c5⟩, c6⟩ := h0
  have hft := allN_spec st_top _ (tsym_lt f)
  simp only [bor_iff, band_iff, beq_iff, bnot_iff, tb_eq, hf] at hft
  obtain ⟨d1, d2⟩ := hft.resolve_left (by simp)
  have hop := List.all_eq_true.1 st_ops o ho
  have hkern := List.all_eq_true.1 st_kern o ho
  have hprec := List.all_eq_true.1 st_prec o ho
  have hch := List.all_eq_true.1 (List.all_eq_true.1 st_chain o ho) p hp
  obtain ⟨⟨as, e1⟩, e2, e3, e4⟩ := chain_tok ho
  obtain ⟨⟨as', e1'⟩, e2', e3', e4'⟩ := chain_tok hp
  rw [hl, beq_self_eq_true, Bool.not_true, Bool.false_or] at hch
  simp only [Bool.and_eq_true, Nat.beq_eq, Nat.blt_eq, decide_eq_true_eq, tb_eq] at hop hprec hch
  obtain ⟨hop, hmask⟩ := hop
  obtain ⟨⟨⟨p1, p2⟩, p3⟩, p4⟩ := hprec
  obtain ⟨⟨⟨q1, q2⟩, q3⟩, q4⟩ := hch
  have p4 := nbeq p4
  have q4 := nbeq q4
  have hkern := nbeq hkern
  -- x
  have hxs : SS (bif x.fitL o.tokLevel then x.lev.2 else closed) (opTok o) := SS.tok e1 (fitL_tight e3) (fun h => by rw [e2] at h; cases h)
  have hxp : PM 174 tx.sym := by rw [x2]; intro h0; rw [h0] at hmask; simp at hmask
  have hxH : HShift 174 tx := by
    refine HShift.of (by decide) (by decide) x1 hxp (r := 140) (k := 3) (nbeq st_174) x5 (fun h => ?_)
    have : (rhs 140).length = 7 := by decide +kernel
    omega
  -- y
  have hyl : tightL p.tokLevel (bif y.fitR o.level && y.fitL p.tokLevel then y.lev.2 else closed) = true := by
    cases hb : (y.fitR o.level && y.fitL p.tokLevel) with
    | false => exact tight_closedL e3'
    | true => have := (Bool.and_eq_true .. ▸ hb).2; have h2 := fitL_tight (e := y) e3'; rw [this] at h2; exact h2
  have hyr : tightR o.level (bif y.fitR o.level && y.fitL p.tokLevel then y.lev.1 else closed) = true := by
    cases hb : (y.fitR o.level && y.fitL p.tokLevel) with
    | false => exact tight_closedR e4
    | true => have := (Bool.and_eq_true .. ▸ hb).1; have h2 := fitR_tight (e := y) e4; rw [this] at h2; exact h2
  have hys := SS.tok e1' hyl (fun h => by rw [e2'] at h; cases h)
  have hyp : PM (opSt o).1 ty.sym := by rw [y2]; intro h0; rw [h0] at q1; simp at q1
  have hyH : HShift (opSt o).1 ty := by
    refine HShift.of p3 p4 y1 hyp (r := (opSt o).2.1) (k := (opSt o).2.2) hkern y5 ?_
    intro h X a ha hX hLL
    refine hLL _ _ _ p2 ?_ p1 hyr
    rw [List.getLast?_eq_getElem?, ← h]; exact hX
  -- the run
  let L := 100 + tx.need + ty.need
  have r1 : TSteps L 4 [] (w :: f :: (a2' ++ (a3 ++ (a4 ++ [u])))) [(174, .node 142 []), (108, .node 164 []), (75, .leaf w), (37, .node 335 [])] (f :: (a2' ++ (a3 ++ (a4 ++ [u])))) := by
    refine .step (step_eps (r := 335) (by simp [L]; omega) (by decide) (by decide) (by rw [w1]; exact c1) (by decide) (by decide +kernel) (by decide +kernel)) ?_
    rw [show gotoF (topState ([] : TStk)) (lhs 335) = 37 from c2]
    refine .step (step_shift (s := 75) (by simp [L]; omega) (by decide : (37 : Nat) < 656) (by decide : (37 : Nat) ≠ 69) (by rw [w1]; exact c3)) ?_
    refine .step (step_eps (r := 164) (by simp [L]; omega) (by decide : (75 : Nat) < 656) (by decide : (75 : Nat) ≠ 69) d1 (by decide) (by decide +kernel) (by decide +kernel)) ?_
    rw [show gotoF (topState ((75, Tree.leaf w) :: _)) (lhs 164) = 108 from c4]
    refine .step (step_eps (r := 142) (by simp [L]; omega) (by decide : (108 : Nat) < 656) (by decide : (108 : Nat) ≠ 69) d2 (by decide) (by decide +kernel) (by decide +kernel)) ?_
    rw [show gotoF (topState ((108, Tree.node 164 []) :: _)) (lhs 142) = 174 from c5]
    exact .refl _ _
  have hlen : a3 = [] → False := by
    rintro rfl
    cases o <;> exact s3
  obtain ⟨v, a3', rfl⟩ : ∃ v a3', a3 = v :: a3' := by cases a3 with | nil => exact (hlen rfl).elim | cons v a => exact ⟨v, a, rfl⟩
  have hv : tsym v = opTok o := by cases o <;> exact s3.1
  obtain ⟨m, r2⟩ := complete_tree L tx [(174, .node 142 []), (108, .node 164 []), (75, .leaf w), (37, .node 335 [])] v (a3' ++ (a4 ++ [u])) x1 (by rw [x2]; decide) (by decide : (174 : Nat) < 656)
    (by rw [x2, hv]; exact hmask) (by rw [hv]; exact x4 _ hxs) hxH (by simp [L]; omega)
  have r2' : TSteps L m [(174, .node 142 []), (108, .node 164 []), (75, .leaf w), (37, .node 335 [])] (f :: (a2' ++ (v :: a3' ++ (a4 ++ [u]))))
      [(225, tx), (174, .node 142 []), (108, .node 164 []), (75, .leaf w), (37, .node 335 [])] (v :: (a3' ++ (a4 ++ [u]))) := by
    rw [x3, x2, show gotoF (topState ((174, Tree.node 142 []) :: _)) N.operand = 225 from c6] at r2
    exact r2
  have r3 : ∃ m3 stk3, TSteps L m3 [(225, tx), (174, .node 142 []), (108, .node 164 []), (75, .leaf w), (37, .node 335 [])] (v :: (a3' ++ (a4 ++ [u]))) stk3 (a4 ++ [u]) ∧
      topState stk3 = (opSt o).1 ∧ stkYield stk3 = w :: f :: a2' ++ v :: a3' ∧ stk3.length ≤ 7 := by
    have one : o.words = Sql.kw (opTok o) → actF 225 (opTok o) = 2 * (opSt o).1 + 2 → ∃ m3 stk3, TSteps L m3 [(225, tx), (174, .node 142 []), (108, .node 164 []), (75, .leaf w), (37, .node 335 [])] (v :: (a3' ++ (a4 ++ [u]))) stk3 (a4 ++ [u]) ∧
      topState stk3 = (opSt o).1 ∧ stkYield stk3 = w :: f :: a2' ++ v :: a3' ∧ stk3.length ≤ 7 := by
      intro k1 k2
      rw [k1] at s3
      have : a3' = [] := spelled_nil s3.2.2
      subst this
      refine ⟨1, ((opSt o).1, .leaf v) :: _, .step (step_shift (s := (opSt o).1) (by simp [L]; omega) (by decide : (225 : Nat) < 656) (by decide : (225 : Nat) ≠ 69) (by rw [hv]; exact k2)) (.refl _ _), rfl, ?_, by simp⟩
      simp [stkYield_cons, x3, Tree.yield, yieldL, stkYield, popTrees]
    cases o with
    | notLike =>
      simp only [Bool.and_eq_true, Nat.beq_eq] at hop
      obtain ⟨v2, rfl, hv2, _⟩ := spelled_one (w := .kw T.LIKE) s3.2.2
      refine ⟨2, (422, .leaf v2) :: (313, .leaf v) :: _, .step (step_shift (s := 313) (by simp [L]; omega) (by decide : (225 : Nat) < 656) (by decide : (225 : Nat) ≠ 69) (by rw [hv]; exact hop.1)) (.step (step_shift (s := 422) (by simp [L]; omega) (by decide : (313 : Nat) < 656) (by decide : (313 : Nat) ≠ 69) (by rw [hv2]; exact hop.2)) (.refl _ _)), rfl, ?_, by simp⟩
      simp [stkYield_cons, x3, Tree.yield, yieldL, stkYield, popTrees]
    | minus | plus | slash | star | percent | caret | concat => simp [chainOps] at ho
    | _ => exact one rfl (Nat.beq_eq .. ▸ hop)
  obtain ⟨m3, stk3, r3, g1, g2, g3⟩ := r3
  obtain ⟨m4, r4⟩ := complete_tree L ty stk3 u [] y1 (by rw [y2]; decide) (by rw [g1]; exact p3) (by rw [g1, y2, hu]; exact q1) (by rw [hu]; exact y4 _ hys) (by rw [g1]; exact hyH) (by simp [L]; omega)
  rw [y3, g1, y2] at r4
  have run := TSteps.trans r1 (TSteps.trans r2' (TSteps.trans r3 r4))
  have := first_error run (by simp [stkYield_cons, g2, y3]) (by exact q4) ((act_iff q3 .error).2 (by rw [hu]; exact q2)) hd
  simpa [stkYield_cons, g2, y3] using this

end Verif.Sql

import Verif.LR.Stos
/-! Induction over reachable configurations, reading a token being a step of its own. Proof-internal. -/
namespace Verif.LR
open Verif.Lex

section
variable {σ V : Type} {S : Sem σ V} {lim : Nat} {toks : List Tok} {st0 : σ}

/-- Facts about a reduction by rule `r` in a reachable configuration. -/
structure RedAt (c : Cfg σ V) (stk : TStk) (r : Nat) : Prop where
  r1 : 2 ≤ r
  r2 : r < 358
  len : (rhs r).length ≤ c.stk.length
  sim : c.stk.map Prod.fst = stk.map Prod.fst
  syms : (popTrees (rhs r).length stk).map Tree.sym = rhs r
  input : r = 2 → stk.drop (rhs r).length = []
  before : ∀ p ∈ stk, p.2.sym ≠ N.input
  n69 : topState stk ≠ 69
  list : lhs r = N.statement_list → stk.drop (rhs r).length = []
  lazy : c.la = none → noToken (topState stk) ≠ some false ∧ ∃ t, actionOn (topState stk) (tsym t) = some (.reduce r)
  wf : (Tree.node r (popTrees (rhs r).length stk)).WF
  prec : ∃ b, (Tree.node r (popTrees (rhs r).length stk)).PrecOK b
  pm : PM (topState (stk.drop (rhs r).length)) (lhs r)

/-- What the stack after a reduction says. -/
theorem red_facts {lim n s r : Nat} {ts : List Tree} {stk : TStk} {f : List Tok} (h : StkOK lim ((s, .node r ts) :: stk.drop n) f) :
    (Tree.node r ts).WF ∧ (∃ b, (Tree.node r ts).PrecOK b) ∧ PM (topState (stk.drop n)) (lhs r) := by
  rw [StkOK] at h
  obtain ⟨_, h2, _, _, h5, h6, _⟩ := h
  refine ⟨h5, ⟨_, h6⟩, ?_⟩
  rcases h2 with ⟨h, _⟩ | ⟨h, _⟩
  · have := sym_node h5
    simp only [Tree.sym] at h this
    omega
  · exact h

theorem fetch_cases (c : Cfg σ V) : fetch S c = c ∨ ∃ t ts, c.la = none ∧ c.toks = t :: ts ∧
    fetch S c = { c with la := some (t, (S.read t c.st).1), toks := ts, st := (S.read t c.st).2 } := by
  unfold fetch
  split
  · rename_i t ts h1 h2; exact .inr ⟨t, ts, h1, h2, rfl⟩
  · exact .inl rfl

theorem prep_cases (c : Cfg σ V) : prep S c = c ∨ prep S c = fetch S c := by
  unfold prep
  split
  · exact .inr rfl
  · exact .inl rfl

/-- Reductions happen only before `input` is on the stack. -/
theorem Phase.red {stk : TStk} (h : Phase stk) (h69 : topState stk ≠ 69) {t : Tok} {r : Nat} (ha : actionOn (topState stk) (tsym t) = some (.reduce r)) :
    ∀ p ∈ stk, p.2.sym ≠ N.input := by
  cases h with
  | before h => exact h
  | done t' h1 h2 =>
    subst h1
    rcases root_act (tsym_lt t) ha with h | h <;> cases h
  | shifted t' e h1 h2 => subst h1; exact absurd rfl h69

/-- Without lookahead after `prep`, the state needs none. -/
theorem prep_lazy {c : Cfg σ V} {stk : TStk} {t : Tok} {rem : List Tok} (hsim : c.stk.map Prod.fst = stk.map Prod.fst) (hr : remOf c = t :: rem) (h : (prep S c).la = none) :
    noToken (topState stk) ≠ some false := by
  have e : topState c.stk = topState stk := by
    cases hc : c.stk <;> cases hs : stk <;> simp_all [topState]
  intro hn
  unfold prep at h
  rw [e, hn] at h
  simp only [] at h
  unfold fetch at h
  split at h
  · cases h
  · rename_i h1
    unfold remOf at hr
    rw [h] at hr
    exact h1 t rem h hr

theorem lhs2 : lhs 2 = N.input := by decide +kernel

theorem Reach.induct (I : Cfg σ V → TStk → Prop)
    (init : I (initCfg toks st0) [])
    (rd : ∀ c stk t ts, I c stk → c.la = none → c.toks = t :: ts → I { c with la := some (t, (S.read t c.st).1), toks := ts, st := (S.read t c.st).2 } stk)
    (shift : ∀ c stk t v s, I c stk → c.la = some (t, v) → topState stk ≠ 69 → actionOn (topState stk) (tsym t) = some (.shift s) →
      I { c with stk := (s, v) :: c.stk, la := none } ((s, .leaf t) :: stk))
    (reduce : ∀ c stk r s v st, I c stk → RedAt c stk r →
      S.reduce r ((c.stk.take (rhs r).length).map Prod.snd).reverse ((c.stk.drop (rhs r).length).head?.map Prod.snd) c.st = .ok v st →
      I { c with stk := (s, v) :: c.stk.drop (rhs r).length, st := st } ((s, .node r (popTrees (rhs r).length stk)) :: stk.drop (rhs r).length))
    {n : Nat} {c : Cfg σ V} {stk : TStk} (h : Reach S lim toks st0 n c stk) : I c stk := by
  have hf : ∀ c stk, I c stk → I (fetch S c) stk := by
    intro c stk hi
    rcases fetch_cases (S := S) c with e | ⟨t, ts, h1, h2, e⟩
    · rw [e]; exact hi
    · rw [e]; exact rd c stk t ts hi h1 h2
  induction h with
  | init => exact init
  | @shift n c stk t rem s v hR hr hl h69 ha hla htk ih =>
    have := shift (fetch S c) stk t v s (hf _ _ ih) hla h69 ha
    rw [fetch_stk] at this
    exact this
  | @reduce n c stk t rem r s v st hR hr hl h69 ha hr1 hr2 hlen hg hred ih =>
    have hR' := Reach.reduce hR hr hl h69 ha hr1 hr2 hlen hg hred
    have hp : I (prep S c) stk := by
      rcases prep_cases (S := S) c with e | e
      · rw [e]; exact ih
      · rw [e]; exact hf _ _ ih
    have hst := prep_stk S c
    have hok := hR'.inv.ok
    have hsy : (popTrees (rhs r).length stk).map Tree.sym = rhs r := by
      simp only [StkOK, Tree.WF] at hok
      exact hok.2.2.2.2.1.2.2.1
    have hat : RedAt (prep S c) stk r := by
      refine ⟨hr1, hr2, by rw [hst]; exact hlen, by rw [hst]; exact hR.inv.sim.1, hsy, ?_, hR.phase.red h69 ha, h69,
        fun h2 => reduce_list (n := n) (r := r) hR'.inv.ok h2, fun hla => ⟨prep_lazy hR.inv.sim.1 hr hla, t, ha⟩, (red_facts hR'.inv.ok).1, (red_facts hR'.inv.ok).2.1, (red_facts hR'.inv.ok).2.2⟩
      intro h2
      exact (reduce_input (n := n) (r := r) hR'.inv.ok (by rw [h2]; exact lhs2)).1
    have := reduce (prep S c) stk r s v st hp hat (by rw [hst]; exact hred)
    rw [hst] at this
    exact this

/-- The facts about a reduction hold where the parser stops because of one. -/
theorem Reach.redAt {n r : Nat} {c : Cfg σ V} {stk : TStk} {t : Tok} {rem : List Tok} (h : Reach S lim toks st0 n c stk) (hr : remOf c = t :: rem) (h69 : topState stk ≠ 69)
    (hl : ¬ lim ≤ stk.length + 1)
    (ha : actionOn (topState stk) (tsym t) = some (.reduce r)) : RedAt (prep S c) stk r := by
  have hi := h.inv
  have hc := step_cases S (by rw [← hr]; exact hi.sim) (by rw [← hr]; exact hi.ok)
  rcases hc with ⟨k1, k2, _⟩ | ⟨k1, _⟩ | ⟨_, k1, k2, _⟩ | ⟨s', v', _, k1, _⟩ | ⟨r', s', _, hl, k1, hr1, hr2, hrl, k2, k3, k4, k5, k6, k7⟩
  · exact absurd k1 hl
  · exact absurd k1 h69
  · rw [ha] at k1; cases k1
  · rw [ha] at k1; cases k1
  · rw [ha] at k1; cases k1
    have hst := prep_stk S c
    have hsy : (popTrees (rhs r).length stk).map Tree.sym = rhs r := by
      simp only [StkOK, Tree.WF] at k4
      exact k4.2.2.2.2.1.2.2.1
    refine ⟨hr1, hr2, by rw [hst]; exact hrl, by rw [hst]; exact hi.sim.1, hsy, ?_, h.phase.red h69 ha, h69,
      fun h2 => reduce_list (n := n) (r := r) (c := c) (s := s') (t := .node r (popTrees (rhs r).length stk)) (by rw [hr]; exact k4) (by simp only [Tree.sym]; exact h2), fun hla => ⟨prep_lazy hi.sim.1 hr hla, t, ha⟩, (red_facts k4).1, (red_facts k4).2.1, (red_facts k4).2.2⟩
    intro h2
    exact (reduce_input (n := n) (r := r) (c := c) (by rw [hr]; exact k4) (by rw [h2]; exact lhs2)).1

/-- The configurations the parser goes through, reading a token being a step of its own. -/
inductive RC (S : Sem σ V) (toks : List Tok) (st0 : σ) : Cfg σ V → TStk → Prop where
  | init : RC S toks st0 (initCfg toks st0) []
  | rd (c : Cfg σ V) (stk : TStk) (t : Tok) (ts : List Tok) : RC S toks st0 c stk → c.la = none → c.toks = t :: ts →
      RC S toks st0 { c with la := some (t, (S.read t c.st).1), toks := ts, st := (S.read t c.st).2 } stk
  | shift (c : Cfg σ V) (stk : TStk) (t : Tok) (v : V) (s : Nat) : RC S toks st0 c stk → c.la = some (t, v) → topState stk ≠ 69 →
      actionOn (topState stk) (tsym t) = some (.shift s) → RC S toks st0 { c with stk := (s, v) :: c.stk, la := none } ((s, .leaf t) :: stk)
  | reduce (c : Cfg σ V) (stk : TStk) (r s : Nat) (v : V) (st : σ) : RC S toks st0 c stk → RedAt c stk r →
      S.reduce r ((c.stk.take (rhs r).length).map Prod.snd).reverse ((c.stk.drop (rhs r).length).head?.map Prod.snd) c.st = .ok v st →
      RC S toks st0 { c with stk := (s, v) :: c.stk.drop (rhs r).length, st := st } ((s, .node r (popTrees (rhs r).length stk)) :: stk.drop (rhs r).length)

theorem RC.ind {I : Cfg σ V → TStk → Prop}
    (init : I (initCfg toks st0) [])
    (rd : ∀ c stk t ts, I c stk → c.la = none → c.toks = t :: ts → I { c with la := some (t, (S.read t c.st).1), toks := ts, st := (S.read t c.st).2 } stk)
    (shift : ∀ c stk t v s, I c stk → c.la = some (t, v) → topState stk ≠ 69 → actionOn (topState stk) (tsym t) = some (.shift s) →
      I { c with stk := (s, v) :: c.stk, la := none } ((s, .leaf t) :: stk))
    (reduce : ∀ c stk r s v st, I c stk → RedAt c stk r →
      S.reduce r ((c.stk.take (rhs r).length).map Prod.snd).reverse ((c.stk.drop (rhs r).length).head?.map Prod.snd) c.st = .ok v st →
      I { c with stk := (s, v) :: c.stk.drop (rhs r).length, st := st } ((s, .node r (popTrees (rhs r).length stk)) :: stk.drop (rhs r).length))
    {c : Cfg σ V} {stk : TStk} (h : RC S toks st0 c stk) : I c stk := by
  induction h with
  | init => exact init
  | rd c stk t ts _ h1 h2 ih => exact rd c stk t ts ih h1 h2
  | shift c stk t v s _ h1 h2 h3 ih => exact shift c stk t v s ih h1 h2 h3
  | reduce c stk r s v st _ h1 h2 ih => exact reduce c stk r s v st ih h1 h2

theorem Reach.rc {n : Nat} {c : Cfg σ V} {stk : TStk} (h : Reach S lim toks st0 n c stk) : RC S toks st0 c stk :=
  Reach.induct (RC S toks st0) .init (fun _ _ _ _ => .rd _ _ _ _) (fun _ _ _ _ _ => .shift _ _ _ _ _) (fun _ _ _ _ _ _ => .reduce _ _ _ _ _ _) h

theorem Reach.rc_prep {n : Nat} {c : Cfg σ V} {stk : TStk} (h : Reach S lim toks st0 n c stk) : RC S toks st0 (prep S c) stk := by
  rcases prep_cases (S := S) c with e | e
  · rw [e]; exact h.rc
  · rw [e]
    rcases fetch_cases (S := S) c with e | ⟨t, ts, h1, h2, e⟩
    · rw [e]; exact h.rc
    · rw [e]; exact h.rc.rd c stk t ts h1 h2

/-- Only rule 2 is for `input`. -/
theorem input_rule {r : Nat} (h2 : r < 358) (h : lhs r = N.input) : r = 2 := by
  have hc : allN 358 (fun r => bor (Nat.beq r 2) (bnot (Nat.beq (lhsF r) N.input))) = true := by decide +kernel
  have := allN_spec hc r h2
  rw [bor_iff, beq_iff, bnot_iff, ← lhs_eq h2, h] at this
  exact this.resolve_right (by decide)

/-- When `input` is on the stack, the action of `input` was the last one. -/
theorem RC.last {c : Cfg σ V} {stk : TStk} (h : RC S toks st0 c stk) (hr : ∃ p ∈ stk, p.2.sym = N.input)
    (Q : σ → σ → Prop) (q0 : ∀ s, Q s s) (q1 : ∀ s s' t, Q s s' → Q s (S.read t s').2) :
    ∃ c2 stk2 v st2, RC S toks st0 c2 stk2 ∧ RedAt c2 stk2 2 ∧
      S.reduce 2 ((c2.stk.take (rhs 2).length).map Prod.snd).reverse ((c2.stk.drop (rhs 2).length).head?.map Prod.snd) c2.st = .ok v st2 ∧ Q st2 c.st ∧
      (∃ s, (s, Tree.node 2 (popTrees (rhs 2).length stk2)) ∈ stk) := by
  induction h with
  | init => obtain ⟨p, hp, _⟩ := hr; simp at hp
  | rd c stk t ts h h1 h2 ih =>
    obtain ⟨c2, stk2, v, st2, k1, k2, k3, k4, k5⟩ := ih hr
    exact ⟨c2, stk2, v, st2, k1, k2, k3, q1 _ _ _ k4, k5⟩
  | shift c stk t v s h h1 h2 h3 ih =>
    obtain ⟨p, hp, hp2⟩ := hr
    have hr' : ∃ p ∈ stk, p.2.sym = N.input := by
      rcases List.mem_cons.1 hp with rfl | hp
      · have := tsym_lt t
        simp only [Tree.sym] at hp2
        rw [hp2] at this; exact absurd this (by decide)
      · exact ⟨p, hp, hp2⟩
    obtain ⟨c2, stk2, v, st2, k1, k2, k3, k4, s', k5⟩ := ih hr'
    exact ⟨c2, stk2, v, st2, k1, k2, k3, k4, s', List.mem_cons_of_mem _ k5⟩
  | reduce c stk r s v st h h1 h2 ih =>
    obtain ⟨p, hp, hp2⟩ := hr
    rcases List.mem_cons.1 hp with rfl | hp
    · have := input_rule h1.r2 hp2
      subst this
      exact ⟨c, stk, v, st, h, h1, h2, q0 _, s, List.mem_cons_self⟩
    · exact absurd hp2 (h1.before p (List.mem_of_mem_drop hp))

end
end Verif.LR

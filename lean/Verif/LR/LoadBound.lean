import Verif.LR.Load
/-! The height of the stack is bounded by the load of the statement. Proof-internal. -/
set_option linter.all false
namespace Verif.LR
open Verif.Lex Verif.Sem Verif.Sql

def syms (ts : List Tok) : List Nat := ts.map tsym
def scan (ls : List Level) (ts : List Tok) : List Level := (syms ts).foldl enter ls
theorem scan_append (ls : List Level) (a b : List Tok) : scan ls (a ++ b) = scan (scan ls a) b := by simp [scan, syms]
theorem scan_one (ls : List Level) (t : Tok) : scan ls [t] = enter ls (tsym t) := rfl

theorem enter_open {l : Level} {ls : List Level} {a : Nat} (h : openers.contains a = true) : enter (l :: ls) a = ⟨0, 0⟩ :: l :: ls := by
  show (if openers.contains a then _ else _) = _; rw [if_pos h]
theorem enter_close {l m : Level} {ls : List Level} {a : Nat} (h0 : openers.contains a = false) (h : closers.contains a = true) : enter (l :: m :: ls) a = m :: ls := by
  show (if openers.contains a then _ else _) = _; rw [if_neg (by rw [h0]; simp), if_pos h]
theorem enter_end {l : Level} {ls : List Level} {a : Nat} (h0 : openers.contains a = false) (h1 : closers.contains a = false) (h : enders.contains a = true) :
    enter (l :: ls) a = { l with pending := 0 } :: ls := by
  show (if openers.contains a then _ else _) = _; rw [if_neg (by rw [h0]; simp), if_neg (by rw [h1]; simp), if_pos h]
theorem enter_other {l : Level} {ls : List Level} {a : Nat} (h0 : openers.contains a = false) (h1 : closers.contains a = false) (h : enders.contains a = false) :
    enter (l :: ls) a = ⟨l.chain + chainW a, l.pending + prefixW a⟩ :: ls := by
  show (if openers.contains a then _ else _) = _; rw [if_neg (by rw [h0]; simp), if_neg (by rw [h1]; simp), if_neg (by rw [h]; simp)]

theorem prefixW_nonneg (a : Nat) : 0 ≤ prefixW a := by
  unfold prefixW; split
  · decide
  · split <;> decide

/-- No level has negative prefix weight. -/
def Nonneg (ls : List Level) : Prop := ∀ l ∈ ls, 0 ≤ l.pending
theorem enter_nonneg {ls : List Level} {a : Nat} (h : Nonneg ls) : Nonneg (enter ls a) := by
  cases ls with
  | nil => exact h
  | cons l ls =>
    have hl := h l (List.mem_cons_self ..)
    have ht : ∀ m ∈ ls, 0 ≤ m.pending := fun m hm => h m (List.mem_cons_of_mem _ hm)
    have hp := prefixW_nonneg a
    show Nonneg (if openers.contains a then _ else _)
    split
    · intro m hm
      rcases List.mem_cons.1 hm with rfl | hm
      · exact Int.le_refl _
      · exact h m hm
    · split
      · cases ls with
        | nil => exact h
        | cons m ms => exact ht
      · split
        · intro m hm
          rcases List.mem_cons.1 hm with rfl | hm
          · exact Int.le_refl _
          · exact ht m hm
        · intro m hm
          rcases List.mem_cons.1 hm with rfl | hm
          · simp only []; omega
          · exact ht m hm
theorem scan_nonneg {ls : List Level} (ts : List Tok) (h : Nonneg ls) : Nonneg (scan ls ts) := by
  induction ts generalizing ls with
  | nil => exact h
  | cons t ts ih => exact ih (enter_nonneg h)

/-- Where the reading of a right-hand side stands: `b.k` brackets are open above the level `l0`, which has become `lb`. -/
def Conc (l0 : Level) (ls : List Level) (b : Abs) (Ls : List Level) : Prop :=
  ∃ inner lb, Ls = inner ++ lb :: ls ∧ inner.length = b.k ∧ l0.chain + b.du ≤ lb.chain ∧ (b.keep = true → l0.pending ≤ lb.pending)

theorem conc_leaf {l0 : Level} {ls Ls : List Level} {b b' : Abs} {a : Nat} (ha : a < 199) (h : Conc l0 ls b Ls) (hs : absStep b a = some b') : Conc l0 ls b' (enter Ls a) := by
  obtain ⟨inner, lb, rfl, hk, hd, hp⟩ := h
  have hpw := prefixW_nonneg a
  unfold absStep at hs
  rw [if_pos ha] at hs
  obtain ⟨x, xs, hx⟩ : ∃ x xs, inner ++ lb :: ls = x :: xs := by cases inner <;> exact ⟨_, _, rfl⟩
  by_cases ho : openers.contains a = true
  · rw [if_pos ho] at hs
    injection hs with hs; subst hs
    rw [hx, enter_open ho, ← hx]
    exact ⟨⟨0, 0⟩ :: inner, lb, rfl, by simp [hk], hd, hp⟩
  · rw [if_neg ho] at hs
    simp only [Bool.not_eq_true] at ho
    by_cases hc : closers.contains a = true
    · rw [if_pos hc] at hs
      by_cases h0 : b.k = 0
      · rw [if_pos h0] at hs; cases hs
      · rw [if_neg h0] at hs
        injection hs with hs; subst hs
        cases inner with
        | nil => exact absurd hk.symm h0
        | cons y inner =>
          refine ⟨inner, lb, ?_, by simp at hk; simp only []; omega, hd, hp⟩
          cases inner with
          | nil => exact enter_close ho hc
          | cons z inner => exact enter_close ho hc
    · rw [if_neg hc] at hs
      simp only [Bool.not_eq_true] at hc
      by_cases h0 : b.k = 0
      · rw [if_pos h0] at hs
        have : inner = [] := List.eq_nil_of_length_eq_zero (by omega)
        subst this
        simp only [List.nil_append]
        by_cases he : enders.contains a = true
        · rw [if_pos he] at hs
          injection hs with hs; subst hs
          rw [enter_end ho hc he]
          exact ⟨[], _, rfl, by simp [h0], hd, fun h => by cases h⟩
        · rw [if_neg he] at hs
          injection hs with hs; subst hs
          simp only [Bool.not_eq_true] at he
          rw [enter_other ho hc he]
          refine ⟨[], _, rfl, by simp [h0], ?_, ?_⟩
          · simp only []; omega
          · intro h; have := hp h; simp only []; omega
      · rw [if_neg h0] at hs
        injection hs with hs; subst hs
        cases inner with
        | nil => exact absurd hk.symm h0
        | cons y inner =>
          simp only [List.cons_append]
          by_cases he : enders.contains a = true
          · rw [enter_end ho hc he]
            exact ⟨_ :: inner, lb, rfl, hk, hd, hp⟩
          · simp only [Bool.not_eq_true] at he
            rw [enter_other ho hc he]
            exact ⟨_ :: inner, lb, rfl, hk, hd, hp⟩

/-- What is known about reading the words of a symbol. -/
def Reads (X : Nat) (ts : List Tok) : Prop := ∀ l ls, Nonneg (l :: ls) → ∃ l', scan (l :: ls) ts = l' :: ls ∧ l.chain + gain X ≤ l'.chain ∧ (keeps X = true → l.pending ≤ l'.pending)

theorem conc_node {l0 : Level} {ls Ls : List Level} {b b' : Abs} {X : Nat} {ts : List Tok} (ha : ¬ X < 199) (hr : Reads X ts) (hn : Nonneg Ls) (h : Conc l0 ls b Ls) (hs : absStep b X = some b') :
    Conc l0 ls b' (scan Ls ts) := by
  obtain ⟨inner, lb, rfl, hk, hd, hp⟩ := h
  unfold absStep at hs
  rw [if_neg ha] at hs
  by_cases h0 : b.k = 0
  · rw [if_pos h0] at hs
    injection hs with hs; subst hs
    have : inner = [] := List.eq_nil_of_length_eq_zero (by omega)
    subst this
    obtain ⟨l', e1, e2, e3⟩ := hr lb ls hn
    refine ⟨[], l', e1, rfl, ?_, ?_⟩
    · simp only []; omega
    · intro h
      simp only [Bool.and_eq_true] at h
      have := hp h.1
      have := e3 h.2
      omega
  · rw [if_neg h0] at hs
    injection hs with hs; subst hs
    cases inner with
    | nil => exact absurd hk.symm h0
    | cons y inner =>
      obtain ⟨l', e1, e2, e3⟩ := hr y (inner ++ lb :: ls) hn
      exact ⟨l' :: inner, lb, e1, hk, hd, hp⟩

mutual
theorem reads_node : ∀ (t : Tree), t.WF → topSyms.contains t.sym = false → ¬ t.sym < 199 → Reads t.sym t.yield
  | .leaf u, _, _, h => absurd (tsym_lt u) h
  | .node r cs, h, ht, _ => by
    simp only [Tree.WF] at h
    obtain ⟨h1, h2, h3, h4⟩ := h
    rw [rules_len] at h2
    have hr := List.all_eq_true.1 ruleLoads r (List.mem_range.2 h2)
    have hb : Nat.blt r 2 = false := by rw [← Bool.not_eq_true, Nat.blt_eq]; omega
    simp only [Tree.sym] at ht
    rw [hb, Bool.false_or, ruleLoad, ht, Bool.false_or] at hr
    have hk := List.all_eq_true.1 top_rules r (List.mem_range.2 h2)
    rw [ht, hb, Bool.false_or, Bool.false_or] at hk
    have hk' : ∀ c ∈ cs, topSyms.contains c.sym = false := by
      intro c hc
      have := List.all_eq_true.1 hk c.sym (by rw [← h3]; exact List.mem_map_of_mem hc)
      simpa using this
    intro l ls hn
    cases hrun : absRun ⟨0, 0, true⟩ (rhs r) with
    | none => rw [hrun] at hr; cases hr
    | some b =>
      rw [hrun] at hr
      obtain ⟨inner, lb, e1, e2, e3, e4⟩ := reads_list cs h4 hk' l ls ⟨0, 0, true⟩ (l :: ls) b hn ⟨[], l, rfl, rfl, by simp, fun _ => Int.le_refl _⟩ (by rw [h3]; exact hrun)
      obtain ⟨k, du, keep⟩ := b
      cases k with
      | succ k => cases hr
      | zero =>
        simp only [Bool.and_eq_true, decide_eq_true_eq, Bool.or_eq_true, Bool.not_eq_true'] at hr
        have : inner = [] := List.eq_nil_of_length_eq_zero e2
        subst this
        refine ⟨lb, e1, ?_, ?_⟩
        · simp only [Tree.sym]; simp only [] at e3; omega
        · intro hkp
          simp only [Tree.sym] at hkp
          rcases hr.2 with h | h
          · rw [hkp] at h; cases h
          · exact e4 h
theorem reads_list : ∀ (cs : List Tree), WFL cs → (∀ c ∈ cs, topSyms.contains c.sym = false) → ∀ l0 ls b Ls b', Nonneg Ls → Conc l0 ls b Ls → absRun b (cs.map Tree.sym) = some b' →
    Conc l0 ls b' (scan Ls (yieldL cs))
  | [], _, _, l0, ls, b, Ls, b', _, h, hr => by
    simp only [List.map_nil, absRun, Option.some.injEq] at hr
    subst hr
    exact h
  | c :: cs, hw, ht, l0, ls, b, Ls, b', hn, h, hr => by
    simp only [WFL] at hw
    simp only [List.map_cons, absRun] at hr
    cases hs : absStep b c.sym with
    | none => rw [hs] at hr; cases hr
    | some b1 =>
      rw [hs] at hr
      rw [yieldL, scan_append]
      refine reads_list cs hw.2 (fun d hd => ht d (List.mem_cons_of_mem _ hd)) l0 ls b1 _ b' (scan_nonneg _ hn) ?_ hr
      cases c with
      | leaf u => exact conc_leaf (tsym_lt u) h hs
      | node r ds =>
        have hge := lhs_ge (r := r) (by have := hw.1.1; omega) (by have := hw.1.2.1; rw [rules_len] at this; exact this)
        have hlt : ¬ (Tree.node r ds).sym < 199 := by simp only [Tree.sym]; omega
        exact conc_node hlt (reads_node (.node r ds) hw.1 (ht _ (List.mem_cons_self ..)) hlt) hn h hs
end

/-! ## The stack -/

/-- Level by level less. -/
def Under : List Level → List Level → Prop
  | [], [] => True
  | a :: as, b :: bs => a.chain ≤ b.chain ∧ a.pending ≤ b.pending ∧ Under as bs
  | _, _ => False
theorem Under.refl : ∀ a : List Level, Under a a
  | [] => trivial
  | _ :: as => ⟨Int.le_refl _, Int.le_refl _, Under.refl as⟩
theorem Under.total : ∀ {a b : List Level}, Under a b → total a ≤ total b
  | [], [], _ => Int.le_refl _
  | [a], [b], h => by obtain ⟨h1, h2, _⟩ := h; simp only [Sql.total]; omega
  | a :: a' :: as, b :: b' :: bs, h => by
    have := Under.total h.2.2
    obtain ⟨h1, h2, _⟩ := h
    simp only [Sql.total]; omega
  | [], _ :: _, h => h.elim
  | _ :: _, [], h => h.elim
  | [a], b :: b' :: bs, h => h.2.2.elim
  | a :: a' :: as, [b], h => h.2.2.elim

theorem total_head (a b : Level) (ls : List Level) : total (a :: ls) = total (b :: ls) + (a.chain + a.pending) - (b.chain + b.pending) := by
  cases ls <;> simp only [total] <;> omega
theorem total_cons (a b : Level) (ls : List Level) : total (a :: b :: ls) = a.chain + a.pending + 34 + total (b :: ls) := rfl

/-- The statement begins after the tokens `a`. -/
def Starts (a : List Tok) : Prop := a = [] ∨ ∃ a' m, a = a' ++ [m] ∧ tsym m = T.SEMI

/-- Not directly after a list of statements. -/
noncomputable def inside (s : Nat) : Bool := !memN (Nat.sub (yystosT.get s) 1000) [N.input, N.statement_list, N.opt_semicolon]

structure Bound (stk : TStk) (a b : List Tok) (h : Level) (al : List Level) : Prop where
  yield : stkYield stk = a ++ b
  semi : ∀ m ∈ b, tsym m ≠ T.SEMI
  start : inside (topState stk) = true → topState stk ≠ 69 → Starts a
  begun : topState stk ≠ 69 → Starts a ∨ b = []
  under : Under (h :: al) (scan [⟨0, 0⟩] b)
  height : (stk.length : Int) + 57 ≤ lphi (topState stk) + total (h :: al)
  calm : calm (topState stk) = true → h.pending = 0
  clear : clear (topState stk) = true → h = ⟨0, 0⟩ ∧ al ≠ []

theorem clear_zero : clear 0 = false := by decide +kernel

theorem edge_ok {s t X : Nat} (hs : s < 656) (h69 : s ≠ 69) (h : Edge s t X) :
    (lphi s : Int) + 1 ≤ lphi t + gain X ∧
    (enders.contains X = true ∨ (199 ≤ X ∧ keeps X = false ∧ topSyms.contains X = false) → calm s = true) ∧
    (closers.contains X = true → clear s = true) ∧
    (calm t = true → openers.contains X = true ∨ topSyms.contains X = true ∨ (X ≠ T.NOT ∧ X ≠ T.HYPHEN ∧ closers.contains X = false ∧ calm s = true)) ∧
    (clear t = true → openers.contains X = true ∨ (gain X = 0 ∧ topSyms.contains X = false ∧ clear s = true)) ∧
    (topSyms.contains X = false → t ≠ 69 → inside s = true) := by
  have he := edges_of edgeOK edgeRows edgePred hs h69 h
  unfold edgeOK at he
  simp only [memN_eq] at he
  simp only [Bool.and_eq_true, Nat.ble_eq] at he
  obtain ⟨⟨⟨⟨⟨e1, e2⟩, e3⟩, e4⟩, e5⟩, e6⟩ := he
  refine ⟨?_, ?_, ?_, ?_, ?_, ?_⟩
  · have : lphi s + 65 ≤ lphi t + gO X := e1
    unfold gain; omega
  · intro hx
    cases hc : calm s with
    | true => rfl
    | false =>
      rw [hc, Bool.false_or] at e2
      rcases hx with hx | ⟨x1, x2, x3⟩
      · rw [hx] at e2; simp at e2
      · rw [x2, x3, Nat.ble_eq_true_of_le x1] at e2; simp at e2
  · intro hx
    rw [hx] at e3; simpa using e3
  · intro hc
    rw [hc] at e4
    simp only [Bool.or_eq_true, Bool.not_eq_true', Bool.and_eq_true] at e4
    rcases e4 with ((e | e) | e) | ⟨⟨⟨a1, a2⟩, a3⟩, a4⟩
    · cases e
    · exact .inl e
    · exact .inr (.inl e)
    · refine .inr (.inr ⟨?_, ?_, a3, a4⟩)
      · rintro rfl; cases a1
      · rintro rfl; cases a2
  · intro hc
    rw [hc] at e5
    simp only [Bool.or_eq_true, Bool.not_eq_true', Bool.and_eq_true] at e5
    rcases e5 with (e | e) | ⟨⟨a1, a2⟩, a3⟩
    · cases e
    · exact .inl e
    · refine .inr ⟨?_, a2, a3⟩
      have := beq_iff.1 a1
      unfold gain; omega
  · intro hx ht
    rw [hx, Bool.false_or] at e6
    have : Nat.beq t 69 = false := by rw [← Bool.not_eq_true, beq_iff]; exact ht
    rw [this, Bool.false_or] at e6
    unfold inside
    rw [memN_eq]
    exact e6

theorem gain_tok {a : Nat} (h : a < 199) : gain a = tokGain a := by
  simpa using List.all_eq_true.1 tokGains a (List.mem_range.2 h)
theorem zero_tok {a : Nat} (h : a < 199) (h0 : tokGain a = 0) : openers.contains a = false ∧ closers.contains a = false ∧ chainW a = 0 ∧ prefixW a = 0 := by
  have := List.all_eq_true.1 zeroToks a (List.mem_range.2 h)
  exact (of_decide_eq_true this) h0

theorem prefixW_zero {a : Nat} (h1 : a ≠ T.NOT) (h2 : a ≠ T.HYPHEN) : prefixW a = 0 := by
  unfold prefixW; rw [if_neg h1, if_neg h2]

theorem tokGain_open {a : Nat} (h : openers.contains a = true) : tokGain a = 34 := by unfold tokGain; rw [if_pos h]
theorem tokGain_close {a : Nat} (h0 : openers.contains a = false) (h : closers.contains a = true) : tokGain a = -34 := by
  unfold tokGain; rw [if_neg (by rw [h0]; simp), if_pos h]
theorem tokGain_end {a : Nat} (h0 : openers.contains a = false) (h1 : closers.contains a = false) (h : enders.contains a = true) : tokGain a = 0 := by
  unfold tokGain; rw [if_neg (by rw [h0]; simp), if_neg (by rw [h1]; simp), if_pos h]
theorem tokGain_other {a : Nat} (h0 : openers.contains a = false) (h1 : closers.contains a = false) (h : enders.contains a = false) : tokGain a = chainW a + prefixW a := by
  unfold tokGain; rw [if_neg (by rw [h0]; simp), if_neg (by rw [h1]; simp), if_neg (by rw [h]; simp)]

theorem under_cons {h : Level} {al L : List Level} (hu : Under (h :: al) L) : ∃ k ks, L = k :: ks ∧ h.chain ≤ k.chain ∧ h.pending ≤ k.pending ∧ Under al ks := by
  cases L with
  | nil => exact hu.elim
  | cons k ks => exact ⟨k, ks, rfl, hu⟩

/-- One more symbol that belongs to a statement. -/
theorem bound_step {stk : TStk} {a b : List Tok} {h : Level} {al : List Level} {s : Nat} {t : Tree} (hb : Bound stk a b h al) (hs : topState stk < 656) (h69 : topState stk ≠ 69)
    (hE : Edge (topState stk) s t.sym) (hw : t.WF) (ht : topSyms.contains t.sym = false) : ∃ h' al', Bound ((s, t) :: stk) a (b ++ t.yield) h' al' := by
  obtain ⟨e1, e2, e3, e4, e5, e6⟩ := edge_ok hs h69 hE
  have hy : stkYield ((s, t) :: stk) = a ++ (b ++ t.yield) := by rw [stkYield_cons, hb.yield, List.append_assoc]
  have hsm : ∀ m ∈ b ++ t.yield, tsym m ≠ T.SEMI := by
    intro m hm
    rcases List.mem_append.1 hm with hm | hm
    · exact hb.semi m hm
    · exact no_semi t hw ht m hm
  have hst : inside (topState ((s, t) :: stk)) = true → topState ((s, t) :: stk) ≠ 69 → Starts a := fun _ h2 => hb.start (e6 ht h2) h69
  have hnn : Nonneg (scan [⟨0, 0⟩] b) := scan_nonneg b (by intro l hl; simp at hl; subst hl; exact Int.le_refl _)
  have hlen : (((s, t) :: stk).length : Int) = stk.length + 1 := by simp
  have hh := hb.height
  obtain ⟨k, ks, hL, u1, u2, u3⟩ := under_cons hb.under
  have mk : ∀ h' al', Under (h' :: al') (scan (k :: ks) t.yield) → total (h' :: al') = total (h :: al) + gain t.sym → (calm s = true → h'.pending = 0) → (clear s = true → h' = ⟨0, 0⟩ ∧ al' ≠ []) →
      ∃ h' al', Bound ((s, t) :: stk) a (b ++ t.yield) h' al' := by
    intro h' al' g1 g2 g3 g4
    refine ⟨h', al', hy, hsm, hst, fun h2 => .inl (hb.start (e6 ht h2) h69), ?_, ?_, g3, g4⟩
    · rw [scan_append, hL]; exact g1
    · rw [hlen, g2]; show _ ≤ (lphi s : Int) + _; omega
  by_cases hX : t.sym < 199
  · have hleaf : ∃ u, t = .leaf u := by
      cases t with
      | leaf u => exact ⟨u, rfl⟩
      | node r cs =>
        have h3 := hw.2.1
        have := lhs_ge (r := r) (by have := hw.1; omega) (by rw [rules_len] at h3; exact h3)
        simp only [Tree.sym] at hX; omega
    obtain ⟨u, rfl⟩ := hleaf
    simp only [Tree.sym] at *
    have hg := gain_tok hX
    have hyl : (Tree.leaf u).yield = [u] := by simp [Tree.yield]
    rw [hyl] at mk ⊢
    rw [scan_one] at mk
    cases ho : openers.contains (tsym u) with
    | true =>
      rw [enter_open ho] at mk
      refine mk ⟨0, 0⟩ (h :: al) ⟨Int.le_refl _, Int.le_refl _, u1, u2, u3⟩ ?_ (fun _ => rfl) (fun _ => ⟨rfl, by simp⟩)
      rw [total_cons, hg, tokGain_open ho]; simp only []; omega
    | false =>
      cases hc : closers.contains (tsym u) with
      | true =>
        obtain ⟨rfl, hne⟩ := hb.clear (e3 hc)
        cases al with
        | nil => exact absurd rfl hne
        | cons h2 al =>
          obtain ⟨k2, ks, rfl, v1, v2, v3⟩ := under_cons u3
          rw [enter_close ho hc] at mk
          refine mk h2 al ⟨v1, v2, v3⟩ ?_ ?_ ?_
          · rw [total_cons, hg, tokGain_close ho hc]; simp only []; omega
          · intro hcal
            rcases e4 hcal with g | g | g
            · rw [ho] at g; cases g
            · rw [ht] at g; cases g
            · rw [hc] at g; cases g.2.2.1
          · intro hcl
            rcases e5 hcl with g | g
            · rw [ho] at g; cases g
            · rw [hg] at g
              have := (zero_tok hX g.1).2.1
              rw [hc] at this; cases this
      | false =>
        cases he : enders.contains (tsym u) with
        | true =>
          have hp := hb.calm (e2 (.inl he))
          rw [enter_end ho hc he] at mk
          refine mk h al ⟨u1, by rw [hp]; exact Int.le_refl _, u3⟩ (by rw [hg, tokGain_end ho hc he]; omega) (fun _ => hp) ?_
          intro hcl
          rcases e5 hcl with g | g
          · rw [ho] at g; cases g
          · exact hb.clear g.2.2
        | false =>
          rw [enter_other ho hc he] at mk
          refine mk ⟨h.chain + chainW (tsym u), h.pending + prefixW (tsym u)⟩ al ⟨by simp only []; omega, by simp only []; omega, u3⟩ ?_ ?_ ?_
          · rw [total_head _ h, hg, tokGain_other ho hc he]; simp only []; omega
          · intro hcal
            rcases e4 hcal with g | g | ⟨g1, g2, g3, g4⟩
            · rw [ho] at g; cases g
            · rw [ht] at g; cases g
            · simp only [hb.calm g4, prefixW_zero g1 g2]; rfl
          · intro hcl
            rcases e5 hcl with g | g
            · rw [ho] at g; cases g
            · obtain ⟨rfl, hne⟩ := hb.clear g.2.2
              rw [hg] at g
              obtain ⟨_, _, z1, z2⟩ := zero_tok hX g.1
              exact ⟨by simp only [z1, z2]; rfl, hne⟩
  · obtain ⟨k', f1, f2, f3⟩ := reads_node t hw ht hX k ks (by rw [← hL]; exact hnn)
    have hpos := scan_nonneg t.yield hnn
    rw [hL, f1] at hpos
    have hk' := hpos k' (List.mem_cons_self ..)
    rw [f1] at mk
    have hno : openers.contains t.sym = false := by
      cases ho : openers.contains t.sym with
      | false => rfl
      | true =>
        simp only [openers, List.contains_eq_mem, List.mem_cons, List.not_mem_nil, or_false, decide_eq_true_eq] at ho
        rcases ho with ho | ho | ho <;> rw [ho] at hX <;> exact absurd (by decide) hX
    refine mk ⟨h.chain + gain t.sym, h.pending⟩ al ⟨by simp only []; omega, ?_, u3⟩ ?_ ?_ ?_
    · simp only []
      cases hk : keeps t.sym with
      | true => have := f3 hk; omega
      | false =>
        have := hb.calm (e2 (.inr ⟨by omega, hk, ht⟩))
        omega
    · rw [total_head _ h]; simp only []; omega
    · intro hcal
      rcases e4 hcal with g | g | g
      · rw [hno] at g; cases g
      · rw [ht] at g; cases g
      · exact hb.calm g.2.2.2
    · intro hcl
      rcases e5 hcl with g | g
      · rw [hno] at g; cases g
      · obtain ⟨rfl, hne⟩ := hb.clear g.2.2
        exact ⟨by rw [g.1]; rfl, hne⟩

/-- The height of the stack, and the statement that is being read. -/
theorem loaded {lim : Nat} : ∀ (stk : TStk) (f : List Tok), StkOK lim stk f → ∃ a b h al, Bound stk a b h al
  | [], _, _ => ⟨[], [], ⟨0, 0⟩, [], rfl, by simp, fun _ _ => Or.inl rfl, fun _ => Or.inr rfl, Under.refl _, by simp [topState, lphi_zero, total], fun _ => rfl, fun h => by rw [topState, clear_zero] at h; cases h⟩
  | (s, t) :: stk, f, h => by
    have h' := h
    simp only [StkOK] at h
    obtain ⟨h1, h2, h3, h4, h5, _⟩ := h
    cases ht : topSyms.contains t.sym with
    | false =>
      obtain ⟨a, b, l, al, hb⟩ := loaded stk _ h1
      obtain ⟨l', al', hb'⟩ := bound_step hb h3 h4 h2 h5 ht
      exact ⟨_, _, _, _, hb'⟩
    | true =>
      obtain ⟨e1, _, _, _, e5, _⟩ := edge_ok h3 h4 h2
      have hw : gain t.sym = 0 := by
        have := List.all_eq_true.1 topGains t.sym (by simpa using ht)
        simpa using this
      have hin : ∀ X, t.sym = X → X ∈ [N.input, N.statement_list, N.opt_semicolon] → inside s = false := by
        intro X e hX
        have hst := stos_edge h3 h4 h2
        have hg := yystos_get s (edge_spec h3 h4 h2).1
        rw [List.getD_eq_getElem?_getD, hg] at hst
        simp only [Option.getD_some] at hst
        have e' : Nat.sub (yystosT.get s) 1000 = X := by rw [← e]; show yystosT.get s - 1000 = _; omega
        unfold inside
        rw [e', memN_eq, List.contains_iff_mem.2 hX]; rfl
      have hE := h2
      have hsem : t.sym = T.SEMI → ∃ u, t = .leaf u ∧ tsym u = T.SEMI := by
        intro e
        cases t with
        | leaf u => exact ⟨u, rfl, e⟩
        | node r cs =>
          have g := h5.2.1
          rw [rules_len] at g
          have := lhs_ge (r := r) (by have := h5.1; omega) g
          simp only [Tree.sym] at e; rw [e] at this; exact absurd this (by decide)
      have fin : ((stk.length : Int) + 1 + 57 ≤ lphi s) → ∃ a b h al, Bound ((s, t) :: stk) a b h al := by
        intro hl
        refine ⟨stkYield ((s, t) :: stk), [], ⟨0, 0⟩, [], by simp, by simp, ?_, fun _ => .inr rfl, Under.refl _, ?_, fun _ => rfl, ?_⟩
        · intro hi _
          simp only [topState] at hi
          simp only [topSyms, List.contains_eq_mem, List.mem_cons, List.not_mem_nil, or_false, decide_eq_true_eq] at ht
          rcases ht with ht | ht | ht | ht
          · rw [hin _ ht (by simp)] at hi; cases hi
          · rw [hin _ ht (by simp)] at hi; cases hi
          · rw [hin _ ht (by simp)] at hi; cases hi
          · obtain ⟨u, rfl, hu⟩ := hsem ht
            refine .inr ⟨stkYield stk, u, ?_, hu⟩
            rw [stkYield_cons]; simp [Tree.yield]
        · simp only [topState, List.length_cons, total]; push_cast; omega
        · intro hcl
          simp only [topState] at hcl
          rcases e5 hcl with g | g
          · simp only [topSyms, List.contains_eq_mem, List.mem_cons, List.not_mem_nil, or_false, decide_eq_true_eq] at ht
            rcases ht with ht | ht | ht | ht <;> rw [ht] at g <;> exact absurd g (by decide)
          · rw [ht] at g; cases g.2.1
      have hnil : ∀ X, t.sym = X → (PM (topState stk) X → topState stk = 0) → 199 ≤ X → ∃ a b h al, Bound ((s, t) :: stk) a b h al := by
        intro X hX h0 hge
        have : topState stk = 0 := by
          rw [hX] at h2
          rcases h2 with ⟨h, _⟩ | ⟨h, _⟩
          · omega
          · exact h0 h
        have e := topState_zero h1 this
        rw [this, lphi_zero] at e1
        subst e
        refine fin ?_
        simp only [List.length_nil]
        omega
      have hone : yystosT.get (topState stk) = 1201 → ∃ a b h al, Bound ((s, t) :: stk) a b h al := by
        intro hg
        obtain ⟨s', t', rfl, hE'⟩ := only_list h1 hg
        have h0 := (edge_ok (by decide) (by decide) hE').1
        have e : gain N.statement_list = 0 := by decide +kernel
        rw [e, lphi_zero] at h0
        simp only [topState] at e1
        refine fin ?_
        simp only [List.length_cons, List.length_nil]
        omega
      simp only [topSyms, List.contains_eq_mem, List.mem_cons, List.not_mem_nil, or_false, decide_eq_true_eq] at ht
      rcases ht with ht | ht | ht | ht
      · exact hnil _ ht (pm_input h3) (by decide)
      · exact hnil _ ht (pm_list h3) (by decide)
      · rw [ht] at h2
        rcases h2 with ⟨h, _⟩ | ⟨h, _⟩
        · exact absurd h (by decide)
        · have := allN_spec semiPred _ h3
          rw [bor_iff, beq_iff, beq_iff] at this
          exact hone (this.resolve_left h)
      · rw [ht] at h2
        rcases h2 with ⟨_, h⟩ | ⟨h, _⟩
        · have := allN_spec semiShift _ h3
          rw [bor_iff, bnot_iff, beq_iff] at this
          refine hone (this.resolve_left ?_)
          rw [(isShift_iff h3).2 ⟨_, h⟩]; simp
        · exact absurd (pm_range h3 h4 h).1 (by decide)

/-- At the end the stack is low. -/
theorem eofShift : allN 656 (fun s => bor (bnot (isShift (actF s 0))) (Nat.beq (yystosT.get s) 1200)) = true := by decide +kernel

theorem low_end {lim : Nat} {stk : TStk} {f : List Tok} (h : StkOK lim stk f) (h69 : topState stk = 69) : stk.length ≤ 2 := by
  cases stk with
  | nil => cases h69
  | cons e stk =>
    obtain ⟨s, t⟩ := e
    simp only [topState] at h69
    subst h69
    simp only [StkOK] at h
    obtain ⟨h1, h2, h3, h4, h5, _⟩ := h
    have hst := stos_edge h3 h4 h2
    have hX : (yystos.getD 69 0).toNat = 0 := by decide +kernel
    rw [hX] at hst
    rw [← hst] at h2
    rcases h2 with ⟨_, h⟩ | ⟨h, _⟩
    · have := allN_spec eofShift _ h3
      rw [bor_iff, bnot_iff, beq_iff] at this
      have hg := this.resolve_left (by rw [(isShift_iff h3).2 ⟨_, h⟩]; simp)
      cases stk with
      | nil => simp
      | cons e stk =>
        obtain ⟨s', t'⟩ := e
        simp only [topState] at hg
        simp only [StkOK] at h1
        obtain ⟨g1, g2, g3, g4, _⟩ := h1
        have hst' := stos_edge g3 g4 g2
        have hg' := yystos_get s' (edge_spec g3 g4 g2).1
        rw [List.getD_eq_getElem?_getD, hg'] at hst'
        simp only [Option.getD_some] at hst'
        have e : t'.sym = N.input := by rw [← hst', hg]; rfl
        rw [e] at g2
        have h0 : topState stk = 0 := by
          rcases g2 with ⟨h, _⟩ | ⟨h, _⟩
          · exact absurd h (by decide)
          · exact pm_input g3 h
        rw [topState_zero g1 h0]
        simp
    · exact absurd (pm_range h3 h4 h).1 (by decide)

end Verif.LR

import Verif.Sql.StmtDer
import Verif.Sem.Split
/-! Reading words off derivation trees: definitions and precedence. Proof-internal. -/
namespace Verif.Sql
open Verif.Lex Verif.LR Verif.Sem

/-! ## The words of tokens -/

/-- The word a token stands for; a parameter gets the number `k`. -/
def wordOf (k : Nat) (t : Tok) : Word :=
  match t.val with
  | .sval b => if tsym t = T.STRING then .str b else .id b
  | .ival n => .int n
  | .fval b => .flt b
  | .none => if tsym t = T.QMARK then .par k else .kw (tsym t)

/-- The words of a sequence of tokens; parameters are numbered from `k`. -/
def toWords : Nat → List Tok → List Word
  | _, [] => []
  | k, t :: ts => wordOf k t :: toWords (k + qmarks [t]) ts

theorem toWords_append : ∀ (k : Nat) (a b : List Tok), toWords k (a ++ b) = toWords k a ++ toWords (k + qmarks a) b
  | k, [], b => by simp [toWords, qmarks]
  | k, t :: a, b => by
    have h : qmarks (t :: a) = qmarks [t] + qmarks a := qmarks_append [t] a
    simp only [List.cons_append, toWords, toWords_append _ a b, h, Nat.add_assoc]

/-- The token fits its terminal. -/
def Fits (t : Tok) : Prop := TokShape t ∧ tsym t ≠ T.eof ∧ tsym t ≠ 2

theorem wordOf_fits {t : Tok} (h : Fits t) (k : Nat) : tsym t = (wordOf k t).sym ∧ t.val = (wordOf k t).val ∧ qm [wordOf k t] = qmarks [t] ∧ ∀ i, wordOf k t = .par i → i = k := by
  obtain ⟨h1, h2, h3⟩ := h
  unfold TokShape at h1
  unfold wordOf
  cases hv : t.val with
  | none =>
    simp only []
    by_cases hq : tsym t = T.QMARK
    · rw [if_pos hq]; exact ⟨hq, rfl, by simp [qm, qmarks, hq], fun i h => by cases h; rfl⟩
    · rw [if_neg hq]; exact ⟨rfl, rfl, by simp [qm, qmarks, hq], fun i h => by cases h⟩
  | ival n =>
    rw [hv] at h1
    simp only [h2, h3, or_false] at h1
    exact ⟨h1, rfl, by simp [qm, qmarks, h1]; decide, fun i h => by cases h⟩
  | fval b =>
    rw [hv] at h1
    exact ⟨h1, rfl, by simp [qm, qmarks, h1]; decide, fun i h => by cases h⟩
  | sval b =>
    rw [hv] at h1
    simp only []
    by_cases hq : tsym t = T.STRING
    · rw [if_pos hq]; exact ⟨hq, rfl, by simp [qm, qmarks, hq]; decide, fun i h => by cases h⟩
    · rw [if_neg hq]
      have h1 : tsym t = T.IDENTIFIER := by rcases h1 with h | h; exact h; exact absurd h hq
      exact ⟨h1, rfl, by simp [qm, qmarks, h1]; decide, fun i h => by cases h⟩

theorem toWords_spelled : ∀ (k : Nat) (ts : List Tok), (∀ t ∈ ts, Fits t) → Spelled (toWords k ts) ts ∧ Numbered k (toWords k ts)
  | _, [], _ => ⟨trivial, trivial⟩
  | k, t :: ts, h => by
    obtain ⟨h1, h2⟩ := toWords_spelled (k + qmarks [t]) ts fun t ht => h t (by simp [ht])
    obtain ⟨g1, g2, g3, g4⟩ := wordOf_fits (h t (by simp)) k
    refine ⟨⟨g1, g2, h1⟩, ?_⟩
    unfold toWords
    cases hw : wordOf k t with
    | par i =>
      rw [hw] at g3
      have : qmarks [t] = 1 := by rw [← g3]; rfl
      rw [this] at h2
      exact ⟨g4 i hw, by rw [this]; exact h2⟩
    | _ =>
      rw [hw] at g3
      have : qmarks [t] = 0 := by rw [← g3]; rfl
      rw [this] at h2
      simp only [Numbered, this]; exact h2

/-- The words of a tree. -/
def _root_.Verif.LR.Tree.ws (k : Nat) (t : Tree) : List Word := toWords k t.yield
def wsL : Nat → List Tree → List Word
  | _, [] => []
  | k, [c] => c.ws k
  | k, c :: d :: cs => c.ws k ++ wsL (k + qmarks c.yield) (d :: cs)

theorem wsL_eq : ∀ (k : Nat) (cs : List Tree), toWords k (yieldL cs) = wsL k cs
  | _, [] => rfl
  | k, [c] => by simp [yieldL, wsL, Tree.ws]
  | k, c :: d :: cs => by
    rw [wsL, ← wsL_eq _ (d :: cs), yieldL, toWords_append]; rfl

theorem ws_node (k r : Nat) (cs : List Tree) : (Tree.node r cs).ws k = wsL k cs := by
  rw [Tree.ws, Tree.yield, wsL_eq]

/-- The tree is one keyword, so its symbol comes next. -/
theorem next_kw {c : Tree} {k a : Nat} (h : c.ws k = [.kw a]) (l : List Tok) (b : Nat) : nextSym (c.yield ++ l) b = a := by
  unfold Tree.ws at h
  cases hy : c.yield with
  | nil => rw [hy] at h; cases h
  | cons t ts =>
    rw [hy] at h
    simp only [toWords, List.cons.injEq] at h
    have h := h.1
    simp only [List.cons_append, nextSym]
    unfold wordOf at h
    split at h
    · split at h <;> cases h
    · cases h
    · cases h
    · split at h
      · cases h
      · injection h

/-! ## Precedence -/

/-- The tokens with a precedence that may continue an operand. -/
def opB : List Nat := [T.NOT, T.EQ, T.EQUALS, T.NOTEQUALS, T.LIKE, T.ILIKE, T.LT, T.GT, T.LESSEQ, T.GREATEREQ, T.ISNULL, T.IS, T.PLUS, T.HYPHEN, T.STAR, T.SLASH, T.PERCENT, T.CARET, T.CONCAT, T.LBRACKET]
/-- The tokens that may continue an expression. -/
def exB : List Nat := [T.AND, T.OR]
/-- The level of a token. -/
def lv (b : Nat) : Nat := match tokPrec b with | some (p, _) => p | none => 0

/-- The edges of an operand. -/
structure OpE (x : Expr) (t : Tree) : Prop where
  op : x.isOpnd = true
  r : ∀ b, b ∈ opB → t.PrecOK b → tightL (lv b) x.lev.2 = true
  l : x.lev.1 = closed ∨ ∃ a, a ∈ opB ∧ t.Leads N.operand a ∧ lv a = x.lev.1
/-- The edges of an expression. -/
structure ExE (x : Expr) (t : Tree) : Prop where
  r : ∀ b, b ∈ exB → t.PrecOK b → tightL (lv b) x.lev.2 = true
  l : 2 ≤ x.lev.1 ∨ ∃ a, a ∈ exB ∧ t.Leads N.expr a ∧ lv a = x.lev.1

theorem opnd_lev1 : ∀ (e : Expr), e.isOpnd = true → 2 ≤ e.lev.1
  | .isNull true e, _ => by
    have := opnd_lev1 e
    simp only [Expr.lev]
    have := cond_le (b := e.isOpnd && tightL 6 e.lev.2) (n := e.lev.1) (fun h => this (by simp only [Bool.and_eq_true] at h; exact h.1))
    omega
  | .isNull false e, _ => by
    have := opnd_lev1 e
    simp only [Expr.lev]
    have := cond_le (b := e.isOpnd && tightL 7 e.lev.2) (n := e.lev.1) (fun h => this (by simp only [Bool.and_eq_true] at h; exact h.1))
    omega
  | .isNotNull e, _ => by
    have := opnd_lev1 e
    simp only [Expr.lev]
    have := cond_le (b := e.isOpnd && tightL 7 e.lev.2) (n := e.lev.1) (fun h => this (by simp only [Bool.and_eq_true] at h; exact h.1))
    omega
  | .index e _, _ => by
    have := opnd_lev1 e
    simp only [Expr.lev]
    have := cond_le (b := e.isOpnd && tightL 13 e.lev.2) (n := e.lev.1) (fun h => this (by simp only [Bool.and_eq_true] at h; exact h.1))
    omega
  | .bin o a b, _ => by
    have := opnd_lev1 a
    simp only [Expr.lev]
    have := cond_le (b := a.isOpnd && tightL o.tokLevel a.lev.2) (n := a.lev.1) (fun h => this (by simp only [Bool.and_eq_true] at h; exact h.1))
    have : 2 ≤ o.tokLevel := by cases o <;> decide
    omega
  | .neg e, _ | .not e, _ => by simp only [Expr.lev]; decide
  | .lit _, _ | .param _, _ | .col _ _, _ | .star _, _ | .paren _, _ | .query _, _ | .case _ _ _, _ | .call _ _ _ _, _ | .extract _ _, _ | .cast _ _, _ | .array _, _ => by simp only [Expr.lev]; decide
  | .logic .., h | .inList .., h | .inQuery .., h | .between .., h | .exist .., h => by cases h

theorem lv_small : ∀ b, b ∈ opB → lv b < 100 := by decide +kernel
theorem lv_ex : ∀ b, b ∈ exB → lv b < 2 := by decide +kernel
theorem tight_lt {p m : Nat} (h : p < m) : tightL p m = true := by simp [tightL, h]
theorem tightR_lt {p m : Nat} (h : p < m) : tightR p m = true := by simp [tightR, h]

/-- An expression without operators on its edges. -/
theorem OpE.atom {x : Expr} {t : Tree} (h : x.isOpnd = true) (hl : x.lev = (closed, closed)) : OpE x t :=
  ⟨h, fun b hb _ => by rw [hl]; exact tight_lt (lv_small b hb), .inl (by rw [hl])⟩

theorem prec_unit {r : Nat} {c : Tree} {b : Nat} (h : (Tree.node r [c]).PrecOK b) : c.PrecOK b := h.2.2.1

theorem OpE.up {x : Expr} {c : Tree} (h : OpE x c) (r : Nat) : OpE x (.node r [c]) :=
  ⟨h.op, fun b hb hp => h.r b hb (prec_unit hp), h.l.imp id fun ⟨a, ha, hl, e⟩ => ⟨a, ha, .inr hl, e⟩⟩
theorem ExE.up {x : Expr} {c : Tree} (h : ExE x c) (r : Nat) : ExE x (.node r [c]) :=
  ⟨fun b hb hp => h.r b hb (prec_unit hp), h.l.imp id fun ⟨a, ha, hl, e⟩ => ⟨a, ha, .inr hl, e⟩⟩
/-- An expression without `AND` and `OR` on its edges. -/
theorem ExE.two {x : Expr} {t : Tree} (h1 : 2 ≤ x.lev.1) (h2 : 2 ≤ x.lev.2) : ExE x t :=
  ⟨fun b hb _ => tight_lt (by have := lv_ex b hb; omega), .inl h1⟩
theorem OpE.ex {x : Expr} {c : Tree} (h : OpE x c) (t : Tree) : ExE x t := .two (opnd_lev1 x h.op) (opnd_lev x h.op)

/-- Completing a rule of level `p` in front of `b`. -/
theorem reduce_tight {r p b : Nat} {as : Assoc} (hr : rulePrec r = some (p, as)) (hc : contested r b = true) (hb : ∃ as', tokPrec b = some (lv b, as') ∧ (as' = .left → leftAssoc (lv b) = true))
    (h : forbidReduce r b = false) : tightL (lv b) p = true := by
  obtain ⟨as', hb, hl⟩ := hb
  unfold forbidReduce at h
  rw [hc, hr, hb, Bool.true_and] at h
  simp only [Bool.or_eq_false_iff, decide_eq_false_iff_not, Bool.and_eq_false_iff] at h
  simp only [tightL, Bool.or_eq_true, decide_eq_true_eq, Bool.and_eq_true, beq_iff_eq]
  by_cases he : lv b < p
  · exact .inl he
  · have : p = lv b := by omega
    right
    refine ⟨this.symm, hl ?_⟩
    rcases h.2 with h | h
    · exact absurd this h
    · simpa using h
theorem shift_tight {r p a : Nat} {as : Assoc} (hr : rulePrec r = some (p, as)) (hc : contested r a = true) (hb : ∃ as', tokPrec a = some (lv a, as') ∧ (as' = .right → rightAssoc (lv a) = true))
    (h : forbidShift r a = false) : tightR p (lv a) = true := by
  obtain ⟨as', hb, hl⟩ := hb
  unfold forbidShift at h
  rw [hc, hr, hb, Bool.true_and] at h
  simp only [Bool.or_eq_false_iff, decide_eq_false_iff_not, Bool.and_eq_false_iff] at h
  simp only [tightR, Bool.or_eq_true, decide_eq_true_eq, Bool.and_eq_true, beq_iff_eq]
  by_cases he : p < lv a
  · exact .inl he
  · have : p = lv a := by omega
    right
    refine ⟨this, ?_⟩
    rw [this]; refine hl ?_
    rcases h.2 with h | h
    · exact absurd this h
    · simpa using h

def tokOK (b : Nat) : Bool := match tokPrec b with
  | some (p, .left) => leftAssoc p
  | some (p, .right) => rightAssoc p
  | some (_, .nonassoc) => true
  | none => false
theorem tokOK_all : (opB ++ exB).all tokOK = true := by decide +kernel
theorem tok_facts {b : Nat} (h : b ∈ opB ∨ b ∈ exB) : ∃ as', tokPrec b = some (lv b, as') ∧ (as' = .left → leftAssoc (lv b) = true) ∧ (as' = .right → rightAssoc (lv b) = true) := by
  have := List.all_eq_true.1 tokOK_all b (by simpa using h)
  unfold tokOK at this
  unfold lv
  cases hp : tokPrec b with
  | none => rw [hp] at this; cases this
  | some x =>
    obtain ⟨p, as⟩ := x
    rw [hp] at this
    refine ⟨as, rfl, ?_, ?_⟩ <;> (rintro rfl; simpa using this)

theorem min_tight {p m n : Nat} (h1 : tightL p m = true) (h2 : tightL p n = true) : tightL p (min m n) = true := by
  rcases Nat.le_total m n with h | h
  · rw [Nat.min_eq_left h]; exact h1
  · rw [Nat.min_eq_right h]; exact h2

/-- The rule is an operator rule of level `p` that ends in an operand. -/
def opRule (r p : Nat) : Bool := (match rulePrec r with | some (q, _) => Nat.beq q p | none => false) && opB.all (contested r) && decide ((rhs r).getLast? = some N.operand)
def exRule (r p : Nat) : Bool := (match rulePrec r with | some (q, _) => Nat.beq q p | none => false) && exB.all (contested r) && decide ((rhs r).getLast? = some N.expr)

theorem opRule_spec {r p : Nat} (h : opRule r p = true) : (∃ as, rulePrec r = some (p, as)) ∧ (∀ b, b ∈ opB → contested r b = true) ∧ (rhs r).getLast? = some N.operand := by
  unfold opRule at h
  simp only [Bool.and_eq_true, List.all_eq_true, decide_eq_true_eq] at h
  refine ⟨?_, h.1.2, h.2⟩
  have := h.1.1
  cases hp : rulePrec r with
  | none => rw [hp] at this; cases this
  | some x =>
    rw [hp] at this
    obtain ⟨q, as⟩ := x
    simp only [] at this
    exact ⟨as, by rw [Nat.eq_of_beq_eq_true this]⟩
theorem exRule_spec {r p : Nat} (h : exRule r p = true) : (∃ as, rulePrec r = some (p, as)) ∧ (∀ b, b ∈ exB → contested r b = true) ∧ (rhs r).getLast? = some N.expr := by
  unfold exRule at h
  simp only [Bool.and_eq_true, List.all_eq_true, decide_eq_true_eq] at h
  refine ⟨?_, h.1.2, h.2⟩
  have := h.1.1
  cases hp : rulePrec r with
  | none => rw [hp] at this; cases this
  | some x =>
    rw [hp] at this
    obtain ⟨q, as⟩ := x
    simp only [] at this
    exact ⟨as, by rw [Nat.eq_of_beq_eq_true this]⟩

/-- The left operand fits. -/
theorem OpE.fitL {x : Expr} {c : Tree} (h : OpE x c) {a : Nat} (ha : a ∈ opB) (hp : c.PrecOK a) : x.fitL (lv a) = true := by
  unfold Expr.fitL; rw [h.op, h.r a ha hp]; rfl
/-- The right operand fits. -/
theorem OpE.fitR {x : Expr} {c : Tree} (h : OpE x c) {r p : Nat} (hr : opRule r p = true) (hp : p < 100) {cs : List Tree} (hc : cs.getLast? = some c) (hl : lastOK r cs) : x.fitR p = true := by
  unfold Expr.fitR
  rw [h.op, Bool.true_and]
  obtain ⟨⟨as, h1⟩, h2, h3⟩ := opRule_spec hr
  rcases h.l with e | ⟨a, ha, hL, e⟩
  · rw [e]; exact tightR_lt hp
  · rw [← e]
    obtain ⟨as', g1, g2, g3⟩ := tok_facts (.inl ha)
    have ha199 : a < 199 := by
      have : ∀ a, a ∈ opB → a < 199 := by decide
      exact this a ha
    exact shift_tight h1 (h2 a ha) ⟨as', g1, g3⟩ (hl c N.operand a hc h3 ha199 hL)
theorem ExE.fitL {x : Expr} {c : Tree} (h : ExE x c) {a : Nat} (ha : a ∈ exB) (hp : c.PrecOK a) : x.fitLogL (lv a) = true := h.r a ha hp
theorem ExE.fitR {x : Expr} {c : Tree} (h : ExE x c) {r p : Nat} (hr : exRule r p = true) (hp : p < 2) {cs : List Tree} (hc : cs.getLast? = some c) (hl : lastOK r cs) : x.fitLogR p = true := by
  unfold Expr.fitLogR
  obtain ⟨⟨as, h1⟩, h2, h3⟩ := exRule_spec hr
  rcases h.l with e | ⟨a, ha, hL, e⟩
  · exact tightR_lt (by omega)
  · rw [← e]
    obtain ⟨as', g1, g2, g3⟩ := tok_facts (.inr ha)
    have ha199 : a < 199 := by
      have : ∀ a, a ∈ exB → a < 199 := by decide
      exact this a ha
    exact shift_tight h1 (h2 a ha) ⟨as', g1, g3⟩ (hl c N.expr a hc h3 ha199 hL)

theorem precL_last : ∀ {cs : List Tree} {c : Tree} {b : Nat}, PrecOKL cs b → cs.getLast? = some c → c.PrecOK b
  | [], c, b, _, h => by cases h
  | [d], c, b, hp, h => by simp only [List.getLast?_singleton, Option.some.injEq] at h; subst h; exact hp.1
  | d :: e :: cs, c, b, hp, h => by rw [List.getLast?_cons_cons] at h; exact precL_last hp.2 h

/-- The right edge of an operator rule. -/
theorem OpE.right {x : Expr} {c : Tree} (h : OpE x c) {r p : Nat} (hr : opRule r p = true) {cs : List Tree} (hc : cs.getLast? = some c) {b : Nat} (hb : b ∈ opB) (hp : (Tree.node r cs).PrecOK b) :
    tightL (lv b) (min p x.lev.2) = true := by
  obtain ⟨⟨as, h1⟩, h2, h3⟩ := opRule_spec hr
  obtain ⟨as', g1, g2, g3⟩ := tok_facts (.inl hb)
  exact min_tight (reduce_tight h1 (h2 b hb) ⟨as', g1, g2⟩ hp.1) (h.r b hb (precL_last hp.2.2 hc))
theorem ExE.right {x : Expr} {c : Tree} (h : ExE x c) {r p : Nat} (hr : exRule r p = true) {cs : List Tree} (hc : cs.getLast? = some c) {b : Nat} (hb : b ∈ exB) (hp : (Tree.node r cs).PrecOK b) :
    tightL (lv b) (min p x.lev.2) = true := by
  obtain ⟨⟨as, h1⟩, h2, h3⟩ := exRule_spec hr
  obtain ⟨as', g1, g2, g3⟩ := tok_facts (.inr hb)
  exact min_tight (reduce_tight h1 (h2 b hb) ⟨as', g1, g2⟩ hp.1) (h.r b hb (precL_last hp.2.2 hc))

/-- The left edge of a rule that begins with an operand and the token `a`. -/
theorem OpE.left {x : Expr} {c : Tree} (h : OpE x c) {r a : Nat} (ha : a ∈ opB) (hr : (rhs r).take 2 = [N.operand, a]) (cs : List Tree) :
    ∃ a', a' ∈ opB ∧ (Tree.node r (c :: cs)).Leads N.operand a' ∧ lv a' = min (lv a) x.lev.1 := by
  rcases Nat.le_total (lv a) x.lev.1 with hle | hle
  · exact ⟨a, ha, .inl hr, by rw [Nat.min_eq_left hle]⟩
  · rcases h.l with e | ⟨a', ha', hl, e⟩
    · have := lv_small a ha; rw [e] at hle; exact absurd hle (by show ¬ 100 ≤ lv a; omega)
    · exact ⟨a', ha', .inr hl, by rw [Nat.min_eq_right hle, e]⟩
theorem ExE.left {x : Expr} {c : Tree} (h : ExE x c) {r a : Nat} (ha : a ∈ exB) (hr : (rhs r).take 2 = [N.expr, a]) (cs : List Tree) :
    ∃ a', a' ∈ exB ∧ (Tree.node r (c :: cs)).Leads N.expr a' ∧ lv a' = min (lv a) x.lev.1 := by
  rcases Nat.le_total (lv a) x.lev.1 with hle | hle
  · exact ⟨a, ha, .inl hr, by rw [Nat.min_eq_left hle]⟩
  · rcases h.l with e | ⟨a', ha', hl, e⟩
    · have := lv_ex a ha; exact absurd hle (by omega)
    · exact ⟨a', ha', .inr hl, by rw [Nat.min_eq_right hle, e]⟩

end Verif.Sql

import Verif.Sql.Word
import Verif.Sem.Opaque
import Verif.Sem.DenAt
/-! Composing derivations with known values. Proof-internal. -/
namespace Verif.Sql
open Verif.Lex Verif.LR Verif.Sem

/-! ## Words -/

theorem spelled_append : ∀ {ws us : List Word} {ts : List Tok}, Spelled (ws ++ us) ts → ∃ a b, ts = a ++ b ∧ Spelled ws a ∧ Spelled us b
  | [], us, ts, h => ⟨[], ts, rfl, trivial, h⟩
  | w :: ws, us, [], h => by cases h
  | w :: ws, us, t :: ts, h => by
    obtain ⟨h1, h2, h3⟩ := h
    obtain ⟨a, b, rfl, h4, h5⟩ := spelled_append h3
    exact ⟨t :: a, b, rfl, ⟨h1, h2, h4⟩, h5⟩

theorem spelled_one {w : Word} {ts : List Tok} (h : Spelled [w] ts) : ∃ t, ts = [t] ∧ tsym t = w.sym ∧ t.val = w.val := by
  match ts, h with
  | [t], h => exact ⟨t, rfl, h.1, h.2.1⟩

theorem spelled_nil {ts : List Tok} (h : Spelled [] ts) : ts = [] := by
  match ts, h with
  | [], _ => rfl

theorem qm_append : ∀ (ws us : List Word), qm (ws ++ us) = qm ws + qm us
  | [], us => by simp [qm]
  | w :: ws, us => by
    have := qm_append ws us
    cases w <;> simp only [List.cons_append, qm, this] <;> omega

theorem numbered_append : ∀ {ws us : List Word} {k : Nat}, Numbered k (ws ++ us) → Numbered k ws ∧ Numbered (k + qm ws) us
  | [], us, k, h => ⟨trivial, h⟩
  | .kw x :: ws, us, k, h => numbered_append (ws := ws) (us := us) (k := k) h
  | .id x :: ws, us, k, h => numbered_append (ws := ws) (us := us) (k := k) h
  | .str x :: ws, us, k, h => numbered_append (ws := ws) (us := us) (k := k) h
  | .int x :: ws, us, k, h => numbered_append (ws := ws) (us := us) (k := k) h
  | .flt x :: ws, us, k, h => numbered_append (ws := ws) (us := us) (k := k) h
  | .par i :: ws, us, k, h => by
    obtain ⟨h1, h2⟩ := numbered_append (ws := ws) (us := us) (k := k + 1) h.2
    refine ⟨⟨h.1, h1⟩, ?_⟩
    rw [qm, show k + (qm ws + 1) = k + 1 + qm ws by omega]
    exact h2

/-- The terminal of the first word. -/
def first : List Word → Nat → Nat
  | [], b => b
  | w :: _, _ => w.sym

theorem next_first {ws : List Word} {ts : List Tok} (h : Spelled ws ts) (b : Nat) : nextSym ts b = first ws b := by
  match ws, ts, h with
  | [], [], _ => rfl
  | w :: ws, t :: ts, h => exact h.1

/-! ## Precedence facts -/

/-- The operator rules that end in an operand. -/
def opRules : List Nat := [201, 202, 207, 208, 209, 210, 211, 212, 213, 214, 215, 216, 217, 218, 231, 232, 233, 234, 235, 236, 237]
/-- The tokens that may continue an operand or an expression. -/
def opToks : List Nat := [T.AND, T.OR, T.NOT, T.EQ, T.EQUALS, T.NOTEQUALS, T.LIKE, T.ILIKE, T.LT, T.GT, T.LESSEQ, T.GREATEREQ, T.ISNULL, T.IS, T.PLUS, T.HYPHEN, T.STAR, T.SLASH, T.PERCENT, T.CARET, T.CONCAT, T.LBRACKET]

def precToks : List Nat := precDecls.flatMap (·.2)

theorem tokPrec_mem {a : Nat} (h : (tokPrec a).isSome = true) : a ∈ precToks := by
  unfold tokPrec at h
  simp only [Option.isSome_map] at h
  have hlt : precDecls.findIdx (fun d => d.2.contains a) < precDecls.length := by
    rcases Nat.lt_or_ge (precDecls.findIdx (fun d => d.2.contains a)) precDecls.length with h1 | h1
    · exact h1
    · rw [List.getElem?_eq_none h1] at h; cases h
  have := List.findIdx_getElem (w := hlt)
  simp only [precToks, List.mem_flatMap]
  exact ⟨_, List.getElem_mem hlt, by simpa using this⟩

theorem quiet_all : (List.range 358).all (fun r => opRules.contains r || precToks.all fun a => !contested r a) = true := by decide +kernel
theorem safe_all : (List.range 358).all (fun r => precToks.all fun a => opToks.contains a || !contested r a) = true := by decide +kernel

theorem contested_prec {r a : Nat} (h : contested r a = true) : a ∈ precToks := by
  unfold contested at h
  simp only [Bool.and_eq_true] at h
  exact tokPrec_mem h.1.2

theorem not_contested {r : Nat} (hr : r < 358) (h : opRules.contains r = false) (a : Nat) : contested r a = false := by
  cases hc : contested r a with
  | false => rfl
  | true =>
    have := List.all_eq_true.1 quiet_all r (List.mem_range.2 hr)
    rw [h, Bool.false_or] at this
    have := List.all_eq_true.1 this a (contested_prec hc)
    rw [hc] at this
    cases this

theorem safe_not {r a : Nat} (hr : r < 358) (h : opToks.contains a = false) : contested r a = false := by
  cases hc : contested r a with
  | false => rfl
  | true =>
    have := List.all_eq_true.1 safe_all r (List.mem_range.2 hr)
    have := List.all_eq_true.1 this a (contested_prec hc)
    rw [h, hc] at this
    cases this

/-! ## Derivations with values -/

/-- Any next token. -/
def Top : Nat → Prop := fun _ => True
/-- A next token that does not continue an expression. -/
def Safe : Nat → Prop := fun b => opToks.contains b = false
/-- Nothing is known about the left edge. -/
def Any : Nat → Nat → Prop := fun _ _ => True
/-- The left edge is not an operand or expression that is continued. -/
def NoL : Nat → Nat → Prop := fun Y _ => Y ≠ N.operand ∧ Y ≠ N.expr

/-- The words are derived from `X`, and the value is `v`, in front of every token in `S`; `Lf` bounds the left edge. -/
def Der (S : Nat → Prop) (Lf : Nat → Nat → Prop) (X : Nat) (ws : List Word) (v : V) : Prop :=
  ∀ ts k, Spelled ws ts → Numbered k ws → ∃ t : Tree, t.WF ∧ t.sym = X ∧ t.yield = ts ∧ (∀ b, S b → t.PrecOK b) ∧
    (∀ Y a, a < 199 → t.Leads Y a → Lf Y a) ∧ den t ⟨k, false⟩ = some (v, ⟨k + qm ws, false⟩)

/-- The same for the right-hand side of a rule; `Ll` bounds the left edge of the last symbol. -/
def DerL (S : Nat → Prop) (Lf Ll : Nat → Nat → Prop) (Xs : List Nat) (ws : List Word) (vs : List V) : Prop :=
  ∀ ts k, Spelled ws ts → Numbered k ws → ∃ cs : List Tree, WFL cs ∧ cs.map Tree.sym = Xs ∧ yieldL cs = ts ∧ (∀ b, S b → PrecOKL cs b) ∧
    (∀ Y a, a < 199 → LeadsL Y a cs → Lf Y a) ∧ (∀ c, cs.getLast? = some c → ∀ Y a, a < 199 → c.Leads Y a → Ll Y a) ∧ denL cs ⟨k, false⟩ = some (vs, ⟨k + qm ws, false⟩)

theorem Der.weaken {S S' : Nat → Prop} {Lf Lf' : Nat → Nat → Prop} {X : Nat} {ws : List Word} {v : V} (h : Der S Lf X ws v) (h1 : ∀ b, S' b → S b) (h2 : ∀ Y a, Lf Y a → Lf' Y a) : Der S' Lf' X ws v := by
  intro ts k hs hn
  obtain ⟨t, g1, g2, g3, g4, g5, g6⟩ := h ts k hs hn
  exact ⟨t, g1, g2, g3, fun b hb => g4 b (h1 b hb), fun Y a ha hl => h2 _ _ (g5 Y a ha hl), g6⟩

/-- A token. -/
theorem Der.tok {S : Nat → Prop} {Lf : Nat → Nat → Prop} (w : Word) (hw : ∀ k, w ≠ .par k) : Der S Lf w.sym [w] (tokValue Z 0 w.val) := by
  intro ts k hs hn
  obtain ⟨t, rfl, h1, h2⟩ := spelled_one hs
  refine ⟨.leaf t, trivial, h1, by simp [Tree.yield], fun _ _ => trivial, (fun _ _ _ h => by cases h), ?_⟩
  rw [den, h2]
  cases w with
  | par k => exact absurd rfl (hw k)
  | _ => rfl

theorem Der.kw {S : Nat → Prop} {Lf : Nat → Nat → Prop} (a : Nat) : Der S Lf a [.kw a] .undef := Der.tok (.kw a) (fun _ h => by cases h)
theorem Der.id {S : Nat → Prop} {Lf : Nat → Nat → Prop} (b : Bytes) : Der S Lf T.IDENTIFIER [.id b] (.str 0 b) := Der.tok (.id b) (fun _ h => by cases h)
theorem Der.str {S : Nat → Prop} {Lf : Nat → Nat → Prop} (b : Bytes) : Der S Lf T.STRING [.str b] (.str 0 b) := Der.tok (.str b) (fun _ h => by cases h)
theorem Der.int {S : Nat → Prop} {Lf : Nat → Nat → Prop} (n : Int) : Der S Lf T.INTVAL [.int n] (.int n) := Der.tok (.int n) (fun _ h => by cases h)
theorem Der.flt {S : Nat → Prop} {Lf : Nat → Nat → Prop} (b : Bytes) : Der S Lf T.FLOATVAL [.flt b] (.raw b) := Der.tok (.flt b) (fun _ h => by cases h)

theorem DerL.nil {S : Nat → Prop} {Lf Ll : Nat → Nat → Prop} : DerL S Lf Ll [] [] [] := by
  intro ts k hs hn
  have := spelled_nil hs; subst this
  exact ⟨[], trivial, rfl, rfl, fun _ _ => trivial, (fun _ _ _ h => by cases h), (fun c h => by simp at h), by rw [denL]; rfl⟩

theorem DerL.last {S : Nat → Prop} {Lf : Nat → Nat → Prop} {X : Nat} {ws : List Word} {v : V} (h : Der S Lf X ws v) : DerL S Lf Lf [X] ws [v] := by
  intro ts k hs hn
  obtain ⟨t, g1, g2, g3, g4, g5, g6⟩ := h ts k hs hn
  refine ⟨[t], ⟨g1, trivial⟩, by simp [g2], by simp [yieldL, g3], fun b hb => ⟨g4 b hb, trivial⟩, g5, ?_, ?_⟩
  · intro c hc; simp only [List.getLast?_singleton, Option.some.injEq] at hc; subst hc; exact g5
  · rw [denL, g6]; simp only []; rw [denL]

theorem DerL.cons {S S1 : Nat → Prop} {Lf Lf2 Ll : Nat → Nat → Prop} {X Y : Nat} {Xs : List Nat} {ws us : List Word} {v : V} {vs : List V} (h : Der S1 Lf X ws v) (hL : DerL S Lf2 Ll (Y :: Xs) us vs)
    (hn : ∀ b, S b → S1 (first us b)) : DerL S Lf Ll (X :: Y :: Xs) (ws ++ us) (v :: vs) := by
  intro ts k hs hk
  obtain ⟨a, b, rfl, s1, s2⟩ := spelled_append hs
  obtain ⟨k1, k2⟩ := numbered_append hk
  obtain ⟨t, g1, g2, g3, g4, g5, g6⟩ := h a k s1 k1
  obtain ⟨cs, f1, f2, f3, f4, f5, f6, f7⟩ := hL b _ s2 k2
  refine ⟨t :: cs, ⟨g1, f1⟩, by simp [g2, f2], by simp [yieldL, g3, f3], ?_, g5, ?_, ?_⟩
  · intro c hc
    refine ⟨?_, f4 c hc⟩
    rw [f3, next_first s2]
    exact g4 _ (hn c hc)
  · intro c hc
    cases cs with
    | nil => simp at f2
    | cons d ds => rw [List.getLast?_cons_cons] at hc; exact f6 c hc
  · rw [denL, g6]
    simp only []
    rw [f7]
    simp only [qm_append, Nat.add_assoc]

/-- Applying a rule. -/
theorem Der.op {r : Nat} {S : Nat → Prop} {Lf Lf' Ll : Nat → Nat → Prop} {X : Nat} {Xs : List Nat} {ws : List Word} {vs : List V} {v : V} (h2 : 3 ≤ r ∧ r < 358)
    (hX : lhs r = X) (hr : rhs r = Xs) (h : DerL S Lf Ll Xs ws vs) (he : ∀ n, evRule r vs ⟨n, false⟩ = some (v, ⟨n, false⟩))
    (hq : ∀ b, S b → forbidReduce r b = false) (hl : ∀ Y a, (rhs r).getLast? = some Y → a < 199 → Ll Y a → forbidShift r a = false)
    (hf1 : ∀ Y a, (rhs r).take 2 = [Y, a] → a < 199 → Lf' Y a) (hf2 : ∀ Y a, Lf Y a → Lf' Y a) : Der S Lf' X ws v := by
  intro ts k hs hk
  obtain ⟨cs, f1, f2, f3, f4, f5, f6, f7⟩ := h ts k hs hk
  refine ⟨.node r cs, ⟨by omega, by rw [rules_len]; omega, by rw [f2, hr], f1⟩, hX, by rw [Tree.yield, f3], ?_, ?_, ?_⟩
  · intro b hb
    refine ⟨hq b hb, ?_, f4 b hb⟩
    intro c Y a hc hY ha hL
    exact hl Y a hY ha (f6 c hc Y a ha hL)
  · intro Y a ha hL
    rcases hL with hL | hL
    · exact hf1 Y a hL ha
    · exact hf2 _ _ (f5 Y a ha hL)
  · rw [den, f7]
    exact he _

/-- Applying a rule that precedence does not concern. -/
theorem Der.node {S : Nat → Prop} {Lf Ll : Nat → Nat → Prop} {X : Nat} {Xs : List Nat} {ws : List Word} {vs : List V} {v : V} (r : Nat) (hX : lhs r = X) (hr : rhs r = Xs)
    (h : DerL S Lf Ll Xs ws vs) (he : ∀ n, evRule r vs ⟨n, false⟩ = some (v, ⟨n, false⟩)) (h2 : (Nat.ble 3 r && Nat.blt r 358 && !opRules.contains r) = true := by decide) : Der S Any X ws v := by
  simp only [Bool.and_eq_true, Nat.ble_eq, Nat.blt_eq, Bool.not_eq_true'] at h2
  refine Der.op ⟨h2.1.1, h2.1.2⟩ hX hr h he ?_ ?_ (fun _ _ _ _ => trivial) (fun _ _ _ => trivial)
  · intro b _; unfold forbidReduce; rw [not_contested h2.1.2 h2.2, Bool.false_and]
  · intro Y a _ _ _; unfold forbidShift; rw [not_contested h2.1.2 h2.2, Bool.false_and]

def leadOK : List Nat → Bool
  | [] => true
  | X :: _ => !(Nat.beq X N.operand) && !(Nat.beq X N.expr)

/-- The same, for rules that do not begin with an operand or an expression. -/
theorem Der.atom {S : Nat → Prop} {Ll : Nat → Nat → Prop} {X : Nat} {Xs : List Nat} {ws : List Word} {vs : List V} {v : V} (r : Nat) (hX : lhs r = X) (hr : rhs r = Xs)
    (h : DerL S NoL Ll Xs ws vs) (he : ∀ n, evRule r vs ⟨n, false⟩ = some (v, ⟨n, false⟩)) (h2 : (Nat.ble 3 r && Nat.blt r 358 && !opRules.contains r) = true := by decide)
    (h3 : leadOK Xs = true := by decide) : Der S NoL X ws v := by
  simp only [Bool.and_eq_true, Nat.ble_eq, Nat.blt_eq, Bool.not_eq_true'] at h2
  refine Der.op ⟨h2.1.1, h2.1.2⟩ hX hr h he ?_ ?_ ?_ (fun _ _ h => h)
  · intro b _; unfold forbidReduce; rw [not_contested h2.1.2 h2.2, Bool.false_and]
  · intro Y a _ _ _; unfold forbidShift; rw [not_contested h2.1.2 h2.2, Bool.false_and]
  · intro Y a h _
    rw [hr] at h
    cases Xs with
    | nil => cases h
    | cons Z Zs =>
      simp only [List.take_succ_cons, List.cons.injEq] at h
      obtain ⟨rfl, _⟩ := h
      simp only [leadOK, Bool.and_eq_true, Bool.not_eq_true', ← Bool.not_eq_true, Nat.beq_eq] at h3
      exact h3

end Verif.Sql

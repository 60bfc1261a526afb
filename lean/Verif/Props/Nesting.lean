import Verif.LR.LoadBound
import Verif.Props.Short
import Verif.Props.Memory
/-!
# C47: only nesting exhausts the stack of the parser
-/
set_option linter.all false
namespace Verif.Props
open Verif.Lex Verif.LR Verif.Sem Verif.Api Verif.Sql

/-- In no statement, and after no token of it, is the load (Sql/Load) more than 144: `p` are the statements before, `q` the statement as far as it has been read. -/
def Shallow (as : List Nat) : Prop :=
  ∀ p q r, as = p ++ q ++ r → (p = [] ∨ p.getLast? = some T.SEMI) → T.SEMI ∉ q → load q ≤ 144

theorem spelled_syms : ∀ {ws : List Word} {ts : List Tok}, Spelled ws ts → ts.map tsym = ws.map Word.sym
  | [], [], _ => rfl
  | w :: ws, t :: ts, h => by simp only [List.map_cons]; rw [h.1, spelled_syms h.2.2]
  | [], _ :: _, h => h.elim
  | _ :: _, [], h => h.elim

section
variable {A : Alloc} (hA : Distinct A) {fpr : Int} (hf : FprOK fpr) (buf : Bytes) (sql : List UInt8) (l c : Int)
include hA hf

/-- C47. If the parser reports "memory exhausted", what is open in some statement, as far as it has been read, weighs more than 144. -/
theorem C47_exhausted_is_nested (o : ParseOut) (h : parse A fpr buf sql (newResult l c) = some o) (hm : message o.res = some b!"memory exhausted") :
    ∃ p q r, (sentence (tokensOf fpr sql)).map tsym = p ++ q ++ r ∧ (p = [] ∨ p.getLast? = some T.SEMI) ∧ T.SEMI ∉ q ∧ 145 ≤ load q := by
  obtain ⟨ret, st, hp, rfl⟩ := parse_some h
  obtain ⟨e, junk, hin, hE⟩ := parse_ends (sql := sql) (ok := Occurs fpr sql) hf (hA.ok (l := l) (c := c)) newResult_ok
  rw [hp] at hE
  rcases ends_msg hin rfl hE hm with ⟨_, _, n, cf, stk, hR, hl⟩ | h | ⟨pre, u, rest, s, q1, _, q2, hs, q3, q4, _⟩
  · obtain ⟨a, b, l0, al, hb⟩ := loaded stk _ hR.inv.ok
    have hmax := ble_iff.1 (allN_spec lphiMax _ (topState_lt hR.inv.ok))
    have ht := hb.under.total
    have hh := hb.height
    have h69 : topState stk ≠ 69 := by
      intro h69
      have := low_end hR.inv.ok h69
      omega
    rcases hR.rest hin with ⟨_, suf, _, h2⟩ | ⟨h0, _, _⟩
    · have hne : stk ≠ [] := by rintro rfl; simp at hl
      have hst : b ≠ [] := by
        rintro rfl
        have : total (scan [⟨0, 0⟩] []) = 0 := rfl
        omega
      refine ⟨a.map tsym, b.map tsym, suf.map tsym, by rw [h2, hb.yield]; simp, ?_, ?_, ?_⟩
      · rcases (hb.begun h69).resolve_right hst with rfl | ⟨a', m, rfl, hm⟩
        · exact .inl rfl
        · right; simp [hm]
      · intro hmem
        obtain ⟨m, hm1, hm2⟩ := List.mem_map.1 hmem
        exact hb.semi m hm1 hm2
      · show 145 ≤ total (scan [⟨0, 0⟩] b)
        omega
    · exact absurd h0 h69
  · exact absurd rfl (kinds h).1
  · exfalso
    have := syntaxMsg_prefix s (tsym u)
    rw [← q2] at this
    rcases this with ⟨w, hw⟩; cases hw

/-- C47. A text that is nowhere nested deeper than that is never rejected with "memory exhausted", however long it and its statements are. -/
theorem C47_shallow (hs : Shallow ((sentence (tokensOf fpr sql)).map tsym)) (o : ParseOut) (h : parse A fpr buf sql (newResult l c) = some o) :
    message o.res ≠ some b!"memory exhausted" := by
  intro hm
  obtain ⟨p, q, r, e, h1, h2, h3⟩ := C47_exhausted_is_nested hA hf buf sql l c o h hm
  have := hs p q r e h1 h2
  omega

/-- C47. A script (statements as data, see C23) that is nowhere nested deeper than that is parsed, and the statements of the result are those that it stands for, however long it is. -/
theorem C47_round_trip (s : Script) (b : Bool) (hs : Text (s.text b) (cText sql)) (hn : Numbered 0 (s.text b)) (hw : Shallow ((s.text b).map Word.sym)) :
    ∃ o, parse A fpr buf sql (newResult l c) = some o ∧ o.res.isValid = true ∧ astL o.res.stmts = s.items.map fun i => (i.v (.pos 0)).fill := by
  have hsp := tokensOf_text (fpr := fpr) hs
  obtain ⟨o, ho, ⟨h1, h2⟩ | ⟨_, h2, _⟩⟩ := C23_round_trip hA hf buf sql l c s b hs hn
  · exact ⟨o, ho, h1, h2⟩
  · exact absurd h2 (C47_shallow hA hf buf sql l c (by rw [spelled_syms hsp]; exact hw) o ho)
end

/-! ### Texts without weight -/

/-- A token without weight. -/
def light (a : Nat) : Bool := !openers.contains a && !closers.contains a && decide (chainW a = 0) && decide (prefixW a = 0)

theorem load_light {as : List Nat} (h : ∀ a ∈ as, light a = true) : load as = 0 := by
  have : as.foldl enter [⟨0, 0⟩] = [⟨0, 0⟩] := by
    induction as with
    | nil => rfl
    | cons a as ih =>
      have ha := h a (List.mem_cons_self ..)
      simp only [light, Bool.and_eq_true, Bool.not_eq_true', decide_eq_true_eq] at ha
      have e : enter [⟨0, 0⟩] a = [⟨0, 0⟩] := by
        cases he : enders.contains a with
        | true => rw [enter_end ha.1.1.1 ha.1.1.2 he]
        | false => rw [enter_other ha.1.1.1 ha.1.1.2 he, ha.1.2, ha.2]; rfl
      rw [List.foldl_cons, e]
      exact ih fun b hb => h b (List.mem_cons_of_mem _ hb)
  rw [load, this]; rfl
theorem shallow_light {as : List Nat} (h : ∀ a ∈ as, light a = true) : Shallow as := by
  intro p q r e _ _
  rw [load_light fun a ha => h a (by rw [e]; simp [ha])]
  decide

/-! ### Long sums -/

/-- `1 + 1 + … + 1`, with `n` plus signs. -/
def sum1 : Nat → Expr
  | 0 => .lit (.num (.int 1))
  | n + 1 => .bin .plus (sum1 n) (.lit (.num (.int 1)))
/-- `SELECT 1 + 1 + … + 1` -/
def sumQuery (n : Nat) : Script := .one (.stmt (.query (.plain .none (.plain (.mk none false (.one (sum1 n) .none) .none .none .none) .none .none .none))) .none)

theorem sum1_lev : ∀ n, (sum1 n).isOpnd = true ∧ tightL BinOp.plus.tokLevel (sum1 n).lev.2 = true
  | 0 => ⟨rfl, by decide⟩
  | n + 1 => ⟨rfl, by first | rfl | decide⟩
theorem sum1_words (n : Nat) : (sum1 (n + 1)).words = (sum1 n).words ++ [.kw T.PLUS, .int 1] := by
  obtain ⟨h1, h2⟩ := sum1_lev n
  have h3 : (sum1 n).fitL BinOp.plus.tokLevel = true := by unfold Expr.fitL; rw [h1, h2]; rfl
  rw [sum1, Expr.words, h3]
  rfl
theorem sum1_mem : ∀ n, ∀ w ∈ (sum1 n).words, w = .kw T.PLUS ∨ w = .int 1
  | 0, w, h => by
    have : w ∈ [Word.int 1] := h
    simp at this; exact .inr this
  | n + 1, w, h => by
    rw [sum1_words] at h
    rcases List.mem_append.1 h with h | h
    · exact sum1_mem n w h
    · simpa using h
theorem sumQuery_words (n : Nat) : (sumQuery n).text false = .kw T.SELECT :: (sum1 n).words := by
  show [Word.kw T.SELECT] ++ _ = _
  simp [Items.words, Alias.words, From.words, whereW, Group.words, Order.words, Limit.words, Locks.words, Hints.words, cat, topWords, distinctKw]
theorem sumQuery_mem (n : Nat) (w : Word) (h : w ∈ (sumQuery n).text false) : w = .kw T.SELECT ∨ w = .kw T.PLUS ∨ w = .int 1 := by
  rw [sumQuery_words] at h
  rcases List.mem_cons.1 h with h | h
  · exact .inl h
  · exact .inr (sum1_mem n w h)

mutual
theorem depth_h (f : Hm) : (v : V) → depth (v.h f) = depth v
  | .str _ _ => rfl
  | .vec _ vs => by rw [V.h, depth, depth, depthL_h f vs]
  | .obj _ _ vs => by rw [V.h, depth, depth, depthL_h f vs]
  | .tup vs => by rw [V.h, depth, depth, depthL_h f vs]
  | .undef => rfl
  | .null => rfl
  | .int _ => rfl
  | .pos _ => rfl
  | .idx _ => rfl
  | .raw _ => rfl
theorem depthL_h (f : Hm) : (vs : List V) → depthL (hL f vs) = depthL vs
  | [] => rfl
  | v :: vs => by rw [hL, depthL, depthL, depth_h f v, depthL_h f vs]
end

theorem depth_mem {v : V} : ∀ {vs : List V}, v ∈ vs → depth v ≤ depthL vs
  | w :: ws, h => by
    rw [depthL]
    rcases List.mem_cons.1 h with rfl | h
    · omega
    · have := depth_mem h; omega

theorem sum1_depth : ∀ n, n ≤ depth (sum1 n).r.v.fill
  | 0 => Nat.zero_le _
  | n + 1 => by
    have ih := sum1_depth n
    have e : ∃ a ys, (sum1 (n + 1)).r.v.fill = .obj 0 .Expr (a :: (sum1 n).r.v.fill :: ys) := ⟨_, _, rfl⟩
    obtain ⟨a, ys, e⟩ := e
    rw [e, depth]
    have := depth_mem (v := (sum1 n).r.v.fill) (vs := a :: (sum1 n).r.v.fill :: ys) (by simp)
    omega

theorem item_depth (n : Nat) : ∀ i, (sumQuery n).items = [i] → n ≤ depth (i.v (.pos 0)).fill := by
  intro i hi
  have e : i = .stmt (.query (.plain .none (.plain (.mk none false (.one (sum1 n) .none) .none .none .none) .none .none .none))) .none := by
    simp only [sumQuery, Script.items, List.cons.injEq] at hi; exact hi.1.symm
  subst e
  obtain ⟨a, b, c, d, f, gs, e⟩ : ∃ a b c d f gs, (Item.v (.pos 0) (.stmt (.query (.plain .none (.plain (.mk none false (.one (sum1 n) .none) .none .none .none) .none .none .none))) .none)).fill =
    .obj 0 .SelectStatement (a :: b :: c :: d :: f :: .vec 0 [(sum1 n).r.v.fill] :: gs) := ⟨_, _, _, _, _, _, rfl⟩
  rw [e, depth]
  have h1 := depth_mem (v := .vec 0 [(sum1 n).r.v.fill]) (vs := a :: b :: c :: d :: f :: .vec 0 [(sum1 n).r.v.fill] :: gs) (by simp)
  have h2 := sum1_depth n
  have h3 : depth (.vec 0 [(sum1 n).r.v.fill]) = max (depth (sum1 n).r.v.fill) 0 + 1 := rfl
  rw [h3] at h1
  omega

theorem numbered_light : ∀ {ws : List Word}, (∀ w ∈ ws, ∀ k, w ≠ .par k) → ∀ k, Numbered k ws
  | [], _, _ => trivial
  | .par i :: ws, h, k => absurd rfl (h _ (List.mem_cons_self ..) i)
  | .kw _ :: ws, h, k => numbered_light (fun w hw => h w (List.mem_cons_of_mem _ hw)) k
  | .id _ :: ws, h, k => numbered_light (fun w hw => h w (List.mem_cons_of_mem _ hw)) k
  | .str _ :: ws, h, k => numbered_light (fun w hw => h w (List.mem_cons_of_mem _ hw)) k
  | .int _ :: ws, h, k => numbered_light (fun w hw => h w (List.mem_cons_of_mem _ hw)) k
  | .flt _ :: ws, h, k => numbered_light (fun w hw => h w (List.mem_cons_of_mem _ hw)) k

section
variable {A : Alloc} (hA : Distinct A) {fpr : Int} (hf : FprOK fpr) (buf : Bytes) (l c : Int)
include hA hf

/-- C47, C46. `SELECT 1 + 1 + … + 1` is accepted, however long it is; its AST is as deep as it is long. -/
theorem C46_depth_unbounded (n : Nat) : ∃ o, parse A fpr buf ((render ((sumQuery n).text false)).map UInt8.ofNat) (newResult l c) = some o ∧ o.res.isValid = true ∧ n ≤ depthL o.res.stmts := by
  have hm := sumQuery_mem n
  have hw : ∀ w ∈ (sumQuery n).text false, w.Ok := by
    intro w h
    rcases hm w h with rfl | rfl | rfl
    · trivial
    · trivial
    · exact ⟨by decide, by decide⟩
  have hn : Numbered 0 ((sumQuery n).text false) := numbered_light (by intro w h k; rcases hm w h with rfl | rfl | rfl <;> simp) 0
  have hs : Shallow (((sumQuery n).text false).map Word.sym) := by
    refine shallow_light ?_
    intro a ha
    obtain ⟨w, h, rfl⟩ := List.mem_map.1 ha
    rcases hm w h with rfl | rfl | rfl <;> decide
  obtain ⟨o, h1, h2, h3⟩ := C47_round_trip hA hf buf _ l c (sumQuery n) false (by
    rw [cText_ofNat (render_bytes hw ((sumQuery n).text_kn false))]
    exact render_text hw ((sumQuery n).text_kn false)) hn hs
  refine ⟨o, h1, h2, ?_⟩
  rw [← depthL_h E0]
  show n ≤ depthL (astL o.res.stmts)
  rw [h3]
  have := item_depth n _ rfl
  show n ≤ max _ _
  exact Nat.le_trans this (Nat.le_max_left _ _)
end

/-! ### Examples -/

/-- `Shallow`, computed. -/
def shallowB : List Level → List Nat → Bool
  | ls, [] => decide (total ls ≤ 144)
  | ls, a :: as => decide (total ls ≤ 144) && bif Nat.beq a T.SEMI then shallowB [⟨0, 0⟩] as else shallowB (enter ls a) as

theorem shallowB_here : ∀ {as : List Nat} {ls : List Level}, shallowB ls as = true → ∀ q r, as = q ++ r → T.SEMI ∉ q → total (q.foldl enter ls) ≤ 144
  | [], ls, h, q, r, e, _ => by
    have : q = [] := by cases q with | nil => rfl | cons _ _ => cases e
    subst this
    simpa [shallowB] using h
  | a :: as, ls, h, [], r, e, _ => by
    simp only [shallowB, Bool.and_eq_true, decide_eq_true_eq] at h
    exact h.1
  | a :: as, ls, h, b :: q, r, e, hq => by
    simp only [List.cons_append, List.cons.injEq] at e
    obtain ⟨rfl, e⟩ := e
    simp only [List.mem_cons, not_or] at hq
    simp only [shallowB, Bool.and_eq_true] at h
    have hb : Nat.beq a T.SEMI = false := by rw [← Bool.not_eq_true, Nat.beq_eq]; exact fun e => hq.1 e.symm
    rw [hb] at h
    exact shallowB_here h.2 q r e hq.2
theorem shallowB_after : ∀ {as : List Nat} {ls : List Level}, shallowB ls as = true → ∀ p r, as = p ++ T.SEMI :: r → shallowB [⟨0, 0⟩] r = true
  | [], _, _, p, r, e => by cases p <;> cases e
  | a :: as, ls, h, [], r, e => by
    simp only [List.nil_append, List.cons.injEq] at e
    obtain ⟨rfl, rfl⟩ := e
    simp only [shallowB, Bool.and_eq_true] at h
    exact h.2
  | a :: as, ls, h, b :: p, r, e => by
    simp only [List.cons_append, List.cons.injEq] at e
    obtain ⟨rfl, e⟩ := e
    simp only [shallowB, Bool.and_eq_true] at h
    have h := h.2
    cases hb : Nat.beq a T.SEMI with
    | true => rw [hb] at h; exact shallowB_after h p r e
    | false => rw [hb] at h; exact shallowB_after h p r e
theorem shallow_of {as : List Nat} (h : shallowB [⟨0, 0⟩] as = true) : Shallow as := by
  intro p q r e hp hq
  rcases hp with rfl | hp
  · exact shallowB_here h q r (by simpa using e) hq
  · obtain ⟨p', rfl⟩ : ∃ p', p = p' ++ [T.SEMI] := by
      have hne : p ≠ [] := by rintro rfl; cases hp
      refine ⟨p.dropLast, ?_⟩
      rw [List.getLast?_eq_some_getLast hne] at hp
      injection hp with hp
      rw [← hp]; exact (List.dropLast_concat_getLast hne).symm
    exact shallowB_here (shallowB_after h p' (q ++ r) (by rw [e]; simp)) q r rfl hq

/-- The script `demo` of C23 is shallow; so is `SELECT a FROM t JOIN u ON NOT a = -1 AND NOT b = -1 WHERE x IN (SELECT CASE WHEN NOT a THEN f((-b)) ELSE -1 END FROM t)`, with four brackets open at once. -/
example : Shallow ((demo.text true).map Word.sym) := shallow_of (by decide +kernel)
example : Shallow [T.SELECT, 3, T.FROM, 3, T.JOIN, 3, T.ON, T.NOT, 3, T.EQ, T.HYPHEN, 6, T.AND, T.NOT, 3, T.EQ, T.HYPHEN, 6, T.WHERE, 3, T.IN, T.LPAREN, T.SELECT, T.CASE, T.WHEN, T.NOT, 3, T.THEN,
  3, T.LPAREN, T.LPAREN, T.HYPHEN, 3, T.RPAREN, T.RPAREN, T.ELSE, T.HYPHEN, 6, T.END, T.FROM, 3, T.RPAREN] := shallow_of (by decide +kernel)

/-- C47 needs the bound: this `SELECT` has 6 brackets open and exhausts the stack. -/
theorem C47_six_brackets : (run0 (b!"CREATE VIEW v AS SELECT a FROM t WHERE b GROUP BY a, b OR c AND d BETWEEN e AND f LIKE g < h + i * j ^ k || " ++
    (List.replicate 6 b!"(SELECT a FROM t WHERE b GROUP BY a, b OR c AND d BETWEEN e AND f LIKE g < h + i * j ^ k || ").flatten)).map (fun o => message o.res) = some (some b!"memory exhausted") :=
  parse_of_eval (f := 3000) (q := Option.map fun (o : ParseOut) => message o.res) (by decide +kernel)

end Verif.Props

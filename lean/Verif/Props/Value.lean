import Verif.Props.Result
import Verif.Sem.DenAt
/-!
# The statements of a result are the value of the derivation

`denInput t` (`Verif.Sem.Denote`) is the list of statements that the derivation `t` stands for.  `astL` forgets what a reader of the
statements does not see: addresses, and numbers computed from the scanner position (`stringLength`).
-/
namespace Verif.Props
open Verif.Lex Verif.LR Verif.Sem Verif.Api

/-- The statements, without addresses and positions. -/
def astL (vs : List V) : List V := hL E0 vs

section
variable {A : Alloc} (hA : Distinct A) {fpr : Int} (hf : FprOK fpr) (buf : Bytes) (sql : List UInt8) (l c : Int)
include hA hf

/-- A text is accepted iff its tokens have a derivation that fits the stack and whose semantic actions succeed; -/
theorem parse_valid_iff : (∃ o, parse A fpr buf sql (newResult l c) = some o ∧ o.res.isValid = true) ↔
    ∃ t, Derives (sentence (tokensOf fpr sql)) t ∧ t.need + 1 < 200 ∧ denInput t ≠ none := by
  obtain ⟨e, junk, hin, hE⟩ := parse_ends (sql := sql) (ok := fun _ => True) hf (hA.ok (l := l) (c := c)) newResult_ok
  constructor
  · rintro ⟨o, h, hv⟩
    obtain ⟨ret, st, hp, rfl⟩ := parse_some h
    have h0 : ret = 0 := by simpa using hv
    subst h0
    rw [hp] at hE
    obtain ⟨t, h1, h2, h3, _⟩ := accept_den hA.ok (tokensOf_shape hf sql).1 rfl rfl rfl hE
    exact ⟨t, h1, h2, by rw [h3]; simp⟩
  · rintro ⟨t, h1, h2, h3⟩
    obtain ⟨st, hp⟩ := accept_iff hin (hA.ok (l := l) (c := c)) (tokensOf_shape hf sql).1 rfl rfl rfl h1 h2 h3
    refine ⟨_, by rw [parse_eq, hp]; rfl, by simp⟩

/-- and then its statements are the value of that derivation. -/
theorem parse_value (o : ParseOut) (h : parse A fpr buf sql (newResult l c) = some o) (hv : o.res.isValid = true)
    {t : Tree} (ht : Derives (sentence (tokensOf fpr sql)) t) : denInput t = some (astL o.res.stmts) := by
  obtain ⟨e, junk, hin, hE⟩ := parse_ends (sql := sql) (ok := fun _ => True) hf (hA.ok (l := l) (c := c)) newResult_ok
  obtain ⟨ret, st, hp, rfl⟩ := parse_some h
  have h0 : ret = 0 := by simpa using hv
  subst h0
  rw [hp] at hE
  obtain ⟨t', h1, h2, h3, _⟩ := accept_den hA.ok (tokensOf_shape hf sql).1 rfl rfl rfl hE
  rw [derives_unique ht h1]
  exact h3

/-- The number of parameters. -/
theorem parse_den (o : ParseOut) (h : parse A fpr buf sql (newResult l c) = some o) (hv : o.res.isValid = true)
    {t : Tree} (ht : Derives (sentence (tokensOf fpr sql)) t) : den t ⟨0, false⟩ = some (.undef, ⟨o.res.params.length, false⟩) := by
  obtain ⟨e, junk, hin, hE⟩ := parse_ends (sql := sql) (ok := fun _ => True) hf (hA.ok (l := l) (c := c)) newResult_ok
  have h16 := (C16_valid_iff_no_error hA hf buf sql l c o h).1.1 hv
  obtain ⟨ret, st, hp, rfl⟩ := parse_some h
  have h0 : ret = 0 := by simpa using hv
  subst h0
  rw [hp] at hE
  obtain ⟨t', h1, h2, h3, h4⟩ := accept_den hA.ok (tokensOf_shape hf sql).1 rfl rfl rfl hE
  rw [derives_unique ht h1, h4]
  have : st.res.errMsg = none := by simpa [message] using h16
  rw [this]
  rfl

/-- C17. A valid result contains exactly the statements of the input, in order. Let `t` be the derivation of the tokens of the text (there is
exactly one: C11, C13). It splits the tokens into the statements `stmtsOf t`, separated by `;`, with or without a `;` at the end; there is at
least one; the result has as many statements, and the i-th is the value of the i-th derivation (with `stringLength` set, and the parameters
numbered). -/
theorem C17_statements_in_order (o : ParseOut) (h : parse A fpr buf sql (newResult l c) = some o) (hv : o.res.isValid = true)
    (t : Tree) (ht : Derives (sentence (tokensOf fpr sql)) t) :
    (∃ ts, Joined (stmtsOf t) ts ∧ (sentence (tokensOf fpr sql) = ts ∨ ∃ m, tsym m = T.SEMI ∧ sentence (tokensOf fpr sql) = ts ++ [m])) ∧
    stmtsOf t ≠ [] ∧ size o.res = (stmtsOf t).length ∧
    ∃ vs e, denAtL 0 (stmtsOf t) false = some (vs, e) ∧ astL o.res.stmts = vs.map fun v => (setLen v).fill := by
  have hval := parse_value hA hf buf sql l c o h hv ht
  obtain ⟨hw, hs, hy, _⟩ := ht
  rw [denInput_eq hw hs] at hval
  obtain ⟨ls, s, rfl, h1, h2, h3, h4⟩ := input_cases hw hs
  obtain ⟨w1, w2, w3⟩ := stmtTrees_wf ls h1 h2
  refine ⟨⟨ls.yield, joined_list ls h1 h2, ?_⟩, w3, ?_⟩
  · rw [← hy]
    rcases optSemi_cases h3 h4 with ⟨m, hm, rfl⟩ | rfl
    · right; exact ⟨m, hm, by simp [Tree.yield, yieldL]⟩
    · left; simp [Tree.yield, yieldL]
  · have hq : T.QMARK ∉ (stmtTrees ls).map Tree.sym := by
      intro hm
      obtain ⟨x, hx, hx'⟩ := List.mem_map.1 hm
      rw [w2 x hx] at hx'
      exact absurd hx' (by decide)
    rw [stmtsOf, denL_denAt w1 hq] at hval
    cases hd : denAtL 0 (stmtTrees ls) false with
    | none => rw [hd] at hval; cases hval
    | some x =>
      obtain ⟨vs, e⟩ := x
      have hlen : vs.length = (stmtTrees ls).length := by
        have := denL_denAt w1 hq 0 false
        rw [hd] at this
        exact denL_len this
      rw [hd] at hval
      simp only [Option.map_some] at hval
      split at hval
      · simp only [Option.some.injEq] at hval
        rw [fillL_map, List.map_map] at hval
        refine ⟨?_, vs, e, hd, hval.symm⟩
        have := congrArg List.length hval
        simp only [List.length_map, astL, hL_map] at this
        rw [size, stmtsOf, ← hlen, this]
      · cases hval

/-- The expression a `?` stands for: a parameter expression with id `k`. -/
def paramExpr (k : Nat) : V := .obj 0 .Expr [.int ExprType.kExprParameter, .null, .null, .null, .null, .null, .null, .null, .null, .int 0, .int k, .idx k,
  .int DatetimeField.kDatetimeNone, .tup [.int 0, .int 0, .int 0, .int 0], .int 0, .int OperatorType.kOpNone, .int 0, .null]

/-- C18. After a valid parse: there are as many parameters as `?` tokens; `parameters()` lists the parameter expressions of the statements,
each exactly once; the i-th (from 0) has the id i; and the parameter expression made from a `?` token has as its id the number of `?` tokens to the
left of it in the text (the values of derivations `denAt k`, that the statements are by C17, hand down this number `k`). -/
theorem C18_parameters_in_source_order (o : ParseOut) (h : parse A fpr buf sql (newResult l c) = some o) (hv : o.res.isValid = true) :
    o.res.params.length = qmarks (sentence (tokensOf fpr sql)) ∧
    o.res.params.Nodup ∧ (keyed 0 o.res.params).Perm (parsL o.res.stmts) ∧
    (∀ (i : Nat) (a : Nat), o.res.params[i]? = some a → ivalAtL a o.res.stmts = some (.int i)) ∧
    ∀ (k : Nat) (q : Tok) (e : Bool), (denAt k (.node 298 [.leaf q]) e).map (fun x => x.1.fill) = some (paramExpr k) := by
  obtain ⟨t, ht, _⟩ := C11_valid_is_grammatical hA hf buf sql l c o h hv
  have hd := parse_den hA hf buf sql l c o h hv ht
  refine ⟨?_, (C18_parameters_numbered_partial hA hf buf sql l c o h).1, (C18_parameters_numbered_partial hA hf buf sql l c o h).2.1,
    (C18_parameters_numbered_partial hA hf buf sql l c o h).2.2, ?_⟩
  · rw [den_denAt ht.1 (by rw [ht.2.1]; decide)] at hd
    cases hx : denAt 0 t false with
    | none => rw [hx] at hd; cases hd
    | some x =>
      rw [hx] at hd
      simp only [Option.map_some, Option.some.injEq, Prod.mk.injEq, PS.mk.injEq, Nat.zero_add] at hd
      rw [← hd.2.1, ht.2.2.1]
  · intro k q e
    simp only [denAt, denAtL, evRule298]
    rfl

end
end Verif.Props

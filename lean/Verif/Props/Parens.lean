import Verif.Props.Compose
import Verif.Sem.Parens
/-!
# C54: redundant parentheses change nothing

`Within t x u z` (`Verif.Sem.Parens`): in the derivation `t` the part `u` occurs, with the tokens `x` before it and `z` after it.  By C11 and C13 a valid
text has exactly one derivation; its parts with the symbol `expr` or `operand` are the operands as the declared precedences group them.
-/
namespace Verif.Props
open Verif.Lex Verif.LR Verif.Sem Verif.Api

/-- C54. Let `t` be the derivation of a valid text, and `u` any of its expressions, with the tokens `x` before it and `z` after it. A text with the same
tokens, but a `(` (code 40) before `u` and a `)` (code 41) after it, is valid too (if there is room for two more entries on the parser stack), and it has the same
statements and as many parameters. -/
theorem C54_parentheses_change_nothing {A A' : Alloc} (hA : Distinct A) (hA' : Distinct A') {fpr : Int} (hf : FprOK fpr) (buf buf' : Bytes) (sql sql' : List UInt8)
    (l c l' c' : Int) {out : ParseOut} (h : parse A fpr buf sql (newResult l c) = some out) (hv : out.res.isValid = true)
    {t : Tree} (ht : Derives (sentence (tokensOf fpr sql)) t) (hroom : t.need + 3 < 200)
    {x z : List Tok} {u : Tree} (hu : Within t x u z) (hs : u.sym = N.operand ∨ u.sym = N.expr)
    (hcode : (sentence (tokensOf fpr sql')).map Tok.code = x.map Tok.code ++ 40 :: (u.yield.map Tok.code ++ 41 :: z.map Tok.code))
    (hval : (sentence (tokensOf fpr sql')).map Tok.val = x.map Tok.val ++ .none :: (u.yield.map Tok.val ++ .none :: z.map Tok.val)) :
    ∃ out', parse A' fpr buf' sql' (newResult l' c') = some out' ∧ out'.res.isValid = true ∧ astL out'.res.stmts = astL out.res.stmts ∧
      out'.res.params.length = out.res.params.length := by
  have d1 := parse_value hA hf buf sql l c out h hv ht
  obtain ⟨hw, hsym, hy, hp⟩ := ht
  have hshape : ∀ m ∈ t.yield, TokShape m := by
    rw [hy]
    exact fun m hm => (tokensOf_shape hf sql).1 m ((List.takeWhile_prefix _).subset hm)
  have ho : tsym ⟨40, .none, []⟩ = T.LPAREN := by decide
  have hc : tsym ⟨41, .none, []⟩ = T.RPAREN := by decide
  obtain ⟨t1, w1, w2, w3, w4, w5, w6, w7, _⟩ := within_paren ho hc hu hs _ hw hp hshape
  have ht1 : Derives (x ++ ⟨40, .none, []⟩ :: (u.yield ++ ⟨41, .none, []⟩ :: z)) t1 := ⟨w1, by rw [w2, hsym], w4, w3⟩
  have hmap : (x ++ ⟨40, .none, []⟩ :: (u.yield ++ ⟨41, .none, []⟩ :: z)).map cvTok = (sentence (tokensOf fpr sql')).map cvTok := by
    refine map_of_cv (p := id) (fun _ => rfl) ?_ ?_
    · rw [hcode]; simp only [List.map_append, List.map_cons]
    · simp only [id]; rw [hval]; simp only [List.map_append, List.map_cons]
  obtain ⟨t2, ht2, hn, hd⟩ := derives_map (strHom_id 0) rfl (g := cvTok) cvTok_val (fun _ => rfl) hmap ht1
  rw [w7 hsym, d1] at hd
  have hne : denInput t2 ≠ none := by
    intro e; rw [e] at hd; cases hd
  obtain ⟨out', h', hv'⟩ := (parse_valid_iff hA' hf buf' sql' l' c').2 ⟨t2, ht2, by omega, hne⟩
  have d2 := parse_value hA' hf buf' sql' l' c' out' h' hv' ht2
  refine ⟨out', h', hv', ?_, ?_⟩
  · rw [d2] at hd
    simp only [Option.map_some, Option.some.injEq, astL, hL_E0_h] at hd
    exact hd
  · rw [(C18_parameters_in_source_order hA hf buf sql l c out h hv).1, (C18_parameters_in_source_order hA' hf buf' sql' l' c' out' h' hv').1]
    have e := congrArg (List.countP fun t => decide (tsym t = T.QMARK)) hmap
    have hid : ∀ m, tsym (cvTok m) = tsym m := fun _ => rfl
    simp only [List.countP_map, Function.comp_def, hid] at e
    rw [qmarks, ← e, qmarks, ← hy, hu.yield]
    have q1 : tsym ⟨40, .none, []⟩ ≠ T.QMARK := by decide
    have q2 : tsym ⟨41, .none, []⟩ ≠ T.QMARK := by decide
    simp [List.countP_append, q1, q2]

/-! ## Concrete cases -/

/-- The tokens of a text, by evaluation. -/
def tokE (f : Nat) (sql : List UInt8) : Option (List Tok) := (lexE 64 f (lexInit [] (cText sql)) []).map (·.1)
theorem tokE_eq {f : Nat} {sql : List UInt8} {ts : List Tok} (h : tokE f sql = some ts) : tokensOf 64 sql = ts := by
  unfold tokE at h
  cases hl : lexE 64 f (lexInit [] (cText sql)) [] with
  | none => rw [hl] at h; cases h
  | some y =>
    rw [hl] at h
    simp only [Option.map_some, Option.some.injEq] at h
    unfold tokensOf
    rw [lexAll_of_lexE (st := lexInit [] (cText sql)) (cText_clean _) hl, ← h]

/-- Whether the derivation of the tokens `ts` has an expression that, in parentheses, makes `ts` into `ts'`. -/
noncomputable def parenTest (n : Nat) (ts ts' : List Tok) : Bool :=
  match feval n [] (ts ++ [⟨0, .none, []⟩]) with
  | none => false
  | some t => (ts.all fun t => tsym t != 0) && decide (t.need + 3 < 200) && (parts t).any fun p => (p.2.1.sym == N.operand || p.2.1.sym == N.expr) &&
      ts'.map Tok.code == p.1.map Tok.code ++ 40 :: (p.2.1.yield.map Tok.code ++ 41 :: p.2.2.map Tok.code) &&
      ts'.map Tok.val == p.1.map Tok.val ++ TokVal.none :: (p.2.1.yield.map Tok.val ++ TokVal.none :: p.2.2.map Tok.val)

/-- The hypotheses of C54 (but validity) about two texts. -/
def OnlyParens (sql sql' : List UInt8) : Prop := ∃ t x u z, Derives (sentence (tokensOf 64 sql)) t ∧ t.need + 3 < 200 ∧ Within t x u z ∧ (u.sym = N.operand ∨ u.sym = N.expr) ∧
  (sentence (tokensOf 64 sql')).map Tok.code = x.map Tok.code ++ 40 :: (u.yield.map Tok.code ++ 41 :: z.map Tok.code) ∧
  (sentence (tokensOf 64 sql')).map Tok.val = x.map Tok.val ++ .none :: (u.yield.map Tok.val ++ .none :: z.map Tok.val)

theorem onlyParens_of {f n : Nat} {sql sql' : List UInt8}
    (h : (match tokE f sql, tokE f sql' with | some a, some b => parenTest n (sentence a) (sentence b) | _, _ => false) = true) : OnlyParens sql sql' := by
  cases h1 : tokE f sql with
  | none => rw [h1] at h; cases h
  | some a =>
    cases h2 : tokE f sql' with
    | none => rw [h1, h2] at h; cases h
    | some b =>
      rw [h1, h2] at h
      simp only [] at h
      unfold parenTest at h
      split at h
      · cases h
      · rename_i t ht
        simp only [Bool.and_eq_true, List.any_eq_true, decide_eq_true_eq, beq_iff_eq, Bool.or_eq_true, List.all_eq_true, bne_iff_ne] at h
        obtain ⟨⟨g1, g2⟩, p, hp, ⟨g3, g4⟩, g5⟩ := h
        refine ⟨t, p.1, p.2.1, p.2.2, ?_, g2, within_parts t p hp, g3, ?_, ?_⟩
        · rw [tokE_eq h1]; exact (derives_of_feval n g1 ht).1
        · rw [tokE_eq h2]; exact g4
        · rw [tokE_eq h2]; exact g5

/-- `b * c` is an operand of `+` by precedence, `a - b` one of the second `-` by associativity, and parentheses can be repeated: -/
example : OnlyParens (txt b!"SELECT a + b * c FROM t") (txt b!"SELECT a + (b * c) FROM t") := onlyParens_of (f := 60) (n := 200) (by decide +kernel)
example : OnlyParens (txt b!"SELECT a - b - 1 FROM t") (txt b!"SELECT (a-b) - 1 FROM t") := onlyParens_of (f := 60) (n := 200) (by decide +kernel)
example : OnlyParens (txt b!"SELECT (a) FROM t") (txt b!"SELECT ((a)) FROM t") := onlyParens_of (f := 60) (n := 200) (by decide +kernel)
example : OnlyParens (txt b!"DELETE FROM t WHERE a = ? AND b OR c") (txt b!"DELETE FROM t WHERE (a = ? AND b) OR c") := onlyParens_of (f := 60) (n := 200) (by decide +kernel)
mutual
/-- The names in a value, from left to right, with brackets for the objects. -/
def outline : V → List Bytes
  | .obj _ _ fs => b!"[" :: outlineL fs ++ [b!"]"]
  | .vec _ vs => outlineL vs
  | .tup fs => outlineL fs
  | .str _ b => [b]
  | _ => []
def outlineL : List V → List Bytes
  | [] => []
  | v :: vs => outline v ++ outlineL vs
end

/-- But `b - c` is not an expression of `a - b - c`, and with parentheses around it the text means something else: -/
example : (run0 b!"SELECT a - b - c").map (fun o => (o.res.isValid, outlineL o.res.stmts)) = some (true, [b!"[", b!"[", b!"[", b!"[", b!"a", b!"]", b!"[", b!"b", b!"]", b!"]", b!"[", b!"c", b!"]", b!"]", b!"]"]) ∧
    (run0 b!"SELECT (a - b) - c").map (fun o => (o.res.isValid, outlineL o.res.stmts)) = some (true, [b!"[", b!"[", b!"[", b!"[", b!"a", b!"]", b!"[", b!"b", b!"]", b!"]", b!"[", b!"c", b!"]", b!"]", b!"]"]) ∧
    (run0 b!"SELECT a - (b - c)").map (fun o => (o.res.isValid, outlineL o.res.stmts)) = some (true, [b!"[", b!"[", b!"[", b!"a", b!"]", b!"[", b!"[", b!"b", b!"]", b!"[", b!"c", b!"]", b!"]", b!"]", b!"]"]) :=
  ⟨parse_of_eval (f := 40) (q := Option.map fun (o : ParseOut) => (o.res.isValid, outlineL o.res.stmts)) (by decide +kernel),
   parse_of_eval (f := 40) (q := Option.map fun (o : ParseOut) => (o.res.isValid, outlineL o.res.stmts)) (by decide +kernel),
   parse_of_eval (f := 40) (q := Option.map fun (o : ParseOut) => (o.res.isValid, outlineL o.res.stmts)) (by decide +kernel)⟩

end Verif.Props

import Verif.Sem.Reads
import Verif.Props.Compose
import Verif.Props.ResultEx
/-!
# C48: a syntax error is final

Nothing after the offending token has any influence on what a rejected text gives.
-/
namespace Verif.Props
open Verif.Lex Verif.LR Verif.Sem Verif.Api

/-- A text has an end. -/
theorem input_tokens {fpr : Int} (hf : FprOK fpr) (sql : List UInt8) : ∃ e junk, Input (tokensOf fpr sql) (sentence (tokensOf fpr sql)) e junk :=
  input_of (tokensOf_shape hf sql).2

theorem hsql_of_parse {A : Alloc} {fpr : Int} {buf : Bytes} {sql : List UInt8} {r : Res} {o : ParseOut} (h : parse A fpr buf sql r = some o) :
    ∃ q, hsqlParse A (tokensOf fpr sql) r = some q ∧ o = ⟨{ q.2.res with isValid := decide (q.1 = 0) }, q.2.freed, q.2.leaked⟩ := by
  rw [parse_eq] at h
  obtain ⟨q, h1, h2⟩ := Option.map_eq_some_iff.1 h
  exact ⟨q, h1, h2.symm⟩

theorem parse_of_hsql {A : Alloc} {fpr : Int} {buf : Bytes} {sql : List UInt8} {r : Res} {q : Int × Sem.St} (h : hsqlParse A (tokensOf fpr sql) r = some q) :
    parse A fpr buf sql r = some ⟨{ q.2.res with isValid := decide (q.1 = 0) }, q.2.freed, q.2.leaked⟩ := by
  rw [parse_eq, h]; rfl

section
variable {A : Alloc} {fpr : Int} (hf : FprOK fpr) (buf : Bytes) (sql : List UInt8) (l c : Int)
include hf

/-- C48. Let a text be rejected with a syntax error, `t` being the first offending token (the tokens before it begin a sentence of the grammar,
the precedences respected; with `t` they do not). Then every text whose tokens begin with the same ones, up to and including `t`, gives exactly the same:
the same message and position, the same statements left in the result, the same memory freed and lost. -/
theorem C48_error_is_final (o : ParseOut) (h : parse A fpr buf sql (newResult l c) = some o) (m : Bytes) (hm : message o.res = some m)
    (hsy : b!"syntax error, " <+: m) :
    ∃ pre t rest, tokensOf fpr sql = pre ++ t :: rest ∧ pre <+: sentence (tokensOf fpr sql) ∧
      (∀ ts' T', Derives ts' T' → ¬ (pre ++ [t]).map tsym <+: ts'.map tsym ++ [Verif.LR.T.eof]) ∧
      (∃ T : Tree, Derives T.yield T ∧ pre <+: T.yield) ∧
      (∃ s, m = syntaxMsg s (tsym t)) ∧
      ∀ buf' sql', pre ++ [t] <+: tokensOf fpr sql' → parse A fpr buf' sql' (newResult l c) = some o := by
  obtain ⟨q, h1, h2⟩ := hsql_of_parse h
  obtain ⟨e, junk, hin⟩ := input_tokens hf sql
  obtain ⟨P, R, g1, g2, g3⟩ := run_reads hin h1
  have hm' : q.2.res.errMsg.map Prod.snd = some m := by rw [h2] at hm; exact hm
  rcases g3 rfl m hm' with (rfl | hk) | ⟨pre, t, rfl, k0, k1, k2, k3⟩
  · rcases hsy with ⟨w, hw⟩; cases hw
  · exact absurd hsy (kinds hk).2
  · refine ⟨pre, t, R, by rw [g1]; simp, k0, k1, k2, k3, fun buf' sql' hp => ?_⟩
    obtain ⟨e', junk', hin'⟩ := input_tokens hf sql'
    rw [parse_of_hsql (g2 _ _ _ _ hin' hp), h2]

/-- C48, for texts. If a text without NUL that is scanned to its end is rejected with a syntax error, other than one at the end of input, then
whatever follows it after a semicolon, the outcome is the same. -/
theorem C48_rest_is_ignored (ts : List Tok) (hT : ScannedTo fpr sql ts) (h0 : (0 : UInt8) ∉ sql)
    (o : ParseOut) (h : parse A fpr buf sql (newResult l c) = some o) (m : Bytes) (hm : message o.res = some m)
    (hsy : b!"syntax error, " <+: m) (hne : ¬ b!"syntax error, unexpected $end" <+: m) (b : List UInt8) :
    parse A fpr buf (sql ++ 59 :: b) (newResult l c) = some o := by
  obtain ⟨pre, t, rest, h1, h2, _, _, ⟨s, h3⟩, h4⟩ := C48_error_is_final hf buf sql l c o h m hm hsy
  refine h4 buf _ ?_
  obtain ⟨m', _, hj⟩ := joined_tokens (b := b) hT h0
  rw [hj]
  -- `t` is not the end of input
  have ht0 : tsym t ≠ 0 := by
    intro ht
    apply hne
    rw [h3, ht]
    unfold syntaxMsg
    have : symName 0 = b!"$end" := by decide
    rw [this]
    exact ⟨_, rfl⟩
  obtain ⟨e, junk, hin⟩ := input_tokens hf sql
  have hs := scanned_tokens hT
  rw [hs] at hin h2
  have hle : pre ++ [t] <+: ts := by
    obtain ⟨w, hw⟩ := h2
    have he := hin.eq
    rw [h1, ← hw, List.append_assoc] at he
    have he := List.append_cancel_left he
    cases w with
    | nil =>
      rw [List.nil_append] at he
      injection he with he _
      exact absurd (by rw [he]; exact hin.eof) ht0
    | cons w0 w =>
      rw [List.cons_append] at he
      injection he with he _
      exact ⟨w, by rw [← hw, he]; simp⟩
  exact hle.trans (List.prefix_append _ _)

end

/-- Concretely: the text `SELECT a FROM WHERE x` is scanned to its end, and rejected at `WHERE`. -/
example : ScannedTo 64 (txt b!"SELECT a FROM WHERE x")
    [⟨313, .none, [b!"SELECT"]⟩, ⟨258, .sval b!"a", [b!" ", b!"a"]⟩, ⟨349, .none, [b!" ", b!"FROM"]⟩, ⟨338, .none, [b!" ", b!"WHERE"]⟩, ⟨258, .sval b!"x", [b!" ", b!"x"]⟩] :=
  ⟨⟨5, [], [], by decide +kernel, by decide⟩, by decide +kernel⟩
example : (run0 b!"SELECT a FROM WHERE x").map view = some ⟨false, 0, some b!"syntax error, unexpected WHERE, expecting IDENTIFIER or '('", 0, 14⟩ :=
  parse_of_eval (f := 20) (q := Option.map view) (by decide +kernel)
/-- With more after it the outcome is the same, even a statement that is correct, or an unterminated literal. -/
example : (run0 b!"SELECT a FROM WHERE x;SELECT 1; 'junk").map view = some ⟨false, 0, some b!"syntax error, unexpected WHERE, expecting IDENTIFIER or '('", 0, 14⟩ :=
  parse_of_eval (f := 20) (q := Option.map view) (by decide +kernel)
/-- An error at the end of input is not final: `SELECT a FROM` is rejected, `SELECT a FROM t` is not. -/
theorem C48_end_of_input : (run0 b!"SELECT a FROM").map view = some ⟨false, 0, some b!"syntax error, unexpected $end, expecting IDENTIFIER or '('", 0, 9⟩ ∧
    (run0 b!"SELECT a FROM t").map view = some ⟨true, 1, none, 0, 0⟩ :=
  ⟨parse_of_eval (f := 20) (q := Option.map view) (by decide +kernel), parse_of_eval (f := 40) (q := Option.map view) (by decide +kernel)⟩

end Verif.Props

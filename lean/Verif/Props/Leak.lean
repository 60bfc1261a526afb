import Verif.Props.ResultEx
import Verif.Sem.LeakCount
/-!
# C67: which texts make a parse leak

`ParseOut.leaked` lists the addresses of the blocks `hsql::SQLParser::parse` allocated and neither freed nor handed to the result (C44, C45).
-/
namespace Verif.Props
open Verif.Lex Verif.LR Verif.Sem Verif.Api

/-- The token codes of `[`, INDEX, TABLE, SET, FOR and WITH (bison_parser.h:61-250). -/
def leakCodes : List Int := [91, 325, 335, 378, 374, 368]

theorem leak_codes_check : ((List.range 437).all fun c => !leakMarks.words.contains (tokSym (c : Int)) || leakCodes.contains (c : Int)) = true := by decide +kernel

theorem leak_code {c : Int} (h : leakMarks.words.contains (tokSym c) = true) : c ∈ leakCodes := by
  by_cases h0 : c ≤ 0
  · unfold tokSym at h
    rw [if_pos h0] at h
    exact absurd h (by decide)
  by_cases h1 : c ≤ YYMAXUTOK
  · have hm : YYMAXUTOK = 436 := rfl
    rw [hm] at h1
    have := List.all_eq_true.1 leak_codes_check c.toNat (List.mem_range.2 (by omega))
    rw [show ((c.toNat : Nat) : Int) = c by omega, h] at this
    simpa using this
  · unfold tokSym at h
    rw [if_neg h0, if_neg h1] at h
    exact absurd h (by decide)

/-- C67, first part. A parse into a new result, whether it accepts the text or rejects it, and wherever it stops, leaks nothing
unless one of the tokens `[`, INDEX, TABLE, SET, FOR or WITH is in the text. -/
theorem C67_no_leak {A : Alloc} {fpr : Int} (hf : FprOK fpr) {buf : Bytes} {sql : List UInt8} {l c : Int} {o : ParseOut}
    (h : parse A fpr buf sql (newResult l c) = some o) (hw : ∀ t ∈ tokensOf fpr sql, t.code ∉ leakCodes) : o.leaked = [] := by
  obtain ⟨ret, st, hp, rfl⟩ := parse_some h
  obtain ⟨h1, h2⟩ := tokensOf_shape hf sql
  obtain ⟨e, junk, hin⟩ := input_of h2
  refine no_leak hin h1 rfl ?_ hp
  intro t ht
  cases hc : leakMarks.words.contains (tsym t) with
  | false => rfl
  | true => exact absurd (leak_code hc) (hw t ht)

/-- C67, second part. An accepted text leaks one block for every array index `a[i]`, that is for every `[` but those of ARRAY[…], and one block for every
statement CREATE INDEX … ON s.t (…) whose table name has a schema; nothing else. (`T` is the derivation tree of the text, there is only one.) -/
theorem C67_accepted {A : Alloc} {fpr : Int} (hf : FprOK fpr) {buf : Bytes} {sql : List UInt8} {l c : Int} {o : ParseOut}
    (h : parse A fpr buf sql (newResult l c) = some o) (hv : o.res.isValid = true) :
    ∃ T, Derives (sentence (tokensOf fpr sql)) T ∧ (∀ T', Derives (sentence (tokensOf fpr sql)) T' → T' = T) ∧
      o.leaked.length + countSym Verif.LR.T.ARRAY (sentence (tokensOf fpr sql)) = countSym Verif.LR.T.LBRACKET (sentence (tokensOf fpr sql)) + qualIdx T := by
  obtain ⟨ret, st, hp, rfl⟩ := parse_some h
  have h0 : ret = 0 := by simpa using hv
  subst h0
  obtain ⟨h1, h2⟩ := tokensOf_shape hf sql
  obtain ⟨e, junk, hin⟩ := input_of h2
  obtain ⟨t, ht, hl⟩ := leak_count hin h1 rfl hp
  refine ⟨t, ht, fun T' h' => derives_unique h' ht, ?_⟩
  have hb := brackets ht.1
  rw [ht.2.1, ht.2.2.1] at hb
  have c1 : [N.input].count Verif.LR.T.ARRAY = 0 := by decide
  have c2 : [N.input].count Verif.LR.T.LBRACKET = 0 := by decide
  rw [c1, c2] at hb
  show st.leaked.length + _ = _
  omega

/-- The rules `qualIdx` speaks of. -/
example : rhs 58 = [T.CREATE, T.INDEX, N.opt_not_exists, N.opt_index_name, T.ON, N.table_name, T.LPAREN, N.ident_commalist, T.RPAREN] ∧
    rhs 310 = [T.IDENTIFIER, T.DOT, T.IDENTIFIER] := ⟨rhs58, rhs310⟩

/-- Accepted?, number of blocks leaked. -/
def leakView (o : ParseOut) : Bool × Nat := (o.res.isValid, o.leaked.length)

/-! A rejected date, a rejected interval, a syntax error deep inside a statement leak nothing. -/
example : (run0 b!"SELECT DATE 'tomorrow'").map leakView = some (false, 0) := parse_of_eval (f := 30) (q := Option.map leakView) (by decide +kernel)
example : (run0 b!"SELECT a, (b + INTERVAL '3 apples'").map leakView = some (false, 0) := parse_of_eval (f := 30) (q := Option.map leakView) (by decide +kernel)
example : (run0 b!"SELECT * FROM t JOIN (SELECT b.c AS d FROM b WHERE (d IN (1, 'x', (2").map leakView = some (false, 0) :=
  parse_of_eval (f := 60) (q := Option.map leakView) (by decide +kernel)
example : (run0 b!"SELECT ARRAY[1, 2][1], a[3]; CREATE INDEX i ON t (a); CREATE INDEX j ON s.t (a)").map leakView = some (true, 3) :=
  parse_of_eval (f := 60) (q := Option.map leakView) (by decide +kernel)
/-! Each of the six tokens is needed: `[` and INDEX in accepted texts, the others in rejected ones. -/
example : (run0 b!"SELECT a[1][2] FROM t").map leakView = some (true, 2) := parse_of_eval (f := 30) (q := Option.map leakView) (by decide +kernel)
example : (run0 b!"CREATE INDEX i ON s.t (a)").map leakView = some (true, 1) := parse_of_eval (f := 30) (q := Option.map leakView) (by decide +kernel)
example : (run0 b!"CREATE TABLE t (a INT NULL NOT x").map leakView = some (false, 2) := parse_of_eval (f := 30) (q := Option.map leakView) (by decide +kernel)
example : (run0 b!"UPDATE t SET a = 1, x").map leakView = some (false, 2) := parse_of_eval (f := 30) (q := Option.map leakView) (by decide +kernel)
example : (run0 b!"SELECT 1 FOR UPDATE FOR x").map leakView = some (false, 1) := parse_of_eval (f := 30) (q := Option.map leakView) (by decide +kernel)
example : (run0 b!"WITH a AS (SELECT 1) x").map leakView = some (false, 5) := parse_of_eval (f := 30) (q := Option.map leakView) (by decide +kernel)
end Verif.Props

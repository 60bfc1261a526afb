import Verif.Lex.CutTok
import Verif.Sem.LeftDen
import Verif.Props.Prefix
import Verif.Props.Value
/-!
# C56, C57: what a rejected text leaves in the result; a text cut off behind a token

C56 says exactly when a rejected text leaves statements in the result, and which.
-/
namespace Verif.Props
open Verif.Lex Verif.LR Verif.Sem Verif.Api

section
variable {A : Alloc} (hA : Distinct A) {fpr : Int} (hf : FprOK fpr) (buf : Bytes) (sql : List UInt8) (l c : Int)

/-- C57. Let `pre` be some first tokens of a text, none of them the end of input. If the text is cut off right behind them (`textLen pre`
is the number of bytes of the tokens and of the blanks and comments before them), then its tokens are exactly `pre`, and the end of input. -/
theorem C57_cut_behind_token (pre rest : List Tok) (t : Tok) (h : tokensOf fpr sql = pre ++ t :: rest) (hp : ∀ x ∈ pre, x.code ≠ 0) :
    tokensOf fpr (sql.take (textLen pre)) = pre ++ [⟨0, .none, []⟩] := by
  rw [tokensOf_H] at h ⊢
  exact lexH_cut h hp

theorem sentence_cut {pre : List Tok} {e : Tok} (h : ∀ x ∈ pre, tsym x ≠ 0) (he : tsym e = 0) : sentence (pre ++ [e]) = pre := by
  unfold sentence
  rw [List.takeWhile_append_of_pos (by intro x hx; simpa using h x hx)]
  simp [he]

theorem sentence_sym {toks pre : List Tok} (h : pre <+: sentence toks) : ∀ x ∈ pre, tsym x ≠ 0 := by
  intro x hx
  have : ∀ (l : List Tok), x ∈ l.takeWhile (fun t => tsym t != 0) → tsym x ≠ 0 := by
    intro l
    induction l with
    | nil => simp
    | cons y l ih =>
      rw [List.takeWhile_cons]
      split
      · rename_i hy
        intro hm
        rcases List.mem_cons.1 hm with rfl | hm
        · simpa using hy
        · exact ih hm
      · simp
  exact this toks (h.subset hx)

theorem code_ne {x : Tok} (h : tsym x ≠ 0) : x.code ≠ 0 := by
  intro h0
  apply h
  unfold tsym tokSym
  rw [h0]; simp

include hA hf

/-- C56. A rejected text leaves statements in the result if and only if the message is that of a syntax error where nothing but the end of
the text was expected. -/
theorem C56_leftover_iff (o : ParseOut) (h : parse A fpr buf sql (newResult l c) = some o) (hv : o.res.isValid = false) :
    size o.res ≠ 0 ↔ ∃ m, message o.res = some m ∧ b!"syntax error, " <+: m ∧ b!", expecting $end" <:+ m := by
  obtain ⟨ret, st, hp, rfl⟩ := parse_some h
  obtain ⟨e, junk, hin, hE⟩ := parse_ends (sql := sql) (ok := fun _ => True) hf (hA.ok (l := l) (c := c)) newResult_ok
  rw [hp] at hE
  constructor
  · intro hs
    obtain ⟨pre, t, rest, T, b, _, _, _, _, h5, _⟩ := left_den hin hA.ok (tokensOf_shape hf sql).1 rfl rfl rfl hE (by simpa using hv) (by
      intro h; apply hs
      show st.res.stmts.length = 0
      rw [h]; rfl)
    refine ⟨_, h5, syntaxMsg_prefix _ _, ?_⟩
    rw [syntaxMsg_19]
    exact List.suffix_append _ _
  · rintro ⟨m, h1, h2, h3⟩ hs
    refine ends_end hA.ok (tokensOf_shape hf sql).1 rfl rfl rfl hE h1 h2 h3 ?_
    have : st.res.stmts.length = 0 := hs
    exact List.eq_nil_of_length_eq_zero this

/-- C56. And if it does, it leaves exactly the statements of the text cut off right before the offending token `t` (and the blanks and comments
before that): parsed alone, that text is valid, and has the same statements (as values: `astL`) and equally many parameters. -/
theorem C56_leftover_statements (o : ParseOut) (h : parse A fpr buf sql (newResult l c) = some o) (hv : o.res.isValid = false) (hs : size o.res ≠ 0) :
    ∃ pre t rest, tokensOf fpr sql = pre ++ t :: rest ∧ message o.res = some (b!"syntax error, unexpected " ++ symName (tsym t) ++ b!", expecting $end") ∧
      tokensOf fpr (sql.take (textLen pre)) = pre ++ [⟨0, .none, []⟩] ∧
      ∀ (A' : Alloc), Distinct A' → ∀ (buf' : Bytes) (l' c' : Int), ∃ o', parse A' fpr buf' (sql.take (textLen pre)) (newResult l' c') = some o' ∧
        o'.res.isValid = true ∧ astL o'.res.stmts = astL o.res.stmts ∧ size o'.res = size o.res ∧ o'.res.params.length = o.res.params.length := by
  obtain ⟨ret, st, hp, rfl⟩ := parse_some h
  obtain ⟨e, junk, hin, hE⟩ := parse_ends (sql := sql) (ok := fun _ => True) hf (hA.ok (l := l) (c := c)) newResult_ok
  rw [hp] at hE
  obtain ⟨pre, t, rest, T, b, k1, k2, k3, k4, k5, k6, k7⟩ := left_den hin hA.ok (tokensOf_shape hf sql).1 rfl rfl rfl hE (by simpa using hv) (by
    intro h; apply hs
    show st.res.stmts.length = 0
    rw [h]; rfl)
  have hsy := sentence_sym k2
  have hcut := C57_cut_behind_token (fpr := fpr) sql pre rest t k1 (fun x hx => code_ne (hsy x hx))
  refine ⟨pre, t, rest, k1, by rw [← syntaxMsg_19]; exact k5, hcut, fun A' hA' buf' l' c' => ?_⟩
  have hsen : sentence (tokensOf fpr (sql.take (textLen pre))) = pre := by
    rw [hcut]; exact sentence_cut hsy (by decide +kernel)
  obtain ⟨o', g1, g2⟩ := (parse_valid_iff hA' hf buf' (sql.take (textLen pre)) l' c').2 ⟨T, by rw [hsen]; exact k3, k4, by rw [k6]; simp⟩
  have v1 := parse_value hA' hf buf' _ l' c' o' g1 g2 (t := T) (by rw [hsen]; exact k3)
  have v2 := parse_den hA' hf buf' _ l' c' o' g1 g2 (t := T) (by rw [hsen]; exact k3)
  rw [k6] at v1
  rw [k7] at v2
  have v1 : astL st.res.stmts = astL o'.res.stmts := Option.some.inj v1
  refine ⟨o', g1, g2, v1.symm, ?_, ?_⟩
  · have := congrArg List.length v1
    unfold astL at this
    rw [hL_map, hL_map, List.length_map, List.length_map] at this
    exact this.symm
  · simp only [Option.some.injEq, Prod.mk.injEq, PS.mk.injEq] at v2
    exact v2.2.1.symm
end

/-- A concrete case for C56: this text is rejected, and leaves two statements and one parameter; -/
example : (run0 b!"SELECT 1; SELECT ? x /* why */ y z").map (fun o => (view o, o.res.params.length)) =
    some (⟨false, 2, some b!"syntax error, unexpected '/', expecting $end", 0, 21⟩, 1) :=
  parse_of_eval (f := 60) (q := Option.map fun (o : ParseOut) => (view o, o.res.params.length)) (by decide +kernel)
/-- the text cut off behind `x` has these. -/
example : (run0 b!"SELECT 1; SELECT ? x").map (fun o => (view o, o.res.params.length)) = some (⟨true, 2, none, 0, 0⟩, 1) :=
  parse_of_eval (f := 60) (q := Option.map fun (o : ParseOut) => (view o, o.res.params.length)) (by decide +kernel)
/-- And a rejected text that leaves none: the first statement is complete, but the error is in the second. -/
example : (run0 b!"SELECT 1; SELECT FROM").map view = some ⟨false, 0, some b!"syntax error, unexpected FROM", 0, 17⟩ :=
  parse_of_eval (f := 60) (q := Option.map view) (by decide +kernel)
end Verif.Props

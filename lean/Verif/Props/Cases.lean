import Verif.Props.ResultEx
import Verif.Props.Memory
/-!
# More concrete cases

Cases that meet the hypotheses of theorems of `Props/Lexer`, `Props/Result` and `Props/Memory`, where there is none beside the theorem.
-/
namespace Verif.Props
open Verif.Lex Verif.LR Verif.Sem Verif.Api

/-- C08: `-- a comment⏎SELECT 1`. -/
example : ∃ T1 st T2 st', lexAll 64 (lexInit [] (b!"--" ++ b!" a comment" ++ [10] ++ b!"SELECT 1")) = some (T1, st) ∧ lexAll 64 (lexInit [] b!"SELECT 1") = some (T2, st') ∧
    T1.map Tok.code = T2.map Tok.code ∧ T1.map Tok.val = T2.map Tok.val ∧ st = st' :=
  C08_comment_is_skipped_partial 64 [] b!" a comment" b!"SELECT 1" (by decide) (by decide) (by decide) (.inr ⟨97, by decide, by decide⟩) (by decide) (by decide)

/-- C08, in context: after the first token of `SELECT--x⏎1`. -/
example : lexCalls 64 1 (lexInit [] b!"SELECT--x\n1") = some ([⟨313, .none, [b!"SELECT"]⟩], ⟨.initial, [], b!"--" ++ b!"x" ++ [10] ++ b!"1"⟩) := by decide +kernel

/-- C09: a NUL in the text. -/
example : tokenize 64 [] (txt b!"SELECT 1" ++ 0 :: txt b!" FROM 'x") = tokenize 64 [] (txt b!"SELECT 1") := C09_tokenize_ignores_after_nul 64 [] _ _
example : parse heap 64 [] (txt b!"SELECT 1" ++ 0 :: txt b!" FROM 'x") (newResult 0 0) = run0 b!"SELECT 1" := C09_parse_ignores_after_nul heap 64 [] _ _ _

/-- C15: 200 open parentheses. -/
example : (run0 (b!"SELECT " ++ List.replicate 200 40 ++ b!"1" ++ List.replicate 200 41)).map (fun o => (o.res.isValid, message o.res)) = some (false, some b!"memory exhausted") :=
  parse_of_eval (f := 3000) (q := Option.map fun (o : ParseOut) => (o.res.isValid, message o.res)) (by decide +kernel)
/-- 190 parentheses are no problem. -/
example : (run0 (b!"SELECT " ++ List.replicate 190 40 ++ b!"1" ++ List.replicate 190 41)).map (fun o => (o.res.isValid, message o.res)) = some (true, none) :=
  parse_of_eval (f := 3000) (q := Option.map fun (o : ParseOut) => (o.res.isValid, message o.res)) (by decide +kernel)

/-- C46: the blocks a text of 34 bytes needs, and how deep its statement is. -/
example : (run0 b!"SELECT a, f(b + 1) FROM t WHERE c;").map (fun o => ((blocks o).length, depthL o.res.stmts)) = some (16, 7) :=
  parse_of_eval (f := 100) (q := Option.map fun (o : ParseOut) => ((blocks o).length, depthL o.res.stmts)) (by decide +kernel)

end Verif.Props

import Verif.Sql.Blamed
import Verif.Props.ResultEx
/-!
# C44: the messages of rejected texts

`Cause` and `Blamed` (Sql/Blame, Sql/Blamed) are the specification.
-/
set_option linter.all false
set_option maxRecDepth 20000
namespace Verif.Props
open Verif.Lex Verif.LR Verif.Sem Verif.Api Verif.Sql

section
variable {A : Alloc} {fpr : Int} (hA : Distinct A) (hf : FprOK fpr) (buf : Bytes) (sql : List UInt8) (l c : Int)
include hA hf

/-- C44. A text is rejected because of a syntax error (C34, C35), for being nested too deeply (C15), or because some words in it deserve the message;
then the position reported is where these words start. -/
theorem C44_messages_are_true (o : ParseOut) (h : parse A fpr buf sql (newResult l c) = some o) (hv : o.res.isValid = false) :
    ∃ m, message o.res = some m ∧ (m = b!"memory exhausted" ∨ b!"syntax error, " <+: m ∨ Blamed (tokensOf fpr sql) m o.res.errLine o.res.errCol) := by
  have h16 := (C16_valid_iff_no_error hA hf buf sql l c o h).1
  cases hm : message o.res with
  | none => rw [h16.2 hm] at hv; cases hv
  | some m =>
    refine ⟨m, rfl, ?_⟩
    obtain ⟨ret, st, hp, rfl⟩ := parse_some h
    obtain ⟨e, junk, hin, hE⟩ := parse_ends (sql := sql) (ok := Occurs fpr sql) hf (hA.ok (l := l) (c := c)) newResult_ok
    rw [hp] at hE
    have ht := (tokensOf_shape hf sql).1
    rcases ends_msg hin rfl hE hm with ⟨rfl, _⟩ | hs | ⟨pre, u, rest, s, q1, _, q2, _⟩
    · exact .inl rfl
    · right; right
      have hm : st.res.errMsg.map Prod.snd = some m := hm
      show Blamed _ m st.res.errLine st.res.errCol
      generalize hx : some (ret, st) = x at hE
      cases hE with
      | ub => cases hx
      | accept n c stk s t f l hR h1 _ h3 _ _ =>
        cases hx
        exact absurd hv (by simp)
      | exhausted n c stk f l hR hl _ =>
        cases hx
        cases hm
        exact absurd rfl (kinds hs).1
      | syntaxError n c stk t rem v f l hR hr h69 ha hla htk _ =>
        cases hx
        cases hm
        exact absurd (syntaxMsg_prefix _ _) (kinds hs).2
      | semError n c stk r st f l hR hat hr2 hrun _ =>
        cases hx
        exact fail_blamed ht rfl hR hat hr2 hrun hm
    · exact .inr (.inl (by rw [q2]; exact syntaxMsg_prefix _ _))
end

end Verif.Props

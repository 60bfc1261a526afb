import Verif.Sem.Parse
import Verif.Lex.CaseFacts
import Verif.Lex.LexFacts
/-! Evaluating `parse` on a concrete text in the kernel. Proof-internal. -/
namespace Verif.Api
open Verif.Lex Verif.LR Verif.Sem

/-- The text given by an ASCII literal. -/
def txt (s : Bytes) : List UInt8 := s.map UInt8.ofNat

/-- `parse` with the scanner in a form the kernel evaluates quickly, and with fuel. -/
def evalParse (A : Alloc) (fpr : Int) (f : Nat) (sql : List UInt8) (r : Res) : Option (Option ParseOut) :=
  match lexE fpr f (lexInit [] (cText sql)) [] with
  | none => none
  | some (toks, _) => some (match hsqlParse A toks r with
    | none => none
    | some (ret, st) => some ⟨{ st.res with isValid := decide (ret = 0) }, st.freed, st.leaked⟩)

theorem parse_of_eval {A : Alloc} {fpr : Int} {f : Nat} {sql : List UInt8} {r : Res} {α : Type} {q : Option ParseOut → α} {x : α}
    (h : (evalParse A fpr f sql r).map q = some x) : q (parse A fpr [] sql r) = x := by
  unfold evalParse at h
  cases hl : lexE fpr f (lexInit [] (cText sql)) [] with
  | none => rw [hl] at h; cases h
  | some y =>
    obtain ⟨toks, st⟩ := y
    rw [hl] at h
    have := lexAll_of_lexE (st := lexInit [] (cText sql)) (cText_clean sql) hl
    unfold parse
    rw [this]
    simp only [Option.map_some, Option.some.injEq] at h
    rw [← h]
    simp only []
    cases hsqlParse A toks r with
    | none => rfl
    | some y => rfl

/-- "SELECT 1 garbage garbage": rejected, but the first statement is in the result. -/
example : (parse heap 64 [] (txt b!"SELECT 1 garbage garbage") ⟨[], false, none, 0, 0, []⟩).map (fun o => (o.res.isValid, o.res.stmts.length)) = some (false, 1) :=
  parse_of_eval (f := 20) (q := Option.map fun (o : ParseOut) => (o.res.isValid, o.res.stmts.length)) (by decide +kernel)
end Verif.Api

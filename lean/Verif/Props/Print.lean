import Verif.Props.Ast
import Verif.Api.PrintOk
/-!
# The printing helpers (C36)
-/
namespace Verif.Props
open Verif.Lex Verif.LR Verif.Sem Verif.Api Verif.Print

/-- The call `f` (a function of the bound on the recursion depth) terminates, dereferences and prints no null or indeterminate
pointer, and writes nothing to `std::cerr`. -/
def Prints (f : Nat → Print.Out) : Prop := ∃ depth lines, (∀ l ∈ lines, ∀ n, l.item ≠ .err n) ∧ ∀ k, depth ≤ k → f k = .ok lines

/-- C36. `printStatementInfo`, applied to any statement of a valid result, terminates, dereferences no null pointer and complains about no expression. -/
theorem C36_print {A : Alloc} (hA : Distinct A) {fpr : Int} (hf : FprOK fpr) (buf : Bytes) (sql : List UInt8) (l c : Int) (o : ParseOut)
    (h : parse A fpr buf sql (newResult l c) = some o) (hv : o.res.isValid = true) :
    ∀ v ∈ o.res.stmts, Prints (fun k => printStatementInfo k v) := fun v hm =>
  statement_ok (parse_good hA hf good66_null nullOK_setIval h hv v hm)

/-- C36, the other functions of sqlhelper.h that print statements, with any indentation. -/
theorem C36_helpers {A : Alloc} (hA : Distinct A) {fpr : Int} (hf : FprOK fpr) (buf : Bytes) (sql : List UInt8) (l c : Int) (o : ParseOut)
    (h : parse A fpr buf sql (newResult l c) = some o) (hv : o.res.isValid = true) (a : Nat) (fs : List V) (indent : Nat) :
    (V.obj a .SelectStatement fs ∈ o.res.stmts → Prints (fun k => printSelectStatementInfo k (.obj a .SelectStatement fs) indent)) ∧
    (V.obj a .ImportStatement fs ∈ o.res.stmts → Prints (fun k => printImportStatementInfo k (.obj a .ImportStatement fs) indent)) ∧
    (V.obj a .ExportStatement fs ∈ o.res.stmts → Prints (fun k => printExportStatementInfo k (.obj a .ExportStatement fs) indent)) ∧
    (V.obj a .InsertStatement fs ∈ o.res.stmts → Prints (fun k => printInsertStatementInfo k (.obj a .InsertStatement fs) indent)) ∧
    (V.obj a .CreateStatement fs ∈ o.res.stmts → Prints (fun _ => printCreateStatementInfo (.obj a .CreateStatement fs) indent)) ∧
    (V.obj a .TransactionStatement fs ∈ o.res.stmts → Prints (fun _ => printTransactionStatementInfo (.obj a .TransactionStatement fs) indent)) := by
  have key := fun v hm => helpers_ok (parse_good hA hf good66_null nullOK_setIval h hv v hm) indent
  exact ⟨fun hm => (key _ hm).1 rfl, fun hm => (key _ hm).2.1 rfl, fun hm => (key _ hm).2.2.1 rfl, fun hm => (key _ hm).2.2.2.1 rfl,
    fun hm => (key _ hm).2.2.2.2.1 rfl, fun hm => (key _ hm).2.2.2.2.2 rfl⟩

/-! ## Examples -/

/-- What is printed for the statements of a text. -/
def printed (o : ParseOut) : List Print.Out := o.res.stmts.map (printStatementInfo 20)

/-- A query with a join, a window function and a CASE. -/
example : (run0 b!"SELECT a AS x, f(1) OVER (ORDER BY b) FROM t JOIN s.u ON t.id = u.id WHERE c IS NOT NULL LIMIT 3").map printed = some [.ok [
    ⟨0, .text b!"SelectStatement"⟩, ⟨1, .text b!"Fields:"⟩,
    ⟨2, .text b!"a"⟩, ⟨3, .text b!"Alias"⟩, ⟨4, .text b!"x"⟩,
    ⟨2, .text b!"f"⟩, ⟨3, .int 1⟩, ⟨3, .text b!"OVER"⟩, ⟨4, .text b!"ORDER BY"⟩, ⟨5, .text b!"b"⟩, ⟨5, .text b!"ascending"⟩,
    ⟨4, .text b!"RANGE BETWEEN UNBOUNDED PRECEDING AND CURRENT ROW"⟩,
    ⟨1, .text b!"Sources:"⟩, ⟨2, .text b!"Join Table"⟩, ⟨3, .text b!"Left"⟩, ⟨4, .text b!"t"⟩,
    ⟨3, .text b!"Right"⟩, ⟨4, .text b!"u"⟩, ⟨5, .text b!"Schema"⟩, ⟨6, .text b!"s"⟩,
    ⟨3, .text b!"Join Condition"⟩, ⟨4, .text b!"="⟩, ⟨5, .text b!"id"⟩, ⟨6, .text b!"Table:"⟩, ⟨7, .text b!"t"⟩, ⟨5, .text b!"id"⟩, ⟨6, .text b!"Table:"⟩, ⟨7, .text b!"u"⟩,
    ⟨1, .text b!"Search Conditions:"⟩, ⟨2, .text b!"NOT"⟩, ⟨3, .text b!"IS NULL"⟩, ⟨4, .text b!"c"⟩,
    ⟨1, .text b!"Limit:"⟩, ⟨2, .int 3⟩]] :=
  parse_of_eval (f := 150) (q := Option.map printed) (by decide +kernel)

/-- Other statements; of some of them nothing is printed. -/
example : (run0 b!"INSERT INTO t VALUES (-1, 'x'); DELETE FROM t; CREATE TABLE t FROM TBL FILE 'f'; ROLLBACK").map printed = some [
    .ok [⟨0, .text b!"InsertStatement"⟩, ⟨1, .text b!"t"⟩, ⟨1, .text b!"Values"⟩, ⟨2, .text b!"-"⟩, ⟨3, .int 1⟩, ⟨2, .text b!"x"⟩],
    .ok [],
    .ok [⟨0, .text b!"CreateStatement"⟩, ⟨1, .text b!"t"⟩, ⟨1, .text b!"f"⟩],
    .ok [⟨0, .text b!"TransactionStatement"⟩, ⟨1, .text b!"ROLLBACK"⟩]] :=
  parse_of_eval (f := 150) (q := Option.map printed) (by decide +kernel)

end Verif.Props

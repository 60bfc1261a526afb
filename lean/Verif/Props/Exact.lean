import Verif.Props.Invented
import Verif.Sql.ExactStmt
/-!
# C72: every name and every string constant is in the result as often as it is written
-/
namespace Verif.Props
open Verif.Lex Verif.LR Verif.Sem Verif.Api Verif.Sql

/-- What the tokens of a sentence carry is what its words carry. -/
theorem spelled_wc (b : Leaf) [NotInt b] : ∀ {ws : List Word} {ts : List Tok}, Spelled ws ts → wc b ws = (written ts).count b
  | [], [], _ => rfl
  | [], _ :: _, h => by simp [Spelled] at h
  | _ :: _, [], h => by simp [Spelled] at h
  | w :: ws, t :: ts, h => by
    simp only [Spelled] at h
    have ih := spelled_wc b h.2.2
    have hv := h.2.1
    have hi : ∀ n, ¬ (Leaf.int n = b) := fun n h => NotInt.ne n h.symm
    unfold written at *
    rw [wc, ih]
    cases w <;> simp_all [List.filterMap_cons, Word.val, carried, wc1, eqn, List.count_cons] <;> omega

theorem lcL_set (b : Leaf) [NotInt b] : ∀ (vs : List V) (i : Nat) (w x : V), vs[i]? = some w → lcL b (vs.set i x) + lc b w = lcL b vs + lc b x
  | [], i, w, x, h => by simp at h
  | v :: vs, 0, w, x, h => by
    simp at h; subst h
    rw [List.set_cons_zero, lcL_cons, lcL_cons]; omega
  | v :: vs, i + 1, w, x, h => by
    simp only [List.getElem?_cons_succ] at h
    have := lcL_set b vs i w x h
    rw [List.set_cons_succ, lcL_cons, lcL_cons]; omega
theorem lcL_newIval (b : Leaf) [NotInt b] (n : Int) (fs : List V) : lcL b (newIval n fs) = lcL b fs := by
  unfold newIval
  split
  · rename_i w hw
    split
    · rename_i hn
      have h1 := lcL_set b fs 10 w (.int n) hw
      have h2 : lc b w = 0 := by cases w <;> first | rfl | exact lc_int b _ | simp [V.isNum] at hn
      rw [lc_int] at h1; omega
    · rfl
  · rfl
mutual
theorem fill_lc (b : Leaf) [NotInt b] : ∀ v : V, lc b v.fill = lc b v
  | .obj _ c fs => by
    rw [V.fill, lc_obj, lc_obj]
    split
    · rw [lcL_newIval]; exact fillL_lc b fs
    · exact fillL_lc b fs
  | .vec _ vs => by rw [V.fill, lc_vec, lc_vec]; exact fillL_lc b vs
  | .tup vs => by rw [V.fill, lc_tup, lc_tup]; exact fillL_lc b vs
  | .undef => by simp [V.fill]
  | .null => by simp [V.fill]
  | .int _ => by simp [V.fill]
  | .pos _ => by simp [V.fill]
  | .idx _ => by simp [V.fill]
  | .raw _ => by simp [V.fill]
  | .str _ _ => by simp [V.fill]
theorem fillL_lc (b : Leaf) [NotInt b] : ∀ vs : List V, lcL b (fillL vs) = lcL b vs
  | [] => rfl
  | v :: vs => by rw [fillL, lcL_cons, lcL_cons, fill_lc b v, fillL_lc b vs]
end

/-- The tokens contain an `INDEX` and a dot. -/
def IndexAndDot (ts : List Tok) : Prop := (∃ t ∈ ts, tsym t = T.INDEX) ∧ ∃ t ∈ ts, tsym t = T.DOT

section
variable {A : Alloc} (hA : Distinct A) {fpr : Int} (hf : FprOK fpr) (buf : Bytes) (sql : List UInt8) (l c : Int)
include hA hf

theorem exact_count (o : ParseOut) (h : parse A fpr buf sql (newResult l c) = some o) (hv : o.res.isValid = true)
    (hi : ¬ IndexAndDot (sentence (tokensOf fpr sql))) (b : Leaf) [NotInt b] (hb : ¬ b.Exempt) :
    (leavesL (astL o.res.stmts)).count b = (written (sentence (tokensOf fpr sql))).count b := by
  obtain ⟨s, d, hs, -, ha⟩ := C41_only_scripts hA hf buf sql l c o h hv
  have hk : ∀ a, .kw a ∈ s.text d → ∃ t ∈ sentence (tokensOf fpr sql), tsym t = a := fun a h => by
    obtain ⟨t, ht, e, _⟩ := spelled_mem' hs _ h
    exact ⟨t, ht, e⟩
  have hx := Script.ex_text hb (.pos 0) rfl s d fun h => hi ⟨hk _ h.1, hk _ h.2⟩
  have hfl : ∀ is : List Item, lcL b (is.map fun i => (i.v (.pos 0)).fill) = lcL b (is.map (Item.v (.pos 0))) := by
    intro is
    induction is with
    | nil => rfl
    | cons i is ih => rw [List.map_cons, List.map_cons, lcL_cons, lcL_cons, fill_lc, ih]
  rw [ha]
  exact (hfl _).trans (hx.symm.trans (spelled_wc b hs))

/-- C72. Let a text be accepted that has no `INDEX` together with a dot (C32: the schema of the table of an index is lost). Then each name and each string constant, other than the words
that choose an option and the text of an interval, is in the statements of the result exactly as often as it is written. -/
theorem C72_as_often_as_written (o : ParseOut) (h : parse A fpr buf sql (newResult l c) = some o) (hv : o.res.isValid = true)
    (hi : ¬ IndexAndDot (sentence (tokensOf fpr sql))) (b : Bytes) (hb : ¬ (Leaf.text b).Exempt) :
    (leavesL (astL o.res.stmts)).count (.text b) = (written (sentence (tokensOf fpr sql))).count (.text b) :=
  exact_count hA hf buf sql l c o h hv hi _ hb

/-- C72. And so is each number with a decimal point, without exception of words. -/
theorem C72_decimals_as_often_as_written (o : ParseOut) (h : parse A fpr buf sql (newResult l c) = some o) (hv : o.res.isValid = true)
    (hi : ¬ IndexAndDot (sentence (tokensOf fpr sql))) (b : Bytes) :
    (leavesL (astL o.res.stmts)).count (.float b) = (written (sentence (tokensOf fpr sql))).count (.float b) :=
  exact_count hA hf buf sql l c o h hv hi _ id
end

/-- A text without a digit that is not the word of an option is no exception. -/
theorem not_exempt {b : Bytes} (h1 : ¬ OptionWord b) (h2 : ∀ x ∈ b, ¬ Digit x) : ¬ (Leaf.text b).Exempt := by
  have hn : ∀ {n : Int} {s : Bytes}, NumberText none n s → ∃ x ∈ s, Digit x := fun h => by
    obtain ⟨_, _, ds, rfl, _, _, h0, hd, _⟩ := h.is
    cases ds with
    | nil => exact absurd rfl h0
    | cons d ds => exact ⟨d, by simp, hd d (by simp)⟩
  rintro (h | ⟨n, h | ⟨u, a, bl, rfl, h, _⟩⟩)
  · exact h1 h
  · obtain ⟨x, hx, h⟩ := hn h; exact h2 x hx h
  · obtain ⟨x, hx, h⟩ := hn h; exact h2 x (by simp [hx]) h
/-- So C72 speaks of `a`. -/
example : ¬ (Leaf.text b!"a").Exempt :=
  not_exempt (fun ⟨o, ho, h⟩ => absurd h ((by decide +kernel : ∀ o ∈ optionWords, ¬ eqNoCase b!"a" o = true) o ho)) (by simp [Digit])

/-- A concrete case for C72: `a` is written four times, `t` twice, `x` as a name and as a constant, `1.5` twice. -/
example : (run0 b!"WITH t AS (SELECT a FROM a) SELECT a, 'x' FROM t AS x WHERE a = 1.5 + -1.5; DROP TABLE y").map (times [.text b!"a", .text b!"t", .text b!"x", .text b!"y", .float b!"1.5"]) = some (true, [4, 2, 2, 1, 2]) :=
  parse_of_eval (f := 60) (q := Option.map (times _)) (by decide +kernel)

/-- The exception is needed: `s` is written once, and is not there. -/
example : (run0 b!"CREATE INDEX i ON s.t (b)").map (times [.text b!"i", .text b!"s", .text b!"t", .text b!"b"]) = some (true, [1, 0, 1, 1]) :=
  parse_of_eval (f := 60) (q := Option.map (times _)) (by decide +kernel)
end Verif.Props

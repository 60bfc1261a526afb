import Verif.Props.Only
import Verif.Sql.KeptStmt
/-!
# C70: nothing that is written is lost
-/
namespace Verif.Props
open Verif.Lex Verif.LR Verif.Sem Verif.Api Verif.Sql

/-- What a token carries, if it is a name, a string constant or a number. -/
def carried : TokVal → Option Leaf
  | .sval b => some (.text b)
  | .ival n => some (.int n)
  | .fval b => some (.float b)
  | .none => none

theorem spelled_mem : ∀ {ws : List Word} {ts : List Tok}, Spelled ws ts → ∀ t ∈ ts, ∃ w ∈ ws, tsym t = w.sym ∧ t.val = w.val
  | [], [], _, _, ht => by cases ht
  | [], _ :: _, h, _, _ => by simp [Spelled] at h
  | _ :: _, [], h, _, _ => by simp [Spelled] at h
  | w :: ws, t :: ts, h, u, hu => by
    simp only [Spelled] at h
    rcases List.mem_cons.1 hu with rfl | hu
    · exact ⟨w, by simp, h.1, h.2.1⟩
    · obtain ⟨x, hx, e⟩ := spelled_mem h.2.2 u hu
      exact ⟨x, by simp [hx], e⟩
theorem spelled_mem' : ∀ {ws : List Word} {ts : List Tok}, Spelled ws ts → ∀ w ∈ ws, ∃ t ∈ ts, tsym t = w.sym ∧ t.val = w.val
  | [], [], _, _, ht => by cases ht
  | [], _ :: _, h, _, _ => by simp [Spelled] at h
  | _ :: _, [], h, _, _ => by simp [Spelled] at h
  | w :: ws, t :: ts, h, u, hu => by
    simp only [Spelled] at h
    rcases List.mem_cons.1 hu with rfl | hu
    · exact ⟨t, by simp, h.1, h.2.1⟩
    · obtain ⟨x, hx, e⟩ := spelled_mem' h.2.2 u hu
      exact ⟨x, by simp [hx], e⟩

theorem mem_leavesW {w : Word} {x : Leaf} : ∀ {ws : List Word}, w ∈ ws → x ∈ w.leaves → x ∈ leavesW ws
  | y :: ws, h, hx => by
    rw [leavesW, List.mem_append]
    rcases List.mem_cons.1 h with rfl | h
    · exact .inl hx
    · exact .inr (mem_leavesW h hx)

/-- The tokens contain a `TOP` together with a `LIMIT` or an `OFFSET`, or an `INDEX`. -/
def TopOrIndex (ts : List Tok) : Prop :=
  ((∃ t ∈ ts, tsym t = T.TOP) ∧ ∃ t ∈ ts, tsym t = T.LIMIT ∨ tsym t = T.OFFSET) ∨ ∃ t ∈ ts, tsym t = T.INDEX

theorem topOrIndex {ws : List Word} {ts : List Tok} (h : Spelled ws ts) (hm : MayLose ws) : TopOrIndex ts := by
  have k : ∀ a, .kw a ∈ ws → ∃ t ∈ ts, tsym t = a := fun a ha => by
    obtain ⟨t, ht, e, _⟩ := spelled_mem' h _ ha
    exact ⟨t, ht, e⟩
  rcases hm with ⟨h1, h2⟩ | h1
  · refine .inl ⟨k _ h1, ?_⟩
    rcases h2 with h2 | h2
    · obtain ⟨t, ht, e⟩ := k _ h2; exact ⟨t, ht, .inl e⟩
    · obtain ⟨t, ht, e⟩ := k _ h2; exact ⟨t, ht, .inr e⟩
  · exact .inr (k _ h1)

theorem carried_leaf {t : Tok} {w : Word} (h : t.val = w.val) {x : Leaf} (hx : carried t.val = some x) : x ∈ w.leaves := by
  rw [h] at hx
  cases w <;> simp_all [Word.val, carried, Word.leaves]

section
variable {A : Alloc} (hA : Distinct A) {fpr : Int} (hf : FprOK fpr) (buf : Bytes) (sql : List UInt8) (l c : Int)
include hA hf

/-- C70. Let a text be accepted. Then everything the user has written down in it — each name, each string constant and each number — is in the statements of the result, as it
was written (names and constants without their quotes); except for the words that choose an option, the text of an interval (of which the number and the unit are stored), and what may
be lost if `TOP` comes together with `LIMIT` or `OFFSET` (C27), or in a text with an `INDEX` (C32). -/
theorem C70_nothing_lost (o : ParseOut) (h : parse A fpr buf sql (newResult l c) = some o) (hv : o.res.isValid = true)
    (hl : ¬ TopOrIndex (sentence (tokensOf fpr sql))) (t : Tok) (ht : t ∈ sentence (tokensOf fpr sql)) (x : Leaf) (hx : carried t.val = some x) :
    x ∈ leavesL (astL o.res.stmts) ∨ x.Exempt := by
  obtain ⟨s, b, hs, -, ha⟩ := C41_only_scripts hA hf buf sql l c o h hv
  obtain ⟨w, hw, _, e⟩ := spelled_mem hs t ht
  have hk := Script.kept_text (.pos 0) s b x (mem_leavesW hw (carried_leaf e hx))
  rcases hk with hk | hk | hk
  · left
    rw [mem_lvL] at hk
    obtain ⟨v, hv, hk⟩ := hk
    rw [ha, mem_leavesL]
    obtain ⟨i, hi, rfl⟩ := List.mem_map.1 hv
    exact ⟨_, List.mem_map_of_mem hi, fill_lv _ _ hk⟩
  · exact .inr hk
  · exact absurd (topOrIndex hs hk) hl
end

/-! ## Concrete cases -/

/-- Whether a text is accepted, and which of the given things are in the statements. -/
def has (xs : List Leaf) (o : ParseOut) : Bool × List Bool := (o.res.isValid, xs.map fun x => (leavesL (astL o.res.stmts)).contains x)

/-- A concrete case for C70: a name in each place, a string constant, two numbers. -/
example : (run0 b!"SELECT a, 'b' FROM s.t AS u WHERE c < 1.5 LIMIT 77").map (has [.text b!"a", .text b!"b", .text b!"s", .text b!"t", .text b!"u", .text b!"c", .float b!"1.5", .int 77, .text b!"d", .int 78]) =
    some (true, [true, true, true, true, true, true, true, true, false, false]) :=
  parse_of_eval (f := 60) (q := Option.map (has _)) (by decide +kernel)

/-- The exceptions are not vacuous: `TOP` with `LIMIT`, the schema of the table of an index, the text of an interval, the words of an option. -/
theorem C70_top_lost : (run0 b!"SELECT TOP 77 a FROM t LIMIT 33").map (has [.int 77, .int 33]) = some (true, [false, true]) :=
  parse_of_eval (f := 60) (q := Option.map (has _)) (by decide +kernel)
theorem C70_index_schema_lost : (run0 b!"CREATE INDEX i ON s.t (a)").map (has [.text b!"i", .text b!"s", .text b!"t", .text b!"a"]) = some (true, [true, false, true, true]) :=
  parse_of_eval (f := 60) (q := Option.map (has _)) (by decide +kernel)
theorem C70_interval_text_lost : (run0 b!"SELECT INTERVAL '77 days'").map (has [.text b!"77 days", .int 77]) = some (true, [false, true]) :=
  parse_of_eval (f := 60) (q := Option.map (has _)) (by decide +kernel)
theorem C70_option_words_lost : (run0 b!"SELECT a FROM t ORDER BY a NULLS LAST").map (has [.text b!"a", .text b!"NULLS", .text b!"LAST"]) = some (true, [true, false, false]) :=
  parse_of_eval (f := 60) (q := Option.map (has _)) (by decide +kernel)
end Verif.Props

import Verif.Props.Value
import Verif.Props.ResultEx
import Verif.LR.NeedBound
import Verif.Sql.ScriptDer
import Verif.Sql.TextLex
import Verif.Sql.RenderOk
/-!
# C23: what is written is what is read

`Verif.Sql.Syntax` and `Verif.Sql.Stmt` define SQL scripts as data, with the words they are written with (`Script.text`); `Verif.Sql.Ast` the objects they stand for
(`Item.v`); `Verif.Sql.Text` how words are written as bytes (`Text`).
-/
namespace Verif.Props
open Verif.Lex Verif.LR Verif.Sem Verif.Api Verif.Sql

theorem spelled_length : ∀ {ws : List Word} {ts : List Tok}, Spelled ws ts → ts.length = ws.length
  | [], [], _ => rfl
  | [], _ :: _, h => h.elim
  | _ :: _, [], h => h.elim
  | _ :: ws, _ :: ts, h => congrArg (· + 1) (spelled_length (ws := ws) (ts := ts) h.2.2)

/-- The tokens of a text are those of its words. -/
theorem tokensOf_text {fpr : Int} {ws : List Word} {sql : List UInt8} (h : Text ws (cText sql)) : Spelled ws (sentence (tokensOf fpr sql)) := by
  obtain ⟨T, buf', acc', hr, hs, hn⟩ := h.run (fpr := fpr) [] []
  obtain ⟨st, e⟩ := tokensOf_spec fpr [] sql
  have hH := lexAll_H e
  have h2 := (hr.lexH (cText_clean sql)).1
  change lexH fpr (lexInit [] (cText sql)) [] = _ at h2
  rw [h2, lexH_nil] at hH
  have : tokensOf fpr sql = T ++ [⟨0, .none, acc'.reverse⟩] := congrArg Prod.fst hH
  rw [this, sentence, List.takeWhile_append_of_pos (by intro t ht; simpa using hn t ht)]
  simpa [tsym, tokSym] using hs

section
variable {A : Alloc} (hA : Distinct A) {fpr : Int} (hf : FprOK fpr) (buf : Bytes) (sql : List UInt8) (l c : Int)
include hA hf

theorem roundtrip (s : Script) (b : Bool) (hs : Spelled (s.text b) (sentence (tokensOf fpr sql))) (hn : Numbered 0 (s.text b)) :
    ∃ o, parse A fpr buf sql (newResult l c) = some o ∧
      ((o.res.isValid = true ∧ astL o.res.stmts = s.items.map fun i => (i.v (.pos 0)).fill) ∨
       (o.res.isValid = false ∧ message o.res = some b!"memory exhausted" ∧ 97 < (s.text b).length)) := by
  obtain ⟨t, ht, hd⟩ := s.derives b hs hn
  have hd0 : denInput t ≠ none := by rw [hd]; simp
  by_cases hk : t.need + 1 < 200
  · obtain ⟨o, ho, hv⟩ := (parse_valid_iff hA hf buf sql l c).2 ⟨t, ht, hk, hd0⟩
    have := parse_value hA hf buf sql l c o ho hv ht
    rw [hd, fillL_map, List.map_map] at this
    exact ⟨o, ho, .inl ⟨hv, (Option.some.inj this).symm⟩⟩
  · obtain ⟨e, junk, hin, _⟩ := parse_ends (sql := sql) (ok := fun _ => True) hf (hA.ok (l := l) (c := c)) newResult_ok
    obtain ⟨st, hp, hm⟩ := exhaust_of hin (hA.ok (l := l) (c := c)) (tokensOf_shape hf sql).1 rfl rfl rfl ht (by omega) hd0
    have hq := parse_eq A fpr buf sql (newResult l c)
    rw [hp] at hq
    refine ⟨_, hq, .inr ⟨by simp, hm, ?_⟩⟩
    have := ht.need_le
    have := spelled_length hs
    omega

/-- C23. Let `s` be a script: SQL statements as data. Let `sql` be a text of the words of `s`: with any blanks between them where they are needed, keywords in any case, names in quotes
or not, with or without a semicolon at the end; the parameters numbered from left to right. Then `sql` is parsed, and the statements of the result are, field by field, those
that `s` stands for, each parameter carrying its number. Only a script of more than 97 words may fail, and then because the stack of the parser is exhausted. -/
theorem C23_round_trip (s : Script) (b : Bool) (hs : Text (s.text b) (cText sql)) (hn : Numbered 0 (s.text b)) :
    ∃ o, parse A fpr buf sql (newResult l c) = some o ∧
      ((o.res.isValid = true ∧ astL o.res.stmts = s.items.map fun i => (i.v (.pos 0)).fill) ∨
       (o.res.isValid = false ∧ message o.res = some b!"memory exhausted" ∧ 97 < (s.text b).length)) :=
  roundtrip hA hf buf sql l c s b (tokensOf_text hs) hn

/-- C23. In particular every script can be written (if its names, strings and numbers can be): its standard rendering is parsed and gives its statements back. -/
theorem C23_rendering (s : Script) (b : Bool) (hw : ∀ w ∈ s.text b, w.Ok) (hn : Numbered 0 (s.text b)) :
    ∃ o, parse A fpr buf ((render (s.text b)).map UInt8.ofNat) (newResult l c) = some o ∧
      ((o.res.isValid = true ∧ astL o.res.stmts = s.items.map fun i => (i.v (.pos 0)).fill) ∨
       (o.res.isValid = false ∧ message o.res = some b!"memory exhausted" ∧ 97 < (s.text b).length)) := by
  refine C23_round_trip hA hf buf _ l c s b ?_ hn
  rw [cText_ofNat (render_bytes hw (s.text_kn b))]
  exact render_text hw (s.text_kn b)
end

/-! ### Example -/

/-- `SELECT a, f(?) FROM t WHERE (a OR b) AND c = 'it''s' ORDER BY a DESC; DELETE FROM t WHERE x = ?` -/
def demo : Script := .snoc
  (.one (.stmt (.query (.plain .none (.plain (.mk none false (.snoc (.one (.col none b!"a") .none) (.call none b!"f" (.some false (.one (.param 0) .none)) .none) .none)
    (.one (.base (.name ⟨none, b!"t"⟩ (.plain .none))))
    (.some (.logic .and (.logic .or (.col none b!"a") (.col none b!"b")) (.bin .eq (.col none b!"c") (.lit (.str b!"it's")))))
    .none) (.by (.one (.col none b!"a") .desc .none)) .none .none))) .none))
  (.stmt (.delete ⟨none, b!"t"⟩ (.some (.bin .eq (.col none b!"x") (.param 1)))) .none)

theorem demo_render : render (demo.text true) =
    b!"SELECT \"a\" , \"f\" ( ? ) FROM \"t\" WHERE ( \"a\" OR \"b\" ) AND \"c\" = 'it''s' ORDER BY \"a\" DESC ; DELETE FROM \"t\" WHERE \"x\" = ? ; " := by decide +kernel

/-- A check of `Word.Ok` (leaving out floating point literals). -/
def okB : Word → Bool
  | .kw _ => true
  | .id b => !b.isEmpty && b.all fun z => z != 34 && z != 10 && z != 0 && decide (z < 256)
  | .str b => b.all fun z => z != 0 && decide (z < 256)
  | .int n => decide (0 ≤ n) && decide (n < 2 ^ 63)
  | .flt _ => false
  | .par _ => true

theorem okB_ok {w : Word} (h : okB w = true) : w.Ok := by
  cases w <;> simp_all [okB, Word.Ok]

theorem demo_ok : (∀ w ∈ demo.text true, w.Ok) ∧ Numbered 0 (demo.text true) := by
  refine ⟨fun w hw => okB_ok (List.all_eq_true.1 (?_ : (demo.text true).all okB = true) w hw), rfl, rfl, trivial⟩
  decide +kernel

theorem demo_length : (demo.text true).length = 32 := by decide +kernel

/-- The theorem applies to the script `demo`: its text is parsed, and the result holds its two statements. -/
example {A : Alloc} (hA : Distinct A) {fpr : Int} (hf : FprOK fpr) (buf : Bytes) (l c : Int) :
    ∃ o, parse A fpr buf ((render (demo.text true)).map UInt8.ofNat) (newResult l c) = some o ∧ o.res.isValid = true ∧ (astL o.res.stmts).length = 2 := by
  obtain ⟨o, ho, ⟨hv, ha⟩ | ⟨_, _, hl⟩⟩ := C23_rendering hA hf buf l c demo true demo_ok.1 demo_ok.2
  · exact ⟨o, ho, hv, by rw [ha]; rfl⟩
  · rw [demo_length] at hl; omega

end Verif.Props

import Verif.Props.RoundTrip
import Verif.Sql.StdOk
import Verif.Sql.StdPars
/-!
# C26: defaults and synonyms

`Script.std` (`Verif.Sql.Std`) writes out everything in a script that was omitted and has a default, and replaces each spelling by the standard one.
-/
namespace Verif.Props
open Verif.Lex Verif.LR Verif.Sem Verif.Api Verif.Sql

theorem text_pars (s : Script) (b b' : Bool) : pars (s.text b) = pars (s.text b') := by
  have e : ∀ b, pars (s.text b) = pars (s.text false) := by
    intro b; cases b
    · rfl
    · simp only [Script.text, cat, List.flatten_cons, List.flatten_nil, List.append_nil, pars_append]; exact List.append_nil _
  rw [e b, e b']

section
variable {A A' : Alloc} (hA : Distinct A) (hA' : Distinct A') {fpr fpr' : Int} (hf : FprOK fpr) (hf' : FprOK fpr') (buf buf' : Bytes) (l c l' c' : Int)
include hA hA' hf hf'

/-- C26. Two scripts with the same standard form: they differ only in whether a default is written out (some of them, all, or none) and in which synonyms are used.
Any text of the one and any text of the other give the same statements, field by field. (Only texts of more than 97 words may fail, when the stack of the parser is exhausted.) -/
theorem C26_same_standard_form (s s' : Script) (e : s.std = s'.std) (b b' : Bool) (sql sql' : List UInt8) (h : Text (s.text b) (cText sql)) (h' : Text (s'.text b') (cText sql'))
    (hn : Numbered 0 (s.text b)) :
    ∃ o o', parse A fpr buf sql (newResult l c) = some o ∧ parse A' fpr' buf' sql' (newResult l' c') = some o' ∧
      ((o.res.isValid = true ∧ o'.res.isValid = true ∧ astL o.res.stmts = astL o'.res.stmts) ∨
       (o.res.isValid = false ∧ message o.res = some b!"memory exhausted" ∧ 97 < (s.text b).length) ∨
       (o'.res.isValid = false ∧ message o'.res = some b!"memory exhausted" ∧ 97 < (s'.text b').length)) := by
  have hn' : Numbered 0 (s'.text b') := by
    refine numbered_same (us := s.text b) ?_ hn
    rw [← Script.std_pars_text s', ← Script.std_pars_text s, e, text_pars]
  obtain ⟨o, ho, hr⟩ := C23_round_trip hA hf buf sql l c s b h hn
  obtain ⟨o', ho', hr'⟩ := C23_round_trip hA' hf' buf' sql' l' c' s' b' h' hn'
  refine ⟨o, o', ho, ho', ?_⟩
  rcases hr with ⟨hv, ha⟩ | hr
  · rcases hr' with ⟨hv', ha'⟩ | hr'
    · refine .inl ⟨hv, hv', ?_⟩
      have f : ∀ s : Script, (s.items.map fun i => (i.v (.pos 0)).fill) = s.std.items.map fun i => (i.v (.pos 0)).fill := by
        intro s
        rw [Script.std_items, List.map_map]
        exact List.map_congr_left fun i _ => by simp only [Function.comp, Item.std_v]
      rw [ha, ha', f s, f s', e]
    · exact .inr (.inr hr')
  · exact .inr (.inl hr)

/-- C26. Let `s` be a script, and `s.std` the script where what `s` omits is written out: `ASC`, `INNER`, `OUTER`, the frame, `AND CURRENT ROW`, precision and scale, `LIMIT ALL`,
`TRANSACTION`; and where synonyms are replaced: `AS` before an alias, `=` for `==`, `IS NULL` for `ISNULL`, `DELETE FROM` for `TRUNCATE`, ...
Any text of `s` and any text of `s.std` give the same statements, field by field. (Only texts of more than 97 words may fail, when the stack of the parser is exhausted.) -/
theorem C26_defaults (s : Script) (b b' : Bool) (sql sql' : List UInt8) (h : Text (s.text b) (cText sql)) (h' : Text (s.std.text b') (cText sql')) (hn : Numbered 0 (s.text b)) :
    ∃ o o', parse A fpr buf sql (newResult l c) = some o ∧ parse A' fpr' buf' sql' (newResult l' c') = some o' ∧
      ((o.res.isValid = true ∧ o'.res.isValid = true ∧ astL o.res.stmts = astL o'.res.stmts) ∨
       (o.res.isValid = false ∧ message o.res = some b!"memory exhausted" ∧ 97 < (s.text b).length) ∨
       (o'.res.isValid = false ∧ message o'.res = some b!"memory exhausted" ∧ 97 < (s.std.text b').length)) := by
  have hn' : Numbered 0 (s.std.text b') :=
    numbered_same (us := s.text b) (by rw [Script.std_pars_text, text_pars]) hn
  obtain ⟨o, ho, hr⟩ := C23_round_trip hA hf buf sql l c s b h hn
  obtain ⟨o', ho', hr'⟩ := C23_round_trip hA' hf' buf' sql' l' c' s.std b' h' hn'
  refine ⟨o, o', ho, ho', ?_⟩
  rcases hr with ⟨hv, ha⟩ | hr
  · rcases hr' with ⟨hv', ha'⟩ | hr'
    · refine .inl ⟨hv, hv', ?_⟩
      rw [ha, ha', Script.std_items, List.map_map]
      exact List.map_congr_left fun i _ => by simp only [Function.comp, Item.std_v]
    · exact .inr (.inr hr')
  · exact .inr (.inl hr)
end

/-! ### Example -/

/-- `SELECT a x FROM t JOIN u ON a == b ORDER BY a; TRUNCATE t` -/
def terse : Script := .snoc
  (.one (.stmt (.query (.plain .none (.plain (.mk none false (.one (.col none b!"a") (.bare b!"x"))
    (.one (.on (.base (.name ⟨none, b!"t"⟩ (.plain .none))) .none (.base (.name ⟨none, b!"u"⟩ (.plain .none))) (.bin .eq2 (.col none b!"a") (.col none b!"b"))))
    .none .none) (.by (.one (.col none b!"a") .none .none)) .none .none))) .none))
  (.stmt (.truncate ⟨none, b!"t"⟩) .none)

theorem terse_render : render (terse.text false) =
    b!"SELECT \"a\" \"x\" FROM \"t\" JOIN \"u\" ON \"a\" == \"b\" ORDER BY \"a\" ; TRUNCATE \"t\" " := by decide +kernel
theorem terse_std_render : render (terse.std.text true) =
    b!"SELECT \"a\" AS \"x\" FROM \"t\" INNER JOIN \"u\" ON \"a\" = \"b\" ORDER BY \"a\" ASC ; DELETE FROM \"t\" ; " := by decide +kernel

theorem terse_ok : (∀ w ∈ terse.text false, w.Ok) ∧ (∀ w ∈ terse.std.text true, w.Ok) ∧ Numbered 0 (terse.text false) := by
  refine ⟨fun w hw => okB_ok (List.all_eq_true.1 (?_ : (terse.text false).all okB = true) w hw),
    fun w hw => okB_ok (List.all_eq_true.1 (?_ : (terse.std.text true).all okB = true) w hw), trivial⟩ <;> decide +kernel

/-- The theorem applies to the two texts above: both are parsed, to the same statements. -/
example {A : Alloc} (hA : Distinct A) {fpr : Int} (hf : FprOK fpr) (buf : Bytes) (l c : Int) :
    ∃ o o', parse A fpr buf ((render (terse.text false)).map UInt8.ofNat) (newResult l c) = some o ∧
      parse A fpr buf ((render (terse.std.text true)).map UInt8.ofNat) (newResult l c) = some o' ∧
      o.res.isValid = true ∧ o'.res.isValid = true ∧ astL o.res.stmts = astL o'.res.stmts := by
  have t1 : Text (terse.text false) (cText ((render (terse.text false)).map UInt8.ofNat)) := by
    rw [cText_ofNat (render_bytes terse_ok.1 (terse.text_kn _))]; exact render_text terse_ok.1 (terse.text_kn _)
  have t2 : Text (terse.std.text true) (cText ((render (terse.std.text true)).map UInt8.ofNat)) := by
    rw [cText_ofNat (render_bytes terse_ok.2.1 (terse.std.text_kn _))]; exact render_text terse_ok.2.1 (terse.std.text_kn _)
  obtain ⟨o, o', h, h', hr | ⟨_, _, hl⟩ | ⟨_, _, hl⟩⟩ := C26_defaults hA hA hf hf buf buf l c l c terse false true _ _ t1 t2 terse_ok.2.2
  · exact ⟨o, o', h, h', hr⟩
  · exact absurd hl (by decide +kernel)
  · exact absurd hl (by decide +kernel)

end Verif.Props

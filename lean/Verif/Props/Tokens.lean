import Verif.Props.Value
import Verif.Props.ResultEx
import Verif.Sem.DenTrans
/-!
# Results depend only on token codes and values; letter case and blanks (C03, C07)
-/
namespace Verif.Props
open Verif.Lex Verif.LR Verif.Sem Verif.Api

/-- The statements with all strings in upper case, without addresses and positions. -/
def astUpper (vs : List V) : List V := hL ⟨Lex.upper, 0⟩ vs

section
variable {A : Alloc} (hA : Distinct A) {fpr : Int} (hf : FprOK fpr) (buf buf' : Bytes) {sql sql' : List UInt8} (l c l' c' : Int)
include hA hf

theorem parse_map_sentence {f : Hm} (hh : StrHom f) (hk : f.k = 0) {g : Tok → Tok} (hg : ∀ t, tokValue Z 0 (g t).val = (tokValue Z 0 t.val).h f)
    (hs : ∀ t, tsym (g t) = tsym t) (hse : (sentence (tokensOf fpr sql)).map g = (sentence (tokensOf fpr sql')).map g) :
    ((∃ o, parse A fpr buf sql (newResult l c) = some o ∧ o.res.isValid = true) ↔
      ∃ o, parse A fpr buf' sql' (newResult l' c') = some o ∧ o.res.isValid = true) ∧
    ∀ o o', parse A fpr buf sql (newResult l c) = some o → parse A fpr buf' sql' (newResult l' c') = some o' → o.res.isValid = true →
      o'.res.isValid = true → hL f o.res.stmts = hL f o'.res.stmts ∧ o.res.params.length = o'.res.params.length := by
  constructor
  · rw [parse_valid_iff hA hf, parse_valid_iff hA hf]
    constructor
    · rintro ⟨t, h1, h2, h3⟩
      obtain ⟨t', g1, g2, g3⟩ := derives_map hh hk hg hs hse h1
      refine ⟨t', g1, by omega, fun h => h3 ?_⟩
      rw [h] at g3
      simpa using g3.symm
    · rintro ⟨t, h1, h2, h3⟩
      obtain ⟨t', g1, g2, g3⟩ := derives_map hh hk hg hs hse.symm h1
      refine ⟨t', g1, by omega, fun h => h3 ?_⟩
      rw [h] at g3
      simpa using g3.symm
  · intro o o' h h' hv hv'
    obtain ⟨t, ht, _⟩ := C11_valid_is_grammatical hA hf buf sql l c o h hv
    obtain ⟨t', g1, g2, g3⟩ := derives_map hh hk hg hs hse ht
    rw [parse_value hA hf buf sql l c o h hv ht, parse_value hA hf buf' sql' l' c' o' h' hv' g1] at g3
    simp only [Option.map_some, Option.some.injEq, astL, hL_E0_h] at g3
    refine ⟨g3.symm, ?_⟩
    rw [(C18_parameters_in_source_order hA hf buf sql l c o h hv).1, (C18_parameters_in_source_order hA hf buf' sql' l' c' o' h' hv').1]
    have := congrArg (List.countP fun t => decide (tsym t = T.QMARK)) hse
    simp only [List.countP_map, Function.comp_def, hs] at this
    exact this

theorem parse_map {f : Hm} (hh : StrHom f) (hk : f.k = 0) {g : Tok → Tok} (hg : ∀ t, tokValue Z 0 (g t).val = (tokValue Z 0 t.val).h f)
    (hs : ∀ t, tsym (g t) = tsym t) (he : (tokensOf fpr sql).map g = (tokensOf fpr sql').map g) :
    ((∃ o, parse A fpr buf sql (newResult l c) = some o ∧ o.res.isValid = true) ↔
      ∃ o, parse A fpr buf' sql' (newResult l' c') = some o ∧ o.res.isValid = true) ∧
    ∀ o o', parse A fpr buf sql (newResult l c) = some o → parse A fpr buf' sql' (newResult l' c') = some o' → o.res.isValid = true →
      o'.res.isValid = true → hL f o.res.stmts = hL f o'.res.stmts ∧ o.res.params.length = o'.res.params.length := by
  refine parse_map_sentence hA hf buf buf' l c l' c' hh hk hg hs ?_
  unfold sentence
  rw [← takeWhile_map hs, ← takeWhile_map hs, he]

/-- Two texts whose tokens have the same codes and values are both valid or both not, and have the same statements. -/
theorem parse_same_tokens (h1 : (tokensOf fpr sql).map Tok.code = (tokensOf fpr sql').map Tok.code)
    (h2 : (tokensOf fpr sql).map Tok.val = (tokensOf fpr sql').map Tok.val) :
    ((∃ o, parse A fpr buf sql (newResult l c) = some o ∧ o.res.isValid = true) ↔
      ∃ o, parse A fpr buf' sql' (newResult l' c') = some o ∧ o.res.isValid = true) ∧
    ∀ o o', parse A fpr buf sql (newResult l c) = some o → parse A fpr buf' sql' (newResult l' c') = some o' → o.res.isValid = true →
      o'.res.isValid = true → astL o.res.stmts = astL o'.res.stmts ∧ o.res.params.length = o'.res.params.length :=
  parse_map hA hf buf buf' l c l' c' (strHom_id 0) rfl (g := cvTok) cvTok_val (fun _ => rfl) (map_of_cv (p := id) (fun _ => rfl) h1 h2)

/-- C03. Two texts that differ only in the case of letters are both valid or both not. If they are, their statements differ only in the case
of strings (names and literals), and they have the same number of parameters. -/
theorem C03_case_insensitive_parse (h : SameUpToCase (cText sql) (cText sql')) :
    ((∃ o, parse A fpr buf sql (newResult l c) = some o ∧ o.res.isValid = true) ↔
      ∃ o, parse A fpr buf' sql' (newResult l' c') = some o ∧ o.res.isValid = true) ∧
    ∀ o o', parse A fpr buf sql (newResult l c) = some o → parse A fpr buf' sql' (newResult l' c') = some o' → o.res.isValid = true →
      o'.res.isValid = true → astUpper o.res.stmts = astUpper o'.res.stmts ∧ o.res.params.length = o'.res.params.length := by
  obtain ⟨T, st, T', st', h1, h2, h3, _, h5⟩ := C03_case_insensitive_tokens fpr [] _ _ (cText_clean sql) h
  obtain ⟨s1, e1⟩ := tokensOf_spec fpr [] sql
  obtain ⟨s2, e2⟩ := tokensOf_spec fpr [] sql'
  rw [h1] at e1
  rw [h2] at e2
  simp only [Option.some.injEq, Prod.mk.injEq] at e1 e2
  rw [e1.1, e2.1] at h3 h5
  exact parse_map hA hf buf buf' l c l' c' strHom_upper rfl (g := upTok) upTok_val (fun _ => rfl) (map_of_cv (p := TokVal.upper) (fun _ => rfl) h3 h5)

/-- C07. A run of blanks between two tokens (the scanner is in front of it after `k` calls), replaced by another one, changes neither validity
nor statements. -/
theorem C07_whitespace_parse (k : Nat) (p w w' v b : Bytes) (T : List Tok) (hs : cText sql = p ++ w ++ v) (hs' : cText sql' = p ++ w' ++ v)
    (hw : w ≠ []) (hwb : ∀ c ∈ w, c = 32 ∨ c = 9 ∨ c = 10) (hw' : w' ≠ []) (hwb' : ∀ c ∈ w', c = 32 ∨ c = 9 ∨ c = 10)
    (hbound : lexCalls fpr k (lexInit [] (p ++ w ++ v)) = some (T, ⟨.initial, b, w ++ v⟩)) :
    ((∃ o, parse A fpr buf sql (newResult l c) = some o ∧ o.res.isValid = true) ↔
      ∃ o, parse A fpr buf' sql' (newResult l' c') = some o ∧ o.res.isValid = true) ∧
    ∀ o o', parse A fpr buf sql (newResult l c) = some o → parse A fpr buf' sql' (newResult l' c') = some o' → o.res.isValid = true →
      o'.res.isValid = true → astL o.res.stmts = astL o'.res.stmts ∧ o.res.params.length = o'.res.params.length := by
  obtain ⟨T, st, T', st', h1, h2, h3, h4⟩ := C07_whitespace_insignificant fpr [] b p w w' v k T (by rw [← hs]; exact cText_clean sql) hw hwb hw' hwb' hbound
  obtain ⟨s1, e1⟩ := tokensOf_spec fpr [] sql
  obtain ⟨s2, e2⟩ := tokensOf_spec fpr [] sql'
  rw [hs, h1] at e1
  rw [hs', h2] at e2
  simp only [Option.some.injEq, Prod.mk.injEq] at e1 e2
  rw [e1.1, e2.1] at h3 h4
  exact parse_same_tokens hA hf buf buf' l c l' c' h3 h4

end

/-- Concretely: the texts of C03 and C07 may be these, and are valid. -/
example : SameUpToCase (cText (txt b!"sElEcT Aa fRoM t")) (cText (txt b!"SELECT aA FROM T")) := by unfold SameUpToCase; decide
example : (run0 b!"sElEcT Aa fRoM t").map view = some ⟨true, 1, none, 0, 0⟩ := parse_of_eval (f := 20) (q := Option.map view) (by decide +kernel)

end Verif.Props

import Verif.Props.Prefix
import Verif.Props.Comment
import Verif.Props.Inject
import Verif.Props.Nesting
import Verif.Props.RoundTrip
import Verif.Lex.Dash
import Verif.Sql.Spellable
/-!
# C66: "unexpected $end" means that the text is incomplete

A program that reads statements from a user can decide by the message whether to ask for more lines.
-/
namespace Verif.Props
open Verif.Lex Verif.LR Verif.Sem Verif.Api Verif.Sql

theorem name_end : (List.range 199).all (fun a => a == 0 || decide ((symName a).take 2 ≠ b!"$e") && decide (2 ≤ (symName a).length)) = true := by decide +kernel

theorem end_only {s x : Nat} (hx : x < 199) (h : b!"syntax error, unexpected $end" <+: syntaxMsg s x) : x = 0 := by
  refine Classical.byContradiction fun h0 => ?_
  have := List.all_eq_true.1 name_end x (List.mem_range.2 hx)
  rw [Bool.or_eq_true, Bool.and_eq_true] at this
  rcases this with h' | ⟨h1, h2⟩
  · exact h0 (by simpa using h')
  · have h1 := of_decide_eq_true h1
    have h2 := of_decide_eq_true h2
    obtain ⟨w, hw⟩ := h
    apply h1
    unfold syntaxMsg at hw
    rw [show (b!"syntax error, unexpected $end" : Bytes) = b!"syntax error, unexpected " ++ b!"$end" from rfl, List.append_assoc, List.append_assoc] at hw
    have hw := congrArg (List.take 2) (List.append_cancel_left hw)
    rw [List.take_append_of_le_length h2] at hw
    rw [← hw]
    rfl

theorem msg_end {s x : Nat} (hx : x = 0) : b!"syntax error, unexpected $end" <+: syntaxMsg s x := by
  subst hx
  unfold syntaxMsg
  have : symName 0 = b!"$end" := by decide
  rw [this]
  exact ⟨_, rfl⟩

/-- The tokens before the first end of input. -/
theorem split_sentence {ts pre rest : List Tok} {t : Tok} (h : ts = pre ++ t :: rest) (hp : pre <+: sentence ts) :
    (tsym t = 0 ∧ sentence ts = pre) ∨ (tsym t ≠ 0 ∧ pre ++ [t] <+: sentence ts) := by
  have hne : ∀ x ∈ pre, (tsym x != 0) = true := by
    intro x hx
    have := hp.subset hx
    exact List.all_eq_true.1 (List.all_takeWhile (p := fun t : Tok => tsym t != 0) (l := ts)) x this
  unfold sentence
  rw [h, List.takeWhile_append_of_pos hne, List.takeWhile_cons]
  by_cases h0 : tsym t = 0
  · rw [if_neg (by simp [h0])]; exact .inl ⟨h0, by simp⟩
  · rw [if_pos (by simp [h0])]; exact .inr ⟨h0, by simp⟩

section
variable {A : Alloc} {fpr : Int} (hf : FprOK fpr) (buf : Bytes) (sql : List UInt8) (l c : Int)
include hf

/-- C66. Let a text be rejected with a syntax error. The message says `unexpected $end` just if the text is incomplete: there are tokens that, appended
to those of the text, make a sentence of the grammar (with the precedences). -/
theorem C66_incomplete_iff (o : ParseOut) (h : parse A fpr buf sql (newResult l c) = some o) (m : Bytes) (hm : message o.res = some m)
    (hsy : b!"syntax error, " <+: m) :
    b!"syntax error, unexpected $end" <+: m ↔ ∃ w T, Derives (sentence (tokensOf fpr sql) ++ w) T := by
  obtain ⟨pre, t, rest, h1, h2, h3, ⟨T, hT, hp⟩, ⟨s, h5⟩, _⟩ := C48_error_is_final hf buf sql l c o h m hm hsy
  rcases split_sentence h1 h2 with ⟨k0, k1⟩ | ⟨k0, k1⟩
  · refine ⟨fun _ => ?_, fun _ => ?_⟩
    · obtain ⟨w, hw⟩ := hp
      exact ⟨w, T, by rw [k1, hw]; exact hT⟩
    · rw [h5]; exact msg_end k0
  · refine ⟨fun he => ?_, fun ⟨w, T', hT'⟩ => ?_⟩
    · rw [h5] at he; exact absurd (end_only (tsym_lt t) he) k0
    · refine absurd ?_ (h3 _ T' hT')
      obtain ⟨v, hv⟩ := k1
      refine ⟨(v ++ w).map tsym ++ [Verif.LR.T.eof], ?_⟩
      rw [← hv]
      simp

/-- … and it is really incomplete: its own tokens are no sentence. -/
theorem C66_not_yet (o : ParseOut) (h : parse A fpr buf sql (newResult l c) = some o) (m : Bytes) (hm : message o.res = some m)
    (hsy : b!"syntax error, " <+: m) : ¬ ∃ T, Derives (sentence (tokensOf fpr sql)) T := by
  rintro ⟨T', hT'⟩
  obtain ⟨pre, t, rest, h1, h2, h3, _, _, _⟩ := C48_error_is_final hf buf sql l c o h m hm hsy
  refine h3 _ T' hT' ?_
  rcases split_sentence h1 h2 with ⟨k0, k1⟩ | ⟨k0, v, hv⟩
  · rw [k1]; exact ⟨[], by simp [k0]⟩
  · exact ⟨v.map tsym ++ [Verif.LR.T.eof], by rw [← hv]; simp⟩

/-- No text whose tokens are a sentence is rejected with a syntax error. -/
theorem no_syntax_error {T : Tree} (hT : Derives (sentence (tokensOf fpr sql)) T) (o : ParseOut) (h : parse A fpr buf sql (newResult l c) = some o)
    (m : Bytes) (hm : message o.res = some m) : ¬ b!"syntax error, " <+: m :=
  fun hsy => C66_not_yet hf buf sql l c o h m hm hsy ⟨T, hT⟩

end

/-- The bytes `--⏎`. -/
def lineEnd : List UInt8 := [45, 45, 10]

theorem cText_nonblank {v : List UInt8} (h : ∀ x, (cText v).head? = some x → ¬ (x = 32 ∨ x = 9 ∨ x = 10)) : NoBlank (cText v) := h

/-- The terminals of a text continued on a new line, after an empty comment. -/
theorem continued_tokens {fpr : Int} {a v : List UInt8} {ts : List Tok} (h : ScannedTo fpr a ts) (h0 : (0 : UInt8) ∉ a) (hq : a.getLast? ≠ some 45)
    (hv : NoBlank (cText v)) :
    (tokensOf fpr (a ++ lineEnd ++ v)).map Tok.code = ts.map Tok.code ++ (tokensOf fpr v).map Tok.code := by
  obtain ⟨buf, acc, hr⟩ := scanned_run h
  have hq' : (cText a).getLast? ≠ some 45 := by
    rw [cText_all h0, List.getLast?_map]
    cases hx : a.getLast? with
    | none => simp
    | some b =>
      simp only [Option.map_some, ne_eq, Option.some.injEq]
      intro h'
      exact hq (by rw [hx]; congr 1; exact UInt8.toNat_inj.1 h')
  have hr2 := hr.dash (v := 45 :: 10 :: cText v) (cText_clean a) hq' rfl
  have e1 : cText (a ++ lineEnd ++ v) = cText a ++ 45 :: (45 :: 10 :: cText v) := by
    rw [List.append_assoc, cText_append h0, cText_append (by decide), cText_all h0]
    rfl
  have hcl := cText_clean (a ++ lineEnd ++ v)
  rw [e1] at hcl
  rw [tokensOf_H, e1]
  have := (hr2.lexH hcl).1
  have e : lexInit [] (cText a ++ 45 :: (45 :: 10 :: cText v)) =
    ⟨(lexInit [] (cText a)).sc, (lexInit [] (cText a)).buf, (lexInit [] (cText a)).rest ++ 45 :: (45 :: 10 :: cText v)⟩ := rfl
  rw [e, this]
  simp only [List.map_append]
  congr 1
  have hcd : Clean (45 :: 45 :: 10 :: cText v) := fun b hb => hcl b (by simp only [List.mem_append]; exact .inr hb)
  have k1 := congrArg (List.map Prod.fst) (lexH_acc fpr _ ⟨.initial, buf, 45 :: 45 :: 10 :: cText v⟩ acc [] hcd (Nat.le_refl _)).1
  simp only [List.map_map, Function.comp_def, Tok.cv] at k1
  obtain ⟨T1, st1, T2, st2, g1, g2, g3, _⟩ := C38_comment_exact fpr buf (10 :: cText v) (fun b hb => hcd b (by simp only [List.mem_cons] at hb ⊢; exact .inr (.inr hb))) [] (some (cText v)) (.newline hv)
  have k2 : (lexH fpr ⟨.initial, buf, 45 :: 45 :: 10 :: cText v⟩ []).1 = T1 := by
    have e2 : lexInit buf (b!"--" ++ 10 :: cText v) = ⟨.initial, buf, 45 :: 45 :: 10 :: cText v⟩ := rfl
    rw [e2, lexAll_eq fpr _ hcd] at g1
    exact congrArg Prod.fst (Option.some.inj g1)
  obtain ⟨ts', s1, s2, q1, q2, _⟩ := C21_tokens_independent_of_buffer fpr buf [] v
  have k3 : T2 = tokensOf fpr v := by
    simp only [Option.getD_some] at g2
    rw [g2] at q1
    cases q1
    rw [lexAll_eq fpr _ (cText_clean v)] at q2
    rw [tokensOf_H]; exact (congrArg Prod.fst (Option.some.inj q2)).symm
  rw [k2, g3, k3] at k1
  exact k1

theorem sentence_map (ts : List Tok) : (sentence ts).map tsym = (ts.map tsym).takeWhile (fun x => x != 0) := by
  unfold sentence
  rw [List.takeWhile_map]
  rfl

theorem map_tsym_of_code {a b : List Tok} (h : a.map Tok.code = b.map Tok.code) : a.map tsym = b.map tsym := by
  have : ∀ l : List Tok, l.map tsym = (l.map Tok.code).map tokSym := fun l => by rw [List.map_map]; rfl
  rw [this, this, h]

section
variable {A : Alloc} {fpr : Int} (hf : FprOK fpr) (buf : Bytes) (sql : List UInt8) (l c : Int)
include hf

/-- C66, for texts. Let a text be rejected with `unexpected $end`, be scanned to its end, without NUL, and not end in a dash. Then there is a
continuation: a text that, after `--⏎`, completes it to a sentence of the grammar, which is no longer rejected with a syntax error. -/
theorem C66_can_be_completed (ts : List Tok) (hT : ScannedTo fpr sql ts) (h0 : (0 : UInt8) ∉ sql) (hq : sql.getLast? ≠ some 45)
    (o : ParseOut) (h : parse A fpr buf sql (newResult l c) = some o) (m : Bytes) (hm : message o.res = some m)
    (hsy : b!"syntax error, unexpected $end" <+: m) :
    ∃ more : List UInt8, (0 : UInt8) ∉ more ∧ (∃ T, Derives (sentence (tokensOf fpr (sql ++ lineEnd ++ more))) T) ∧
      ∀ o', parse A fpr buf (sql ++ lineEnd ++ more) (newResult l c) = some o' → ∀ m', message o'.res = some m' → ¬ b!"syntax error, " <+: m' := by
  have hsy' : b!"syntax error, " <+: m := List.IsPrefix.trans (by decide) hsy
  obtain ⟨w, T, hD⟩ := (C66_incomplete_iff hf buf sql l c o h m hm hsy').1 hsy
  obtain ⟨ws, e1, hok, hk, hh⟩ := write_all (as := w.map tsym) (by
    intro a ha
    obtain ⟨x, hx, rfl⟩ := List.mem_map.1 ha
    exact derives_spell hD x (by simp [hx]))
  have hb := render_bytes hok hk
  have ec := cText_ofNat hb
  have hv : NoBlank (cText ((render ws).map UInt8.ofNat)) := by rw [ec]; exact hh
  have hsp := tokensOf_text (fpr := fpr) (sql := (render ws).map UInt8.ofNat) (by rw [ec]; exact render_text hok hk)
  have hsy2 := spelled_syms hsp
  have htok := map_tsym_of_code (a := tokensOf fpr (sql ++ lineEnd ++ (render ws).map UInt8.ofNat)) (b := ts ++ tokensOf fpr ((render ws).map UInt8.ofNat))
    (by rw [continued_tokens hT h0 hq hv]; simp)
  have hmain : (sentence (tokensOf fpr (sql ++ lineEnd ++ (render ws).map UInt8.ofNat))).map tsym = (sentence (tokensOf fpr sql) ++ w).map tsym := by
    rw [sentence_map, htok, List.map_append, List.takeWhile_append_of_pos, ← sentence_map, hsy2, e1, scanned_tokens hT, List.map_append]
    intro x hx
    obtain ⟨y, hy, rfl⟩ := List.mem_map.1 hx
    simpa using hT.2 y hy
  obtain ⟨T', hD', _⟩ := hD.same hmain
  refine ⟨_, ?_, ⟨T', hD'⟩, fun o' ho' m' hm' => no_syntax_error hf buf _ l c hD' o' ho' m' hm'⟩
  intro hz
  obtain ⟨z, hz1, hz2⟩ := List.mem_map.1 hz
  obtain ⟨z1, z2⟩ := hb z hz1
  have := congrArg UInt8.toNat hz2
  rw [UInt8.toNat_ofNat'] at this
  have : z % 256 = 0 := this
  omega

end

/-- Concretely: `SELECT a FROM` is scanned to its end, has no NUL, does not end in a dash, and is rejected at the end of input; … -/
example : ScannedTo 64 (txt b!"SELECT a FROM")
    [⟨313, .none, [b!"SELECT"]⟩, ⟨258, .sval b!"a", [b!" ", b!"a"]⟩, ⟨349, .none, [b!" ", b!"FROM"]⟩] ∧ (0 : UInt8) ∉ txt b!"SELECT a FROM" ∧ (txt b!"SELECT a FROM").getLast? ≠ some 45 :=
  ⟨⟨⟨3, [], [], by decide +kernel, by decide⟩, by decide +kernel⟩, by decide, by decide⟩
example : (run0 b!"SELECT a FROM").map view = some ⟨false, 0, some b!"syntax error, unexpected $end, expecting IDENTIFIER or '('", 0, 9⟩ := C48_end_of_input.1
/-- … and completed by `t`. -/
example : (run0 b!"SELECT a FROM--\nt").map view = some ⟨true, 1, none, 0, 0⟩ := parse_of_eval (f := 40) (q := Option.map view) (by decide +kernel)
/-- An unterminated string literal is an end of input for the scanner, not for the author: it is reported the same. -/
example : (run0 b!"SELECT a FROM 't").map view = some ⟨false, 0, some b!"syntax error, unexpected $end, expecting IDENTIFIER or '('", 0, 15⟩ :=
  parse_of_eval (f := 40) (q := Option.map view) (by decide +kernel)

end Verif.Props

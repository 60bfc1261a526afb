import Verif.Props.Only
import Verif.Sql.BindStmt
/-!
# C65: parameters stand for literals

`Verif.Sql.Bind` defines what it means to put literals in the place of parameters: `bindW f` in words, `bindPL f` in the objects of a result.
-/
namespace Verif.Props
open Verif.Lex Verif.LR Verif.Sem Verif.Api Verif.Sql

/-- The tokens `us` are the tokens `ts` with those of a literal in the place of every `?`: of the literal `f k` in the place of the first one, `f (k + 1)` of the second, and
so on. All others are the same, up to where they stand in the text. -/
inductive BoundTo (f : Nat → Lit) : Nat → List Tok → List Tok → Prop where
  | nil (k : Nat) : BoundTo f k [] []
  | same {k : Nat} {t u : Tok} {ts us : List Tok} : tsym t ≠ T.QMARK → tsym u = tsym t → u.val = t.val → BoundTo f k ts us → BoundTo f k (t :: ts) (u :: us)
  | bound {k : Nat} {t : Tok} {ts ls us : List Tok} : tsym t = T.QMARK → Spelled (f k).words ls → BoundTo f (k + 1) ts us → BoundTo f k (t :: ts) (ls ++ us)

theorem spelled_concat : ∀ {ws us : List Word} {ts ls : List Tok}, Spelled ws ts → Spelled us ls → Spelled (ws ++ us) (ts ++ ls)
  | [], _, [], _, _, h => h
  | [], _, _ :: _, _, h, _ => h.elim
  | _ :: _, _, [], _, h, _ => h.elim
  | _ :: ws, _, _ :: ts, _, h, h' => ⟨h.1, h.2.1, spelled_concat (ws := ws) (ts := ts) h.2.2 h'⟩

theorem known_qmark {a : Nat} (h : Known a) : a ≠ T.QMARK := by
  intro e
  subst e
  revert h
  simp only [Known]
  decide +kernel

/-- No keyword is the question mark. -/
def NoQ (ws : List Word) : Prop := ∀ a, Word.kw a ∈ ws → a ≠ T.QMARK

theorem BoundTo.spelled {f : Nat → Lit} {k : Nat} {ts us : List Tok} (h : BoundTo f k ts us) : ∀ {ws : List Word}, Spelled ws ts → Numbered k ws → NoQ ws → Spelled (bindW f ws) us := by
  induction h with
  | nil k =>
    intro ws hs _ _
    cases ws with
    | nil => trivial
    | cons w ws => exact hs.elim
  | same hq h1 h2 _ ih =>
    intro ws hs hn hk
    cases ws with
    | nil => exact hs.elim
    | cons w ws =>
      obtain ⟨e1, e2, hs⟩ := hs
      have hk' : NoQ ws := fun a ha => hk a (by simp [ha])
      cases w with
      | par i => exact absurd e1 hq
      | _ => exact ⟨h1.trans e1, h2.trans e2, ih hs hn hk'⟩
  | bound hq hl _ ih =>
    intro ws hs hn hk
    cases ws with
    | nil => exact hs.elim
    | cons w ws =>
      obtain ⟨e1, e2, hs⟩ := hs
      have hk' : NoQ ws := fun a ha => hk a (by simp [ha])
      rw [hq] at e1
      cases w with
      | par i =>
        obtain ⟨rfl, hn⟩ := hn
        exact spelled_concat hl (ih hs hn hk')
      | kw a => exact absurd e1.symm (hk a (by simp))
      | _ => exact absurd e1 (by simp only [Word.sym]; decide)

/-- The tokens of words and those of the words with literals in the place of the parameters. -/
theorem BoundTo.of_words {f : Nat → Lit} : ∀ {ws : List Word} {k : Nat} {ts us : List Tok}, Spelled ws ts → Numbered k ws → NoQ ws → Spelled (bindW f ws) us → BoundTo f k ts us
  | [], k, [], [], _, _, _, _ => .nil k
  | [], _, _ :: _, _, h, _, _, _ => h.elim
  | [], _, [], _ :: _, _, _, _, h => h.elim
  | _ :: _, _, [], _, h, _, _, _ => h.elim
  | .par i :: ws, k, t :: ts, us, ⟨e1, e2, hs⟩, ⟨e, hn⟩, hk, h => by
    subst e
    obtain ⟨a, b, rfl, ha, hb⟩ := spelled_append (ws := (f i).words) (us := bindW f ws) h
    exact .bound e1 ha (of_words hs hn (fun a ha => hk a (by simp [ha])) hb)
  | .kw a :: ws, k, t :: ts, us, ⟨e1, e2, hs⟩, hn, hk, h => by
    cases us with
    | nil => exact h.elim
    | cons u us => exact .same (by rw [e1]; exact hk a (by simp)) (h.1.trans e1.symm) (h.2.1.trans e2.symm) (of_words hs hn (fun a ha => hk a (by simp [ha])) h.2.2)
  | .id x :: ws, k, t :: ts, us, ⟨e1, e2, hs⟩, hn, hk, h => by
    cases us with
    | nil => exact h.elim
    | cons u us => exact .same (by rw [e1]; simp only [Word.sym]; decide) (h.1.trans e1.symm) (h.2.1.trans e2.symm) (of_words hs hn (fun a ha => hk a (by simp [ha])) h.2.2)
  | .str x :: ws, k, t :: ts, us, ⟨e1, e2, hs⟩, hn, hk, h => by
    cases us with
    | nil => exact h.elim
    | cons u us => exact .same (by rw [e1]; simp only [Word.sym]; decide) (h.1.trans e1.symm) (h.2.1.trans e2.symm) (of_words hs hn (fun a ha => hk a (by simp [ha])) h.2.2)
  | .int x :: ws, k, t :: ts, us, ⟨e1, e2, hs⟩, hn, hk, h => by
    cases us with
    | nil => exact h.elim
    | cons u us => exact .same (by rw [e1]; simp only [Word.sym]; decide) (h.1.trans e1.symm) (h.2.1.trans e2.symm) (of_words hs hn (fun a ha => hk a (by simp [ha])) h.2.2)
  | .flt x :: ws, k, t :: ts, us, ⟨e1, e2, hs⟩, hn, hk, h => by
    cases us with
    | nil => exact h.elim
    | cons u us => exact .same (by rw [e1]; simp only [Word.sym]; decide) (h.1.trans e1.symm) (h.2.1.trans e2.symm) (of_words hs hn (fun a ha => hk a (by simp [ha])) h.2.2)

theorem writes_noq {a : Nat} {x y : Bytes} (h : Writes (.kw a) x y) : a ≠ T.QMARK := by
  cases h with
  | keyword h => exact fun e => absurd (List.all_eq_true.1 (by decide +kernel : kwTexts.all (fun p => p.1 != T.QMARK) = true) _ h) (by simp [e])
  | punct h => exact fun e => absurd (List.all_eq_true.1 (by decide +kernel : punctTexts.all (fun p => p.1 != T.QMARK) = true) _ h) (by simp [e])
  | _ => decide

theorem text_noq {ws : List Word} {x : Bytes} (h : Text ws x) : NoQ ws := by
  induction h with
  | nil => intro a ha; simp at ha
  | cons _ hw _ ih =>
    intro a ha
    rcases List.mem_cons.1 ha with rfl | ha
    · exact writes_noq hw
    · exact ih a ha

theorem spelled_qmarks : ∀ {ws : List Word} {ts : List Tok}, Spelled ws ts → NoQ ws → qmarks ts = (pars ws).length
  | [], [], _, _ => rfl
  | [], _ :: _, h, _ => h.elim
  | _ :: _, [], h, _ => h.elim
  | w :: ws, t :: ts, ⟨e, _, hs⟩, hk => by
    have ih := spelled_qmarks hs (fun a ha => hk a (by simp [ha]))
    simp only [qmarks] at ih
    have hk0 := fun a (h : w = .kw a) => hk a (by simp [h])
    cases w with
    | par i => simp only [qmarks, List.countP_cons, e, ih, pars, Word.sym, List.length_cons, decide_true, if_true]
    | kw a => simp [qmarks, List.countP_cons, e, ih, pars, Word.sym, hk0 a rfl]
    | _ => simp only [qmarks, List.countP_cons, e, ih, pars, Word.sym]; rfl

theorem count_qmarks {fpr : Int} {ws : List Word} {sql : List UInt8} (h : Text ws (cText sql)) : qmarks (sentence (tokensOf fpr sql)) = (pars ws).length :=
  spelled_qmarks (tokensOf_text h) (text_noq h)

section
variable {A A' : Alloc} (hA : Distinct A) (hA' : Distinct A') {fpr fpr' : Int} (hf : FprOK fpr) (hf' : FprOK fpr') (buf buf' : Bytes) (sql sql' : List UInt8) (l c l' c' : Int)
include hA hA' hf hf'

/-- C65. Let a text be accepted, and let the tokens of a second text be those of the first with literals in the place of the parameters: `f 0` for the first `?`, `f 1` for the
second, and so on. Then the second text is accepted too, it has no parameters, and its statements are those of the first with the same literals in the place of the parameter
expressions: the literal `f k` where `parameters()[k]` is, field by field. Only a text of more than 97 tokens may fail, and then because the stack of the parser is exhausted. -/
theorem C65_bind (f : Nat → Lit) (o : ParseOut) (h : parse A fpr buf sql (newResult l c) = some o) (hv : o.res.isValid = true)
    (hb : BoundTo f 0 (sentence (tokensOf fpr sql)) (sentence (tokensOf fpr' sql'))) :
    ∃ o', parse A' fpr' buf' sql' (newResult l' c') = some o' ∧
      ((o'.res.isValid = true ∧ astL o'.res.stmts = bindPL f (astL o.res.stmts) ∧ o'.res.params = []) ∨
       (o'.res.isValid = false ∧ message o'.res = some b!"memory exhausted" ∧ 97 < (sentence (tokensOf fpr' sql')).length)) := by
  obtain ⟨s, b, hs, hn, ha⟩ := C41_only_scripts hA hf buf sql l c o h hv
  have hk : NoQ (s.text b) := fun a h => known_qmark (s.text_kn b a h)
  have hs' : Spelled ((s.bind f).text b) (sentence (tokensOf fpr' sql')) := by rw [Script.bind_text]; exact hb.spelled hs hn hk
  have hp : pars ((s.bind f).text b) = [] := by rw [Script.bind_text]; exact bindW_pars f _
  obtain ⟨o', ho', ⟨hv', ha'⟩ | ⟨hv', hm, hl⟩⟩ := roundtrip hA' hf' buf' sql' l' c' (s.bind f) b hs' ((numbered_iff _ _).2 (by rw [hp]; rfl))
  · refine ⟨o', ho', .inl ⟨hv', ?_, ?_⟩⟩
    · rw [ha', ha, Script.bind_vals]
    · have := (C18_parameters_in_source_order hA' hf' buf' sql' l' c' o' ho' hv').1
      rw [spelled_qmarks hs' (fun a h => known_qmark ((s.bind f).text_kn b a h)), hp] at this
      exact List.length_eq_zero_iff.1 this
  · exact ⟨o', ho', .inr ⟨hv', hm, by rw [spelled_length hs']; exact hl⟩⟩

/-- C65 for texts written from words: the second is a text of the same words with those of the literals in the place of the parameters. -/
theorem C65_bind_text (f : Nat → Lit) (o : ParseOut) (h : parse A fpr buf sql (newResult l c) = some o) (hv : o.res.isValid = true)
    (ws : List Word) (ht : Text ws (cText sql)) (hn : Numbered 0 ws) (ht' : Text (bindW f ws) (cText sql')) :
    ∃ o', parse A' fpr' buf' sql' (newResult l' c') = some o' ∧
      ((o'.res.isValid = true ∧ astL o'.res.stmts = bindPL f (astL o.res.stmts) ∧ o'.res.params = []) ∨
       (o'.res.isValid = false ∧ message o'.res = some b!"memory exhausted" ∧ 97 < (bindW f ws).length)) := by
  have hs' := tokensOf_text (fpr := fpr') ht'
  have := C65_bind hA hA' hf hf' buf buf' sql sql' l c l' c' f o h hv (.of_words (tokensOf_text ht) hn (text_noq ht) hs')
  rwa [spelled_length hs'] at this
end

/-! ### Example -/

/-- `SELECT ? AS p FROM t WHERE x = ?` -/
def asked : Script := .one (.stmt (.query (.plain .none (.plain (.mk none false (.one (.param 0) (.as b!"p"))
  (.one (.base (.name ⟨none, b!"t"⟩ (.plain .none)))) (.some (.bin .eq (.col none b!"x") (.param 1))) .none) .none .none .none))) .none)
/-- The first parameter is to be the string `it's`, the others the number 42. -/
def answers : Nat → Lit
  | 0 => .str b!"it's"
  | _ => .num (.int 42)

theorem asked_render : render (asked.text false) = b!"SELECT ? AS \"p\" FROM \"t\" WHERE \"x\" = ? " := by decide +kernel
theorem bound_render : render (bindW answers (asked.text false)) = b!"SELECT 'it''s' AS \"p\" FROM \"t\" WHERE \"x\" = 42 " := by decide +kernel
theorem asked_ok : (∀ w ∈ asked.text false, w.Ok) ∧ (∀ w ∈ bindW answers (asked.text false), w.Ok) ∧ Numbered 0 (asked.text false) := by
  refine ⟨fun w hw => okB_ok (List.all_eq_true.1 (?_ : (asked.text false).all okB = true) w hw),
    fun w hw => okB_ok (List.all_eq_true.1 (?_ : (bindW answers (asked.text false)).all okB = true) w hw), rfl, rfl, trivial⟩ <;> decide +kernel

/-- What binding does to a parameter: it becomes the literal, its alias stays. -/
example : bindP answers ({ type := ExprType.kExprParameter, alias := str b!"p", ival := .int 0, ival2 := .idx 0 } : ExprV).v =
    ({ type := ExprType.kExprLiteralString, name := str b!"it's", alias := str b!"p" } : ExprV).v := by simp [bindP, ExprV.v, isParameter, paramNumber, literalFields, answers, Lit.r]

/-- The theorem applies to the two texts above: both are accepted, and the statements of the second are those of the first with the literals in the place of the parameters. -/
example {A : Alloc} (hA : Distinct A) {fpr : Int} (hf : FprOK fpr) (buf : Bytes) (l c : Int) :
    ∃ o o', parse A fpr buf ((render (asked.text false)).map UInt8.ofNat) (newResult l c) = some o ∧
      parse A fpr buf ((render (bindW answers (asked.text false))).map UInt8.ofNat) (newResult l c) = some o' ∧
      o.res.isValid = true ∧ o'.res.isValid = true ∧ o.res.params.length = 2 ∧ o'.res.params = [] ∧ astL o'.res.stmts = bindPL answers (astL o.res.stmts) := by
  have k2 : K (bindW answers (asked.text false)) := by rw [← Script.bind_text]; exact Script.text_kn _ _
  have t1 : Text (asked.text false) (cText ((render (asked.text false)).map UInt8.ofNat)) := by
    rw [cText_ofNat (render_bytes asked_ok.1 (asked.text_kn _))]; exact render_text asked_ok.1 (asked.text_kn _)
  have t2 : Text (bindW answers (asked.text false)) (cText ((render (bindW answers (asked.text false))).map UInt8.ofNat)) := by
    rw [cText_ofNat (render_bytes asked_ok.2.1 k2)]; exact render_text asked_ok.2.1 k2
  obtain ⟨o, h, ⟨hv, _⟩ | ⟨_, _, hl⟩⟩ := C23_round_trip hA hf buf _ l c asked false t1 asked_ok.2.2
  · obtain ⟨o', h', ⟨hv', ha, hp⟩ | ⟨_, _, hl⟩⟩ := C65_bind_text hA hA hf hf buf buf _ _ l c l c answers o h hv _ t1 asked_ok.2.2 t2
    · refine ⟨o, o', h, h', hv, hv', ?_, hp, ha⟩
      have hq := count_qmarks (fpr := fpr) t1
      have e : (pars (asked.text false)).length = 2 := by decide +kernel
      exact (C18_parameters_in_source_order hA hf buf _ l c o h hv).1.trans (hq.trans e)
    · exact absurd hl (by decide +kernel)
  · exact absurd hl (by decide +kernel)

end Verif.Props

import Verif.Sql.SourceLex
import Verif.Props.Only
import Verif.Props.ScanEnd
/-!
# C43: exactly which texts are accepted, and what they mean, byte by byte

`Verif.Sql.Source` says which words a text consists of: with blanks and comments, and where a text ends early. Together with C41: a text is accepted if and only if it is a text of
a script, and its statements are those of the script. Nothing in the statement refers to scanner or parser.
-/
namespace Verif.Props
open Verif.Lex Verif.LR Verif.Sem Verif.Api Verif.Sql

/-- The start condition of the scanner. -/
def modeOf (c : Bool) : SC := if c then .comment else .initial

theorem spelled_cv : ∀ {ws : List Word} {ts us : List Tok}, ts.map Tok.cv = us.map Tok.cv → (Spelled ws (sentence ts) ↔ Spelled ws (sentence us))
  | ws, [], [], _ => Iff.rfl
  | ws, [], _ :: _, h => by cases h
  | ws, _ :: _, [], h => by cases h
  | ws, t :: ts, u :: us, h => by
    simp only [List.map_cons, List.cons.injEq, Tok.cv, Prod.mk.injEq] at h
    have hs : tsym t = tsym u := by unfold tsym; rw [h.1.1]
    unfold sentence
    rw [List.takeWhile_cons, List.takeWhile_cons, hs]
    split
    · cases ws with
      | nil => exact Iff.rfl
      | cons w ws =>
        simp only [Spelled]
        rw [hs, h.1.2]
        exact and_congr_right fun _ => and_congr_right fun _ => spelled_cv h.2
    · exact Iff.rfl

variable {fpr : Int}

theorem lex_skip {st st' : LexSt} {acc acc' : List Bytes} (h : LRun fpr st acc [] st' acc') (hc : Clean st.rest) : (lexH fpr st acc).1 = (lexH fpr st' acc').1 := by
  rw [(h.lexH hc).1]; rfl

theorem lex_tok {st st' : LexSt} {acc acc' : List Bytes} {t : Tok} (h : LRun fpr st acc [t] st' acc') (hc : Clean st.rest) (ht : tsym t ≠ 0) :
    sentence (lexH fpr st acc).1 = t :: sentence (lexH fpr st' acc').1 := by
  rw [(h.lexH hc).1]
  show (t :: (lexH fpr st' acc').1).takeWhile _ = _
  rw [List.takeWhile_cons, if_pos (by simpa using ht)]
  rfl

theorem lex_nil {sc : SC} {buf : Bytes} {acc : List Bytes} : sentence (lexH fpr ⟨sc, buf, []⟩ acc).1 = [] := by
  rw [lexH_nil]; rfl

theorem lex_unknown {x buf : Bytes} {acc : List Bytes} (hc : Clean x) (h : Unknown x) : sentence (lexH fpr ⟨.initial, buf, x⟩ acc).1 = [] := by
  obtain ⟨h1, h2⟩ := hand_unknown h
  rw [lexH_ret0 (sc := .initial) (r := 188) (n := 1) hc h1 h2 (by rfl)]
  rfl

theorem lex_open {s buf : Bytes} {acc : List Bytes} (hc : Clean (39 :: double s)) : sentence (lexH fpr ⟨.initial, buf, 39 :: double s⟩ acc).1 = [] := by
  obtain ⟨buf', acc', h⟩ := run_openString (fpr := fpr) (s := s) (buf := buf) acc
  rw [lex_skip h hc, lex_nil]

theorem lex_big {d y buf : Bytes} {acc : List Bytes} (hc : Clean (d ++ y)) (h : TooBig d) (hy : Stops (fun c => Lex.isDigit c || c == 46) y) (hf : FprOK fpr) :
    (fpr < 0 → sentence (lexH fpr ⟨.initial, buf, d ++ y⟩ acc).1 = []) ∧
    (¬ fpr < 0 → ∃ t rest, sentence (lexH fpr ⟨.initial, buf, d ++ y⟩ acc).1 = t :: rest ∧ tsym t = 2) := by
  have h0 : fpr ≠ 0 := by rcases hf with rfl | h <;> omega
  have hr := int_run_bad fpr (buf := buf) (acc := acc) h.1 h.2.1 (stops_num hy) (strtoll_big h) h0
  constructor
  · intro hn
    rw [(hr.lexH hc).1]
    show (_ :: _).takeWhile _ = _
    rw [List.takeWhile_cons, if_neg]
    simp only [bne_iff_ne, Classical.not_not]
    exact tsym_end (by show fpr ≤ 0; omega)
  · intro hn
    have : fpr = 64 := by rcases hf with h | h; exact h; exact absurd h hn
    subst this
    exact ⟨_, _, lex_tok hr hc (by show tokSym 64 ≠ 0; decide +kernel), by show tokSym 64 = 2; decide +kernel⟩

/-- The text of words is scanned as these words. -/
theorem source_tokens (hf : FprOK fpr) {c : Bool} {ws : List Word} {x : Bytes} (h : Source fpr c ws x) :
    Clean x → ∀ buf acc, Spelled ws (sentence (lexH fpr ⟨modeOf c, buf, x⟩ acc).1) := by
  induction h with
  | done => intro _ buf acc; rw [lex_nil]; trivial
  | unknown h => intro hc buf acc; rw [show modeOf false = .initial from rfl, lex_unknown hc h]; trivial
  | openString => intro hc buf acc; rw [show modeOf false = .initial from rfl, lex_open hc]; trivial
  | tooBig h1 h2 h3 => intro hc buf acc; rw [show modeOf false = .initial from rfl, (lex_big hc h2 h3 hf).1 h1]; trivial
  | blanks hb _ ih =>
    intro hc buf acc
    exact (spelled_cv (lexH_blanks fpr acc hc hb).1).2 (ih (hc.sub fun b hb => List.mem_append_right _ hb) buf [])
  | word hw _ ih =>
    intro hc buf acc
    obtain ⟨t, buf', hr, h1, h2⟩ := hw.reads (fpr := fpr) buf acc
    rw [show modeOf false = .initial from rfl, lex_tok hr hc (by rw [h1]; exact hw.sym_pos)]
    exact ⟨h1, h2, ih (hc.sub fun b hb => List.mem_append_right _ hb) buf' []⟩
  | comment _ ih =>
    intro hc buf acc
    rw [show modeOf false = .initial from rfl, lex_skip (run_comment acc) hc]
    exact ih (hc.sub fun b hb => by simp [hb]) buf _
  | line h1 h2 h3 h4 h5 _ ih =>
    intro hc buf acc
    rw [show modeOf true = .comment from rfl, lex_skip (run_line h1 h2 h3 ⟨h4, h5⟩ acc) hc]
    exact ih (hc.sub fun b hb => by simp [hb]) buf _
  | newline h1 _ ih =>
    intro hc buf acc
    rw [show modeOf true = .comment from rfl, lex_skip (run_newline h1 acc) hc]
    exact ih (hc.sub fun b hb => by simp [hb]) buf _
  | onwards h1 h2 h3 h4 _ ih =>
    intro hc buf acc
    rw [show modeOf true = .comment from rfl, lex_skip (run_onwards h1 h2 h3 h4 acc) hc]
    exact ih (hc.sub fun b hb => by simp [hb]) buf _
  | currentRow h1 h2 h3 h4 _ ih =>
    intro hc buf acc
    obtain ⟨t, hr, k1, k2⟩ := run_currentRow (fpr := fpr) (buf := buf) h1 h2 h3 h4 acc
    rw [show modeOf true = .comment from rfl, lex_tok hr hc (by rw [k1]; decide)]
    exact ⟨k1, k2, ih (hc.sub fun b hb => by simp [hb]) buf _⟩
  | characterVarying h1 h2 h3 h4 _ ih =>
    intro hc buf acc
    obtain ⟨t, hr, k1, k2⟩ := run_charVarying (fpr := fpr) (buf := buf) h1 h2 h3 h4 acc
    rw [show modeOf true = .comment from rfl, lex_tok hr hc (by rw [k1]; decide)]
    exact ⟨k1, k2, ih (hc.sub fun b hb => by simp [hb]) buf _⟩

theorem spelled_nil {ws : List Word} (h : Spelled ws []) : ws = [] := by cases ws; rfl; exact h.elim
theorem spelled_cons {ws : List Word} {t : Tok} {ts : List Tok} (h : Spelled ws (t :: ts)) : ∃ w ws', ws = w :: ws' ∧ tsym t = w.sym ∧ t.val = w.val ∧ Spelled ws' ts := by
  cases ws with
  | nil => exact h.elim
  | cons w ws => exact ⟨w, ws, rfl, h⟩

/-- A word of the grammar read where `kw a` stands is `kw a`. -/
theorem is_kw {w : Word} {a : Nat} (ha : a ≠ 198) (h1 : a = w.sym) (h2 : TokVal.none = w.val) : w = .kw a := by
  cases w with
  | kw b => simp only [Word.sym] at h1; rw [h1]
  | par k => exact absurd h1 ha
  | _ => cases h2

/-- And conversely. -/
theorem tokens_source (hf : FprOK fpr) : ∀ (n : Nat) (x : Bytes), x.length ≤ n → Clean x → ∀ (c : Bool) (buf : Bytes) (acc : List Bytes) (ws : List Word), K ws →
    Spelled ws (sentence (lexH fpr ⟨modeOf c, buf, x⟩ acc).1) → Source fpr c ws x
  | _, [], _, _, c, buf, acc, ws, _, h => by
    rw [lex_nil] at h
    rw [spelled_nil h]; exact .done
  | 0, _ :: _, hl, _, _, _, _, _, _, _ => by simp at hl
  | n + 1, q :: x, hl, hc, false, buf, acc, ws, hk, h => by
    have hcv := cov (x := q :: x) (by simp)
    generalize q :: x = X at *
    cases hcv with
    | @blanks b y h1 h2 h3 =>
      obtain ⟨acc', hr⟩ := blanks_run (fpr := fpr) h2 h3 buf acc
      rw [show modeOf false = .initial from rfl, lex_skip hr hc] at h
      have := List.length_pos_iff.2 h1
      exact .blanks h2 (tokens_source hf n y (by simp at hl; omega) (hc.sub fun b hb => by simp [hb]) false buf acc' ws hk h)
    | @word w p y hw =>
      obtain ⟨t, buf', hr, h1, h2⟩ := hw.reads (fpr := fpr) buf acc
      rw [show modeOf false = .initial from rfl, lex_tok hr hc (by rw [h1]; exact hw.sym_pos)] at h
      obtain ⟨w0, ws', rfl, k1, k2, k3⟩ := spelled_cons h
      have := List.length_pos_iff.2 hw.ne
      refine .word (hw.same (fun a ha => hk a (by simp [ha])) (by rw [← k1, h1]) (by rw [← k2, h2])) ?_
      exact tokens_source hf n y (by simp at hl; omega) (hc.sub fun b hb => by simp [hb]) false buf' [] ws' (fun a ha => hk a (by simp [ha])) k3
    | @comment y =>
      rw [show modeOf false = .initial from rfl, lex_skip (run_comment acc) hc] at h
      exact .comment (tokens_source hf n y (by simp at hl; omega) (hc.sub fun b hb => by simp [hb]) true buf _ ws hk h)
    | unknown h1 =>
      rw [show modeOf false = .initial from rfl, lex_unknown hc h1] at h
      rw [spelled_nil h]; exact .unknown h1
    | openString =>
      rw [show modeOf false = .initial from rfl, lex_open hc] at h
      rw [spelled_nil h]; exact .openString
    | tooBig h1 h2 =>
      have := lex_big (buf := buf) (acc := acc) hc h1 h2 hf
      by_cases hn : fpr < 0
      · rw [show modeOf false = .initial from rfl, this.1 hn] at h
        rw [spelled_nil h]; exact .tooBig hn h1 h2
      · exfalso
        obtain ⟨t, rest, e, ht⟩ := this.2 hn
        rw [show modeOf false = .initial from rfl, e] at h
        obtain ⟨w0, ws', rfl, k1, k2, k3⟩ := spelled_cons h
        exact foreign_ne (s := 2) (by decide +kernel) (w := w0) (fun a ha => hk a (by simp [ha])) (by rw [← k1, ht])
    | @other p y r c h1 h2 h3 h4 h5 =>
      exfalso
      have hr := lrun_ret (fpr := fpr) (sc := .initial) (buf := buf) (acc := acc) h1 h2 (h3 fpr buf) h4
      have h50 : tokSym c ≠ 0 := by
        unfold foreign at h5
        simp only [Bool.and_eq_true, Bool.not_eq_true', beq_eq_false_iff_ne] at h5
        exact h5.2
      rw [show modeOf false = .initial from rfl, lex_tok hr hc h50] at h
      obtain ⟨w0, ws', rfl, k1, k2, k3⟩ := spelled_cons h
      exact foreign_ne h5 (w := w0) (fun a ha => hk a (by simp [ha])) k1.symm
  | n + 1, q :: x, hl, hc, true, buf, acc, ws, hk, h => by
    have hcv := covC (x := q :: x) (by simp)
    generalize q :: x = X at *
    cases hcv with
    | @line c y h1 h2 h3 h4 =>
      rw [show modeOf true = .comment from rfl, lex_skip (run_line h1 h2 h3 h4 acc) hc] at h
      have := List.length_pos_iff.2 h1
      exact .line h1 h2 h3 h4.1 h4.2 (tokens_source hf n y (by simp at hl; omega) (hc.sub fun b hb => by simp [hb]) true buf _ ws hk h)
    | @newline y h1 =>
      rw [show modeOf true = .comment from rfl, lex_skip (run_newline h1 acc) hc] at h
      exact .newline h1 (tokens_source hf n y (by simp at hl; omega) (hc.sub fun b hb => by simp [hb]) false buf _ ws hk h)
    | @onwards b y h1 h2 h3 h4 =>
      rw [show modeOf true = .comment from rfl, lex_skip (run_onwards h1 h2 h3 h4 acc) hc] at h
      have : 0 < b.length := List.length_pos_iff.2 (by rintro rfl; cases h2)
      exact .onwards h1 h2 h3 h4 (tokens_source hf n y (by simp at hl; omega) (hc.sub fun b hb => by simp [hb]) true buf _ ws hk h)
    | @currentRow c b r y h1 h2 h3 h4 =>
      obtain ⟨t, hr, k1, k2⟩ := run_currentRow (fpr := fpr) (buf := buf) (y := y) h1 h2 h3 h4 acc
      rw [show modeOf true = .comment from rfl, lex_tok hr hc (by rw [k1]; decide)] at h
      obtain ⟨w0, ws', rfl, j1, j2, j3⟩ := spelled_cons h
      have e := is_kw (w := w0) (a := T.CURRENT_ROW) (by decide) (by rw [← j1, k1]) (by rw [← j2, k2])
      subst e
      have : 0 < b.length := List.length_pos_iff.2 (by rintro rfl; cases h3)
      exact .currentRow h1 h2 h3 h4 (tokens_source hf n y (by simp at hl; omega) (hc.sub fun b hb => by simp [hb]) true buf _ ws' (fun a ha => hk a (by simp [ha])) j3)
    | @characterVarying c b r y h1 h2 h3 h4 =>
      obtain ⟨t, hr, k1, k2⟩ := run_charVarying (fpr := fpr) (buf := buf) (y := y) h1 h2 h3 h4 acc
      rw [show modeOf true = .comment from rfl, lex_tok hr hc (by rw [k1]; decide)] at h
      obtain ⟨w0, ws', rfl, j1, j2, j3⟩ := spelled_cons h
      have e := is_kw (w := w0) (a := T.CHARACTER_VARYING) (by decide) (by rw [← j1, k1]) (by rw [← j2, k2])
      subst e
      have : 0 < b.length := List.length_pos_iff.2 (by rintro rfl; cases h3)
      exact .characterVarying h1 h2 h3 h4 (tokens_source hf n y (by simp at hl; omega) (hc.sub fun b hb => by simp [hb]) true buf _ ws' (fun a ha => hk a (by simp [ha])) j3)

/-- The words of a text are the tokens of the text. -/
theorem source_iff (hf : FprOK fpr) (sql : List UInt8) {ws : List Word} (hk : K ws) : Spelled ws (sentence (tokensOf fpr sql)) ↔ Source fpr false ws (cText sql) := by
  obtain ⟨st, e⟩ := tokensOf_spec fpr [] sql
  have hH : tokensOf fpr sql = (lexH fpr ⟨modeOf false, [], cText sql⟩ []).1 := congrArg Prod.fst (lexAll_H e)
  rw [hH]
  exact ⟨tokens_source hf _ _ (Nat.le_refl _) (cText_clean sql) false [] [] ws hk, fun h => source_tokens hf h (cText_clean sql) [] []⟩

section
variable {A : Alloc} (hA : Distinct A) (hf : FprOK fpr) (buf : Bytes) (sql : List UInt8) (l c : Int)
include hA hf

/-- C43. If `sql` is accepted then it is a text of some script (statements as data, `Verif.Sql.Stmt`), whose parameters are numbered from left to right; and the statements in the
result are, field by field, those the script stands for. -/
theorem C43_accepted (o : ParseOut) (h : parse A fpr buf sql (newResult l c) = some o) (hv : o.res.isValid = true) :
    ∃ (s : Script) (b : Bool), Source fpr false (s.text b) (cText sql) ∧ Numbered 0 (s.text b) ∧ astL o.res.stmts = s.items.map fun i => (i.v (.pos 0)).fill := by
  obtain ⟨s, b, h1, h2, h3⟩ := C41_only_scripts hA hf buf sql l c o h hv
  exact ⟨s, b, (source_iff hf sql (s.text_kn b)).1 h1, h2, h3⟩

/-- C43. Every text of a script is accepted, and the statements of the result are those of the script; only if a statement has more than 96 words the stack of the parser may not suffice. -/
theorem C43_script_texts (s : Script) (b : Bool) (hs : Source fpr false (s.text b) (cText sql)) (hn : Numbered 0 (s.text b)) :
    ∃ o, parse A fpr buf sql (newResult l c) = some o ∧
      ((o.res.isValid = true ∧ astL o.res.stmts = s.items.map fun i => (i.v (.pos 0)).fill) ∨
       (o.res.isValid = false ∧ message o.res = some b!"memory exhausted" ∧ ∃ i ∈ s.items, 96 < i.words.length)) := by
  have hsp := (source_iff hf sql (s.text_kn b)).2 hs
  obtain ⟨o, ho, h | ⟨h1, h2, _⟩⟩ := roundtrip hA hf buf sql l c s b hsp hn
  · exact ⟨o, ho, .inl h⟩
  · refine ⟨o, ho, .inr ⟨h1, h2, Classical.byContradiction fun hne => ?_⟩⟩
    have hl : ∀ i ∈ s.items, i.words.length ≤ 96 := fun i hi => Nat.le_of_not_lt fun hlt => hne ⟨i, hi, hlt⟩
    refine C39_short_statements hA hf buf sql l c ?_ o ho h2
    cases b with
    | false => exact short_script hl hsp
    | true =>
      simp only [Script.text, cat] at hsp
      obtain ⟨T1, T2, e, h1, h2⟩ := spelled_split hsp
      have h4 := spelled_length h2
      match T2, h2, h4 with
      | [m], h2, _ =>
        rw [e]
        exact short_snoc (T' := []) (short_script hl h1) (code_semi h2.1) (by simp)

/-- C43. So, as long as the stack suffices, the accepted texts are exactly the texts of scripts. -/
theorem C43_accepted_iff (o : ParseOut) (h : parse A fpr buf sql (newResult l c) = some o) (hm : message o.res ≠ some b!"memory exhausted") :
    o.res.isValid = true ↔ ∃ (s : Script) (b : Bool), Source fpr false (s.text b) (cText sql) ∧ Numbered 0 (s.text b) := by
  constructor
  · intro hv
    obtain ⟨s, b, h1, h2, _⟩ := C43_accepted hA hf buf sql l c o h hv
    exact ⟨s, b, h1, h2⟩
  · rintro ⟨s, b, h1, h2⟩
    obtain ⟨o', h', ⟨hv, _⟩ | ⟨_, hm', _⟩⟩ := C43_script_texts hA hf buf sql l c s b h1 h2
    · rw [h] at h'; cases h'; exact hv
    · rw [h] at h'; cases h'; exact absurd hm' hm
end

/-- C43. A text is a text of scripts of one meaning only. -/
theorem C43_unambiguous (hf : FprOK fpr) (sql : List UInt8) (s s' : Script) (b b' : Bool) (hs : Source fpr false (s.text b) (cText sql)) (hn : Numbered 0 (s.text b))
    (hs' : Source fpr false (s'.text b') (cText sql)) (hn' : Numbered 0 (s'.text b')) :
    (s.items.map fun i => (i.v (.pos 0)).fill) = s'.items.map fun i => (i.v (.pos 0)).fill :=
  C41_unambiguous s s' b b' ((source_iff hf sql (s.text_kn b)).2 hs) hn ((source_iff hf sql (s'.text_kn b')).2 hs') hn'

/-! ### Examples -/

/-- A text with a comment and an octal number. -/
def commented : Script := .one (.stmt (.query (.plain .none (.plain (.mk none false (.one (.lit (.num (.int 8))) .none) .none .none .none) .none .none .none))) .none)

theorem commented_words : commented.text false = [.kw T.SELECT, .int 8] := rfl

theorem commented_source : Source 64 false (commented.text false) b!"select -- eight\n010" := by
  rw [commented_words]
  refine .word (w := .kw T.SELECT) (x := b!"select") (.std (.keyword (k := b!"SELECT") (by decide +kernel) rfl (by intro c h; cases h; rfl))) ?_
  refine .blanks (b := b!" ") (by decide) (.comment (.line (c := b!" eight") (y := 10 :: b!"010") (by simp) (by decide) (by intro c h; cases h; rfl) (fun _ => ⟨101, by decide, rfl⟩) ?_ ?_))
  · rintro k k' hk p b e hp hb
    have hl : k.length = 7 ∨ k.length = 9 := by rcases hk with ⟨rfl, _⟩ | ⟨rfl, _⟩ <;> decide
    have := congrArg List.length e
    rw [← hp, Sql.upper_length] at hl
    simp at this
    omega
  · refine .newline (by intro c h; cases h; rfl) (.word (w := .int 8) (x := b!"010") (y := []) (.octal (d := b!"010") (by decide) rfl (by decide) (by intro c h; cases h)) .done)

/-- It is accepted, with the literal 8. -/
example {A : Alloc} (hA : Distinct A) (l c : Int) : ∃ o, parse A 64 [] (txt b!"select -- eight\n010") (newResult l c) = some o ∧ o.res.isValid = true ∧
    astL o.res.stmts = commented.items.map fun i => (i.v (.pos 0)).fill := by
  obtain ⟨o, ho, ⟨h1, h2⟩ | ⟨_, _, i, hi, hx⟩⟩ := C43_script_texts hA (.inl rfl) [] (txt b!"select -- eight\n010") l c commented false commented_source (by rw [commented_words]; trivial)
  · exact ⟨o, ho, h1, h2⟩
  · exfalso
    have : commented.items.all (fun i => decide (i.words.length ≤ 96)) = true := by decide +kernel
    have := List.all_eq_true.1 this i hi
    simp at this; omega

end Verif.Props

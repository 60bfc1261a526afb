import Verif.Props.Short
import Verif.Sql.ReadAll
/-!
# C41: nothing else is accepted

The converse of C23 (`Verif.Props.RoundTrip`): whatever `parse` accepts is a text of a script in the sense of `Verif.Sql.Stmt` (`Script.text`), so that `Verif.Sql.Syntax` and
`Verif.Sql.Stmt` describe exactly the language that is accepted.
-/
namespace Verif.Props
open Verif.Lex Verif.LR Verif.Sem Verif.Api Verif.Sql

theorem rhs_no_undef (r : Nat) (h : r < 358) : ∀ x ∈ rhs r, x ≠ 2 := by
  have : ∀ r, r < 358 → (rhs r).all (fun x => x != 2) = true := by decide +kernel
  intro x hx
  simpa using List.all_eq_true.1 (this r h) x hx

mutual
theorem yield_no_undef : ∀ (t : Tree), t.WF → t.sym ≠ 2 → ∀ m ∈ t.yield, tsym m ≠ 2
  | .leaf t, _, h, m, hm => by
    simp only [Tree.yield, List.mem_singleton] at hm
    subst hm; exact h
  | .node r cs, hw, _, m, hm => by
    obtain ⟨h1, h2, h3, h4⟩ := hw
    rw [rules_len] at h2
    exact yieldL_no_undef cs h4 (fun c hc => rhs_no_undef r h2 c.sym (h3 ▸ List.mem_map_of_mem hc)) m hm
theorem yieldL_no_undef : ∀ (cs : List Tree), WFL cs → (∀ c ∈ cs, c.sym ≠ 2) → ∀ m ∈ yieldL cs, tsym m ≠ 2
  | [], _, _, m, hm => by simp [yieldL] at hm
  | c :: cs, hw, h, m, hm => by
    rw [yieldL, List.mem_append] at hm
    rcases hm with hm | hm
    · exact yield_no_undef c hw.1 (h c (by simp)) m hm
    · exact yieldL_no_undef cs hw.2 (fun d hd => h d (by simp [hd])) m hm
end

/-- The tokens of a derivation are the tokens of words. -/
theorem derives_fits {fpr : Int} (hf : FprOK fpr) {sql : List UInt8} {t : Tree} (h : Derives (sentence (tokensOf fpr sql)) t) : ∀ m ∈ t.yield, Fits m := by
  obtain ⟨h1, h2, h3, _⟩ := h
  intro m hm
  refine ⟨?_, ?_, yield_no_undef t h1 (by rw [h2]; decide) m hm⟩
  · rw [h3] at hm
    exact (tokensOf_shape hf sql).1 m ((List.takeWhile_sublist _).mem hm)
  · rw [h3] at hm
    have := List.all_eq_true.1 List.all_takeWhile m hm
    simpa using this

/-- A derivation of meaning is that of a script. -/
theorem script_of {fpr : Int} (hf : FprOK fpr) {sql : List UInt8} {t : Tree} (h : Derives (sentence (tokensOf fpr sql)) t) (hd : denInput t ≠ none) :
    ∃ (s : Script) (b : Bool), Spelled (s.text b) (sentence (tokensOf fpr sql)) ∧ Numbered 0 (s.text b) := by
  have hF := derives_fits hf h
  have hy : t.yield = sentence (tokensOf fpr sql) := h.2.2.1
  have hs := toWords_spelled 0 t.yield hF
  suffices hx : ∃ (s : Script) (b : Bool), t.ws 0 = s.text b by
    obtain ⟨s, b, e⟩ := hx
    refine ⟨s, b, ?_⟩
    rw [Tree.ws] at e
    rw [← e, ← hy]
    exact hs
  obtain ⟨l, sc, rfl, hl, hl', hsc, hsc'⟩ := input_cases h.1 h.2.1
  have hp := h.2.2.2
  simp only [Tree.PrecOK] at hp
  rw [denInput] at hd
  cases hc : denL [l, sc] ⟨0, false⟩ with
  | none => rw [hc] at hd; exact absurd rfl hd
  | some x =>
    obtain ⟨vs, s1⟩ := x
    have := list_is Read.u358 [l, sc] h.1.2.2.2 hF 0 ⟨0, false⟩ (e := true) hp.2.2 hc (fun _ => rfl)
    simp only [List.map, hl', hsc'] at this
    obtain ⟨_, _, v, vs', e1, e2, h1, _, _, w, _, e3, _, h2, _⟩ := this
    cases e1; cases e3
    obtain ⟨x, hx⟩ : ∃ x : Script, l.ws 0 = x.words := h1
    obtain ⟨y, hy'⟩ : ∃ y : Bool, sc.ws (0 + qmarks l.yield) = semiW y := h2
    refine ⟨x, y, ?_⟩
    rw [ws_node]
    change l.ws 0 ++ sc.ws (0 + qmarks l.yield) = _
    rw [hx, hy']
    cases y
    · simp [semiW, Script.text]
    · simp [semiW, Script.text, cat]

section
variable {A : Alloc} (hA : Distinct A) {fpr : Int} (hf : FprOK fpr) (buf : Bytes) (sql : List UInt8) (l c : Int)
include hA hf

/-- C41. Let a text be accepted. Then its tokens are the words of a script (SQL statements as data, `Verif.Sql.Stmt`), with or without a semicolon at the end, the parameters
numbered from left to right; and the statements of the result are, field by field, those the script stands for. -/
theorem C41_only_scripts (o : ParseOut) (h : parse A fpr buf sql (newResult l c) = some o) (hv : o.res.isValid = true) :
    ∃ (s : Script) (b : Bool), Spelled (s.text b) (sentence (tokensOf fpr sql)) ∧ Numbered 0 (s.text b) ∧
      astL o.res.stmts = s.items.map fun i => (i.v (.pos 0)).fill := by
  obtain ⟨t, ht, _, hd⟩ := (parse_valid_iff hA hf buf sql l c).1 ⟨o, h, hv⟩
  obtain ⟨s, b, hs, hn⟩ := script_of hf ht hd
  obtain ⟨o', h', ⟨_, ha⟩ | ⟨hv', _⟩⟩ := roundtrip hA hf buf sql l c s b hs hn
  · rw [h] at h'; cases h'; exact ⟨s, b, hs, hn, ha⟩
  · rw [h] at h'; cases h'; rw [hv] at hv'; cases hv'

/-- C41, C23 and C39 together: a text without 97 tokens in a row without a semicolon is accepted if and only if its tokens are the words of a script. -/
theorem C41_accepted_iff (hl : ShortStatements (sentence (tokensOf fpr sql))) :
    (∃ o, parse A fpr buf sql (newResult l c) = some o ∧ o.res.isValid = true) ↔
    ∃ (s : Script) (b : Bool), Spelled (s.text b) (sentence (tokensOf fpr sql)) ∧ Numbered 0 (s.text b) := by
  constructor
  · rintro ⟨o, h, hv⟩
    obtain ⟨s, b, hs, hn, _⟩ := C41_only_scripts hA hf buf sql l c o h hv
    exact ⟨s, b, hs, hn⟩
  · rintro ⟨s, b, hs, hn⟩
    obtain ⟨o, h, ⟨hv, _⟩ | ⟨_, hm, _⟩⟩ := roundtrip hA hf buf sql l c s b hs hn
    · exact ⟨o, h, hv⟩
    · exact absurd hm (C39_short_statements hA hf buf sql l c hl o h)
end

/-- C41. The language is unambiguous: whatever way the same tokens are read as a script, the statements are the same. -/
theorem C41_unambiguous {ts : List Tok} (s s' : Script) (b b' : Bool) (hs : Spelled (s.text b) ts) (hn : Numbered 0 (s.text b))
    (hs' : Spelled (s'.text b') ts) (hn' : Numbered 0 (s'.text b')) :
    (s.items.map fun i => (i.v (.pos 0)).fill) = s'.items.map fun i => (i.v (.pos 0)).fill := by
  obtain ⟨t, h1, h2⟩ := s.derives b hs hn
  obtain ⟨t', h1', h2'⟩ := s'.derives b' hs' hn'
  have e := derives_unique h1 h1'
  subst e
  rw [h2] at h2'
  have := Option.some.inj h2'
  rw [fillL_map, fillL_map, List.map_map, List.map_map] at this
  exact this

/-! ### Examples -/

/-- An accepted text, so that the words of some script with two statements are its tokens. -/
example : ∃ (s : Script) (b : Bool), Spelled (s.text b) (sentence (tokensOf 64 (txt b!"SELECT a FROM t WHERE b = 'x'; INSERT INTO t VALUES (1, 2.5)"))) ∧ s.items.length = 2 := by
  have hv : (run0 b!"SELECT a FROM t WHERE b = 'x'; INSERT INTO t VALUES (1, 2.5)").map view = some ⟨true, 2, none, 0, 0⟩ :=
    parse_of_eval (f := 80) (q := Option.map view) (by decide +kernel)
  cases ho : run0 b!"SELECT a FROM t WHERE b = 'x'; INSERT INTO t VALUES (1, 2.5)" with
  | none => rw [ho] at hv; cases hv
  | some o =>
    rw [ho] at hv
    have hv := Option.some.inj hv
    obtain ⟨s, b, hs, _, ha⟩ := C41_only_scripts heap_distinct (.inl rfl) [] _ 0 0 o ho (congrArg View.isValid hv)
    refine ⟨s, b, hs, ?_⟩
    have h2 : size o.res = 2 := congrArg View.size hv
    have := congrArg List.length ha
    rw [astL, hL_map, List.length_map, List.length_map] at this
    rw [← this]; exact h2

/-- A rejected text: there is no way to read it as a script. -/
example : ¬ ∃ (s : Script) (b : Bool), Spelled (s.text b) (sentence (tokensOf 64 (txt b!"SELECT a FROM WHERE b"))) ∧ Numbered 0 (s.text b) := by
  intro hx
  have hl := C39_short_texts (fpr := 64) (.inl rfl) (txt b!"SELECT a FROM WHERE b") (by decide)
  obtain ⟨o, ho, hv⟩ := (C41_accepted_iff heap_distinct (.inl rfl) [] (txt b!"SELECT a FROM WHERE b") 0 0 hl).2 hx
  have : (run0 b!"SELECT a FROM WHERE b").map (fun o => o.res.isValid) = some false := parse_of_eval (f := 20) (q := Option.map fun (o : ParseOut) => o.res.isValid) (by decide +kernel)
  rw [run0, ho] at this
  simp [hv] at this

end Verif.Props

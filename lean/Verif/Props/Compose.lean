import Verif.Props.Tokens
import Verif.Lex.Semi
import Verif.Sem.Graft
/-!
# Statement lists compose (C24)
-/
namespace Verif.Props
open Verif.Lex Verif.LR Verif.Sem Verif.Api

/-- The statement with the numbers of its parameters (`ival` and `ival2` of parameter expressions) increased by `k`. -/
def addIds (k : Nat) (v : V) : V := (v.h ⟨id, k⟩).fill

/-- The scanner reads all of the text: some calls return the tokens `ts`, none of which is an end of input; then it is between tokens, and only
blanks are left. -/
def ScannedTo (fpr : Int) (sql : List UInt8) (ts : List Tok) : Prop :=
  (∃ k b w, lexCalls fpr k (lexInit [] (cText sql)) = some (ts, ⟨.initial, b, w⟩) ∧ ∀ c ∈ w, c = 32 ∨ c = 9 ∨ c = 10) ∧ ∀ t ∈ ts, tsym t ≠ 0

theorem scanned_run {fpr : Int} {sql : List UInt8} {ts : List Tok} (h : ScannedTo fpr sql ts) :
    ∃ b acc, LRun fpr (lexInit [] (cText sql)) [] ts ⟨.initial, b, []⟩ acc := by
  obtain ⟨⟨k, b, w, h1, h2⟩, _⟩ := h
  have hr := lexCalls_run fpr k _ _ _ (cText_clean sql) h1
  by_cases hw : w = []
  · subst hw; exact ⟨b, [], hr⟩
  · have hb : ∀ c ∈ w, isBlank c = true := by
      intro c hc; rcases h2 c hc with rfl | rfl | rfl <;> rfl
    have := lrun_skip (fpr := fpr) (sc := .initial) (sc' := .initial) (buf := b) (buf' := b) (p := w) (v := []) (acc := []) (r := 4) hw
      (hand_blank hw hb (by simp)) rfl
    rw [List.append_nil] at this
    have := hr.trans this
    rw [List.append_nil] at this
    exact ⟨b, [w], this⟩

theorem tokensOf_H (fpr : Int) (sql : List UInt8) : tokensOf fpr sql = (lexH fpr (lexInit [] (cText sql)) []).1 := by
  unfold tokensOf
  rw [lexAll_eq fpr _ (cText_clean sql)]

theorem scanned_tokens {fpr : Int} {sql : List UInt8} {ts : List Tok} (h : ScannedTo fpr sql ts) : sentence (tokensOf fpr sql) = ts := by
  obtain ⟨b, acc, hr⟩ := scanned_run h
  rw [tokensOf_H, (hr.lexH (cText_clean sql)).1]
  have : (lexH fpr ⟨.initial, b, []⟩ acc).1 = [⟨0, .none, acc.reverse⟩] := by
    unfold lexH; simp
  simp only [this]
  unfold sentence
  rw [List.takeWhile_append_of_pos (by intro t ht; simpa using h.2 t ht)]
  simp only [List.takeWhile_cons]
  rw [show (tsym (⟨0, .none, acc.reverse⟩ : Tok) != 0) = false from rfl]
  simp

theorem cText_join {a b : List UInt8} (h : (0 : UInt8) ∉ a) : cText (a ++ 59 :: b) = cText a ++ 59 :: cText b := by
  unfold cText
  have ha : a.takeWhile (· ≠ 0) = a := by
    have := List.takeWhile_append_of_pos (p := (· ≠ 0)) (l₁ := a) (l₂ := []) (by intro x hx; simp; rintro rfl; exact h hx)
    simpa using this
  rw [List.takeWhile_append_of_pos (by intro x hx; simp; rintro rfl; exact h hx), ha, List.map_append]
  rfl

theorem joined_tokens {fpr : Int} {a b : List UInt8} {ts : List Tok} (h : ScannedTo fpr a ts) (h0 : (0 : UInt8) ∉ a) :
    ∃ m, m.code = 59 ∧ tokensOf fpr (a ++ 59 :: b) = ts ++ m :: tokensOf fpr b := by
  obtain ⟨buf, acc, hr⟩ := scanned_run h
  have hr2 := hr.semi (v := cText b) (cText_clean a) rfl
  have hr3 := hr2.trans (semi_run fpr (v := cText b) (buf := buf) acc)
  refine ⟨⟨59, .none, ([59] :: acc).reverse⟩, rfl, ?_⟩
  · have hcl := cText_clean (a ++ 59 :: b)
    rw [cText_join h0] at hcl
    rw [tokensOf_H, cText_join h0]
    have := (hr3.lexH hcl).1
    have e : lexInit [] (cText a ++ 59 :: cText b) = ⟨(lexInit [] (cText a)).sc, (lexInit [] (cText a)).buf, (lexInit [] (cText a)).rest ++ 59 :: cText b⟩ := rfl
    rw [e, this]
    simp only [List.append_assoc, List.singleton_append]
    congr 2
    have hcb := cText_clean b
    obtain ⟨ts', s1, s2, g1, g2, _⟩ := C21_tokens_independent_of_buffer fpr buf [] b
    rw [lexAll_eq fpr _ hcb] at g1 g2
    simp only [Option.some.injEq] at g1 g2
    rw [tokensOf_H, g2]
    have : lexH fpr ⟨.initial, buf, cText b⟩ [] = (ts', s1) := g1
    rw [this]

theorem tsym_semi {m : Tok} (h : m.code = 59) : tsym m = T.SEMI := by
  unfold tsym; rw [h]; decide +kernel

section
variable {A : Alloc} (hA : Distinct A) {fpr : Int} (hf : FprOK fpr) (buf : Bytes) (a b : List UInt8) (l c : Int)
include hA hf

/-- C24. Let `a` and `b` be valid; let the scanner read all of `a`, which has no `;` at the end and no NUL; and let the derivation of `b` need
two stack entries less than there are. Then `a;b` is valid, and its statements are those of `a` followed by those of `b`, with
the parameters of `b` numbered after those of `a`. -/
theorem C24_join (oa ob : ParseOut) (ha : parse A fpr buf a (newResult l c) = some oa) (hva : oa.res.isValid = true)
    (hb : parse A fpr buf b (newResult l c) = some ob) (hvb : ob.res.isValid = true)
    (ts : List Tok) (hT : ScannedTo fpr a ts) (hlast : ∀ m, ts.getLast? = some m → tsym m ≠ T.SEMI) (h0 : (0 : UInt8) ∉ a)
    (hn : ∀ t, Derives (sentence (tokensOf fpr b)) t → t.need + 3 < 200) :
    ∃ o, parse A fpr buf (a ++ 59 :: b) (newResult l c) = some o ∧ o.res.isValid = true ∧
      astL o.res.stmts = astL oa.res.stmts ++ (astL ob.res.stmts).map (addIds oa.res.params.length) ∧
      size o.res = size oa.res + size ob.res ∧ o.res.params.length = oa.res.params.length + ob.res.params.length := by
  obtain ⟨ta, hta, hna⟩ := C11_valid_is_grammatical hA hf buf a l c oa ha hva
  obtain ⟨tb, htb, _⟩ := C11_valid_is_grammatical hA hf buf b l c ob hb hvb
  have hnb := hn tb htb
  obtain ⟨m, hm, htok⟩ := joined_tokens (b := b) hT h0
  have hs := scanned_tokens hT
  have hms := tsym_semi hm
  have hsent : sentence (tokensOf fpr (a ++ 59 :: b)) = ts ++ m :: sentence (tokensOf fpr b) := by
    rw [htok]
    unfold sentence
    rw [List.takeWhile_append_of_pos (by intro t ht; simpa using hT.2 t ht), List.takeWhile_cons]
    have : (tsym m != 0) = true := by rw [hms]; rfl
    rw [this]; simp
  have hta' := hta
  rw [hs] at hta'
  obtain ⟨t, ht, hst, hnt⟩ := derives_join hta' htb hms hlast
  rw [← hsent] at ht
  have hval := denInput_join hta.1 hta.2.1 htb.1 htb.2.1 ht.1 ht.2.1 hst (parse_den hA hf buf a l c oa ha hva hta)
    (parse_value hA hf buf a l c oa ha hva hta) (parse_value hA hf buf b l c ob hb hvb htb)
  obtain ⟨o, ho, hvo⟩ := (parse_valid_iff hA hf buf (a ++ 59 :: b) l c).2 ⟨t, ht, by omega, by rw [hval]; simp⟩
  have hval2 := parse_value hA hf buf _ l c o ho hvo ht
  rw [hval] at hval2
  simp only [Option.some.injEq] at hval2
  have e : astL o.res.stmts = astL oa.res.stmts ++ (astL ob.res.stmts).map (addIds oa.res.params.length) := by
    rw [← hval2, fillL_map, hL_map, List.map_map]
    rfl
  refine ⟨o, ho, hvo, e, ?_, ?_⟩
  · have := congrArg List.length e
    simpa [astL, hL_map, size] using this
  · rw [(C18_parameters_in_source_order hA hf buf _ l c o ho hvo).1, (C18_parameters_in_source_order hA hf buf a l c oa ha hva).1,
      (C18_parameters_in_source_order hA hf buf b l c ob hb hvb).1, hsent, hs, qmarks_append]
    congr 1
    have : tsym m ≠ T.QMARK := by rw [hms]; decide
    simp [qmarks, List.countP_cons, this]

/-- C24, the `;` at the end. If the scanner reads all of `a`, which has no NUL and no `;` at the end, then `a;` is valid iff `a` is, and has the same
statements. -/
theorem C24_trailing_semicolon (ts : List Tok) (hT : ScannedTo fpr a ts) (hlast : ∀ m, ts.getLast? = some m → tsym m ≠ T.SEMI) (h0 : (0 : UInt8) ∉ a) :
    ((∃ o, parse A fpr buf (a ++ [59]) (newResult l c) = some o ∧ o.res.isValid = true) ↔
      ∃ o, parse A fpr buf a (newResult l c) = some o ∧ o.res.isValid = true) ∧
    ∀ o oa, parse A fpr buf (a ++ [59]) (newResult l c) = some o → parse A fpr buf a (newResult l c) = some oa → o.res.isValid = true →
      oa.res.isValid = true → astL o.res.stmts = astL oa.res.stmts ∧ o.res.params.length = oa.res.params.length := by
  obtain ⟨m, hm, htok⟩ := joined_tokens (b := []) hT h0
  have hs := scanned_tokens hT
  have hms := tsym_semi hm
  have hsent : sentence (tokensOf fpr (a ++ [59])) = ts ++ [m] := by
    rw [htok]
    have e : tokensOf fpr [] = [⟨0, .none, []⟩] := by
      rw [tokensOf_H]; unfold lexH; rfl
    rw [e]
    unfold sentence
    rw [List.takeWhile_append_of_pos (by intro t ht; simpa using hT.2 t ht), List.takeWhile_cons]
    have : (tsym m != 0) = true := by rw [hms]; rfl
    rw [this]; rfl
  have key : ∀ t, Derives ts t → ∃ t', Derives (ts ++ [m]) t' ∧ t'.need = t.need ∧ denInput t' = denInput t := by
    intro t ht
    obtain ⟨t', g1, g2, g3⟩ := derives_semi ht hms hlast
    exact ⟨t', g1, g3, by rw [denInput_eq g1.1 g1.2.1, denInput_eq ht.1 ht.2.1, g2]⟩
  have key2 : ∀ t', Derives (ts ++ [m]) t' → ∃ t, Derives ts t := by
    intro t' ht'
    obtain ⟨hw, hsy, hy, hp⟩ := ht'
    obtain ⟨l, s, rfl, h1, h2, h3, h4⟩ := input_cases hw hsy
    rcases optSemi_cases h3 h4 with ⟨m', hm', rfl⟩ | rfl
    · have hyl : l.yield = ts := by
        have : l.yield ++ [m'] = ts ++ [m] := by rw [← hy]; simp [Tree.yield, yieldL]
        exact (List.append_inj' this rfl).1
      refine ⟨.node 2 [l, .node 355 []], ⟨by omega, by rw [rulesLen]; omega, ?_, h1, ⟨by omega, by rw [rulesLen]; omega, ?_, trivial⟩, trivial⟩, Sem.lhs2, ?_,
        forbidReduce_of_lhs nonop2, lastOK_of_lhs nonop2, ?_, ⟨forbidReduce_of_lhs nonop355, lastOK_of_lhs nonop355, trivial⟩, trivial⟩
      · have := hw.2.2.1
        simp only [List.map_cons, List.map_nil, h2, Tree.sym, lhs355, lhs354] at this ⊢
        exact this
      · rw [rhs355]; rfl
      · simp [Tree.yield, yieldL, hyl]
      · simp only [yieldL, Tree.yield, nextSym, List.append_nil]
        exact precOK_next Sem.tokPrec_eof _ _ hp.2.2.1
    · exfalso
      have hyl : l.yield = ts ++ [m] := by rw [← hy]; simp [Tree.yield, yieldL]
      exact no_semi_end h1 h2 (m := m) (by rw [hyl]; simp) hms
  constructor
  · rw [parse_valid_iff hA hf, parse_valid_iff hA hf, hsent, hs]
    constructor
    · rintro ⟨t', g1, g2, g3⟩
      obtain ⟨t, ht⟩ := key2 t' g1
      obtain ⟨t2, k1, k2, k3⟩ := key t ht
      rw [derives_unique g1 k1] at g2 g3
      exact ⟨t, ht, by omega, by rw [← k3]; exact g3⟩
    · rintro ⟨t, g1, g2, g3⟩
      obtain ⟨t2, k1, k2, k3⟩ := key t g1
      exact ⟨t2, k1, by omega, by rw [k3]; exact g3⟩
  · intro o oa h h' hv hv'
    obtain ⟨ta, hta, _⟩ := C11_valid_is_grammatical hA hf buf a l c oa h' hv'
    have hta' := hta
    rw [hs] at hta'
    obtain ⟨t2, k1, k2, k3⟩ := key ta hta'
    rw [← hsent] at k1
    have e := parse_value hA hf buf _ l c o h hv k1
    rw [k3, parse_value hA hf buf _ l c oa h' hv' hta] at e
    refine ⟨(Option.some.inj e).symm, ?_⟩
    rw [(C18_parameters_in_source_order hA hf buf _ l c o h hv).1, (C18_parameters_in_source_order hA hf buf a l c oa h' hv').1, hsent, hs, qmarks_append]
    have : tsym m ≠ T.QMARK := by rw [hms]; decide
    simp [qmarks, List.countP_cons, this]

end

/-- Concretely, `a` may be `SELECT ? ` and `b` `SELECT a + ? FROM t`. -/
example : ScannedTo 64 (txt b!"SELECT ? ") [⟨313, .none, [b!"SELECT"]⟩, ⟨63, .none, [b!" ", b!"?"]⟩] :=
  ⟨⟨2, [], b!" ", by decide +kernel, by decide⟩, by decide +kernel⟩
example : (run0 b!"SELECT ? ;SELECT a + ? FROM t").map (fun o => (o.res.isValid, size o.res, o.res.params.length)) = some (true, 2, 2) :=
  parse_of_eval (f := 40) (q := Option.map fun (o : ParseOut) => (o.res.isValid, size o.res, o.res.params.length)) (by decide +kernel)

end Verif.Props

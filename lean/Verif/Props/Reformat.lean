import Verif.Props.Bytes
import Verif.Props.Renaming
import Verif.Sql.Reformat
/-!
# C68: the tokens of a text can be printed again
-/
namespace Verif.Props
open Verif.Lex Verif.LR Verif.Sem Verif.Api Verif.Sql

/-- How a formatter prints a token: a string in single quotes with the quotes in it doubled, a name in double quotes, an integer in decimal
(the smallest 64-bit number being the only negative token), a floating point number as it was, and any other token by its name in capital letters or its sign. -/
def layoutTok (t : Tok) : Bytes :=
  match t.val with
  | .sval b => if tsym t = T.STRING then b!"'" ++ double b ++ b!"'" else b!"\"" ++ b ++ b!"\""
  | .ival n => if n < 0 then b!"-9223372036854775808" else digits n.toNat
  | .fval b => b
  | .none => if tsym t = T.QMARK then b!"?" else spelling (tsym t)

/-- The tokens one after the other, a blank after each. -/
def layout (ts : List Tok) : List UInt8 := (ts.flatMap fun t => layoutTok t ++ b!" ").map UInt8.ofNat

/-- The terminal occurs in a rule of the grammar. -/
def InGrammar (a : Nat) : Prop := ∃ r, 2 ≤ r ∧ r < rules.length ∧ a ∈ rhs r

/-- The word of a token. -/
def wordOf (t : Tok) : Word :=
  match t.val with
  | .sval b => if tsym t = T.STRING then .str b else .id b
  | .ival n => .int n
  | .fval b => .flt b
  | .none => if tsym t = T.QMARK then .par 0 else .kw (tsym t)

theorem layoutTok_eq (t : Tok) : layoutTok t = (wordOf t).text2 := by
  unfold layoutTok wordOf
  cases t.val with
  | none => simp only []; split <;> rfl
  | sval b => simp only []; split <;> rfl
  | ival n => rfl
  | fval b => rfl

theorem layout_eq : ∀ (ts : List Tok), layout ts = (render2 (ts.map wordOf)).map UInt8.ofNat
  | [] => rfl
  | t :: ts => by
    have := layout_eq ts
    unfold layout at this ⊢
    rw [List.flatMap_cons, List.map_append, this, List.map_cons, render2, layoutTok_eq]
    simp

theorem wordOf_spelled {t : Tok} (h : TokShape t) (h0 : tsym t ≠ 0) (hg : InGrammar (tsym t)) :
    tsym t = (wordOf t).sym ∧ t.val = (wordOf t).val ∧ ∀ a, wordOf t = .kw a → Known a := by
  obtain ⟨r, g1, g2, g3⟩ := hg
  have hs := rhs_spell g1 g2 g3 (tsym_lt t)
  have h2 : tsym t ≠ 2 := by
    intro e; rw [e] at hs; exact absurd hs (by decide +kernel)
  unfold TokShape at h
  unfold wordOf
  cases hv : t.val with
  | none =>
    rw [hv] at h
    simp only [] at h ⊢
    split
    · rename_i e; exact ⟨e, rfl, nofun⟩
    · rename_i e
      refine ⟨rfl, rfl, fun a ha => ?_⟩
      cases ha
      unfold spellB at hs
      simp only [beq_eq_false_iff_ne.2 h.1, beq_eq_false_iff_ne.2 h.2.1, beq_eq_false_iff_ne.2 h.2.2.1, beq_eq_false_iff_ne.2 h.2.2.2, beq_eq_false_iff_ne.2 e, Bool.false_or] at hs
      exact hs
  | sval b =>
    rw [hv] at h
    simp only [] at h ⊢
    split
    · rename_i e; exact ⟨e, rfl, nofun⟩
    · rename_i e
      rcases h with h | h
      · exact ⟨h, rfl, nofun⟩
      · exact absurd h e
  | ival n =>
    rw [hv] at h
    simp only [] at h ⊢
    rcases h with h | h | h
    · exact ⟨h, rfl, nofun⟩
    · exact absurd h h0
    · exact absurd h h2
  | fval b =>
    rw [hv] at h
    exact ⟨h, rfl, nofun⟩

theorem sentence_ne {ts : List Tok} : ∀ t ∈ sentence ts, tsym t ≠ 0 := by
  intro t ht
  unfold sentence at ht
  induction ts with
  | nil => simp at ht
  | cons x l ih =>
    rw [List.takeWhile_cons] at ht
    split at ht
    · rename_i e
      rcases List.mem_cons.1 ht with rfl | ht
      · simpa using e
      · exact ih ht
    · cases ht

theorem sentence_mem {ts : List Tok} {t : Tok} (h : t ∈ sentence ts) : t ∈ ts := List.IsPrefix.subset (List.takeWhile_prefix _) h

theorem spelled_words : ∀ {ts : List Tok}, (∀ t ∈ ts, tsym t = (wordOf t).sym ∧ t.val = (wordOf t).val) → Spelled (ts.map wordOf) ts
  | [], _ => trivial
  | t :: ts, h => ⟨(h t (by simp)).1, (h t (by simp)).2, spelled_words fun u hu => h u (by simp [hu])⟩

theorem spelled_same : ∀ {ws : List Word} {ts us : List Tok}, Spelled ws ts → Spelled ws us → ts.map (fun t => (tsym t, t.val)) = us.map (fun t => (tsym t, t.val))
  | [], [], [], _, _ => rfl
  | w :: ws, t :: ts, u :: us, h, k => by
    rw [List.map_cons, List.map_cons, spelled_same h.2.2 k.2.2, h.1, h.2.1, k.1, k.2.1]
  | [], [], _ :: _, _, k => k.elim
  | [], _ :: _, _, h, _ => h.elim
  | _ :: _, [], _, h, _ => h.elim
  | _ :: _, _ :: _, [], _, k => k.elim

/-- The token code of a terminal. -/
def codeOf (s : Nat) : Nat :=
  if s < 174 then s + 255 else [61, 429, 430, 60, 62, 431, 432, 433, 434, 435, 43, 45, 42, 47, 37, 94, 436, 91, 93, 40, 41, 46, 59, 44, 63].getD (s - 174) 0

theorem code_check : ((List.range 437).all fun c => tokSym (c : Int) == 0 || tokSym (c : Int) == 2 || codeOf (tokSym (c : Int)) == c) = true := by decide +kernel

theorem code_of {c : Int} (h0 : tokSym c ≠ 0) (h2 : tokSym c ≠ 2) : c = codeOf (tokSym c) := by
  have hp : ¬ c ≤ 0 := fun h => h0 (by unfold tokSym; rw [if_pos h])
  have hm : c ≤ YYMAXUTOK := Classical.byContradiction fun h => h2 (by unfold tokSym; rw [if_neg hp, if_neg h])
  have e : YYMAXUTOK = 436 := rfl
  rw [e] at hm
  have := List.all_eq_true.1 code_check c.toNat (List.mem_range.2 (by omega))
  rw [show ((c.toNat : Nat) : Int) = c by omega] at this
  simp only [Bool.or_eq_true, beq_iff_eq, h0, h2, false_or] at this
  omega

theorem same_codes : ∀ {ts us : List Tok}, ts.map (fun t => (tsym t, t.val)) = us.map (fun t => (tsym t, t.val)) → (∀ t ∈ us, tsym t ≠ 0 ∧ tsym t ≠ 2) →
    ts.map (fun t => (t.code, t.val)) = us.map fun t => (t.code, t.val)
  | [], [], _, _ => rfl
  | [], _ :: _, h, _ => by cases h
  | _ :: _, [], h, _ => by cases h
  | t :: ts, u :: us, h, hn => by
    simp only [List.map_cons, List.cons.injEq, Prod.mk.injEq] at h
    obtain ⟨⟨h1, h2⟩, h3⟩ := h
    have hu := hn u (by simp)
    have e : t.code = u.code := by
      have a := code_of (c := u.code) hu.1 hu.2
      have b := code_of (c := t.code) (by show tsym t ≠ 0; rw [h1]; exact hu.1) (by show tsym t ≠ 2; rw [h1]; exact hu.2)
      rw [a, b]
      show ((codeOf (tsym t) : Nat) : Int) = codeOf (tsym u)
      rw [h1]
    rw [List.map_cons, List.map_cons, same_codes h3 fun v hv => hn v (by simp [hv]), e, h2]

theorem inGrammar_ne2 {a : Nat} (h : InGrammar a) (hl : a < 199) : a ≠ 2 := by
  obtain ⟨r, g1, g2, g3⟩ := h
  have hs := rhs_spell g1 g2 g3 hl
  rintro rfl
  exact absurd hs (by decide +kernel)

/-- C68. Take any text all of whose tokens (up to the end of input) are terminals of the grammar, and print its tokens one by one, with a blank after each. The new
text has the same tokens with the same values. -/
theorem C68_same_tokens {fpr : Int} (hf : FprOK fpr) (sql : List UInt8) (hg : ∀ t ∈ sentence (tokensOf fpr sql), InGrammar (tsym t)) :
    (sentence (tokensOf fpr (layout (sentence (tokensOf fpr sql))))).map (fun t => (t.code, t.val)) = (sentence (tokensOf fpr sql)).map fun t => (t.code, t.val) := by
  have hw : ∀ t ∈ sentence (tokensOf fpr sql), tsym t = (wordOf t).sym ∧ t.val = (wordOf t).val ∧ ∀ a, wordOf t = .kw a → Known a :=
    fun t ht => wordOf_spelled ((tokensOf_shape hf sql).1 t (sentence_mem ht)) (sentence_ne t ht) (hg t ht)
  have hsp := spelled_words fun t ht => ⟨(hw t ht).1, (hw t ht).2.1⟩
  have hk : K ((sentence (tokensOf fpr sql)).map wordOf) := by
    intro a ha
    obtain ⟨t, ht, e⟩ := List.mem_map.1 ha
    exact (hw t ht).2.2 a e
  have hsrc := (source_iff hf sql hk).1 hsp
  have hok := hsrc.ok fun z hz => by have := cText_clean sql z hz; omega
  have hnew : Source fpr false ((sentence (tokensOf fpr sql)).map wordOf) (cText (layout (sentence (tokensOf fpr sql)))) := by
    rw [layout_eq, cText_ofNat (render2_bytes hok hk)]
    exact render2_source hok hk
  exact same_codes (spelled_same ((source_iff hf _ hk).2 hnew) hsp) fun t ht => ⟨sentence_ne t ht, inGrammar_ne2 (hg t ht) (tsym_lt t)⟩

theorem eof_val {fpr : Int} (hf : fpr ≠ 0) {sc : SC} {buf text : Bytes} {r : Nat} {sc' : SC} {buf' : Bytes} {v : TokVal}
    (h : lexAction fpr sc buf r text = some (.ret sc' buf' 0 v)) : v = .none := by
  unfold lexAction at h
  by_cases k : r ≤ 168
  · by_cases k1 : 5 ≤ r
    · rw [if_neg (by omega), if_neg (by omega), if_neg (by omega), if_neg (by omega), if_pos k] at h
      simp only [Option.map_eq_some_iff, ActRes.ret.injEq] at h
      obtain ⟨x, hx, _, _, _, e⟩ := h
      exact e.symm
    · have : r = 0 ∨ r = 1 ∨ r = 2 ∨ r = 3 ∨ r = 4 := by omega
      rcases this with rfl | rfl | rfl | rfl | rfl
      · rw [if_neg (by omega), if_neg (by omega), if_neg (by omega), if_neg (by omega), if_pos (by omega)] at h
        simp only [Option.map_eq_some_iff, ActRes.ret.injEq] at h
        obtain ⟨x, hx, _, _, _, e⟩ := h
        exact e.symm
      all_goals cases h
  · by_cases k2 : 189 ≤ r
    · repeat rw [if_neg (by omega)] at h
      cases h
    · obtain ⟨m, rfl, hm⟩ : ∃ m, r = 169 + m ∧ m < 20 := ⟨r - 169, by omega, by omega⟩
      have : m = 12 ∨ m = 8 ∨ m ≠ 12 ∧ m ≠ 8 := by omega
      rcases this with rfl | rfl | ⟨k3, k4⟩
      · have h : some (match strtoll0 text with
          | some v => ActRes.ret sc buf 261 (.ival v)
          | none => ActRes.ret sc buf fpr (.ival 9223372036854775807)) = some (ActRes.ret sc' buf' 0 v) := h
        cases e : strtoll0 text with
        | none => rw [e] at h; simp only [Option.some.injEq, ActRes.ret.injEq] at h; exact absurd h.2.2.1 hf
        | some v => rw [e] at h; simp at h
      · have h : text.head?.map (fun c => ActRes.ret sc buf (Int.ofNat c) .none) = some (ActRes.ret sc' buf' 0 v) := h
        simp only [Option.map_eq_some_iff, ActRes.ret.injEq] at h
        obtain ⟨x, hx, _, _, _, e⟩ := h
        exact e.symm
      · match m, k3, k4, hm, h with
        | 0, _, _, _, h | 1, _, _, _, h | 2, _, _, _, h | 3, _, _, _, h | 4, _, _, _, h | 5, _, _, _, h | 6, _, _, _, h | 7, _, _, _, h | 9, _, _, _, h | 10, _, _, _, h
        | 11, _, _, _, h | 13, _, _, _, h | 14, _, _, _, h | 15, _, _, _, h | 16, _, _, _, h | 17, _, _, _, h | 18, _, _, _, h => cases h
        | 19, _, _, _, h => cases h; rfl
        | m + 20, _, _, hm, _ => omega

theorem yylex_eof {fpr : Int} (hf : fpr ≠ 0) : ∀ (f : Nat) (st : LexSt) (acc : List Bytes) {t : Tok} {st' : LexSt}, yylexFuel fpr f st acc = some (t, st') → t.code = 0 → t.val = .none
  | 0, _, _, _, _, h, _ => by cases h
  | f + 1, st, acc, t, st', h, h0 => by
    simp only [yylexFuel] at h
    split at h
    · cases h
    · cases h; rfl
    · split at h
      · cases h
      · exact yylex_eof hf f _ _ h h0
      · rename_i e
        cases h
        simp only at h0 ⊢
        subst h0
        exact eof_val hf e

theorem lexFuel_eof {fpr : Int} (hf : fpr ≠ 0) : ∀ (f : Nat) (st : LexSt) {ts : List Tok} {st' : LexSt}, lexFuel fpr f st = some (ts, st') → ∀ t ∈ ts, t.code = 0 → t.val = .none
  | 0, _, _, _, h, _, _, _ => by cases h
  | f + 1, st, ts, st', h, t, ht, h0 => by
    simp only [lexFuel] at h
    split at h
    · cases h
    · rename_i u st1 e
      split at h
      · cases h
        simp only [List.mem_singleton] at ht
        subst ht
        exact yylex_eof hf _ _ _ e h0
      · split at h
        · cases h
        · rename_i e2
          cases h
          rcases List.mem_cons.1 ht with rfl | ht
          · exact yylex_eof hf _ _ _ e h0
          · exact lexFuel_eof hf f _ e2 t ht h0

theorem tokRel_same {A : Alloc} : ∀ (k : Nat) {ts us : List Tok}, ts.map (fun t => (tsym t, t.val)) = us.map (fun t => (tsym t, t.val)) → TokRel A keep k ts us
  | _, [], [], _ => .nil _
  | _, [], _ :: _, h => by cases h
  | _, _ :: _, [], h => by cases h
  | k, t :: ts, u :: us, h => by
    simp only [List.map_cons, List.cons.injEq, Prod.mk.injEq] at h
    exact .cons h.1.1 (by rw [h.1.2]) (tokRel_same (k + 1) h.2)

theorem parse_same {A : Alloc} {toks toks' ts : List Tok} {e : Tok} {junk : List Tok} (hin : Input toks ts e junk) (r : Res)
    (h : toks.map (fun t => (tsym t, t.val)) = toks'.map fun t => (tsym t, t.val)) : (hsqlParse A toks r).map (eRet keep) = (hsqlParse A toks' r).map (eRet keep) :=
  hsqlParse_rel (A := A) (g := keep) (toks' := toks') (r := r) (fun _ _ _ _ => .inl fun _ _ _ => rfl) hin (tokRel_same 0 h) rfl

theorem out_same {A : Alloc} {toks toks' : List Tok} {r : Res} (h : (hsqlParse A toks r).map (eRet keep) = (hsqlParse A toks' r).map (eRet keep))
    {buf buf' : Bytes} {fpr : Int} {sql sql' : List UInt8} (h1 : toks = tokensOf fpr sql) (h2 : toks' = tokensOf fpr sql') :
    (parse A fpr buf sql r).map (ParseOut.er keep) = (parse A fpr buf' sql' r).map (ParseOut.er keep) := by
  rw [parse_eq, parse_eq, ← h1, ← h2]
  clear h1 h2
  generalize hsqlParse A toks r = x at h
  generalize hsqlParse A toks' r = y at h
  cases x with
  | none => cases y with
    | none => rfl
    | some y => cases h
  | some x => cases y with
    | none => cases h
    | some y =>
      obtain ⟨k, st⟩ := x
      obtain ⟨k', st'⟩ := y
      simp only [Option.map_some, Option.some.injEq, eRet, Prod.mk.injEq] at h
      obtain ⟨rfl, key⟩ := h
      have q1 : st.res.er keep = st'.res.er keep := congrArg St.res key
      have q2 : (st.er keep).freed = (st'.er keep).freed := congrArg St.freed key
      have q3 : (st.er keep).leaked = (st'.er keep).leaked := congrArg St.leaked key
      simp only [Option.map_some, ParseOut.er, Option.some.injEq, ParseOut.mk.injEq]
      refine ⟨?_, q2, q3⟩
      show { st.res.er keep with isValid := decide (k = 0) } = { st'.res.er keep with isValid := decide (k = 0) }
      rw [q1]

theorem last_of {fpr : Int} (hfp : fpr = 64) (q : List UInt8) :
    ∃ last, tokensOf fpr q = sentence (tokensOf fpr q) ++ [last] ∧ last.code = 0 ∧ last.val = .none := by
  obtain ⟨last, h1, h2⟩ := sentence_64 q
  rw [← hfp] at h1
  obtain ⟨st, h3⟩ := tokensOf_spec fpr [] q
  exact ⟨last, h1, h2, lexFuel_eof (by omega) _ _ h3 last (by rw [h1]; simp) h2⟩

theorem all_same {fpr : Int} (hfp : fpr = 64) (sql : List UInt8) (hg : ∀ t ∈ sentence (tokensOf fpr sql), InGrammar (tsym t)) :
    (tokensOf fpr (layout (sentence (tokensOf fpr sql)))).map (fun t => (tsym t, t.val)) = (tokensOf fpr sql).map fun t => (tsym t, t.val) := by
  have hs := C68_same_tokens (.inl hfp) sql hg
  obtain ⟨l1, a1, a2, a3⟩ := last_of hfp (layout (sentence (tokensOf fpr sql)))
  obtain ⟨l2, b1, b2, b3⟩ := last_of hfp sql
  rw [a1, b1, List.map_append, List.map_append]
  have hs' := congrArg (List.map fun p : Int × TokVal => (tokSym p.1, p.2)) hs
  rw [List.map_map, List.map_map] at hs'
  have : [l1].map (fun t => (tsym t, t.val)) = [l2].map fun t => (tsym t, t.val) := by simp only [List.map_cons, List.map_nil, tsym, a2, a3, b2, b3]
  rw [this, ← b1]
  exact congrArg (· ++ _) hs'

/-- C68. `parse` does the same with the text and with the printed tokens: the same verdict and message, the same statements, parameters, blocks freed and leaked; only positions
in the text differ (`ParseOut.er keep` erases these and nothing else). -/
theorem C68_same_result {A : Alloc} {fpr : Int} (hfp : fpr = 64) (buf buf' : Bytes) (sql : List UInt8) (r : Res)
    (hg : ∀ t ∈ sentence (tokensOf fpr sql), InGrammar (tsym t)) :
    (parse A fpr buf (layout (sentence (tokensOf fpr sql))) r).map (ParseOut.er keep) = (parse A fpr buf' sql r).map (ParseOut.er keep) := by
  obtain ⟨e, junk, hin⟩ := input_of (tokensOf_shape (.inl hfp) (layout (sentence (tokensOf fpr sql)))).2
  exact out_same (parse_same hin r (all_same hfp sql hg)) rfl rfl

mutual
theorem wf_inGrammar : ∀ (t : Tree), t.WF → InGrammar t.sym ∨ 199 ≤ t.sym → ∀ m ∈ t.yield, InGrammar (tsym m)
  | .leaf u, h, hs, m, hm => by
    simp only [Tree.yield, List.mem_singleton] at hm
    subst hm
    rcases hs with h1 | h1
    · exact h1
    · exact absurd (tsym_lt m) (by simp only [Tree.sym] at h1; omega)
  | .node r cs, h, _, m, hm => by
    obtain ⟨h1, h2, h3, h4⟩ := h
    exact wfL_inGrammar cs h4 (fun c hc => ⟨r, h1, h2, h3 ▸ List.mem_map_of_mem hc⟩) m hm
theorem wfL_inGrammar : ∀ (cs : List Tree), WFL cs → (∀ c ∈ cs, InGrammar c.sym) → ∀ m ∈ yieldL cs, InGrammar (tsym m)
  | [], _, _, m, hm => by simp [yieldL] at hm
  | c :: cs, hw, h, m, hm => by
    rw [yieldL, List.mem_append] at hm
    rcases hm with hm | hm
    · exact wf_inGrammar c hw.1 (.inl (h c (by simp))) m hm
    · exact wfL_inGrammar cs hw.2 (fun d hd => h d (by simp [hd])) m hm
end

/-- C68. A valid text meets the condition: printing the tokens of a valid text gives a valid text with the same statements and parameters, up to positions. -/
theorem C68_accepted {A : Alloc} (hA : Distinct A) {fpr : Int} (hfp : fpr = 64) (buf buf' : Bytes) (sql : List UInt8) (l c : Int) (o : ParseOut)
    (h : parse A fpr buf sql (newResult l c) = some o) (hv : o.res.isValid = true) :
    ∃ o', parse A fpr buf' (layout (sentence (tokensOf fpr sql))) (newResult l c) = some o' ∧ o'.res.isValid = true ∧
      o'.res.stmts.map (V.er keep) = o.res.stmts.map (V.er keep) ∧ o'.res.params = o.res.params := by
  obtain ⟨t, ht, _⟩ := C11_valid_is_grammatical hA (.inl hfp) buf sql l c o h hv
  have hg : ∀ t ∈ sentence (tokensOf fpr sql), InGrammar (tsym t) := by
    obtain ⟨h1, h2, h3, _⟩ := ht
    rw [← h3]
    exact wf_inGrammar t h1 (.inr (by rw [h2]; decide))
  have e := C68_same_result (A := A) hfp buf' buf sql (newResult l c) hg
  rw [h] at e
  cases h' : parse A fpr buf' (layout (sentence (tokensOf fpr sql))) (newResult l c) with
  | none => rw [h'] at e; cases e
  | some o' =>
    rw [h'] at e
    simp only [Option.map_some, Option.some.injEq, ParseOut.er, ParseOut.mk.injEq, Res.er, Res.mk.injEq] at e
    obtain ⟨⟨e1, e2, _, _, _, e3⟩, _⟩ := e
    exact ⟨o', rfl, by rw [e2, hv], e1, e3⟩

theorem inGrammar_of {a : Nat} (h : (List.range 358).any (fun r => Nat.ble 2 r && (rhs r).contains a) = true) : InGrammar a := by
  obtain ⟨r, h1, h2⟩ := List.any_eq_true.1 h
  simp only [List.mem_range] at h1
  simp only [Bool.and_eq_true, List.contains_iff_mem] at h2
  exact ⟨r, Nat.le_of_ble_eq_true h2.1, by rw [rules_len]; exact h1, h2.2⟩

theorem reformat_of {f : Nat} {sql out : List UInt8} (h : (match tokE f sql with
      | some ts => (sentence ts).all (fun t => (List.range 358).any fun r => Nat.ble 2 r && (rhs r).contains (tsym t)) && decide (layout (sentence ts) = out)
      | none => false) = true) :
    (∀ t ∈ sentence (tokensOf 64 sql), InGrammar (tsym t)) ∧ layout (sentence (tokensOf 64 sql)) = out := by
  cases e : tokE f sql with
  | none => rw [e] at h; cases h
  | some ts =>
    rw [e] at h
    simp only [Bool.and_eq_true, List.all_eq_true, decide_eq_true_eq] at h
    rw [tokE_eq e]
    exact ⟨fun t ht => inGrammar_of (h.1 t ht), h.2⟩

/-- Comments, line breaks, the case of keywords, the base of a number and the quotes of names go, all that means anything stays: -/
example : (∀ t ∈ sentence (tokensOf 64 (txt b!"select A,\n 010 -- eight\nfrom \"T t\"where x<>'it''s'and y>=.5;")), InGrammar (tsym t)) ∧
    layout (sentence (tokensOf 64 (txt b!"select A,\n 010 -- eight\nfrom \"T t\"where x<>'it''s'and y>=.5;"))) =
      txt b!"SELECT \"A\" , 8 FROM \"T t\" WHERE \"x\" <> 'it''s' AND \"y\" >= .5 ; " :=
  reformat_of (f := 100) (by decide +kernel)
/-- A text that is not a sentence can meet the condition, too: -/
example : (∀ t ∈ sentence (tokensOf 64 (txt b!"from 1 ? select")), InGrammar (tsym t)) ∧ layout (sentence (tokensOf 64 (txt b!"from 1 ? select"))) = txt b!"FROM 1 ? SELECT " :=
  reformat_of (f := 60) (by decide +kernel)
/-- The smallest number is one token: -/
example : layout (sentence (tokensOf 64 (txt b!"-9223372036854775808"))) = txt b!"-9223372036854775808 " := (reformat_of (f := 60) (by decide +kernel)).2
example : (run0 b!"select 1 from t").map (fun o => o.res.isValid) = some true :=
  parse_of_eval (f := 60) (q := Option.map fun (o : ParseOut) => o.res.isValid) (by decide +kernel)

end Verif.Props

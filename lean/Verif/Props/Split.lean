import Verif.Props.Compose
import Verif.Props.Short
import Verif.Sem.Split
/-!
# C40: the statements are what is between the semicolons
-/
namespace Verif.Props
open Verif.Lex Verif.LR Verif.Sem Verif.Api

/-- The number of semicolon tokens. -/
def semis (ts : List Tok) : Nat := ts.countP fun t => decide (t.code = 59)

theorem semi_iff {m : Tok} : m.code = 59 ↔ tsym m = T.SEMI := ⟨tsym_semi, code_semi⟩

theorem semis_none {ts : List Tok} (h : ∀ m ∈ ts, tsym m ≠ T.SEMI) : semis ts = 0 := by
  unfold semis
  rw [List.countP_eq_zero]
  intro m hm
  have : m.code ≠ 59 := fun hc => h m hm (semi_iff.1 hc)
  simpa using this

theorem semis_joined {ss : List Tree} {ts : List Tok} (h : Joined ss ts) (hw : ∀ s ∈ ss, s.WF ∧ s.sym = N.statement) : semis ts + 1 = ss.length := by
  induction h with
  | one s =>
    rw [semis_none (no_semi s (hw s (by simp)).1 (by rw [(hw s (by simp)).2]; decide))]
    rfl
  | snoc ss ts m s _ hm ih =>
    have h1 := ih fun s hs => hw s (by simp [hs])
    have h2 := semis_none (no_semi s (hw s (by simp)).1 (by rw [(hw s (by simp)).2]; decide))
    unfold semis at *
    rw [List.countP_append, List.countP_cons, h2, if_pos (by simpa using semi_iff.2 hm), List.length_append, ← h1]
    rfl

section
variable {A : Alloc} (hA : Distinct A) {fpr : Int} (hf : FprOK fpr) (buf : Bytes) (a b : List UInt8) (l c : Int)
include hA hf

/-- C40. A valid result has as many statements as there are semicolons in the text, and one more if the last token is not a semicolon. (Semicolons in strings, quoted names and
comments are not tokens.) -/
theorem C40_count (o : ParseOut) (h : parse A fpr buf a (newResult l c) = some o) (hv : o.res.isValid = true) :
    size o.res = semis (sentence (tokensOf fpr a)) + if (sentence (tokensOf fpr a)).getLast?.map Tok.code = some 59 then 0 else 1 := by
  obtain ⟨t, ht, _⟩ := C11_valid_is_grammatical hA hf buf a l c o h hv
  obtain ⟨_, _, hsz, _⟩ := C17_statements_in_order hA hf buf a l c o h hv t ht
  rw [hsz]
  obtain ⟨hw, hs, hy, _⟩ := ht
  obtain ⟨ls, s, rfl, h1, h2, h3, h4⟩ := input_cases hw hs
  obtain ⟨w1, w2, _⟩ := stmtTrees_wf ls h1 h2
  have hwf : ∀ s ∈ stmtTrees ls, s.WF ∧ s.sym = N.statement := by
    intro s hs
    refine ⟨?_, w2 s hs⟩
    have key : ∀ ts : List Tree, WFL ts → ∀ s ∈ ts, s.WF := by
      intro ts
      induction ts with
      | nil => intro _ s hs; cases hs
      | cons x ts ih =>
        intro hw s hs
        rcases List.mem_cons.1 hs with rfl | hs
        · exact hw.1
        · exact ih hw.2 s hs
    exact key _ w1 s hs
  have hj := semis_joined (joined_list ls h1 h2) hwf
  have hy : sentence (tokensOf fpr a) = ls.yield ++ s.yield := by rw [← hy]; simp [Tree.yield, yieldL]
  have hst : stmtsOf (.node 2 [ls, s]) = stmtTrees ls := rfl
  have hend : ∀ m, ls.yield.getLast? = some m → m.code ≠ 59 := fun m hm hc => no_semi_end h1 h2 hm (semi_iff.1 hc)
  rw [hst, ← hj, hy]
  rcases optSemi_cases h3 h4 with ⟨m, hm, rfl⟩ | rfl
  · have : m.code = 59 := semi_iff.2 hm
    simp [Tree.yield, yieldL, semis, List.countP_append, this]
  · simp only [Tree.yield, yieldL, List.append_nil]
    rw [if_neg]
    intro hx
    cases hg : ls.yield.getLast? with
    | none => rw [hg] at hx; cases hx
    | some m =>
      rw [hg] at hx
      exact hend m hg (by simpa using hx)

/-- C40. The converse of C24. If the scanner reads all of `a`, which has no NUL, there is a token in `b`, and `a;b` is valid, then `a` and `b` are valid; the statements of `a;b` are
those of `a` followed by those of `b`, with the parameters of `b` numbered after those of `a`. -/
theorem C40_split (ts : List Tok) (hT : ScannedTo fpr a ts) (h0 : (0 : UInt8) ∉ a) (hb : sentence (tokensOf fpr b) ≠ [])
    (o : ParseOut) (h : parse A fpr buf (a ++ 59 :: b) (newResult l c) = some o) (hv : o.res.isValid = true) :
    ∃ oa ob, parse A fpr buf a (newResult l c) = some oa ∧ oa.res.isValid = true ∧ parse A fpr buf b (newResult l c) = some ob ∧ ob.res.isValid = true ∧
      astL o.res.stmts = astL oa.res.stmts ++ (astL ob.res.stmts).map (addIds oa.res.params.length) ∧
      size o.res = size oa.res + size ob.res ∧ o.res.params.length = oa.res.params.length + ob.res.params.length := by
  obtain ⟨t, ht, hn⟩ := C11_valid_is_grammatical hA hf buf _ l c o h hv
  obtain ⟨m, hm, htok⟩ := joined_tokens (b := b) hT h0
  have hs := scanned_tokens hT
  have hms := tsym_semi hm
  have hsent : sentence (tokensOf fpr (a ++ 59 :: b)) = ts ++ m :: sentence (tokensOf fpr b) := by
    rw [htok]
    unfold sentence
    rw [List.takeWhile_append_of_pos (by intro t ht; simpa using hT.2 t ht), List.takeWhile_cons]
    have : (tsym m != 0) = true := by rw [hms]; rfl
    rw [this]; simp
  have ht' := ht
  rw [hsent] at ht'
  obtain ⟨ta, tb, da, db, hst, na, nb, _⟩ := derives_split hms hb ht'
  rw [← hs] at da
  have hd := parse_den hA hf buf _ l c o h hv ht
  obtain ⟨v1, v2⟩ := denInput_split da.1 da.2.1 db.1 db.2.1 ht.1 ht.2.1 hst hd
  obtain ⟨oa, hoa, hva⟩ := (parse_valid_iff hA hf buf a l c).2 ⟨ta, da, by omega, v1⟩
  obtain ⟨ob, hob, hvb⟩ := (parse_valid_iff hA hf buf b l c).2 ⟨tb, db, by omega, v2⟩
  have hval := denInput_join da.1 da.2.1 db.1 db.2.1 ht.1 ht.2.1 hst (parse_den hA hf buf a l c oa hoa hva da)
    (parse_value hA hf buf a l c oa hoa hva da) (parse_value hA hf buf b l c ob hob hvb db)
  have hval2 := parse_value hA hf buf _ l c o h hv ht
  rw [hval] at hval2
  simp only [Option.some.injEq] at hval2
  have e : astL o.res.stmts = astL oa.res.stmts ++ (astL ob.res.stmts).map (addIds oa.res.params.length) := by
    rw [← hval2, fillL_map, hL_map, List.map_map]
    rfl
  refine ⟨oa, ob, hoa, hva, hob, hvb, e, ?_, ?_⟩
  · have := congrArg List.length e
    simpa [astL, hL_map, size] using this
  · rw [(C18_parameters_in_source_order hA hf buf _ l c o h hv).1, (C18_parameters_in_source_order hA hf buf a l c oa hoa hva).1,
      (C18_parameters_in_source_order hA hf buf b l c ob hob hvb).1, hsent, hs, qmarks_append]
    congr 1
    have : tsym m ≠ T.QMARK := by rw [hms]; decide
    simp [qmarks, this]

end

/-- A concrete case for C40: two semicolons, one of them at the end, and one more in a string. -/
example : (run0 b!"SELECT ';' FROM t; SELECT ? FROM u;").map (fun o => (o.res.isValid, size o.res)) = some (true, 2) :=
  parse_of_eval (f := 40) (q := Option.map fun (o : ParseOut) => (o.res.isValid, size o.res)) (by decide +kernel)

end Verif.Props

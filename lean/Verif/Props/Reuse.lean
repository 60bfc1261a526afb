import Verif.Sem.Reuse
import Verif.Sem.Dull
import Verif.Props.Api
/-!
# C58. Parsing into a result that already holds statements appends to it

`SQLParser::parse(sql, &result)` may be called again with the same result object.  What the second call does is what it does
on an empty result object, except that its statements are appended to those already there, and its parameters are merged
into the parameter list.  The statements already there are not touched, nothing of them is freed, and no `ival` of an
earlier parameter is renumbered.
-/
namespace Verif.Props
open Verif.Lex Verif.LR Verif.Sem Verif.Api

/-- `o` is the outcome `o'` of the same call on an empty result object, appended to the statements and parameters of `r`. -/
structure Appends (r : Res) (o o' : ParseOut) : Prop where
  valid : o.res.isValid = o'.res.isValid
  message : o.res.errMsg = o'.res.errMsg
  line : o.res.errLine = o'.res.errLine
  column : o.res.errCol = o'.res.errCol
  freed : o.freed = o'.freed
  leaked : o.leaked = o'.leaked
  stmts : o.res.stmts = r.stmts ++ o'.res.stmts
  params : o.res.params.Perm (r.params ++ o'.res.params)

/-- Both calls are defined and the outcomes are related, or both are undefined. -/
def BothAppend (r : Res) : Option ParseOut → Option ParseOut → Prop
  | some o, some o' => Appends r o o'
  | none, none => True
  | _, _ => False

/-- C58. A parse into a result `r`, whose statements are statements of the parser's and whose parameters are parameters in them, compared
with the same call on the result without statements and parameters. -/
theorem C58_parse_appends {A : Alloc} {r : Res} (hA : AllocOK A r) (hr : ∀ v ∈ r.stmts, Sat (fun _ => True) (fun _ => True) (.ref .stmt) v) (hp : ParamsLive r)
    {fpr : Int} (hf : FprOK fpr) (buf : Bytes) (sql : List UInt8) :
    BothAppend r (parse A fpr buf sql r) (parse A fpr buf sql { r with stmts := [], params := [] }) := by
  obtain ⟨h1, h2⟩ := tokensOf_shape hf sql
  obtain ⟨e, junk, hin⟩ := input_of h2
  have key := hsqlParse_plus hA h1 ⟨hr, hp⟩ hin
  rw [parse_eq, parse_eq]
  change RPlus r (hsqlParse A (tokensOf fpr sql) { r with stmts := [], params := [] }) _ at key
  generalize hsqlParse A (tokensOf fpr sql) { r with stmts := [], params := [] } = x at key ⊢
  generalize hsqlParse A (tokensOf fpr sql) r = y at key ⊢
  cases x with
  | none => cases y with
    | none => trivial
    | some _ => cases key
  | some x => cases y with
    | none => cases key
    | some y =>
      obtain ⟨x1, x2⟩ := x
      obtain ⟨y1, y2⟩ := y
      obtain ⟨k1, P, k2, k3⟩ := key
      simp only [] at k1 k2 k3
      subst k1 k2
      exact ⟨rfl, rfl, rfl, rfl, rfl, rfl, rfl, k3⟩

/-- C58, a result that an accepted text was parsed into: the second call does what it does on a new result object. -/
theorem C58_second_parse {A B : Alloc} (hA : Distinct A) (hB : Distinct B) {fpr : Int} (hf : FprOK fpr) {buf buf' : Bytes} {sql sql' : List UInt8} {l c : Int} {o : ParseOut}
    (h : parse A fpr buf sql (newResult l c) = some o) (hv : o.res.isValid = true)
    (h1 : ∀ i, B.tok i ∉ owned o.res) (h2 : ∀ i, B.new i ∉ owned o.res) :
    BothAppend o.res (parse B fpr buf' sql' o.res) (parse B fpr buf' sql' (newResult l c)) := by
  obtain ⟨hn, hok, _⟩ := parse_heap (ok := fun _ => True) hf (hA.ok (l := l) (c := c)) newResult_ok h
  obtain ⟨g1, _, g3⟩ := C16_valid_iff_no_error hA hf buf sql l c o h
  have hmsg : o.res.errMsg = none := by
    have := g1.1 hv
    simpa [Api.message] using this
  obtain ⟨hl, hc⟩ := g3 hv
  have hAl : AllocOK B o.res := ⟨hB.tok, hB.new, hB.ne, (List.nodup_append.1 hn).2.1, h1, h2⟩
  have key := C58_parse_appends hAl (fun v hv => (hok.stmts v hv).mono (fun _ _ => trivial) (fun _ h => h)) hok.params hf buf' sql'
  have e : (⟨[], o.res.isValid, o.res.errMsg, o.res.errLine, o.res.errCol, []⟩ : Res) = ⟨[], o.res.isValid, none, l, c, []⟩ := by rw [hmsg, hl, hc]
  have e' := parse_isValid B fpr buf' sql' (newResult l c) o.res.isValid
  change BothAppend o.res _ (parse B fpr buf' sql' ⟨[], o.res.isValid, o.res.errMsg, o.res.errLine, o.res.errCol, []⟩) at key
  rw [e] at key
  rw [← e']
  exact key

/-- In particular the statements already there stay as they are, whatever the second text is. -/
theorem C58_statements_kept {A B : Alloc} (hA : Distinct A) (hB : Distinct B) {fpr : Int} (hf : FprOK fpr) {buf buf' : Bytes} {sql sql' : List UInt8} {l c : Int} {o o' : ParseOut}
    (h : parse A fpr buf sql (newResult l c) = some o) (hv : o.res.isValid = true)
    (h1 : ∀ i, B.tok i ∉ owned o.res) (h2 : ∀ i, B.new i ∉ owned o.res) (h' : parse B fpr buf' sql' o.res = some o') :
    o.res.stmts <+: o'.res.stmts ∧ ∀ a ∈ owned o.res, a ∉ o'.freed ∧ a ∉ o'.leaked := by
  have key := C58_second_parse (buf' := buf') (sql' := sql') hA hB hf h hv h1 h2
  obtain ⟨hn, hok, _⟩ := parse_heap (ok := fun _ => True) hf (hA.ok (l := l) (c := c)) newResult_ok h
  have hAl : AllocOK B o.res := ⟨hB.tok, hB.new, hB.ne, (List.nodup_append.1 hn).2.1, h1, h2⟩
  obtain ⟨hn', _⟩ := parse_heap (ok := fun b => Occurs fpr sql b ∨ True) hf hAl hok h'
  have hpre : o.res.stmts <+: o'.res.stmts := by
    rw [h'] at key
    cases hq : parse B fpr buf' sql' (newResult l c) with
    | none => rw [hq] at key; cases key
    | some q =>
      rw [hq] at key
      rw [key.stmts]
      exact List.prefix_append _ _
  have hmsg : o.res.errMsg = none := by
    have := (C16_valid_iff_no_error hA hf buf sql l c o h).1.1 hv
    simpa [Api.message] using this
  refine ⟨hpre, fun a ha => ?_⟩
  have ha' : a ∈ owned o'.res := by
    obtain ⟨t, ht⟩ := hpre
    have : a ∈ addrsL o.res.stmts := by
      simpa [owned, Res.errAddr, hmsg] using ha
    unfold owned
    rw [← ht, addrsL_append]
    exact List.mem_append_right _ (List.mem_append_left _ this)
  rw [List.append_assoc] at hn'
  obtain ⟨_, q2, q3⟩ := List.nodup_append.1 hn'
  obtain ⟨_, _, q4⟩ := List.nodup_append.1 q2
  exact ⟨fun hf => q3 a hf a (List.mem_append_right _ ha') rfl, fun hl => q4 a hl a ha' rfl⟩

/-- `SELECT ?` was parsed into a result, then `SELECT ? + ?; SHOW TABLES` into the same one: three statements, three parameters. -/
def twice : Option ParseOut := stage1.bind fun o => (evalParse heap2 64 40 (txt b!"SELECT ? + ?; SHOW TABLES") o.res).getD none

theorem twice_eq : ∃ o, parse heap 64 [] (txt b!"SELECT ?") (newResult 0 0) = some o ∧ o.res.isValid = true ∧ (∀ i, heap2.tok i ∉ owned o.res) ∧ (∀ i, heap2.new i ∉ owned o.res) ∧
    parse heap2 64 [] (txt b!"SELECT ? + ?; SHOW TABLES") o.res = twice := by
  have h : (stage1.map fun o => (o.res.isValid && (owned o.res).all (fun a => decide (a < 1000)) && (evalParse heap2 64 40 (txt b!"SELECT ? + ?; SHOW TABLES") o.res).isSome)) = some true := by decide +kernel
  rw [stage1_eq]
  cases hs : stage1 with
  | none => rw [hs] at h; cases h
  | some o =>
    rw [hs] at h
    simp only [Option.map_some, Option.some.injEq, Bool.and_eq_true, List.all_eq_true, decide_eq_true_eq] at h
    obtain ⟨⟨g1, g2⟩, g3⟩ := h
    refine ⟨o, rfl, g1, fun i hi => ?_, fun i hi => ?_, ?_⟩
    · have := g2 _ hi; simp only [heap2] at this; omega
    · have := g2 _ hi; simp only [heap2] at this; omega
    · rw [parse_eval_eq g3]; unfold twice; rw [hs, Option.bind_some]

/-- A case that meets the hypotheses of C58, with parameters in both texts.  The parameters are sorted by `ival`, so those of the two texts are interleaved. -/
example : twice.map (fun o => (o.res.isValid, size o.res, o.res.params.length, o.res.params.map fun a => match ivalAtL a o.res.stmts with | some (.int n) => n | _ => -1)) =
    some (true, 3, 3, [0, 0, 1]) := by decide +kernel

/-- The hypothesis that the first text was accepted is needed: after a rejected one, the stale message makes a `CREATE TABLE` fail that a new result accepts. -/
theorem C58_stale_message_violation :
    ((run0 b!"SELECT").bind fun o => (evalParse heap2 64 40 (txt b!"CREATE TABLE t (a INT)") o.res).getD none).map (fun o => o.res.isValid) = some false ∧
    (run0 b!"CREATE TABLE t (a INT)").map (fun o => o.res.isValid) = some true := by
  refine ⟨?_, parse_of_eval (f := 40) (q := Option.map fun (o : ParseOut) => o.res.isValid) (by decide +kernel)⟩
  have e : run0 b!"SELECT" = (evalParse heap 64 20 (txt b!"SELECT") (newResult 0 0)).getD none := parse_eval_eq (by decide +kernel)
  rw [e]
  decide +kernel

end Verif.Props

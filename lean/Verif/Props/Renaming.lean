import Verif.Props.Inject
import Verif.Props.Parens
/-!
# C55: names mean nothing to the parser

`Opaque pre t post` (`Verif.Sem.Looked`) says which tokens: string constants but for those of dates and intervals, and identifiers but for file types, CSV options,
the `NULLS FIRST` of an ordering, and the names of columns at their definition (which occur in a message).
-/
namespace Verif.Props
open Verif.Lex Verif.LR Verif.Sem Verif.Api

/-- Replace the string of every token of the first text by the string of the token at the same place in `T` (`A.tok i` is the address of the string of the `i`-th token). -/
def retext (A : Alloc) (T : List Tok) : Nat → Bytes → Bytes := fun x b =>
  match (List.range T.length).find? (fun i => decide (A.tok i = x)) with
  | none => b
  | some i => match (T[i]?).map Tok.val with
    | some (.sval s) => s
    | _ => b

theorem retext_tok {A : Alloc} (hA : ∀ i j, A.tok i = A.tok j → i = j) {T : List Tok} {i : Nat} {t : Tok} {s : Bytes} (h : T[i]? = some t) (hv : t.val = .sval s) (b : Bytes) :
    retext A T (A.tok i) b = s := by
  have hi : i < T.length := (List.getElem?_eq_some_iff.1 h).1
  unfold retext
  cases hf : (List.range T.length).find? (fun j => decide (A.tok j = A.tok i)) with
  | none =>
    have := List.find?_eq_none.1 hf i (by simpa using hi)
    simp at this
  | some j =>
    have := List.find?_some hf
    simp only [decide_eq_true_eq] at this
    have e := hA _ _ this
    subst e
    simp only [h, Option.map_some, hv]

theorem retext_other {A : Alloc} {T : List Tok} {x : Nat} (h : ∀ i, A.tok i ≠ x) (b : Bytes) : retext A T x b = b := by
  unfold retext
  rw [List.find?_eq_none.2]
  intro i _
  simpa using h i

theorem tokRel_of {A : Alloc} {g : Nat → Bytes → Bytes} : ∀ (k : Nat) (ts ts' : List Tok), ts.map tsym = ts'.map tsym →
    (∀ i t t', ts[i]? = some t → ts'[i]? = some t' → (tokValue A (k + i) t.val).er g = (tokValue A (k + i) t'.val).er keep) → TokRel A g k ts ts'
  | _, [], [], _, _ => .nil _
  | _, [], _ :: _, h, _ => by simp at h
  | _, _ :: _, [], h, _ => by simp at h
  | k, t :: ts, t' :: ts', h, hv => by
    simp only [List.map_cons, List.cons.injEq] at h
    refine .cons h.1 (hv 0 t t' rfl rfl) (tokRel_of (k + 1) ts ts' h.2 fun i u u' h1 h2 => ?_)
    have := hv (i + 1) u u' (by simpa using h1) (by simpa using h2)
    rwa [show k + (i + 1) = k + 1 + i by omega] at this

theorem shape_sval {t : Tok} (h : TokShape t) (hs : tsym t = T.STRING ∨ tsym t = T.IDENTIFIER) : ∃ b, t.val = .sval b := by
  unfold TokShape at h
  cases hv : t.val with
  | sval b => exact ⟨b, rfl⟩
  | none => rw [hv] at h; rcases hs with hs | hs <;> simp [hs] at h
  | ival n => rw [hv] at h; rcases hs with hs | hs <;> simp only [hs] at h <;> exact absurd h (by decide)
  | fval f => rw [hv] at h; rcases hs with hs | hs <;> simp only [hs] at h <;> exact absurd h (by decide)

theorem opaque_sym {pre post : List Tok} {t : Tok} (h : Opaque pre t post) : tsym t = T.STRING ∨ tsym t = T.IDENTIFIER := by
  rcases h with h | h
  · exact .inl h.1
  · exact .inr h.1

section
variable {A : Alloc} {fpr : Int} (hf : FprOK fpr) (buf buf' : Bytes) (sql sql' : List UInt8) (r : Res) (hA : AllocOK A r)
  (hsym : (tokensOf fpr sql').map tsym = (tokensOf fpr sql).map tsym)
  (hval : ∀ pre t post t', tokensOf fpr sql = pre ++ t :: post → (tokensOf fpr sql')[pre.length]? = some t' → t'.val = t.val ∨ Opaque pre t post)
include hf hA hsym hval

/-- C55. Take two texts with the same kinds of tokens, and the same token values except for names and string constants at places where they mean nothing to the
parser. `parse` does the same on both: the same outcome, the same message, the same statements with the same numbers, the same parameters, the same blocks freed and leaked;
only, the strings taken from the tokens of the first text are those of the tokens of the second one (and positions in the text differ). -/
theorem C55_names_are_opaque :
    (parse A fpr buf sql r).map (ParseOut.er (retext A (tokensOf fpr sql'))) = (parse A fpr buf' sql' r).map (ParseOut.er keep) := by
  have hinj : ∀ i j, A.tok i = A.tok j → i = j := hA.tok
  have hlen : (tokensOf fpr sql').length = (tokensOf fpr sql).length := by
    have := congrArg List.length hsym; simpa using this
  have split : ∀ i t, (tokensOf fpr sql)[i]? = some t → tokensOf fpr sql = (tokensOf fpr sql).take i ++ t :: (tokensOf fpr sql).drop (i + 1) := by
    intro i t h
    obtain ⟨hb, he⟩ := List.getElem?_eq_some_iff.1 h
    rw [← he, ← List.drop_eq_getElem_cons hb, List.take_append_drop]
  have hrel : TokRel A (retext A (tokensOf fpr sql')) 0 (tokensOf fpr sql) (tokensOf fpr sql') := by
    refine tokRel_of 0 _ _ hsym.symm fun i t t' h1 h2 => ?_
    rw [Nat.zero_add]
    have hb := (List.getElem?_eq_some_iff.1 h1).1
    rcases hval _ t _ t' (split i t h1) (by rw [List.length_take, Nat.min_eq_left (by omega)]; exact h2) with h | h
    · rw [h]
      cases hv : t.val <;> simp only [tokValue, V.er]
      rw [retext_tok hinj h2 (by rw [h, hv])]
      rfl
    · have hs := opaque_sym h
      have hs' : tsym t' = T.STRING ∨ tsym t' = T.IDENTIFIER := by
        have e : ((tokensOf fpr sql').map tsym)[i]? = ((tokensOf fpr sql).map tsym)[i]? := by rw [hsym]
        rw [List.getElem?_map, List.getElem?_map, h1, h2] at e
        simp only [Option.map_some, Option.some.injEq] at e
        rw [e]; exact hs
      obtain ⟨b, hb⟩ := shape_sval ((tokensOf_shape hf sql).1 t (List.mem_of_getElem? h1)) hs
      obtain ⟨b', hb'⟩ := shape_sval ((tokensOf_shape hf sql').1 t' (List.mem_of_getElem? h2)) hs'
      rw [hb, hb']
      simp only [tokValue, V.er]
      rw [retext_tok hinj h2 hb']
      rfl
  have hfix : TokFix A (retext A (tokensOf fpr sql')) (tokensOf fpr sql) := by
    intro pre t post h
    have hi : pre.length < (tokensOf fpr sql').length := by rw [hlen, h]; simp
    have h2 := List.getElem?_eq_getElem hi
    rcases hval pre t post _ h h2 with hv | ho
    · left
      intro x b hx
      cases htv : t.val <;> rw [htv] at hx <;> simp only [tokValue, reduceCtorEq, V.str.injEq] at hx
      rw [← hx.1, ← hx.2]
      exact retext_tok hinj h2 (by rw [hv, htv]) _
    · exact .inr ho
  obtain ⟨e, junk, hin⟩ := input_of (tokensOf_shape hf sql).2
  have hr : r.er (retext A (tokensOf fpr sql')) = r.er keep := by
    unfold Res.er
    have : r.stmts.map (V.er (retext A (tokensOf fpr sql'))) = r.stmts.map (V.er keep) := by
      rw [← erL_map, ← erL_map]
      refine erL_congr _ fun x hx b => ?_
      rw [retext_other]
      · rfl
      · rintro i rfl
        exact hA.tokOld i (List.mem_append_right _ hx)
    rw [this]
  have key := hsqlParse_rel (A := A) hfix hin hrel hr
  rw [parse_eq, parse_eq]
  generalize hsqlParse A (tokensOf fpr sql) r = x at key
  generalize hsqlParse A (tokensOf fpr sql') r = y at key
  cases x with
  | none => cases y with
    | none => rfl
    | some y => cases key
  | some x => cases y with
    | none => cases key
    | some y =>
      obtain ⟨k, st⟩ := x
      obtain ⟨k', st'⟩ := y
      simp only [Option.map_some, Option.some.injEq, eRet, Prod.mk.injEq] at key
      obtain ⟨rfl, key⟩ := key
      have q1 := congrArg St.res key
      have q2 := congrArg St.freed key
      have q3 := congrArg St.leaked key
      simp only [Option.map_some, ParseOut.er, Option.some.injEq, ParseOut.mk.injEq]
      refine ⟨?_, q2, q3⟩
      show { st.res.er _ with isValid := decide (k = 0) } = { st'.res.er _ with isValid := decide (k = 0) }
      rw [show st.res.er _ = st'.res.er keep from q1]

/-- What can be seen of it at once. -/
theorem C55_same_verdict :
    (parse A fpr buf sql r).map (fun o => (o.res.isValid, o.res.errMsg, o.res.stmts.length, o.res.params, o.freed, o.leaked)) =
      (parse A fpr buf' sql' r).map (fun o => (o.res.isValid, o.res.errMsg, o.res.stmts.length, o.res.params, o.freed, o.leaked)) := by
  have key := C55_names_are_opaque hf buf buf' sql sql' r hA hsym hval
  have h := congrArg (Option.map fun (o : ParseOut) => (o.res.isValid, o.res.errMsg, o.res.stmts.length, o.res.params, o.freed, o.leaked)) key
  rw [Option.map_map, Option.map_map] at h
  simpa only [Function.comp_def, ParseOut.er, Res.er, List.length_map] using h

end

/-! ## Concrete cases -/

/-- `Opaque`, by evaluation. -/
def opaqueB (pre : List Tok) (t : Tok) (post : List Tok) : Bool :=
  (tsym t == T.STRING && (match pre.getLast? with | some u => tsym u != T.DATE && tsym u != T.INTERVAL | none => true)) ||
  (tsym t == T.IDENTIFIER && (match pre.getLast? with | some u => tsym u != T.IDENTIFIER && tsym u != T.FORMAT | none => true) &&
    (match pre.reverse with | w :: u :: _ => !(tsym u == T.IMPORT && tsym w == T.FROM) | _ => true) &&
    (match post.head? with | some u => tsym u != T.IDENTIFIER && tsym u != T.STRING && tsym u != T.FILE && !typeWords.contains (tsym u) | none => true))

theorem opaque_of {pre post : List Tok} {t : Tok} (h : opaqueB pre t post = true) : Opaque pre t post := by
  unfold opaqueB at h
  simp only [Bool.or_eq_true, Bool.and_eq_true, beq_iff_eq] at h
  rcases h with ⟨h1, h2⟩ | ⟨⟨⟨h1, h2⟩, h3⟩, h4⟩
  · refine .inl ⟨h1, fun u hu => ?_⟩
    rw [hu] at h2
    simpa using h2
  · refine .inr ⟨h1, fun u hu => ?_, fun q u w hq => ?_, fun u hu => ?_⟩
    · rw [hu] at h2; simpa using h2
    · rw [hq] at h3
      simp only [List.reverse_append, List.reverse_cons, List.reverse_nil, List.nil_append, List.cons_append, Bool.not_eq_true', Bool.and_eq_false_iff, beq_eq_false_iff_ne] at h3
      rintro ⟨e1, e2⟩
      rcases h3 with h | h
      · exact h e1
      · exact h e2
    · rw [hu] at h4
      simp only [Bool.and_eq_true, bne_iff_ne, Bool.not_eq_true', List.contains_eq_mem, decide_eq_false_iff_not] at h4
      exact ⟨h4.1.1.1, h4.1.1.2, h4.1.2, h4.2⟩

def renTest : List Tok → List Tok → List Tok → Bool
  | _, [], [] => true
  | pre, t :: ts, t' :: ts' => tsym t' == tsym t && (t'.val == t.val || opaqueB pre t ts) && renTest (pre ++ [t]) ts ts'
  | _, _, _ => false

/-- The hypotheses of C55 about two texts. -/
def Renamed (sql sql' : List UInt8) : Prop := (tokensOf 64 sql').map tsym = (tokensOf 64 sql).map tsym ∧
  ∀ pre t post t', tokensOf 64 sql = pre ++ t :: post → (tokensOf 64 sql')[pre.length]? = some t' → t'.val = t.val ∨ Opaque pre t post

theorem renTest_spec : ∀ (ts ts' p : List Tok), renTest p ts ts' = true → ts'.map tsym = ts.map tsym ∧
    ∀ pre t post t', ts = pre ++ t :: post → ts'[pre.length]? = some t' → t'.val = t.val ∨ Opaque (p ++ pre) t post
  | [], [], p, _ => ⟨rfl, by intro pre t post t' h; cases pre <;> cases h⟩
  | [], _ :: _, p, h => by simp [renTest] at h
  | _ :: _, [], p, h => by simp [renTest] at h
  | t :: ts, t' :: ts', p, h => by
    simp only [renTest, Bool.and_eq_true, Bool.or_eq_true, beq_iff_eq] at h
    obtain ⟨⟨h1, h2⟩, h3⟩ := h
    obtain ⟨g1, g2⟩ := renTest_spec ts ts' _ h3
    refine ⟨by simp only [List.map_cons, h1, g1], fun pre u post u' e1 e2 => ?_⟩
    cases pre with
    | nil =>
      simp only [List.nil_append, List.cons.injEq] at e1
      simp only [List.length_nil, List.getElem?_cons_zero, Option.some.injEq] at e2
      obtain ⟨rfl, rfl⟩ := e1
      subst e2
      rcases h2 with h | h
      · exact .inl h
      · right; rw [List.append_nil]; exact opaque_of h
    | cons q pre =>
      simp only [List.cons_append, List.cons.injEq] at e1
      obtain ⟨rfl, e1⟩ := e1
      have := g2 pre u post u' e1 (by simpa using e2)
      simpa using this

theorem renamed_of {f : Nat} {sql sql' : List UInt8} (h : (match tokE f sql, tokE f sql' with | some a, some b => renTest [] a b | _, _ => false) = true) : Renamed sql sql' := by
  cases h1 : tokE f sql with
  | none => rw [h1] at h; cases h
  | some a =>
    cases h2 : tokE f sql' with
    | none => rw [h1, h2] at h; cases h
    | some b =>
      rw [h1, h2] at h
      simp only [] at h
      unfold Renamed
      rw [tokE_eq h1, tokE_eq h2]
      obtain ⟨g1, g2⟩ := renTest_spec a b [] h
      exact ⟨g1, fun pre t post t' e1 e2 => by simpa using g2 pre t post t' e1 e2⟩

/-- Tables, columns, aliases, functions, constants, also with quotes around them: -/
example : Renamed (txt b!"SELECT f(a) AS x FROM t WHERE t.b = 'v' AND c LIKE 'w%'") (txt b!"SELECT \"select\"(b) AS a FROM orders WHERE \"a b\".c = 'it''s' AND ccc LIKE ''") :=
  renamed_of (f := 80) (by decide +kernel)
example : Renamed (txt b!"INSERT INTO t (a, b) VALUES ('x', 1)") (txt b!"INSERT INTO u (c, d) VALUES ('y', 1)") := renamed_of (f := 80) (by decide +kernel)
example : AllocOK heap (newResult 0 0) := heap_distinct.ok
/-- The exceptions are necessary: -/
example : (run0 b!"SELECT a FROM t ORDER BY a ASC NULLS FIRST").map (fun o => o.res.isValid) = some true ∧
    (run0 b!"SELECT a FROM t ORDER BY a ASC NULLS FIRS").map (fun o => o.res.isValid) = some false :=
  ⟨parse_of_eval (f := 80) (q := Option.map fun (o : ParseOut) => o.res.isValid) (by decide +kernel),
   parse_of_eval (f := 80) (q := Option.map fun (o : ParseOut) => o.res.isValid) (by decide +kernel)⟩
example : (run0 b!"IMPORT FROM tbl FILE 'f' INTO t").map (fun o => o.res.isValid) = some true ∧
    (run0 b!"IMPORT FROM foo FILE 'f' INTO t").map (fun o => o.res.isValid) = some false :=
  ⟨parse_of_eval (f := 80) (q := Option.map fun (o : ParseOut) => o.res.isValid) (by decide +kernel),
   parse_of_eval (f := 80) (q := Option.map fun (o : ParseOut) => o.res.isValid) (by decide +kernel)⟩

end Verif.Props

import Verif.Sem.Left
import Verif.Sem.ParSet
import Verif.Props.Parse
import Verif.Props.Lexer
import Verif.Api.Result
import Verif.Api.Eval
/-!
# Properties of `SQLParser::parse`

`parse A fpr buf sql r` models `SQLParser::parse(sql, &r)`: `A` is the allocator, `fpr` the return value of the
`fprintf` executed for an out-of-range integer literal, `buf` the content of the thread-local string buffer.
`none` is undefined behaviour, `some o` gives the result afterwards and the heap blocks freed and leaked.
-/
namespace Verif.Props
open Verif.Lex Verif.LR Verif.Sem Verif.Api

/-- The tokens of a text. (By C02 and C21 the scanner always succeeds, and the tokens do not depend on the buffer.) -/
def tokensOf (fpr : Int) (sql : List UInt8) : List Tok :=
  match lexAll fpr (lexInit [] (cText sql)) with
  | some (ts, _) => ts
  | none => []

theorem tokensOf_spec (fpr : Int) (buf : Bytes) (sql : List UInt8) : ∃ st, lexAll fpr (lexInit buf (cText sql)) = some (tokensOf fpr sql, st) := by
  obtain ⟨T, st, st', h1, h2, _⟩ := C21_tokens_independent_of_buffer fpr buf [] sql
  refine ⟨st, ?_⟩
  unfold tokensOf
  rw [h2, h1]

theorem parse_eq (A : Alloc) (fpr : Int) (buf : Bytes) (sql : List UInt8) (r : Res) :
    parse A fpr buf sql r = (hsqlParse A (tokensOf fpr sql) r).map fun x => ⟨{ x.2.res with isValid := decide (x.1 = 0) }, x.2.freed, x.2.leaked⟩ := by
  obtain ⟨st, h⟩ := tokensOf_spec fpr buf sql
  unfold parse
  rw [h]
  simp only []
  cases hsqlParse A (tokensOf fpr sql) r with
  | none => rfl
  | some x => rfl

/-- C21. The outcome of a parse does not depend on what earlier calls left in the thread-local string buffer. (Nothing else
survives a call: scanner and parser state are local to it.) -/
theorem C21_parse_independent_of_history (A : Alloc) (fpr : Int) (buf buf' : Bytes) (sql : List UInt8) (r : Res) :
    parse A fpr buf sql r = parse A fpr buf' sql r := by rw [parse_eq, parse_eq]

/-- C09. The bytes from the first NUL on are ignored. -/
theorem C09_parse_ignores_after_nul (A : Alloc) (fpr : Int) (buf : Bytes) (a b : List UInt8) (r : Res) :
    parse A fpr buf (a ++ 0 :: b) r = parse A fpr buf a r := by
  unfold parse; rw [C09_nul_terminates_text]

/-- An allocator that never returns the same address twice. -/
structure Distinct (A : Alloc) : Prop where
  tok : ∀ i j, A.tok i = A.tok j → i = j
  new : ∀ i j, A.new i = A.new j → i = j
  ne : ∀ i j, A.tok i ≠ A.new j

theorem heap_distinct : Distinct heap := ⟨fun i j h => by simp only [heap] at h; omega, fun i j h => by simp only [heap] at h; omega, fun i j h => by simp only [heap] at h; omega⟩

theorem Distinct.ok {A : Alloc} (h : Distinct A) {l c : Int} : AllocOK A (newResult l c) :=
  ⟨h.tok, h.new, h.ne, by simp [newResult, Res.errAddr, addrsL], by simp [newResult, Res.errAddr, addrsL], by simp [newResult, Res.errAddr, addrsL]⟩

theorem newResult_ok {ok : Bytes → Prop} {good : List V → Prop} {l c : Int} : ResOK ok good (newResult l c) :=
  ⟨by simp [newResult], by simp [newResult]⟩

/-- The string `b` is the value of an identifier or string literal of the text. -/
def Occurs (fpr : Int) (sql : List UInt8) (b : Bytes) : Prop := ∃ t ∈ tokensOf fpr sql, t.val = .sval b

theorem tokensOf_shape {fpr : Int} (hf : FprOK fpr) (sql : List UInt8) : (∀ t ∈ tokensOf fpr sql, TokShape t) ∧ ∃ t ∈ tokensOf fpr sql, tsym t = 0 := by
  obtain ⟨st, h⟩ := tokensOf_spec fpr [] sql
  exact lexAll_shape hf h

/-- All ways a parse can end. -/
theorem parse_ends {A : Alloc} {fpr : Int} (hf : FprOK fpr) {sql : List UInt8} {r0 : Res} {ok : Bytes → Prop} (hA : AllocOK A r0) (hr0 : ResOK ok (fun _ => True) r0) :
    ∃ e junk, Input (tokensOf fpr sql) (sentence (tokensOf fpr sql)) e junk ∧
      Ends A (tokensOf fpr sql) (sentence (tokensOf fpr sql)) e junk r0 (hsqlParse A (tokensOf fpr sql) r0) := by
  obtain ⟨h1, h2⟩ := tokensOf_shape hf sql
  obtain ⟨e, junk, hin⟩ := input_of h2
  exact ⟨e, junk, hin, ends hin h1 hA hr0⟩

/-! ## C16 -/

theorem cText_scanned (fpr : Int) (hfpr : fpr ≠ 0) (sql : List UInt8) : scanned (tokensOf fpr sql) <+: cText sql := by
  obtain ⟨T, last, st, h1, _, _, h2, _⟩ := C02_scanning_total_lossless fpr hfpr [] sql
  have : tokensOf fpr sql = T ++ [last] := by unfold tokensOf; rw [h1]
  rw [this, ← h2]
  have e : scanned (T ++ [last]) = ((T ++ [last]).map fun t => t.pieces.flatten).flatten := by
    unfold scanned
    generalize T ++ [last] = l
    induction l with
    | nil => rfl
    | cons x l ih => simp only [List.flatMap_cons, List.flatten_append, List.map_cons, List.flatten_cons, ih]
  rw [e]
  exact List.prefix_append _ _

/-- C16. After a parse into a fresh result, the result is valid iff there is no error message; if it is not valid, the error
position is that of a place in the text: the line and column reached after some prefix of it; if it is valid, the error
position was not touched. -/
theorem C16_valid_iff_no_error {A : Alloc} (hA : Distinct A) {fpr : Int} (hf : FprOK fpr) (buf : Bytes) (sql : List UInt8) (l c : Int) (o : ParseOut)
    (h : parse A fpr buf sql (newResult l c) = some o) :
    (o.res.isValid = true ↔ message o.res = none) ∧
    (o.res.isValid = false → ∃ p, p <+: cText sql ∧ o.res.errLine = lineOf p ∧ o.res.errCol = colOf p) ∧
    (o.res.isValid = true → o.res.errLine = l ∧ o.res.errCol = c) := by
  obtain ⟨e, junk, hin, hE⟩ := parse_ends (sql := sql) (ok := fun _ => True) hf (hA.ok (l := l) (c := c)) newResult_ok
  rw [parse_eq] at h
  cases hp : hsqlParse A (tokensOf fpr sql) (newResult l c) with
  | none => rw [hp] at h; cases h
  | some x =>
    obtain ⟨ret, st⟩ := x
    rw [hp] at h hE
    simp only [Option.map_some, Option.some.injEq] at h
    subst h
    obtain ⟨h1, h2⟩ := ends_err rfl hE
    simp only [message, decide_eq_true_eq, Option.map_eq_none_iff, decide_eq_false_iff_not]
    refine ⟨⟨fun h => (h1 h).1, fun h => ?_⟩, fun h => ?_, fun h => (h1 h).2⟩
    · refine Classical.byContradiction fun h' => ?_
      have := (h2 h').1
      rw [h] at this; cases this
    · obtain ⟨p, g1, g2, g3⟩ := (h2 h).2
      have hne : fpr ≠ 0 := by rcases hf with h | h <;> omega
      exact ⟨p, g1.trans (cText_scanned fpr hne sql), g2, g3⟩


/-! ## Parse-level consequences -/

theorem parse_some {A : Alloc} {fpr : Int} {buf : Bytes} {sql : List UInt8} {r : Res} {o : ParseOut} (h : parse A fpr buf sql r = some o) :
    ∃ ret st, hsqlParse A (tokensOf fpr sql) r = some (ret, st) ∧ o = ⟨{ st.res with isValid := decide (ret = 0) }, st.freed, st.leaked⟩ := by
  rw [parse_eq] at h
  cases hp : hsqlParse A (tokensOf fpr sql) r with
  | none => rw [hp] at h; cases h
  | some x =>
    rw [hp] at h
    simp only [Option.map_some, Option.some.injEq] at h
    exact ⟨x.1, x.2, rfl, h.symm⟩

theorem parse_none {A : Alloc} {fpr : Int} {buf : Bytes} {sql : List UInt8} {r : Res} (h : parse A fpr buf sql r = none) :
    hsqlParse A (tokensOf fpr sql) r = none := by
  rw [parse_eq] at h
  cases hp : hsqlParse A (tokensOf fpr sql) r with
  | none => rfl
  | some x => rw [hp] at h; cases h

/-- The text of a syntax error message. -/
def syntaxErrorText (x : Nat) (es : List Nat) : Bytes :=
  b!"syntax error, unexpected " ++ symName x ++ if es.isEmpty then [] else b!", expecting " ++ (b!" or ").intercalate (es.map symName)

theorem or_names : ∀ (e : Nat) (es : List Nat), symName e ++ es.flatMap (fun e => b!" or " ++ symName e) = (b!" or ").intercalate ((e :: es).map symName)
  | e, [] => by simp [List.intercalate]
  | e, x :: es => by
    have := or_names x es
    simp only [List.flatMap_cons, List.map_cons] at this ⊢
    rw [List.append_assoc, this]
    simp [List.intercalate]

theorem syntaxMsg_text (s x : Nat) : syntaxMsg s x = syntaxErrorText x (expected s) := by
  unfold syntaxMsg syntaxErrorText
  cases expected s with
  | nil => rfl
  | cons e es => simp only [List.isEmpty_cons, Bool.false_eq_true, if_false, ← or_names, List.append_assoc]

theorem reject_prefix {toks ts junk pre rest : List Tok} {e u : Tok} (hin : Input toks ts e junk) (q1 : toks = pre ++ u :: rest) (q2 : pre <+: ts) :
    (pre ++ [u]).map tsym <+: ts.map tsym ++ [0] := by
  have heq : pre ++ u :: rest = ts ++ e :: junk := q1.symm.trans hin.eq
  obtain ⟨w, hw⟩ := q2
  rw [← hw, List.append_assoc] at heq
  have heq := List.append_cancel_left heq
  rw [← hw]
  cases w with
  | nil =>
    simp only [List.nil_append, List.cons.injEq] at heq
    rw [heq.1, List.append_nil, List.map_append]
    simp [hin.eof]
  | cons y w =>
    simp only [List.cons_append, List.cons.injEq] at heq
    rw [heq.1]
    exact ⟨w.map tsym ++ [0], by simp⟩

section
variable {A : Alloc} (hA : Distinct A) {fpr : Int} (hf : FprOK fpr) (buf : Bytes) (sql : List UInt8) (l c : Int)
include hA hf

/-- C11. If the result is valid, the tokens of the text (up to the end of input) are a sentence of the grammar. -/
theorem C11_valid_is_grammatical (o : ParseOut) (h : parse A fpr buf sql (newResult l c) = some o) (hv : o.res.isValid = true) :
    ∃ t, Derives (sentence (tokensOf fpr sql)) t ∧ t.need + 1 < 200 := by
  obtain ⟨ret, st, hp, rfl⟩ := parse_some h
  obtain ⟨e, junk, hin, hE⟩ := parse_ends (sql := sql) (ok := fun _ => True) hf (hA.ok (l := l) (c := c)) newResult_ok
  rw [hp] at hE
  generalize hx : some (ret, st) = x at hE
  cases hE with
  | accept n c stk s t f l hR _ _ hd hn _ => exact ⟨t, hd, hn⟩
  | ub => cases hx
  | exhausted => cases hx; cases hv
  | syntaxError => cases hx; cases hv
  | semError => cases hx; cases hv

/-- C12. A text whose tokens are a sentence whose derivation fits the stack is accepted, unless one of the checks of the semantic actions
fails, with one of the messages `SemMsg`, or the behaviour is undefined, which needs a string literal that begins with a number
too large for an `int`. -/
theorem C12_grammatical_is_valid (t : Tree) (hd : Derives (sentence (tokensOf fpr sql)) t) (hn : t.need + 1 < 200) :
    (∃ o, parse A fpr buf sql (newResult l c) = some o ∧ (o.res.isValid = true ∨ ∃ m, message o.res = some m ∧ SemMsg m)) ∨
    (parse A fpr buf sql (newResult l c) = none ∧ ∃ u ∈ tokensOf fpr sql, ∃ b, u.val = .sval b ∧ Overflow b) := by
  obtain ⟨e, junk, hin, hE⟩ := parse_ends (sql := sql) (ok := fun _ => True) hf (hA.ok (l := l) (c := c)) newResult_ok
  cases hp : parse A fpr buf sql (newResult l c) with
  | none =>
    right
    refine ⟨rfl, ?_⟩
    rw [parse_none hp] at hE
    generalize hx : none = x at hE
    cases hE with
    | ub b u h1 h2 h3 => exact ⟨u, h1, b, h2, h3⟩
    | _ => cases hx
  | some o =>
    left
    obtain ⟨ret, st, hq, rfl⟩ := parse_some hp
    refine ⟨_, rfl, ?_⟩
    rw [hq] at hE
    obtain ⟨g1, g2⟩ := ends_err rfl hE
    by_cases h0 : ret = 0
    · left; simp [h0]
    · right
      obtain ⟨m, hm⟩ := Option.isSome_iff_exists.1 (g2 h0).1
      have hm' : st.res.errMsg.map Prod.snd = some m.2 := by rw [hm]; rfl
      refine ⟨m.2, hm', ?_⟩
      rcases ends_msg hin rfl hE hm' with ⟨_, h, _⟩ | h | ⟨pre, u, rest, s, q1, q2, _, _, _, _, q3, _⟩
      · exact absurd (h t hd) (by omega)
      · exact h
      · exfalso
        exact q3 _ t hd (reject_prefix hin q1 q2)

/-- C33. `parse` has undefined behaviour only if a string literal begins with a number too large for an `int` (used in an interval). -/
theorem C33_defined_unless_overflow (h : parse A fpr buf sql (newResult l c) = none) : ∃ u ∈ tokensOf fpr sql, ∃ b, u.val = .sval b ∧ Overflow b := by
  obtain ⟨e, junk, hin, hE⟩ := parse_ends (sql := sql) (ok := fun _ => True) hf (hA.ok (l := l) (c := c)) newResult_ok
  rw [parse_none h] at hE
  generalize hx : none = x at hE
  cases hE with
  | ub b u h1 h2 h3 => exact ⟨u, h1, b, h2, h3⟩
  | _ => cases hx

end

/-- What `destroy` does to a result whose statements have the shapes of the AST. -/
theorem treatEl_del {ok : Bytes → Prop} : ∀ {vs : List V}, (∀ v ∈ vs, Sat ok (fun _ => True) (.ref .stmt) v) → ∃ f, treatEl .del vs = some (f, []) ∧ f.Perm (addrsL vs)
  | [], _ => ⟨[], rfl, .refl _⟩
  | v :: vs, h => by
    obtain ⟨f, e1, c1⟩ := del_stmt (h v (by simp))
    obtain ⟨g, e2, p2⟩ := treatEl_del (vs := vs) fun w hw => h w (List.mem_cons_of_mem _ hw)
    refine ⟨f ++ g, by simp only [treatEl, e1, e2]; rfl, ?_⟩
    simp only [addrsL]
    exact List.Perm.append (List.perm_iff_count.2 c1) p2

/-! ## C25, C32, C33: statements, ownership -/

/-- `log` destroys exactly the blocks `l`: each is freed once, none is left over. -/
def FreesExactly (log : Option Log) (l : List Nat) : Prop := ∃ f, log = some ⟨f, []⟩ ∧ f.Perm l

theorem destroy_ok {ok : Bytes → Prop} {r : Res} (h : ∀ v ∈ r.stmts, Sat ok (fun _ => True) (.ref .stmt) v) : FreesExactly (destroy r) (owned r) := by
  obtain ⟨f, e, p⟩ := treatEl_del h
  refine ⟨f ++ r.errAddr, ?_, ?_⟩
  · unfold destroy reset; rw [e]; rfl
  · unfold owned
    exact (List.Perm.append p (.refl _)).trans List.perm_append_comm

/-- A parse into any result `r` in order (`AllocOK`, `ResOK`). -/
theorem parse_heap {A : Alloc} {fpr : Int} (hf : FprOK fpr) {buf : Bytes} {sql : List UInt8} {r : Res} {ok : Bytes → Prop} (hA : AllocOK A r) (hr : ResOK ok (fun _ => True) r)
    {o : ParseOut} (h : parse A fpr buf sql r = some o) :
    (o.freed ++ o.leaked ++ owned o.res).Nodup ∧ ResOK (fun b => Occurs fpr sql b ∨ ok b) (fun _ => True) o.res ∧
    (∀ a ∈ o.freed ++ o.leaked ++ owned o.res, a ∈ owned r ∨ (∃ i, A.tok i = a) ∨ ∃ i, A.new i = a) ∧
    (∀ a ∈ owned r, a ∈ o.freed ++ o.leaked ++ owned o.res) := by
  obtain ⟨ret, st, hp, rfl⟩ := parse_some h
  obtain ⟨e, junk, hin, hE⟩ := parse_ends (sql := sql) (ok := ok) hf hA hr
  rw [hp] at hE
  have hsh := (tokensOf_shape hf sql).1
  have hr' : ResOK (fun b => Occurs fpr sql b ∨ ok b) (fun _ => True) r := ⟨fun v hv => (hr.stmts v hv).mono (fun _ h => .inr h) (fun _ h => h), hr.params⟩
  have hacc : ∃ rd rest, rd ++ rest = tokensOf fpr sql ∧ ∀ a, (st.freed ++ st.leaked ++ (st.res.errAddr ++ addrsL st.res.stmts)).count a =
      (r.errAddr ++ addrsL r.stmts).count a + strs A a 0 rd + allocs A a 0 st.nalloc := by
    obtain ⟨rd, rest, h1, h2⟩ := hE.acc
    refine ⟨rd, rest, h1, fun a => ?_⟩
    have := h2 a
    unfold St.tot acL at this
    simp only [List.count_append] at this ⊢
    omega
  obtain ⟨rd, rest, _, hcnt⟩ := hacc
  refine ⟨?_, ?_, ?_, ?_⟩
  · have := hE.nodup hA
    show (st.freed ++ st.leaked ++ (st.res.errAddr ++ addrsL st.res.stmts)).Nodup
    rw [← List.append_assoc]; exact this
  · rcases hE.res (ok := fun b => Occurs fpr sql b ∨ ok b) hA hsh (fun t ht b hb => .inl ⟨t, ht, hb⟩) hr' with ⟨_, e1, e2⟩ | ⟨b, vs, pl, hfin⟩
    · refine ⟨?_, ?_⟩
      · show ∀ v ∈ st.res.stmts, _
        rw [e1]; exact hr'.stmts
      · show ∀ a ∈ st.res.params, ∃ n : Int, ivalAtL a st.res.stmts = _
        rw [e1, e2]; exact hr'.params
    · exact ⟨hfin.res.stmts, hfin.res.params⟩
  · intro a ha
    have ha : 0 < (st.freed ++ st.leaked ++ (st.res.errAddr ++ addrsL st.res.stmts)).count a := List.count_pos_iff.2 ha
    rw [hcnt a] at ha
    rcases Nat.eq_zero_or_pos ((r.errAddr ++ addrsL r.stmts).count a) with h1 | h1
    · rcases Nat.eq_zero_or_pos (strs A a 0 rd) with h2 | h2
      · right; right; exact allocs_pos (n := 0) (m := st.nalloc) (by omega)
      · right; left
        obtain ⟨i, _, hi⟩ := strs_pos h2
        exact ⟨i, hi⟩
    · left; exact List.count_pos_iff.1 h1
  · intro a ha
    have ha : 0 < (r.errAddr ++ addrsL r.stmts).count a := List.count_pos_iff.2 ha
    show a ∈ st.freed ++ st.leaked ++ (st.res.errAddr ++ addrsL st.res.stmts)
    refine List.count_pos_iff.1 ?_
    rw [hcnt a]; omega

section
variable {A : Alloc} (hA : Distinct A) {fpr : Int} (hf : FprOK fpr) (buf : Bytes) (sql : List UInt8) (l c : Int)
include hA hf

/-- C25. All statements of the result, after a successful or unsuccessful parse, have the shapes described in `Verif.Sem.Types`
(which pointers are null and which are not, and what they point to), and all strings in them are values of
identifiers and string literals of the text. -/
theorem C25_statements_well_formed (o : ParseOut) (h : parse A fpr buf sql (newResult l c) = some o) :
    ∀ v ∈ o.res.stmts, Sat (Occurs fpr sql) (fun _ => True) (.ref .stmt) v := by
  intro v hv
  obtain ⟨_, h2, _⟩ := parse_heap (ok := Occurs fpr sql) hf hA.ok newResult_ok h
  exact (h2.stmts v hv).mono (fun b h => h.elim id id) (fun _ h => h)

/-- C32, C33. Whether the text is accepted or not: no heap block is freed twice by the parser, nor freed (or lost) while it is part of
the result; no block occurs twice in the result; and the destructor of the result is well-defined, frees each of its blocks
exactly once, and loses none. -/
theorem C33_no_double_free (o : ParseOut) (h : parse A fpr buf sql (newResult l c) = some o) :
    (o.freed ++ o.leaked ++ owned o.res).Nodup ∧ FreesExactly (destroy o.res) (owned o.res) := by
  obtain ⟨h1, h2, _⟩ := parse_heap (ok := Occurs fpr sql) hf hA.ok newResult_ok h
  exact ⟨h1, destroy_ok h2.stmts⟩

/-- C32. For an accepted text: every node of the AST is owned exactly once, none of them has been freed, and destroying
the result frees each exactly once. -/
theorem C32_unique_ownership (o : ParseOut) (h : parse A fpr buf sql (newResult l c) = some o) (_ : o.res.isValid = true) :
    (addrsL o.res.stmts).Nodup ∧ (∀ a ∈ addrsL o.res.stmts, a ∉ o.freed) ∧ FreesExactly (destroy o.res) (addrsL o.res.stmts) := by
  obtain ⟨h1, h2⟩ := C33_no_double_free hA hf buf sql l c o h
  have hm : o.res.errMsg = none := by
    have := ((C16_valid_iff_no_error hA hf buf sql l c o h).1).1 ‹_›
    simpa [message] using this
  have e : owned o.res = addrsL o.res.stmts := by unfold owned Res.errAddr; rw [hm]; rfl
  rw [e] at h1 h2
  have h3 := List.nodup_append.1 h1
  refine ⟨h3.2.1, fun a ha hfr => ?_, h2⟩
  exact h3.2.2 a (List.mem_append_left _ hfr) a ha rfl

/-! ## C18 (numbering), C20 -/

/-- C18, numbering. After a parse into a fresh result, `parameters()` lists exactly the parameter expressions (`?`) contained in the statements,
each once (`parsL`: their addresses and second numbers `ival2`); the `i`-th of them carries the number `i` in `ival` and in `ival2`.
What is missing: that their order is the order in the text. -/
theorem C18_parameters_numbered_partial (o : ParseOut) (h : parse A fpr buf sql (newResult l c) = some o) :
    o.res.params.Nodup ∧ (keyed 0 o.res.params).Perm (parsL o.res.stmts) ∧
    (∀ (i : Nat) (a : Nat), o.res.params[i]? = some a → ivalAtL a o.res.stmts = some (.int i)) := by
  obtain ⟨ret, st, hp, rfl⟩ := parse_some h
  obtain ⟨e, junk, hin, hE⟩ := parse_ends (sql := sql) (ok := Occurs fpr sql) hf (hA.ok (l := l) (c := c)) newResult_ok
  rw [hp] at hE
  show st.res.params.Nodup ∧ (keyed 0 st.res.params).Perm (parsL st.res.stmts) ∧ ∀ (i : Nat) (a : Nat), st.res.params[i]? = some a → ivalAtL a st.res.stmts = _
  rcases hE.res (ok := Occurs fpr sql) hA.ok (tokensOf_shape hf sql).1 (fun t ht b hb => ⟨t, ht, hb⟩) newResult_ok with ⟨_, e1, e2⟩ | ⟨b, vs, pl, hfin⟩
  · have e3 : st.res.params = [] := e2
    have e4 : st.res.stmts = [] := e1
    rw [e3, e4]; simp [keyed, parsL]
  · obtain ⟨g1, g2⟩ := hfin.fresh rfl
    rw [g1]
    refine ⟨hfin.nodup, ?_, fun i a hi => ?_⟩
    · obtain ⟨b', vs', hv, _, _, k1, k2⟩ := hfin.vs
      cases hv
      rw [k1, parsL_numberL]
      exact k2
    · rw [g2 i a hi]; simp

/-- C20. If a rejected text leaves statements in the result, then the reason for the rejection is a syntax error, and it
was found right behind a complete sentence: the tokens before the offending one are a sentence of the grammar on their own.
(So: texts rejected by a check or for nesting too deep leave none.) -/
theorem C20_leftover_statements_partial (o : ParseOut) (h : parse A fpr buf sql (newResult l c) = some o) (hv : o.res.isValid = false) (hs : size o.res ≠ 0) :
    ∃ pre t rest T m, tokensOf fpr sql = pre ++ t :: rest ∧ Derives pre T ∧ message o.res = some m ∧ b!"syntax error, " <+: m := by
  obtain ⟨ret, st, hp, rfl⟩ := parse_some h
  obtain ⟨e, junk, hin, hE⟩ := parse_ends (sql := sql) (ok := Occurs fpr sql) hf (hA.ok (l := l) (c := c)) newResult_ok
  rw [hp] at hE
  obtain ⟨pre, t, rest, T, s, h1, _, h3, h4⟩ := ends_left hin (tokensOf_shape hf sql).1 hE (by simpa using hv) (.inl (by
    intro h; apply hs
    show st.res.stmts.length = 0
    rw [h]; rfl))
  exact ⟨pre, t, rest, T, _, h1, h3, h4, syntaxMsg_prefix _ _⟩

/-! ## C34, C35: error reports -/

/-- C34. A syntax error is reported at the first offending token `t`: no sentence begins with the tokens up to and
including `t` (a sentence being followed by the end of input), while the tokens before `t` do begin a sentence
(derived with the precedences respected). The reported position is that of the last scanner match belonging to `t`
(for all but string literals: the place where `t` begins; for a string literal: that of its closing quote). -/
theorem C34_first_offending_token (o : ParseOut) (h : parse A fpr buf sql (newResult l c) = some o) (m : Bytes) (hm : message o.res = some m)
    (hsy : b!"syntax error, " <+: m) :
    ∃ pre t rest, tokensOf fpr sql = pre ++ t :: rest ∧
      (∀ ts' T', Derives ts' T' → ¬ (pre ++ [t]).map tsym <+: ts'.map tsym ++ [Verif.LR.T.eof]) ∧
      (∃ T : Tree, Derives T.yield T ∧ pre <+: T.yield) ∧
      o.res.errLine = lineOf (((pre ++ [t]).flatMap Tok.pieces).dropLast.flatten) ∧
      o.res.errCol = colOf (((pre ++ [t]).flatMap Tok.pieces).dropLast.flatten) := by
  obtain ⟨ret, st, hp, rfl⟩ := parse_some h
  obtain ⟨e, junk, hin, hE⟩ := parse_ends (sql := sql) (ok := Occurs fpr sql) hf (hA.ok (l := l) (c := c)) newResult_ok
  rw [hp] at hE
  rcases ends_msg hin rfl hE hm with ⟨rfl, _⟩ | h | ⟨pre, u, rest, s, q1, _, _, _, _, _, q3, q4, q5, q6⟩
  · exfalso
    rcases hsy with ⟨w, hw⟩; cases hw
  · exact absurd hsy (kinds h).2
  · exact ⟨pre, u, rest, q1, q3, q4, q5, q6⟩

/-- C35. The message of a syntax error names the offending token `t` and a list `es` of expected ones. Let `s` be the state the automaton
is in when it meets `t`: then `s` rejects `t`, and does not reject any of the `es` (terminals other than the `error` token); there are at
most four. If `s` has no default reduction, then `es` are all terminals it does not reject, or there are more than four of these
and `es` is empty. -/
theorem C35_message (o : ParseOut) (h : parse A fpr buf sql (newResult l c) = some o) (m : Bytes) (hm : message o.res = some m)
    (hsy : b!"syntax error, " <+: m) :
    ∃ pre t rest s es, tokensOf fpr sql = pre ++ t :: rest ∧ m = syntaxErrorText (tsym t) es ∧
      (∃ n stk, TSteps 200 n [] (tokensOf fpr sql) stk (t :: rest) ∧ topState stk = s) ∧ actionOn s (tsym t) = some .error ∧
      es.length ≤ 4 ∧ es.Nodup ∧ (∀ x ∈ es, x < 199 ∧ x ≠ 1 ∧ actionOn s x ≠ some .error) ∧
      (defaultAct s = some .error →
        (∀ x, x < 199 → x ≠ 1 → actionOn s x ≠ some .error → x ∈ es) ∨
        (es = [] ∧ ∃ l : List Nat, 4 < l.length ∧ l.Nodup ∧ ∀ x ∈ l, x < 199 ∧ x ≠ 1 ∧ actionOn s x ≠ some .error)) := by
  obtain ⟨ret, st, hp, rfl⟩ := parse_some h
  obtain ⟨e, junk, hin, hE⟩ := parse_ends (sql := sql) (ok := Occurs fpr sql) hf (hA.ok (l := l) (c := c)) newResult_ok
  rw [hp] at hE
  have hnd : ∀ s, (candidates s).Nodup := by
    intro s
    unfold candidates
    split
    · exact List.nodup_nil
    · split
      · exact List.nodup_nil
      · exact List.nodup_range.filter _
  rcases ends_msg hin rfl hE hm with ⟨rfl, _⟩ | h | ⟨pre, u, rest, s, q1, _, q2, hs, q3, q4, _⟩
  · exfalso
    rcases hsy with ⟨w, hw⟩; cases hw
  · exact absurd hsy (kinds h).2
  · refine ⟨pre, u, rest, s, expected s, q1, by rw [q2, syntaxMsg_text], q3, q4, ?_, ?_, ?_, ?_⟩
    · unfold expected; split
      · assumption
      · simp
    · unfold expected; split
      · exact hnd s
      · simp
    · intro x hx
      refine cand_acceptable (s := s) ?_
      unfold expected at hx
      split at hx
      · exact hx
      · simp at hx
    · intro hd
      unfold expected
      by_cases h4 : (candidates s).length ≤ 4
      · rw [if_pos h4]
        exact .inl fun x h1 h2 h3 => cand_all hd h1 h2 h3 hs
      · rw [if_neg h4]
        exact .inr ⟨rfl, candidates s, by omega, hnd s, fun x hx => cand_acceptable hx⟩

/-- C15. "memory exhausted" is reported only if no derivation of the text fits the 200 stack entries; and a text
whose derivation does not fit is rejected. -/
theorem C15_memory_exhausted (o : ParseOut) (h : parse A fpr buf sql (newResult l c) = some o) :
    (message o.res = some b!"memory exhausted" → ∀ t, Derives (sentence (tokensOf fpr sql)) t → 200 ≤ t.need + 1) ∧
    (∀ t, Derives (sentence (tokensOf fpr sql)) t → 200 ≤ t.need + 1 → o.res.isValid = false ∧ ∃ m, message o.res = some m ∧ (m = b!"memory exhausted" ∨ SemMsg m)) := by
  have hv := C11_valid_is_grammatical hA hf buf sql l c o h
  have h16 := (C16_valid_iff_no_error hA hf buf sql l c o h).1
  obtain ⟨ret, st, hp, rfl⟩ := parse_some h
  obtain ⟨e, junk, hin, hE⟩ := parse_ends (sql := sql) (ok := Occurs fpr sql) hf (hA.ok (l := l) (c := c)) newResult_ok
  rw [hp] at hE
  constructor
  · intro hm
    rcases ends_msg hin rfl hE hm with ⟨_, h, _⟩ | h | ⟨pre, u, rest, s, q1, _, q2, hs, q3, q4, _⟩
    · exact h
    · exact absurd rfl (kinds h).1
    · exfalso
      have := syntaxMsg_prefix s (tsym u)
      rw [← q2] at this
      rcases this with ⟨w, hw⟩; cases hw
  · intro t hd hn
    have hnv : ¬ decide (ret = 0) = true := by
      intro h
      obtain ⟨t', hd', hn'⟩ := hv h
      rw [derives_unique hd hd'] at hn; omega
    refine ⟨by simpa using hnv, ?_⟩
    cases hm : message { st.res with isValid := decide (ret = 0) } with
    | none => exact absurd (h16.2 hm) hnv
    | some m =>
      refine ⟨m, rfl, ?_⟩
      rcases ends_msg hin rfl hE hm with ⟨h, _⟩ | h | ⟨pre, u, rest, s, q1, hpre, q2, hs, q3, q4, q5, _⟩
      · exact .inl h
      · exact .inr h
      · exact absurd (reject_prefix hin q1 hpre) (q5 _ t hd)
end


/-! ## C10 -/

theorem lexAll_H {fpr : Int} {buf : Bytes} {sql : List UInt8} {x : List Tok × LexSt} (h : lexAll fpr (lexInit buf (cText sql)) = some x) :
    x = lexH fpr (lexInit buf (cText sql)) [] := by
  rw [lexAll_eq fpr _ (cText_clean sql)] at h
  exact (Option.some.inj h).symm

theorem tokSym_pos : (List.range 436).all (fun c => c == 0 || !(tokSym (c : Int) == 0)) = true := by decide +kernel

/-- C10, what is true of it. If a text is accepted (and `fprintf` succeeded), then the tokens `T` before the end of input are a sentence, and the text
is made up of the texts of these tokens (with the skipped blanks and comments before each), the text `last` read for the end of input, and what is left unread;
something is left unread only if it was preceded by a byte that no rule of the scanner but the catch-all one matches. (The property itself also excludes
such a byte, and an end inside a string literal: false, see `C10_unknown_character_violation`, `C10_unterminated_string_violation`.) -/
theorem C10_whole_input_partial {A : Alloc} (hA : Distinct A) (buf : Bytes) (sql : List UInt8) (l c : Int) (o : ParseOut)
    (h : parse A 64 buf sql (newResult l c) = some o) (hv : o.res.isValid = true) :
    ∃ T last st D, lexAll 64 (lexInit buf (cText sql)) = some (T ++ [last], st) ∧ Derives T D ∧
      (((T ++ [last]).map fun t => t.pieces.flatten).flatten) ++ st.rest = cText sql ∧
      (st.rest = [] ∨ ∃ b, last.pieces.getLast? = some [b] ∧ LongestMatch .initial (b :: st.rest) 188 1) := by
  obtain ⟨T, last, st, h1, h2, h3, h4, h5⟩ := C02_scanning_total_lossless 64 (by decide) buf sql
  obtain ⟨D, hD, _⟩ := C11_valid_is_grammatical hA (.inl rfl) buf sql l c o h hv
  obtain ⟨st', h1'⟩ := tokensOf_spec 64 buf sql
  have e : tokensOf 64 sql = T ++ [last] := (Prod.mk.inj (Option.some.inj (h1.symm.trans h1'))).1.symm
  have hne : ∀ t ∈ T, tsym t ≠ 0 := by
    intro t ht
    have := lexH_codes 64 (cText sql).length (lexInit buf (cText sql)) [] (cText_clean sql) (Nat.le_refl _)
    rw [← lexAll_H h1] at this
    have hr := this t (List.mem_append_left _ ht)
    have h0 := h3 t ht
    have hc : 0 ≤ t.code ∧ t.code ≤ 435 := by omega
    have hm := List.all_eq_true.1 tokSym_pos t.code.toNat (by simp; omega)
    simp only [Bool.or_eq_true, beq_iff_eq, Bool.not_eq_true', beq_eq_false_iff_ne] at hm
    have e2 : ((t.code.toNat : Nat) : Int) = t.code := by omega
    rw [e2] at hm
    rcases hm with hm | hm
    · omega
    · exact hm
  have hs : sentence (tokensOf 64 sql) = T := by
    rw [e]
    unfold sentence
    have h0 : tsym last = 0 := by unfold tsym tokSym; rw [h2]; rfl
    rw [List.takeWhile_append_of_pos (by intro t ht; simp [hne t ht])]
    simp [h0]
  rw [hs] at hD
  exact ⟨T, last, st, D, h1, hD, h4, h5⟩

end Verif.Props

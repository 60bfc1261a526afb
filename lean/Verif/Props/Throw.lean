import Verif.Sem.Interrupt
import Verif.Props.Api
import Verif.Props.Reuse
/-!
# Exceptions (C61)

`Interrupted A fpr buf sql r o` (see `Verif.Api.Throw`): the call `parse(sql, &r)` is left by an exception, at any of the places where
memory is allocated by `new` or by a container, and `o` is what it leaves behind: the result object, the heap blocks freed, and the
blocks nobody refers to any more.
-/
namespace Verif.Props
open Verif.Lex Verif.LR Verif.Sem Verif.Api

section
variable {A : Alloc} {fpr : Int} (hf : FprOK fpr) {buf : Bytes} {sql : List UInt8} {r : Res} {ok : Bytes → Prop} (hA : AllocOK A r) (hr : ResOK ok (fun _ => True) r)
  {o : ParseOut} (h : Interrupted A fpr buf sql r o)
include hf hA hr h

theorem interrupted_left : LeftOver (fun b => Occurs fpr sql b ∨ ok b) r o.res ∧ AccOf A r o := by
  obtain ⟨toks, s, n, c, hl, hs, ht⟩ := h
  obtain ⟨st, hl'⟩ := tokensOf_spec fpr buf sql
  rw [hl] at hl'
  injection hl' with hl'
  injection hl' with e1 e2
  subst e1
  obtain ⟨h1, h2⟩ := tokensOf_shape hf sql
  obtain ⟨e, junk, hin⟩ := input_of h2
  obtain ⟨n', stk, hR⟩ := stepsTo_reach hin n 0 _ c [] .init hs
  exact throws_left (ok := fun b => Occurs fpr sql b ∨ ok b) hin hA h1 (fun t ht b hb => .inl ⟨t, ht, hb⟩)
    ⟨fun v hv => (hr.stmts v hv).mono (fun _ h => .inr h) (fun _ h => h), hr.params⟩ hR ht

/-- As `parse_heap`, for an interrupted parse. -/
theorem interrupted_heap : (o.freed ++ o.leaked ++ owned o.res).Nodup ∧ (∀ v ∈ o.res.stmts, Sat (fun b => Occurs fpr sql b ∨ ok b) (fun _ => True) (.ref .stmt) v) ∧
    (∀ a ∈ o.freed ++ o.leaked ++ owned o.res, a ∈ owned r ∨ (∃ i, A.tok i = a) ∨ ∃ i, A.new i = a) ∧
    (∀ a ∈ owned r, a ∈ o.freed ++ o.leaked ++ owned o.res) := by
  obtain ⟨hl, rd, n, hacc⟩ := interrupted_left hf hA hr h
  have hcnt : ∀ a, (o.freed ++ o.leaked ++ owned o.res).count a = (owned r).count a + strs A a 0 rd + allocs A a 0 n := by
    intro a
    have := hacc a
    rw [List.count_append, List.count_append, owned_count, owned_count]; omega
  refine ⟨?_, hl.ok.stmts, ?_, ?_⟩
  · refine List.nodup_iff_count.2 fun a => ?_
    have := total_le hA a rd n
    rw [hcnt a, owned_count]; exact this
  · intro a ha
    have ha : 0 < (o.freed ++ o.leaked ++ owned o.res).count a := List.count_pos_iff.2 ha
    rw [hcnt a] at ha
    rcases Nat.eq_zero_or_pos ((owned r).count a) with h1 | h1
    · rcases Nat.eq_zero_or_pos (strs A a 0 rd) with h2 | h2
      · right; right; exact allocs_pos (n := 0) (m := n) (by omega)
      · right; left
        obtain ⟨i, _, hi⟩ := strs_pos h2
        exact ⟨i, hi⟩
    · left; exact List.count_pos_iff.1 h1
  · intro a ha
    have ha : 0 < (owned r).count a := List.count_pos_iff.2 ha
    refine List.count_pos_iff.1 ?_
    rw [hcnt a]; omega

end

/-- The effect of a `parse`, complete or not, on the world of a client. -/
theorem outcome_sane {w : World} (hs : Sane w) {i : Nat} {r : Res} (hr : w.results[i]? = some r) {A : Alloc} (h1 : ∀ n, A.tok n ∉ w.known) (h2 : ∀ n, A.new n ∉ w.known)
    {ok : Bytes → Prop} {o : ParseOut} (g1 : (o.freed ++ o.leaked ++ owned o.res).Nodup) (g2 : ∀ v ∈ o.res.stmts, Sat ok (fun _ => True) (.ref .stmt) v)
    (g3 : ∀ a ∈ o.freed ++ o.leaked ++ owned o.res, a ∈ owned r ∨ (∃ i, A.tok i = a) ∨ ∃ i, A.new i = a) (g4 : ∀ a ∈ owned r, a ∈ o.freed ++ o.leaked ++ owned o.res) :
    Sane (({ w with results := w.results.set i o.res } : World).log ⟨o.freed, o.leaked⟩) ∧
    ∀ a ∈ w.known, a ∈ (({ w with results := w.results.set i o.res } : World).log ⟨o.freed, o.leaked⟩).known := by
  have hcr : ∀ a, (owned r).count a ≤ (w.results.flatMap owned).count a := by
    intro a
    have := count_set (r' := (⟨[], false, none, -1, -1, []⟩ : Res)) a hr
    rw [owned_empty] at this
    simp only [List.count_nil] at this
    omega
  have hle : ∀ a, w.known.count a ≤ 1 := List.nodup_iff_count.1 hs.nodup
  have hcnt : ∀ a, (({ w with results := w.results.set i o.res } : World).log ⟨o.freed, o.leaked⟩).known.count a + (owned r).count a =
      w.known.count a + (o.freed ++ o.leaked ++ owned o.res).count a := by
    intro a
    have := count_set (r' := o.res) a hr
    simp only [World.known_count, World.log, List.count_append]
    omega
  refine ⟨⟨?_, ?_, hs.released⟩, ?_⟩
  · refine List.nodup_iff_count.2 fun a => ?_
    have e1 := hcnt a
    have e2 := hle a
    have e3 := List.nodup_iff_count.1 g1 a
    by_cases ho : a ∈ owned r
    · have : 0 < (owned r).count a := List.count_pos_iff.2 ho
      omega
    · have : (owned r).count a = 0 := List.count_eq_zero.2 ho
      by_cases hn : a ∈ o.freed ++ o.leaked ++ owned o.res
      · have : w.known.count a = 0 := by
          refine List.count_eq_zero.2 fun hk => ?_
          rcases g3 a hn with h | ⟨n, rfl⟩ | ⟨n, rfl⟩
          · exact ho h
          · exact h1 n hk
          · exact h2 n hk
        omega
      · have := List.count_eq_zero.2 hn
        omega
  · intro x hx v hv
    rcases List.mem_or_eq_of_mem_set hx with h | h
    · exact hs.results x h v hv
    · subst h
      exact (g2 v hv).mono (fun _ _ => trivial) (fun _ h => h)
  · intro a ha
    have e1 := hcnt a
    have e2 : 0 < w.known.count a := List.count_pos_iff.2 ha
    refine List.count_pos_iff.1 ?_
    by_cases ho : a ∈ owned r
    · have h3 := List.count_pos_iff.2 (g4 a ho)
      have := hle a
      have := hcr a
      have := World.known_count w a
      omega
    · have : (owned r).count a = 0 := List.count_eq_zero.2 ho
      omega

/-- The allocator is in order for a result of a sane world. -/
theorem alloc_of_sane {w : World} (hs : Sane w) {i : Nat} {r : Res} (hr : w.results[i]? = some r) {A : Alloc} (hA : Distinct A) (h1 : ∀ n, A.tok n ∉ w.known) (h2 : ∀ n, A.new n ∉ w.known) :
    AllocOK A r := by
  have hm := List.mem_of_getElem? hr
  have hsub : ∀ a ∈ owned r, a ∈ w.known := by
    intro a ha
    refine List.mem_append_right _ (List.mem_append_right _ ?_)
    exact List.mem_flatMap.2 ⟨r, hm, ha⟩
  refine ⟨hA.tok, hA.new, hA.ne, List.nodup_iff_count.2 fun a => ?_, fun n hn => h1 n (hsub _ hn), fun n hn => h2 n (hsub _ hn)⟩
  have h3 := List.nodup_iff_count.1 hs.nodup a
  rw [World.known_count] at h3
  have := count_set (r' := (⟨[], false, none, -1, -1, []⟩ : Res)) a hr
  rw [owned_empty] at this
  simp only [List.count_nil] at this
  change (owned r).count a ≤ 1
  omega

/-- What a client may live through: legal operations, each of which may be left by an exception where that is possible (`Happens`). -/
inductive History : World → World → Prop where
  | start (w : World) : History w w
  | next {w w' w'' : World} {o : Op} : History w w' → Legal w' o → Happens w' o w'' → History w w''

theorem happens_ok {w w' : World} {o : Op} (hs : Sane w) (hl : Legal w o) (h : Happens w o w') : Sane w' ∧ (∀ a ∈ w.known, a ∈ w'.known) ∧ (∀ a ∈ w.freed, a ∈ w'.freed) := by
  cases h with
  | done he =>
    obtain ⟨w1, e, h1, h2, h3, _⟩ := exec_ok hs hl
    rw [he] at e; cases e
    exact ⟨h1, h2, h3⟩
  | refused _ => exact ⟨hs, fun _ h => h, fun _ h => h⟩
  | @thrown i A fpr buf sql r o hr hi =>
    obtain ⟨r', hr', hpl, hA, h1, h2, hf, _⟩ := hl
    rw [hr] at hr'; cases hr'
    obtain ⟨g1, g2, g3, g4⟩ := interrupted_heap hf (alloc_of_sane hs hr hA h1 h2) (ok := fun _ => True) ⟨hs.results r (List.mem_of_getElem? hr), hpl⟩ hi
    obtain ⟨k1, k2⟩ := outcome_sane hs hr h1 h2 g1 g2 g3 g4
    exact ⟨k1, k2, fun _ h => List.mem_append_left _ h⟩

theorem history_ok {w w' : World} (hs : Sane w) (h : History w w') : Sane w' := by
  induction h with
  | start => exact hs
  | next _ hl ho ih => exact (happens_ok ih hl ho).1

/-! ## The theorems -/

/-- C61, safety. Whatever legal operations a client performs, and wherever exceptions interrupt them: no heap block is freed twice, or freed while
a result or the client still owns it, or owned twice; all statements in results are well-formed; and every further legal operation
(another `parse`, `reset`, the destructor, ...) is defined. -/
theorem C61_histories_sane (w : World) (h : History World.init w) : Sane w ∧ ∀ o, Legal w o → ∃ w', w.exec o = some w' ∧ Sane w' := by
  have hs := history_ok init_sane h
  refine ⟨hs, fun o ho => ?_⟩
  obtain ⟨w', h1, h2, _⟩ := exec_ok hs ho
  exact ⟨w', h1, h2⟩

/-- C61, the result. An exception that interrupts a parse into a result of a sane world leaves all statements and parameters the result had,
followed by well-formed statements made from the text; the parameters of the result all point to parameter expressions in its statements, so that it can be
parsed into again; and the result is not valid unless it was valid before. -/
theorem C61_result_after_exception (w : World) (hs : Sane w) (i : Nat) (A : Alloc) (fpr : Int) (buf : Bytes) (sql : List UInt8) (hl : Legal w (.parse i A fpr buf sql)) (r : Res) (hr : w.results[i]? = some r)
    (o : ParseOut) (h : Interrupted A fpr buf sql r o) :
    (∃ new, o.res.stmts = r.stmts ++ new ∧ ∀ v ∈ new, Sat (fun _ => True) (fun _ => True) (.ref .stmt) v) ∧
    (∃ ps, o.res.params.Perm (r.params ++ ps)) ∧ ParamsLive o.res ∧ (o.res.isValid = true → r.isValid = true) := by
  obtain ⟨r', hr', hpl, hA, h1, h2, hf, _⟩ := hl
  rw [hr] at hr'; cases hr'
  obtain ⟨k, _⟩ := interrupted_left hf (alloc_of_sane hs hr hA h1 h2) (ok := fun _ => True) ⟨hs.results r (List.mem_of_getElem? hr), hpl⟩ h
  obtain ⟨new, e, hn⟩ := k.stmts
  exact ⟨⟨new, e, fun v hv => (hn v hv).mono (fun _ _ => trivial) (fun _ h => h)⟩, k.params, k.ok.params, k.valid⟩

/-- C61, new results. A parse into a new result that is left by an exception does not leave a valid result, and all strings in the statements it leaves are values of identifiers and
string literals of the text. -/
theorem C61_new_result_not_valid (A : Alloc) (hA : Distinct A) (fpr : Int) (hf : FprOK fpr) (buf : Bytes) (sql : List UInt8) (l c : Int) (o : ParseOut)
    (h : Interrupted A fpr buf sql (newResult l c) o) :
    o.res.isValid = false ∧ (∀ v ∈ o.res.stmts, Sat (Occurs fpr sql) (fun _ => True) (.ref .stmt) v) ∧
    (o.freed ++ o.leaked ++ owned o.res).Nodup ∧ FreesExactly (destroy o.res) (owned o.res) := by
  obtain ⟨k, _⟩ := interrupted_left hf hA.ok (ok := Occurs fpr sql) newResult_ok h
  obtain ⟨g1, g2, _⟩ := interrupted_heap hf hA.ok (ok := Occurs fpr sql) newResult_ok h
  refine ⟨?_, fun v hv => (g2 v hv).mono (fun b h => h.elim id id) (fun _ h => h), g1, destroy_ok g2⟩
  cases hv : o.res.isValid with
  | false => rfl
  | true => exact absurd (k.valid hv) (by simp [newResult])

/-- C61, what does not hold: `isValid` says nothing after an exception if the result was valid before. Whatever the text, if it is accepted with `n` statements, then
for each `k < n` there is a place where an exception leaves the result as valid as it was, without a message, with exactly `k` of the `n` statements added. -/
theorem C61_valid_though_incomplete_violation (A : Alloc) (fpr : Int) (hf : FprOK fpr) (buf : Bytes) (sql : List UInt8) (r : Res) (hA : AllocOK A r) (hr : ResOK (fun _ => True) (fun _ => True) r)
    (hm : r.errMsg = none) (o : ParseOut) (h : parse A fpr buf sql r = some o) (hv : o.res.isValid = true) :
    ∃ n, 1 ≤ n ∧ o.res.stmts.length = r.stmts.length + n ∧ ∀ k, k < n → ∃ o', Interrupted A fpr buf sql r o' ∧
      o'.res.stmts.length = r.stmts.length + k ∧ o'.res.isValid = r.isValid ∧ o'.res.errMsg = none := by
  obtain ⟨lst, hl⟩ := tokensOf_spec fpr buf sql
  obtain ⟨ret, st, hp, rfl⟩ := parse_some h
  have h0 : ret = 0 := by simpa using hv
  subst h0
  obtain ⟨e, junk, hin, hE⟩ := parse_ends (sql := sql) (ok := fun _ => True) hf hA hr
  rw [hp] at hE
  have hsh := (tokensOf_shape hf sql).1
  have hmsg := (ends_err hm hE).1
  generalize hx : some ((0 : Int), st) = x at hE
  cases hE with
  | accept n c stk s t f l hR he hrem hd hneed hfl =>
    cases hx
    have hi : ∃ p ∈ stk, p.2.sym = N.input := by
      subst he
      refine ⟨(s, t), by simp, hd.2.1⟩
    obtain ⟨m, e1, e2⟩ := throws_at (ok := fun _ => True) hA hsh (fun _ _ _ _ => trivial) hr hR hi
    obtain ⟨c2, stk2, b, vs, _, _, _, _, hfin, _⟩ := fin_rc good66_true (fun _ _ _ _ => trivial) hA hsh (fun _ _ _ _ => trivial) hr hR.rc hi (.inl fun _ => trivial)
    obtain ⟨b', vs', eb, hne, _, hstm, _⟩ := hfin.vs
    cases eb
    refine ⟨m, ?_, e1, fun k hk => ?_⟩
    · rw [hstm, numberL_len, List.length_append] at e1
      have : 0 < vs.length := List.length_pos_iff.2 hne
      omega
    · obtain ⟨n', c3, o', k1, k2, k3, k4, k5⟩ := e2 k hk
      have hn : c.st.res.errMsg = none := by
        exact (hmsg rfl).1
      exact ⟨o', ⟨_, lst, n', c3, hl, k1, k2⟩, k3, by rw [k4]; exact (valid_rc hR.rc).2 hn, by rw [k5]; exact hn⟩
  | _ => cases hx

/-! ## Concrete cases -/

/-- A result that was valid and whose statements were taken out by `releaseStatements`. -/
def usedUp : Res := ⟨[], true, none, 0, 0, []⟩

theorem two_statements : (parse heap 64 [] (txt b!"SELECT 1; SELECT 2") usedUp).map (fun o => (o.res.isValid, size o.res)) = some (true, 2) :=
  parse_of_eval (f := 20) (q := Option.map fun (o : ParseOut) => (o.res.isValid, size o.res)) (by decide +kernel)

/-- "SELECT 1; SELECT 2" parsed into such a result, interrupted: it says it is valid, has no message, and contains one statement. -/
theorem C61_incomplete_case_violation : ∃ o, Interrupted heap 64 [] (txt b!"SELECT 1; SELECT 2") usedUp o ∧ o.res.isValid = true ∧ message o.res = none ∧ size o.res = 1 := by
  have hA : AllocOK heap usedUp := ⟨heap_distinct.tok, heap_distinct.new, heap_distinct.ne, by simp [usedUp, Res.errAddr, addrsL], by simp [usedUp, Res.errAddr, addrsL], by simp [usedUp, Res.errAddr, addrsL]⟩
  have hR : ResOK (fun _ => True) (fun _ => True) usedUp := ⟨(by intro v hv; cases hv), (by intro a ha; cases ha)⟩
  have h2 := two_statements
  cases hp : parse heap 64 [] (txt b!"SELECT 1; SELECT 2") usedUp with
  | none => rw [hp] at h2; cases h2
  | some o =>
    rw [hp] at h2
    simp only [Option.map_some, Option.some.injEq, Prod.mk.injEq] at h2
    obtain ⟨n, h1, e, hk⟩ := C61_valid_though_incomplete_violation heap 64 (.inl rfl) [] _ usedUp hA hR rfl o hp h2.1
    have hn : n = 2 := by
      have := h2.2
      unfold size at this
      simp only [usedUp, List.length_nil] at e
      omega
    obtain ⟨o', k1, k2, k3, k4⟩ := hk 1 (by omega)
    exact ⟨o', k1, k3, by unfold message; rw [k4]; rfl, k2⟩

/-- A client whose second operation is interrupted: the history of `C61_histories_sane` is not empty, and the result it ends with contains a statement. -/
example : ∃ w, History World.init w ∧ ∃ r, w.results[0]? = some r ∧ size r = 1 ∧ r.isValid = false := by
  have hp : (parse heap 64 [] (txt b!"SELECT 1; SELECT 2") (newResult 0 0)).map (fun o => (o.res.isValid, size o.res)) = some (true, 2) :=
    parse_of_eval (f := 20) (q := Option.map fun (o : ParseOut) => (o.res.isValid, size o.res)) (by decide +kernel)
  cases hq : parse heap 64 [] (txt b!"SELECT 1; SELECT 2") (newResult 0 0) with
  | none => rw [hq] at hp; cases hp
  | some o =>
    rw [hq] at hp
    simp only [Option.map_some, Option.some.injEq, Prod.mk.injEq] at hp
    obtain ⟨n, h1, e, hk⟩ := C61_valid_though_incomplete_violation heap 64 (.inl rfl) [] _ (newResult 0 0) heap_distinct.ok newResult_ok rfl o hq hp.1
    have hn : n = 2 := by
      have := hp.2
      unfold size at this
      simp only [newResult, List.length_nil] at e
      omega
    obtain ⟨o', k1, k2, k3, k4⟩ := hk 1 (by omega)
    have hov : ∀ t ∈ tokensOf 64 (txt b!"SELECT 1; SELECT 2"), ∀ b, t.val = .sval b → ¬ Overflow b := by
      have hT : (tokensOf 64 (txt b!"SELECT 1; SELECT 2")).all (fun t => match t.val with | .sval _ => false | _ => true) = true := by
        have hl : (lexE 64 20 (lexInit [] (cText (txt b!"SELECT 1; SELECT 2"))) []).map (fun x => x.1.all (fun t => match t.val with | .sval _ => false | _ => true)) = some true := by decide +kernel
        cases hx : lexE 64 20 (lexInit [] (cText (txt b!"SELECT 1; SELECT 2"))) [] with
        | none => rw [hx] at hl; cases hl
        | some y =>
          rw [hx] at hl
          have := lexAll_of_lexE (st := lexInit [] (cText (txt b!"SELECT 1; SELECT 2"))) (cText_clean _) hx
          unfold tokensOf
          rw [this]
          simpa using hl
      intro t ht b hb
      have := List.all_eq_true.1 hT t ht
      rw [hb] at this; cases this
    refine ⟨_, .next (.next (.start _) (o := .new 0 0) trivial (.done rfl)) (o := .parse 0 heap 64 [] (txt b!"SELECT 1; SELECT 2")) ⟨newResult 0 0, rfl, (by intro a ha; cases ha), heap_distinct, ?_, ?_, .inl rfl, hov⟩ (.thrown rfl k1), o'.res, rfl, k2, ?_⟩
    · intro n hn; exact absurd hn (by simp [World.known, World.live, World.init, newResult, owned, Res.errAddr, addrsL])
    · intro n hn; exact absurd hn (by simp [World.known, World.live, World.init, newResult, owned, Res.errAddr, addrsL])
    · rw [k3]; rfl

end Verif.Props

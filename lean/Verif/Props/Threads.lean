import Verif.Api.Threads
import Verif.Props.Prefix
import Verif.Props.Memory
import Verif.Props.Names
/-!
# C50: calls from several threads do not disturb each other
-/
namespace Verif.Props
open Verif.Lex Verif.LR Verif.Sem Verif.Api Verif.Threads

/-! ## The scanner, match by match -/

theorem oneMatch_H (fpr : Int) {st : LexSt} (acc : List Bytes) (hc : Clean st.rest) :
    (∃ st' acc', oneMatch fpr st acc = .more st' acc' ∧ Clean st'.rest ∧ st'.rest.length < st.rest.length ∧ lexH fpr st acc = lexH fpr st' acc') ∨
    (∃ t st', oneMatch fpr st acc = .tok t st' ∧ Clean st'.rest ∧ st'.rest.length ≤ st.rest.length ∧
      ((t.code = 0 ∧ (lexH fpr st acc).1 = [t]) ∨ (t.code ≠ 0 ∧ (lexH fpr st acc).1 = t :: (lexH fpr st' []).1))) := by
  obtain ⟨sc, buf, rest⟩ := st
  simp only at hc
  by_cases hne : rest = []
  · subst hne
    right
    refine ⟨⟨0, .none, acc.reverse⟩, ⟨sc, buf, []⟩, ?_, hc, Nat.le_refl _, .inl ⟨rfl, ?_⟩⟩
    · simp [oneMatch, scan_nil]
    · rw [lexH_nil]
  · obtain ⟨a, ha⟩ := lexAction_total fpr sc buf hc hne
    have hp := hand_pos sc hc hne
    have hs := scan_eq_hand sc hc hne
    generalize hrn : handStep sc rest = rn at *
    obtain ⟨r, n⟩ := rn
    simp only at ha hp hs
    cases a with
    | skip sc' buf' =>
      left
      refine ⟨⟨sc', buf', rest.drop n⟩, rest.take n :: acc, ?_, clean_drop hc n, ?_, lexH_skip hc hne hrn ha⟩
      · simp [oneMatch, hs, ha]
      · simp only [List.length_drop]; omega
    | ret sc' buf' k v =>
      right
      refine ⟨⟨k, v, (rest.take n :: acc).reverse⟩, ⟨sc', buf', rest.drop n⟩, ?_, clean_drop hc n, ?_, ?_⟩
      · simp [oneMatch, hs, ha]
      · simp only [List.length_drop]; omega
      · by_cases h0 : k = 0
        · subst h0
          exact .inl ⟨rfl, by rw [lexH_ret0 hc hne hrn ha]⟩
        · exact .inr ⟨h0, by rw [lexH_ret hc hne hrn ha h0]⟩

/-- What `tokenize` makes of a sequence of tokens. -/
def codes16 (ts : List Tok) : List Int := (ts.map fun t => toInt16 t.code).takeWhile fun k => decide (k ≠ 0)

theorem codes16_zero {t : Tok} {ts : List Tok} (h : toInt16 t.code = 0) : codes16 (t :: ts) = [] := by
  unfold codes16; simp [h]
theorem codes16_cons {t : Tok} {ts : List Tok} (h : toInt16 t.code ≠ 0) : codes16 (t :: ts) = toInt16 t.code :: codes16 ts := by
  unfold codes16; simp [h]

theorem tokenizeFuel_16 (fpr : Int) : ∀ (f : Nat) (st : LexSt), Clean st.rest → st.rest.length < f → tokenizeFuel fpr f st = some (codes16 (lexH fpr st []).1)
  | 0, st, _, h => by omega
  | f + 1, st, hc, hl => by
    obtain ⟨t, st', h1, h2, h3, h4, h5⟩ := yylexFuel_eq fpr (st.rest.length + 1) st [] hc (by omega)
    have h1 : yylex fpr st = some (t, st') := h1
    rw [tokenizeFuel, h1, h5]
    by_cases hz : toInt16 t.code = 0
    · simp only [hz, if_true]
      split <;> rw [codes16_zero hz]
    · have h0 : t.code ≠ 0 := by intro h; rw [h] at hz; exact hz rfl
      simp only [if_neg hz, if_neg h0, codes16_cons hz]
      rw [tokenizeFuel_16 fpr f st' h2 (by have := h4 h0; omega)]
      rfl

theorem tokenize_16 (fpr : Int) (buf : Bytes) (sql : List UInt8) : tokenize fpr buf sql = some (codes16 (tokensOf fpr sql)) := by
  unfold tokenize
  rw [tokenizeFuel_16 fpr _ _ (cText_clean sql) (by simp [lexInit])]
  congr 2
  obtain ⟨st, h⟩ := tokensOf_spec fpr buf sql
  rw [lexAll_eq fpr _ (cText_clean sql)] at h
  rw [Option.some.inj h]

/-- The tokens found from a fresh scanner on, whatever `strbuf` holds. -/
theorem lexH_any (fpr : Int) (buf : Bytes) (sql : List UInt8) : (lexH fpr ⟨.initial, buf, cText sql⟩ []).1 = tokensOf fpr sql := by
  obtain ⟨st, h⟩ := tokensOf_spec fpr buf sql
  rw [lexAll_eq fpr _ (cText_clean sql)] at h
  have h := Option.some.inj h
  have e : lexInit buf (cText sql) = ⟨.initial, buf, cText sql⟩ := rfl
  rw [e] at h
  rw [h]

/-! ## A call in progress -/

/-- What a call gives when nothing else runs. -/
def alone (A : Alloc) (fpr l c : Int) : Call → Answer
  | .parse sql => .parse (parse A fpr [] sql (newResult l c))
  | .tokenize sql => .tokenize (tokenize fpr [] sql)

/-- A bound on the number of steps, but for the first and the last. -/
def cost : Call → Nat
  | .parse sql => 12 * sql.length + 2021
  | .tokenize sql => 12 * sql.length + 2021

/-- The call will give the answer it gives alone, after at most `m` more steps. -/
def Good (A : Alloc) (fpr l c : Int) (call : Call) (j : Busy) (buf : Bytes) (m : Nat) : Prop :=
  Clean j.rest ∧
  match call with
  | .parse sql => ∃ cf rem n stk F, j.work = .inl cf ∧ (rem = (lexH fpr ⟨j.sc, buf, j.rest⟩ j.acc).1 ∨ rem = []) ∧
      Reach (sem A) 200 (tokensOf fpr sql) (startSt (newResult l c)) n (cf.more rem) stk ∧
      runN (sem A) 200 F (cf.more rem) = runLR (sem A) (tokensOf fpr sql) (startSt (newResult l c)) ∧ F + j.rest.length + rem.length ≤ m
  | .tokenize sql => ∃ ts, j.work = .inr ts ∧ ts ++ codes16 (lexH fpr ⟨j.sc, buf, j.rest⟩ j.acc).1 = codes16 (tokensOf fpr sql) ∧
      j.rest.length + (lexH fpr ⟨j.sc, buf, j.rest⟩ j.acc).1.length ≤ m

theorem reach_ne {σ V : Type} {S : LR.Sem σ V} {toks ts : List Tok} {e : Tok} {junk : List Tok} {st0 : σ} (hin : Input toks ts e junk) {n : Nat} {c : Cfg σ V} {stk : TStk}
    (h : Reach S 200 toks st0 n c stk) (h69 : topState c.stk ≠ 69) : ∃ t rem, remOf c = t :: rem := by
  rcases h.rest hin with ⟨_, suf, h1, _⟩ | ⟨h, _⟩
  · cases suf with
    | nil => exact ⟨e, junk, h1⟩
    | cons x suf => exact ⟨x, suf ++ e :: junk, h1⟩
  · exact absurd (by have ht := Reach.inv ‹_› |>.sim.top; rw [ht]; exact h) h69

theorem wants_iff (c : Cfg Sem.St SV) : wantsToken c = true ↔
    (c.stk.length + 1 < stackSize ∧ (topState c.stk : Int) ≠ YYFINAL ∧ noToken (topState c.stk) = some false ∧ c.la = none ∧ c.toks = []) := by
  unfold wantsToken
  cases c.la <;> cases c.toks <;> simp [and_assoc]

theorem goOn_good {A : Alloc} {fpr l c : Int} (hf : FprOK fpr) {call : Call} {j : Busy} {buf : Bytes} {m : Nat} (h : Good A fpr l c call j buf m) :
    (∃ j' buf' m', goOn A fpr j buf = (.inl j', buf') ∧ m = m' + 1 ∧ Good A fpr l c call j' buf' m') ∨
    ∃ buf', goOn A fpr j buf = (.inr (alone A fpr l c call), buf') := by
  obtain ⟨hc, h⟩ := h
  cases call with
  | tokenize sql =>
    obtain ⟨ts, hw, h1, h2⟩ := h
    unfold goOn
    rw [hw]
    simp only
    rcases oneMatch_H fpr (st := ⟨j.sc, buf, j.rest⟩) j.acc hc with ⟨st', acc', e1, e2, e3, e4⟩ | ⟨t, st', e1, e2, e3, e4⟩
    · left
      rw [e1]
      rw [e4] at h1 h2
      simp only at e3
      exact ⟨_, _, m - 1, rfl, by omega, e2, ts, hw, h1, (by omega : st'.rest.length + (lexH fpr st' acc').1.length ≤ m - 1)⟩
    · rw [e1]
      simp only [afterMatch]
      by_cases hz : toInt16 t.code = 0
      · right
        rw [if_pos hz]
        refine ⟨st'.buf, ?_⟩
        simp only [alone]
        rw [tokenize_16, ← h1]
        have : codes16 (lexH fpr ⟨j.sc, buf, j.rest⟩ j.acc).1 = [] := by
          rcases e4 with ⟨_, e4⟩ | ⟨_, e4⟩ <;> rw [e4, codes16_zero hz]
        rw [this, List.append_nil]
      · left
        rw [if_neg hz]
        rcases e4 with ⟨e0, _⟩ | ⟨e0, e4⟩
        · rw [e0] at hz; exact absurd rfl hz
        · rw [e4] at h1 h2
          rw [codes16_cons hz] at h1
          simp only [List.length_cons] at h2
          simp only at e3
          exact ⟨_, _, m - 1, rfl, by omega, e2, _, rfl, (by rw [← h1]; simp : (ts ++ [toInt16 t.code]) ++ codes16 (lexH fpr st' []).1 = _), (by omega : st'.rest.length + (lexH fpr st' []).1.length ≤ m - 1)⟩
  | parse sql =>
    obtain ⟨cf, rem, n, stk, F, hw, hrem, hR, hrun, hm⟩ := h
    obtain ⟨e, junk, hin⟩ := input_tokens hf sql
    unfold goOn
    rw [hw]
    simp only
    by_cases hwt : wantsToken cf = true
    · -- the scanner is called
      left
      rw [if_pos hwt]
      obtain ⟨w1, w2, w3, w4, w5⟩ := (wants_iff cf).1 hwt
      obtain ⟨t0, rem0, hne⟩ := reach_ne hin hR (by
        intro h; apply w2; show ((topState cf.stk : Nat) : Int) = 69
        have : topState cf.stk = 69 := h
        rw [this]; rfl)
      have hrm : rem = t0 :: rem0 := by
        have : remOf (cf.more rem) = rem := by simp [remOf, Cfg.more, w4, w5]
        rw [← this, hne]
      have hrem : rem = (lexH fpr ⟨j.sc, buf, j.rest⟩ j.acc).1 := by
        rcases hrem with h | h
        · exact h
        · rw [hrm] at h; cases h
      rcases oneMatch_H fpr (st := ⟨j.sc, buf, j.rest⟩) j.acc hc with ⟨st', acc', e1, e2, e3, e4⟩ | ⟨t, st', e1, e2, e3, e4⟩
      · rw [e1]
        simp only at e3
        exact ⟨_, _, m - 1, rfl, by omega, e2, cf, rem, n, stk, F, hw, .inl (by rw [hrem, e4]), hR, hrun, by show F + st'.rest.length + _ ≤ _; omega⟩
      · rw [e1]
        simp only at e3
        have key : ∀ rem', rem = t :: rem' → ({ cf with toks := [t] } : Cfg Sem.St SV).more rem' = cf.more rem := by
          intro rem' h
          unfold Cfg.more
          rw [h, w5]; rfl
        rcases e4 with ⟨_, e4⟩ | ⟨_, e4⟩
        · rw [← hrem] at e4
          have hk := key [] e4
          refine ⟨_, _, m - 1, rfl, ?_, e2, { cf with toks := [t] }, [], n, stk, F, rfl, .inr rfl, by rw [hk]; exact hR, by rw [hk]; exact hrun, ?_⟩
          · rw [e4] at hm; simp only [List.length_cons] at hm; omega
          · show F + st'.rest.length + _ ≤ _
            rw [e4] at hm; simp only [List.length_cons] at hm; simp only [List.length_nil]; omega
        · rw [← hrem] at e4
          have hk := key _ e4
          refine ⟨_, _, m - 1, rfl, ?_, e2, { cf with toks := [t] }, _, n, stk, F, rfl, .inl rfl, by rw [hk]; exact hR, by rw [hk]; exact hrun, ?_⟩
          · rw [e4] at hm; simp only [List.length_cons] at hm; omega
          · show F + st'.rest.length + (lexH fpr st' []).1.length ≤ _
            rw [e4] at hm; simp only [List.length_cons] at hm; omega
    · -- a step of the parser
      rw [if_neg hwt]
      have hst : step (sem A) stackSize (cf.more rem) = (step (sem A) stackSize cf).more rem := by
        rcases step_more' (sem A) stackSize cf rem with h | ⟨h, _⟩
        · exact h
        · exact absurd ((wants_iff cf).2 h) hwt
      have hne : runLR (sem A) (tokensOf fpr sql) (startSt (newResult l c)) ≠ none := by
        obtain ⟨_, _, _, _, _, _, _, hr⟩ := run_main hin (sem A) (startSt (newResult l c))
        rw [hr]; simp
      cases F with
      | zero => exact absurd hrun.symm hne
      | succ F =>
        unfold runN at hrun
        have hst' : step (sem A) 200 (cf.more rem) = (step (sem A) stackSize cf).more rem := hst
        rw [hst'] at hrun
        cases hs : step (sem A) stackSize cf with
        | run c' =>
          left
          rw [hs] at hrun hst'
          simp only [SRes.more] at hrun hst'
          have h69 : topState (cf.more rem).stk ≠ 69 := by
            intro h
            unfold step at hst'
            split at hst'
            · cases hst'
            · simp only [h] at hst'
              rw [if_pos (by decide)] at hst'; cases hst'
          obtain ⟨t0, rem0, hre⟩ := reach_ne hin hR h69
          obtain ⟨stk', hR'⟩ := hR.next hre hst'
          exact ⟨_, _, m - 1, rfl, by omega, hc, c', rem, _, stk', F, rfl, hrem, hR', hrun, by show F + j.rest.length + _ ≤ _; omega⟩
        | done o c' =>
          right
          rw [hs] at hrun
          simp only [SRes.more] at hrun
          refine ⟨buf, ?_⟩
          simp only [alone]
          rw [parse_eq]
          have : hsqlParse A (tokensOf fpr sql) (newResult l c) = finishRun A o c' := by
            unfold hsqlParse
            rw [← hrun]
            exact finish_more A o c' rem
          rw [this]
        | ub =>
          right
          rw [hs] at hrun
          simp only [SRes.more] at hrun
          refine ⟨buf, ?_⟩
          simp only [alone]
          rw [parse_eq]
          have : hsqlParse A (tokensOf fpr sql) (newResult l c) = none := by
            unfold hsqlParse
            rw [← hrun]
          rw [this]; rfl

theorem begin_good {A : Alloc} {fpr : Int} (l c : Int) (call : Call) (buf : Bytes) : Good A fpr l c call (begin l c call) buf (cost call) := by
  cases call with
  | tokenize sql =>
    have hl := tokens_few fpr sql
    have ht : (cText sql).length ≤ sql.length := by unfold cText; rw [List.length_map]; exact (List.takeWhile_sublist _).length_le
    refine ⟨cText_clean sql, [], rfl, by rw [List.nil_append]; exact congrArg codes16 (lexH_any fpr buf sql), ?_⟩
    show (cText sql).length + (lexH fpr ⟨.initial, buf, cText sql⟩ []).1.length ≤ 12 * sql.length + 2021
    rw [lexH_any]; omega
  | parse sql =>
    have hl := tokens_few fpr sql
    have ht : (cText sql).length ≤ sql.length := by unfold cText; rw [List.length_map]; exact (List.takeWhile_sublist _).length_le
    refine ⟨cText_clean sql, initCfg [] (startSt (newResult l c)), tokensOf fpr sql, 0, [], 10 * (tokensOf fpr sql).length + 2010, rfl, .inl (lexH_any fpr buf sql).symm, .init, rfl, ?_⟩
    show _ + (cText sql).length + _ ≤ 12 * sql.length + 2021
    omega

/-! ## Threads -/

section
variable {A : Nat → Alloc} {fpr : Int} (hf : FprOK fpr) {l c : Int}

/-- What the calls give, one after the other. -/
def inTurn (A : Nat → Alloc) (fpr l c : Int) (calls : List Call) : List Answer := calls.mapIdx fun k call => alone (A k) fpr l c call

/-- The thread has made the calls `made`, is working on the next if there is one, and needs at most `m` more steps for all `calls`. -/
def Fine (A : Nat → Alloc) (fpr l c : Int) (calls : List Call) (t : Thread) (buf : Bytes) (m : Nat) : Prop :=
  ∃ made, t.done = inTurn A fpr l c made ∧
    match t.now with
    | none => calls = made ++ t.todo ∧ (t.todo.map fun call => cost call + 2).sum ≤ m
    | some j => ∃ call k, calls = made ++ call :: t.todo ∧ Good (A made.length) fpr l c call j buf k ∧ k + 1 + (t.todo.map fun call => cost call + 2).sum ≤ m

include hf in
theorem tick_fine {calls : List Call} {t : Thread} {buf : Bytes} {m : Nat} (h : Fine A fpr l c calls t buf m) :
    Fine A fpr l c calls (t.tick A fpr l c buf).1 (t.tick A fpr l c buf).2 (m - 1) := by
  obtain ⟨todo, now, done⟩ := t
  obtain ⟨made, h1, h⟩ := h
  simp only at h1
  have hlen : done.length = made.length := by rw [h1]; simp [inTurn]
  cases now with
  | none =>
    obtain ⟨h2, h3⟩ := h
    cases todo with
    | nil => exact ⟨made, h1, h2, Nat.zero_le _⟩
    | cons call todo =>
      simp only [List.map_cons, List.sum_cons] at h3
      exact ⟨made, h1, call, cost call, h2, begin_good l c call buf, (by omega : cost call + 1 + (todo.map fun call => cost call + 2).sum ≤ m - 1)⟩
  | some j =>
    obtain ⟨call, k, h2, h3, h4⟩ := h
    simp only at h2 h4
    unfold Thread.tick
    simp only [hlen]
    rcases goOn_good hf h3 with ⟨j', buf', k', e1, e2, e3⟩ | ⟨buf', e1⟩
    · rw [e1]
      exact ⟨made, h1, call, k', h2, e3, (by omega : k' + 1 + (todo.map fun call => cost call + 2).sum ≤ m - 1)⟩
    · rw [e1]
      refine ⟨made ++ [call], ?_, ?_, (by omega : (todo.map fun call => cost call + 2).sum ≤ m - 1)⟩
      · show done ++ [_] = _
        rw [h1]
        unfold inTurn
        rw [List.mapIdx_append]; simp
      · rw [h2]; simp

end

/-- C50. Any number of threads make any calls of `parse` and `tokenize`, `calls i` being those of thread `i`, each `parse` into a new result.
Whatever the schedule, the other threads, the allocators and the initial contents of the string buffers: (1) what a thread has received so far is what its first calls give
when each is made alone; (2) when the thread has made at least `12 n + 2023` steps per call with a text of `n` bytes, it has all its answers. -/
theorem C50_threads_do_not_interfere (A : Nat → Nat → Alloc) {fpr : Int} (hf : FprOK fpr) (l c : Int) (calls : Nat → List Call) (strbuf : Nat → Bytes) (schedule : List Nat) (i : Nat) :
    let final := Program.run A fpr l c ⟨fun i => ⟨calls i, none, []⟩, strbuf⟩ schedule
    (final.thread i).done <+: inTurn (A i) fpr l c (calls i) ∧
    (((calls i).map fun call => cost call + 2).sum ≤ schedule.count i → (final.thread i).done = inTurn (A i) fpr l c (calls i)) := by
  have main : ∀ (schedule : List Nat) (w : Program) (m : Nat), Fine (A i) fpr l c (calls i) (w.thread i) (w.strbuf i) m →
      Fine (A i) fpr l c (calls i) ((Program.run A fpr l c w schedule).thread i) ((Program.run A fpr l c w schedule).strbuf i) (m - schedule.count i) := by
    intro schedule
    induction schedule with
    | nil => intro w m h; exact h
    | cons x schedule ih =>
      intro w m h
      show Fine _ _ _ _ _ ((Program.run A fpr l c (Program.tick A fpr l c w x) schedule).thread i) _ _
      by_cases hx : x = i
      · subst hx
        have h' := tick_fine hf h
        have := ih (Program.tick A fpr l c w x) (m - 1) (by
          simp only [Program.tick, Threads.upd, if_true]
          exact h')
        rw [List.count_cons_self, Nat.add_comm, ← Nat.sub_sub]
        exact this
      · have := ih (Program.tick A fpr l c w x) m (by
          simp only [Program.tick, Threads.upd, if_neg (Ne.symm hx)]
          exact h)
        rw [List.count_cons_of_ne hx]
        exact this
  have h0 : Fine (A i) fpr l c (calls i) ⟨calls i, none, []⟩ (strbuf i) (((calls i).map fun call => cost call + 2).sum) :=
    ⟨[], rfl, rfl, Nat.le_refl _⟩
  have h := main schedule ⟨fun i => ⟨calls i, none, []⟩, strbuf⟩ _ h0
  obtain ⟨made, h1, h2⟩ := h
  constructor
  · rw [h1]
    have pre : ∀ a b : List Call, inTurn (A i) fpr l c a <+: inTurn (A i) fpr l c (a ++ b) := by
      intro a b
      unfold inTurn
      rw [List.mapIdx_append]
      exact List.prefix_append _ _
    split at h2
    · rw [h2.1]; exact pre _ _
    · obtain ⟨call, k, h3, _⟩ := h2
      rw [h3]; exact pre _ _
  · intro hk
    rw [h1]
    split at h2
    · obtain ⟨h3, h4⟩ := h2
      have : ((Program.run A fpr l c ⟨fun i => ⟨calls i, none, []⟩, strbuf⟩ schedule).thread i).todo = [] := by
        generalize ((Program.run A fpr l c ⟨fun i => ⟨calls i, none, []⟩, strbuf⟩ schedule).thread i).todo = td at h4
        cases td with
        | nil => rfl
        | cons x xs => simp only [List.map_cons, List.sum_cons] at h4; omega
      rw [this, List.append_nil] at h3
      rw [h3]
    · obtain ⟨call, k, _, _, h4⟩ := h2
      omega

/-- An answer when addresses are not looked at. -/
def _root_.Verif.Threads.Answer.seen : Answer → Answer
  | .parse o => .parse (o.map ParseOut.seen)
  | .tokenize ts => .tokenize ts

/-- C50, with C49: if no allocator returns an address twice, then each answer of each thread is, but for addresses, the answer to the same call in a program that makes only this call:
not even the allocations of the other threads make a difference. -/
theorem C50_same_as_alone (A : Nat → Nat → Alloc) (hA : ∀ i k, Distinct (A i k)) {fpr : Int} (hf : FprOK fpr) (l c : Int) (calls : Nat → List Call) (strbuf : Nat → Bytes)
    (schedule : List Nat) (i : Nat) (k : Nat) (a : Answer)
    (h : ((Program.run A fpr l c ⟨fun i => ⟨calls i, none, []⟩, strbuf⟩ schedule).thread i).done[k]? = some a) :
    ∃ call, (calls i)[k]? = some call ∧ a.seen = (alone heap fpr l c call).seen := by
  obtain ⟨⟨more, hm⟩, _⟩ := C50_threads_do_not_interfere A hf l c calls strbuf schedule i
  have hk : (inTurn (A i) fpr l c (calls i))[k]? = some a := by
    rw [← hm, List.getElem?_append_left (List.getElem?_eq_some_iff.1 h).1]
    exact h
  unfold inTurn at hk
  rw [List.getElem?_mapIdx] at hk
  cases hc : (calls i)[k]? with
  | none => rw [hc] at hk; cases hk
  | some call =>
    rw [hc] at hk
    simp only [Option.map_some, Option.some.injEq] at hk
    refine ⟨call, rfl, ?_⟩
    rw [← hk]
    cases call with
    | tokenize sql => rfl
    | parse sql =>
      obtain ⟨_, _, _, _, H⟩ := C49_addresses_are_names (hA i k) heap_distinct
      obtain ⟨_, _, _, e⟩ := H fpr [] sql l c
      show Answer.parse _ = Answer.parse _
      exact congrArg Answer.parse e

/-! ## A program with two threads -/

/-- Thread 0 parses `SELECT 'a'` and then tokenizes `x`; the other one parses `SELECT 'b'`. -/
def twoThreads : Nat → List Call
  | 0 => [.parse (txt b!"SELECT 'a'"), .tokenize (txt b!"x")]
  | _ => [.parse (txt b!"SELECT 'b'")]

/-- They take turns, each string buffer contains garbage at first; both get the answers to their own calls. -/
example (n : Nat) (hn : 5000 ≤ n) : let final := Program.run (fun _ _ => heap) 64 0 0 ⟨fun i => ⟨twoThreads i, none, []⟩, fun _ => b!"junk"⟩ (List.replicate n [0, 1]).flatten
    (final.thread 0).done = [.parse (parse heap 64 [] (txt b!"SELECT 'a'") (newResult 0 0)), .tokenize (tokenize 64 [] (txt b!"x"))] ∧
    (final.thread 1).done = [.parse (parse heap 64 [] (txt b!"SELECT 'b'") (newResult 0 0))] := by
  have hc : ∀ (n i : Nat), i < 2 → (List.replicate n [0, 1]).flatten.count i = n := by
    intro n i hi
    induction n with
    | zero => rfl
    | succ n ih =>
      rw [List.replicate_succ, List.flatten_cons, List.count_append, ih]
      match i, hi with
      | 0, _ => simp [Nat.add_comm]
      | 1, _ => simp [Nat.add_comm]
  have T := fun i => (C50_threads_do_not_interfere (fun _ _ => heap) (fpr := 64) (Or.inl rfl) 0 0 twoThreads (fun _ => b!"junk") (List.replicate n [0, 1]).flatten i).2
  exact ⟨T 0 (by rw [hc _ _ (by omega)]; exact Nat.le_trans (by decide) hn), T 1 (by rw [hc _ _ (by omega)]; exact Nat.le_trans (by decide) hn)⟩

end Verif.Props

import Verif.Sem.StackArr
/-! The message buffer of `yyparse`. Proof-internal. -/
namespace Verif.Sem
open Verif.Lex Verif.LR

theorem names_all : ((List.range 199).all fun x => decide (yytname[x]? = some (symName x)) && decide (tnamerr (symName x) = some (symName x)) && decide ((symName x).length ≤ 100)
    && (symName x).all (fun b => decide (b ≠ 0))) = true := by decide +kernel

theorem name_ok {x : Nat} (h : x < 199) : yytname[x]? = some (symName x) ∧ tnamerr (symName x) = some (symName x) ∧ (symName x).length ≤ 100 ∧ 0 ∉ symName x := by
  have := List.all_eq_true.1 names_all x (by simp [h])
  simp only [Bool.and_eq_true, decide_eq_true_eq, List.all_eq_true] at this
  exact ⟨this.1.1.1, this.1.1.2, this.1.2, fun h0 => this.2 0 h0 rfl⟩

/-- A format with its arguments. -/
def fill : Bytes → List Bytes → Bytes
  | [], _ => []
  | 37 :: 115 :: r, a :: args => a ++ fill r args
  | b :: r, args => b :: fill r args

theorem take_set_succ {α : Type} (l : List α) (i : Nat) (x : α) (h : i < l.length) : (l.set i x).take (i + 1) = l.take i ++ [x] := by
  rw [List.take_add_one, List.take_set_of_le (Nat.le_refl _), List.getElem?_set_self h]
  rfl

theorem stpcpy_ok : ∀ (bs buf : Bytes) (i : Nat), i + bs.length < buf.length → ∃ buf', stpcpy bs buf i = some buf' ∧ buf'.length = buf.length ∧ (buf.take i ++ bs ++ [0]) <+: buf' := by
  intro bs
  induction bs with
  | nil =>
    intro buf i h
    have h' : i < buf.length := by simpa using h
    refine ⟨buf.set i 0, ?_, by simp, ?_⟩
    · unfold stpcpy; exact wr_ok h'
    · rw [List.append_nil, ← take_set_succ buf i 0 h']; exact List.take_prefix _ _
  | cons b bs ih =>
    intro buf i h
    rw [List.length_cons] at h
    have h' : i < buf.length := by omega
    obtain ⟨buf', h1, h2, h3⟩ := ih (buf.set i b) (i + 1) (by rw [List.length_set]; omega)
    refine ⟨buf', ?_, by rw [h2, List.length_set], ?_⟩
    · unfold stpcpy; rw [wr_ok h', Option.bind_eq_bind, Option.bind_some]; exact h1
    · rw [take_set_succ buf i b h'] at h3
      simpa using h3

theorem prefix_take {α : Type} {p q a : List α} (h : (p ++ q) <+: a) : a.take p.length = p := by
  obtain ⟨t, rfl⟩ := h
  rw [List.append_assoc, List.take_left']
  rfl

theorem fmtLoop_ok : ∀ (fmt : Bytes) (args : List Bytes) (buf : Bytes) (i : Nat), (∀ a ∈ args, tnamerr a = some a) → i + (fill fmt args).length < buf.length →
    ∃ buf', fmtLoop fmt args buf i = some buf' ∧ buf'.length = buf.length ∧ (buf.take i ++ fill fmt args ++ [0]) <+: buf' := by
  intro fmt args
  fun_induction fill fmt args with
  | case1 args =>
    intro buf i _ h
    have h' : i < buf.length := by simpa using h
    refine ⟨buf.set i 0, ?_, by simp, ?_⟩
    · rw [fmtLoop]; exact wr_ok h'
    · rw [List.append_nil, ← take_set_succ buf i 0 h']; exact List.take_prefix _ _
  | case2 r a args ih =>
    intro buf i ha h
    rw [List.length_append] at h
    have h' : i < buf.length := by omega
    obtain ⟨b1, h1, h2, h3⟩ := stpcpy_ok a (buf.set i 37) i (by rw [List.length_set]; omega)
    obtain ⟨b2, h4, h5, h6⟩ := ih b1 (i + a.length) (fun x hx => ha x (by simp [hx])) (by rw [h2, List.length_set]; omega)
    refine ⟨b2, ?_, by rw [h5, h2, List.length_set], ?_⟩
    · rw [fmtLoop, wr_ok h']
      simp only [Option.bind_eq_bind, Option.bind_some, ha a (by simp), h1, h4]
    · have e : b1.take (i + a.length) = buf.take i ++ a := by
        have hl : (buf.take i ++ a).length = i + a.length := by rw [List.length_append, List.length_take]; omega
        rw [List.take_set_of_le (Nat.le_refl _)] at h3
        rw [← hl]
        exact prefix_take h3
      rw [e] at h6
      simpa using h6
  | case3 b r args hn ih =>
    intro buf i ha h
    rw [List.length_cons] at h
    have h' : i < buf.length := by omega
    obtain ⟨b2, h4, h5, h6⟩ := ih (buf.set i b) (i + 1) ha (by rw [List.length_set]; omega)
    refine ⟨b2, ?_, by rw [h5, List.length_set], ?_⟩
    · rw [fmtLoop, wr_ok h']
      · simp only [Option.bind_eq_bind, Option.bind_some, h4]
      · intro r' a' as' e1 e2 e3; exact hn r' a' as' e1 e2 e3
    · rw [take_set_succ buf i b h'] at h6
      simpa using h6

theorem cstr_prefix {m buf : Bytes} (h0 : 0 ∉ m) (h : (m ++ [0]) <+: buf) : cstr buf 0 = some m := by
  obtain ⟨t, rfl⟩ := h
  unfold cstr
  rw [List.drop_zero, if_pos (by simp), List.append_assoc, List.takeWhile_append_of_pos]
  · simp
  · intro x hx
    have : x ≠ 0 := fun e => h0 (e ▸ hx)
    simp [this]

/-! ## The arguments -/

/-- Is `x` a candidate in a state with `yypact` value `n`? -/
def isCand (n : Int) (x : Nat) : Bool :=
  decide (at? yycheck (n + x) = some (x : Int)) && decide (x ≠ 1) && !decide (at? yytable (n + x) = some YYTABLE_NINF)

theorem at_lt {l : List Int} {i : Int} (h1 : 0 ≤ i) (h2 : i < l.length) : ∃ v, at? l i = some v := by
  unfold at?
  rw [if_pos h1, List.getElem?_eq_getElem (by omega)]
  exact ⟨_, rfl⟩

theorem check_len : yycheck.length = 857 := by decide +kernel
theorem table_len : yytable.length = 857 := by decide +kernel

/-- The sum of the lengths of the names. -/
def lens (cs : List Nat) : Nat := (cs.map fun x => (symName x).length).sum

theorem argLoop_ok (n : Int) (size0 : Nat) : ∀ (k x : Nat) (args : List Bytes) (size : Nat), 1 ≤ args.length → args.length ≤ 5 → x + k ≤ 199 →
    (∀ j, x ≤ j → j < x + k → 0 ≤ n + (j : Int) ∧ n + (j : Int) ≤ 856) → size + 100 * k ≤ sizeMax →
    argLoop n size0 k x args size = some (some (if args.length + ((List.range' x k).filter (isCand n)).length ≤ 5 then
      (args ++ ((List.range' x k).filter (isCand n)).map symName, size + lens ((List.range' x k).filter (isCand n))) else (args.take 1, size0))) := by
  intro k
  induction k with
  | zero =>
    intro x args size _ h1 _ _ _
    simp [argLoop, h1, lens]
  | succ k ih =>
    intro x args size h0 h1 h2 h3 h4
    obtain ⟨b1, b2⟩ := h3 x (Nat.le_refl _) (by omega)
    have hb : ∀ j, x + 1 ≤ j → j < x + 1 + k → 0 ≤ n + (j : Int) ∧ n + (j : Int) ≤ 856 := fun j g1 g2 => h3 j (by omega) (by omega)
    obtain ⟨c, hc⟩ := at_lt (l := yycheck) b1 (by rw [check_len]; omega)
    obtain ⟨v, hv⟩ := at_lt (l := yytable) b1 (by rw [table_len]; omega)
    have e : (x : Int) + n = n + x := by omega
    have skip : isCand n x = false → argLoop n size0 k (x + 1) args size =
        some (some (if args.length + ((List.range' x (k + 1)).filter (isCand n)).length ≤ 5 then
          (args ++ ((List.range' x (k + 1)).filter (isCand n)).map symName, size + lens ((List.range' x (k + 1)).filter (isCand n))) else (args.take 1, size0))) := by
      intro hf
      rw [List.range'_succ, List.filter_cons_of_neg (by rw [hf]; simp)]
      exact ih (x + 1) args size h0 h1 (by omega) hb (by omega)
    unfold argLoop
    simp only [Option.bind_eq_bind, e, hc, hv, Option.bind_some]
    by_cases g1 : c = (x : Int) ∧ x ≠ 1
    · rw [if_pos g1]
      by_cases g2 : v = YYTABLE_NINF
      · rw [if_pos g2]
        exact skip (by unfold isCand; simp [hv, g2])
      · rw [if_neg g2]
        have hin : isCand n x = true := by
          unfold isCand
          rw [hc, hv, g1.1]
          simp [g1.2, g2]
        rw [List.range'_succ, List.filter_cons_of_pos hin]
        by_cases g3 : args.length = 5
        · rw [if_pos g3, if_neg (by rw [List.length_cons]; omega)]
        · rw [if_neg g3]
          obtain ⟨n1, n2, n3, _⟩ := name_ok (x := x) (by omega)
          simp only [n1, n2, Option.bind_some]
          rw [if_pos (by omega), ih (x + 1) (args ++ [symName x]) (size + (symName x).length) (by simp) (by simp; omega) (by omega) hb (by omega)]
          have e1 : (args ++ [symName x]).take 1 = args.take 1 ∨ args = [] := by
            cases args with
            | nil => exact .inr rfl
            | cons a as => exact .inl rfl
          by_cases g4 : (args ++ [symName x]).length + ((List.range' (x + 1) k).filter (isCand n)).length ≤ 5
          · rw [if_pos g4, if_pos (by simp at g4 ⊢; omega)]
            simp [lens, Nat.add_assoc]
          · rw [if_neg g4, if_neg (by simp at g4 ⊢; omega)]
            rcases e1 with e1 | e1
            · rw [e1]
            · subst e1; simp at h0
    · rw [if_neg g1]
      refine skip ?_
      unfold isCand
      rw [hc]
      by_cases g5 : c = (x : Int)
      · have : x = 1 := Classical.byContradiction fun h => g1 ⟨g5, h⟩
        simp [this]
      · simp [g5]

theorem pact_len : yypact.length = 656 := by decide +kernel
theorem pact_low : (yypact.all fun n => decide (-198 ≤ n) || decide (n = YYPACT_NINF)) = true := by decide +kernel

theorem pact_bound {s : Nat} {n : Int} (h : at? yypact s = some n) (hn : n ≠ YYPACT_NINF) : -198 ≤ n := by
  have hm : n ∈ yypact := by
    unfold at? at h
    rw [if_pos (by omega)] at h
    exact List.mem_of_getElem? h
  have := List.all_eq_true.1 pact_low n hm
  simp only [Bool.or_eq_true, decide_eq_true_eq] at this
  rcases this with h | h
  · exact h
  · exact absurd h hn

theorem filter_none {α : Type} {p : α → Bool} {l : List α} (h : ∀ x ∈ l, p x = false) : l.filter p = [] := by
  rw [List.filter_eq_nil_iff]
  intro x hx; rw [h x hx]; simp

/-- The candidates lie between the bounds of the loop. -/
theorem candidates_loop {s : Nat} {n : Int} (h : at? yypact s = some n) (hn : n ≠ YYPACT_NINF) {b e : Nat} (hb : (b : Int) = if n < 0 then -n else 0)
    (he : (e : Int) = if YYLAST - n + 1 < YYNTOKENS then YYLAST - n + 1 else YYNTOKENS) (hbe : b ≤ e) : candidates s = (List.range' b (e - b)).filter (isCand n) := by
  have he9 : e ≤ 199 := by
    have h1 : (YYNTOKENS : Int) = 199 := rfl
    have h2 : (YYLAST : Int) = 856 := rfl
    split at he <;> omega
  unfold candidates
  rw [h]
  simp only [if_neg hn]
  have hr : List.range YYNTOKENS.toNat = List.range' 0 b ++ (List.range' b (e - b) ++ List.range' e (199 - e)) := by
    rw [show YYNTOKENS.toNat = b + ((e - b) + (199 - e)) from by show 199 = _; omega, List.range_eq_range', List.range'_append_1.symm, Nat.zero_add]
    congr 1
    rw [← List.range'_append_1 (s := b) (m := e - b), show b + (e - b) = e from by omega]
  rw [hr, List.filter_append, List.filter_append]
  have f1 : ∀ x ∈ List.range' 0 b, (decide (0 ≤ n + (x : Int)) && decide (n + (x : Int) ≤ YYLAST) && decide (at? yycheck (n + (x : Int)) = some (x : Int)) && decide (x ≠ 1)
      && !decide (at? yytable (n + (x : Int)) = some YYTABLE_NINF)) = false := by
    intro x hx
    have hx := List.mem_range'_1.1 hx
    have : ¬ (0 ≤ n + (x : Int)) := by split at hb <;> omega
    simp [this]
  have f3 : ∀ x ∈ List.range' e (199 - e), (decide (0 ≤ n + (x : Int)) && decide (n + (x : Int) ≤ YYLAST) && decide (at? yycheck (n + (x : Int)) = some (x : Int)) && decide (x ≠ 1)
      && !decide (at? yytable (n + (x : Int)) = some YYTABLE_NINF)) = false := by
    intro x hx
    have hx := List.mem_range'_1.1 hx
    have h1 : (YYNTOKENS : Int) = 199 := rfl
    have : ¬ (n + (x : Int) ≤ YYLAST) := by
      split at he <;> omega
    simp [this]
  rw [filter_none f1, filter_none f3, List.nil_append, List.append_nil]
  refine List.filter_congr ?_
  intro x hx
  have hx := List.mem_range'_1.1 hx
  have g1 : 0 ≤ n + (x : Int) := by split at hb <;> omega
  have g2 : n + (x : Int) ≤ YYLAST := by split at he <;> omega
  unfold isCand
  simp [g1, g2]

theorem cand_lt {s x : Nat} (h : x ∈ candidates s) : x < 199 := by
  unfold candidates at h
  split at h
  · simp at h
  · split at h
    · simp at h
    · have := (List.mem_filter.1 h).1
      rw [List.mem_range] at this
      exact this

theorem expected_lt {s x : Nat} (h : x ∈ expected s) : x < 199 := by
  unfold expected at h
  split at h
  · exact cand_lt h
  · simp at h

theorem expected_len (s : Nat) : (expected s).length ≤ 4 := by
  unfold expected
  split
  · assumption
  · simp

theorem fill_msg (s x : Nat) : fill (yyformat ((symName x :: (expected s).map symName).length)) (symName x :: (expected s).map symName) = syntaxMsg s x := by
  unfold syntaxMsg
  have h := expected_len s
  generalize expected s = es at h ⊢
  match es, h with
  | [], _ => simp [yyformat, fill]
  | [a], _ => simp [yyformat, fill]
  | [a, b], _ => simp [yyformat, fill]
  | [a, b, c], _ => simp [yyformat, fill]
  | [a, b, c, d], _ => simp [yyformat, fill]
  | a :: b :: c :: d :: e :: r, h => simp at h

theorem lens_le : ∀ (cs : List Nat), (∀ x ∈ cs, x < 199) → lens cs ≤ 100 * cs.length := by
  intro cs
  induction cs with
  | nil => intro _; simp [lens]
  | cons c cs ih =>
    intro h
    have h1 := ih fun x hx => h x (by simp [hx])
    have h2 := (name_ok (h c (by simp))).2.2.1
    simp only [lens, List.map_cons, List.sum_cons, List.length_cons] at h1 ⊢
    omega

/-- The size that is computed is larger than the message. -/
theorem msg_size (s x : Nat) : (syntaxMsg s x).length < (symName x).length + lens (expected s) + (yyformat ((symName x :: (expected s).map symName).length)).length := by
  unfold syntaxMsg
  have h := expected_len s
  generalize expected s = es at h ⊢
  match es, h with
  | [], _ => simp [yyformat, lens]
  | [a], _ => simp [yyformat, lens]; omega
  | [a, b], _ => simp [yyformat, lens]; omega
  | [a, b, c], _ => simp [yyformat, lens]; omega
  | [a, b, c, d], _ => simp [yyformat, lens]; omega
  | a :: b :: c :: d :: e :: r, h => simp at h

theorem msg_noNul {s x : Nat} (hx : x < 199) : 0 ∉ syntaxMsg s x := by
  unfold syntaxMsg
  have h : ∀ y ∈ expected s, 0 ∉ symName y := fun y hy => (name_ok (expected_lt hy)).2.2.2
  generalize expected s = es at h
  have h0 := (name_ok hx).2.2.2
  cases es with
  | nil => simpa using h0
  | cons e es =>
    simp only [List.mem_append, not_or]
    refine ⟨⟨by decide, h0⟩, ⟨by decide, h e (by simp)⟩, ?_⟩
    intro hm
    rw [List.mem_flatMap] at hm
    obtain ⟨y, h1, h2⟩ := hm
    rcases List.mem_append.1 h2 with h2 | h2
    · revert h2; decide
    · exact h y (by simp [h1]) h2

/-- The arguments and the size before the formats. -/
theorem args_ok {s x : Nat} (hs : s < 656) (hx : x < 199) :
    yyargs s (symName x) (symName x).length = some (some (symName x :: (expected s).map symName, (symName x).length + lens (expected s))) := by
  obtain ⟨n, hn⟩ := at_lt (l := yypact) (i := (s : Int)) (by omega) (by rw [pact_len]; omega)
  have hx' := (name_ok hx).2.2.1
  unfold yyargs
  simp only [Option.bind_eq_bind, hn, Option.bind_some]
  by_cases h : n = YYPACT_NINF
  · rw [if_pos h]
    have : expected s = [] := by
      unfold expected candidates
      rw [hn]; simp [h]
    rw [this]; simp [lens]
  · rw [if_neg h]
    have hlow := pact_bound hn h
    have hup : n ≤ 856 := by
      have hm : n ∈ yypact := by
        unfold at? at hn
        rw [if_pos (by omega)] at hn
        exact List.mem_of_getElem? hn
      have := List.all_eq_true.1 (show (yypact.all fun n => decide (n ≤ 856)) = true by decide +kernel) n hm
      simpa using this
    have e1 : (YYNTOKENS : Int) = 199 := rfl
    have e2 : (YYLAST : Int) = 856 := rfl
    obtain ⟨b, hb⟩ : ∃ b : Nat, (b : Int) = if n < 0 then -n else 0 := ⟨(if n < 0 then -n else 0).toNat, by split <;> omega⟩
    obtain ⟨e, he⟩ : ∃ e : Nat, (e : Int) = if YYLAST - n + 1 < YYNTOKENS then YYLAST - n + 1 else YYNTOKENS :=
      ⟨(if YYLAST - n + 1 < YYNTOKENS then YYLAST - n + 1 else YYNTOKENS).toNat, by split <;> omega⟩
    have hbe : b ≤ e := by split at hb <;> split at he <;> omega
    have he9 : e ≤ 199 := by split at he <;> omega
    have hc := candidates_loop hn h hb he hbe
    rw [← hb, ← he, show ((e : Int) - (b : Int)).toNat = e - b from by omega, Int.toNat_natCast,
      argLoop_ok n (symName x).length (e - b) b [symName x] (symName x).length (by simp) (by simp) (by omega)
        (fun j g1 g2 => ⟨by split at hb <;> omega, by split at he <;> omega⟩) (by unfold sizeMax; omega), ← hc]
    unfold expected
    by_cases hl : (candidates s).length ≤ 4
    · rw [if_pos (by simp; omega), if_pos hl]; rfl
    · rw [if_neg (by simp; omega), if_neg hl]; simp [lens]

/-- `yysyntax_error`: either the message is written, or more memory is asked for, which suffices. -/
theorem syntaxError_ok {s x : Nat} (hs : s < 656) (hx : x < 199) (alloc : Nat) (msg : Bytes) (hm : msg.length = alloc) :
    (∃ msg', yysyntaxError s x alloc msg = some (0, alloc, msg') ∧ cstr msg' 0 = some (syntaxMsg s x)) ∨
    (∃ alloc', yysyntaxError s x alloc msg = some (1, alloc', msg) ∧ alloc < (symName x).length + lens (expected s) + (yyformat ((symName x :: (expected s).map symName).length)).length ∧ ∀ msg2 : Bytes, msg2.length = alloc' →
      ∃ msg', yysyntaxError s x alloc' msg2 = some (0, alloc', msg') ∧ cstr msg' 0 = some (syntaxMsg s x)) := by
  obtain ⟨n1, n2, n3, n4⟩ := name_ok hx
  have a2 := args_ok hs hx
  have hl := lens_le (expected s) (fun y hy => expected_lt hy)
  have hel := expected_len s
  have hsz := msg_size s x
  have hfl : (yyformat ((symName x :: (expected s).map symName).length)).length ≤ 100 := by
    have : ∀ k, (yyformat k).length ≤ 100 := by
      intro k
      match k with
      | 0 | 1 | 2 | 3 | 4 => decide
      | k + 5 => show (b!"syntax error, unexpected %s, expecting %s or %s or %s or %s").length ≤ 100; decide
    exact this _
  have hargs : ∀ a ∈ symName x :: (expected s).map symName, tnamerr a = some a := by
    intro a ha
    rcases List.mem_cons.1 ha with e | ha
    · rw [e]; exact n2
    · obtain ⟨y, hy, rfl⟩ := List.mem_map.1 ha
      exact (name_ok (expected_lt hy)).2.1
  have main : ∀ (alloc : Nat) (msg : Bytes), yysyntaxError s x alloc msg =
      if alloc < (symName x).length + lens (expected s) + (yyformat ((symName x :: (expected s).map symName).length)).length then
        some (1, 2 * ((symName x).length + lens (expected s) + (yyformat ((symName x :: (expected s).map symName).length)).length), msg)
      else (fmtLoop (yyformat ((symName x :: (expected s).map symName).length)) (symName x :: (expected s).map symName) msg 0).bind fun m => some (0, alloc, m) := by
    intro alloc msg
    unfold yysyntaxError
    rw [if_pos (by omega), Int.toNat_natCast]
    simp only [Option.bind_eq_bind, n1, n2, a2, Option.bind_some]
    rw [if_neg (by simp; omega), if_neg (by unfold sizeMax; omega)]
    by_cases h : alloc < (symName x).length + lens (expected s) + (yyformat ((symName x :: (expected s).map symName).length)).length
    · rw [if_pos h, if_pos h, if_pos (by unfold sizeMax; omega)]
    · rw [if_neg h, if_neg h]
  have fits : ∀ (alloc : Nat) (msg : Bytes), msg.length = alloc → ¬ alloc < (symName x).length + lens (expected s) + (yyformat ((symName x :: (expected s).map symName).length)).length →
      ∃ msg', yysyntaxError s x alloc msg = some (0, alloc, msg') ∧ cstr msg' 0 = some (syntaxMsg s x) := by
    intro alloc msg hm h
    obtain ⟨m, g1, g2, g3⟩ := fmtLoop_ok _ _ msg 0 hargs (by rw [fill_msg]; omega)
    rw [fill_msg, List.take_zero, List.nil_append] at g3
    refine ⟨m, ?_, cstr_prefix (msg_noNul hx) g3⟩
    rw [main, if_neg h, g1]; rfl
  by_cases h : alloc < (symName x).length + lens (expected s) + (yyformat ((symName x :: (expected s).map symName).length)).length
  · refine .inr ⟨_, by rw [main, if_pos h], h, ?_⟩
    intro msg2 hm2
    exact fits _ msg2 hm2 (by omega)
  · exact .inl (fits alloc msg hm h)

/-- The report of a syntax error. -/
theorem report_ok (A : Alloc) {J : Junk} (hJ : ∀ n, (J.heap n).length = n) {x : Nat} (hx : x < 199) {stk : Stk} {y : YY} (ha : Arr stk y) (hm : y.msg.length = y.msgAlloc)
    (ho : y.own = false) (hb : y.blocks = 0) : ∃ msg a o b, report A J x y = some ({ y with nerrs := y.nerrs + 1, msg := msg, msgAlloc := a, own := o, blocks := b, st := y.st.yyerror A (syntaxMsg (topState stk) x) y.st.yylloc.loc.fl y.st.yylloc.loc.fc }, false) ∧ b = if o then 1 else 0 := by
  have hs := topState_lt' ha.lt
  have ht := ha.top
  rcases syntaxError_ok hs hx y.msgAlloc y.msg hm with ⟨m, h1, h2⟩ | ⟨a, h1, h2, h3⟩
  · refine ⟨m, y.msgAlloc, false, 0, ?_, rfl⟩
    unfold report
    simp only [Option.bind_eq_bind, ht, h1, h2, Option.bind_some, if_true]
    rw [← ho, ← hb]
  · obtain ⟨m, h4, h5⟩ := h3 (J.heap a) (hJ a)
    refine ⟨m, a, true, 1, ?_, rfl⟩
    unfold report
    simp only [Option.bind_eq_bind, ht, h1, Option.bind_some]
    rw [if_neg (by decide), if_pos trivial, ho, hb]
    simp [h4, h5]

end Verif.Sem

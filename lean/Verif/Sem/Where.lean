import Verif.Sem.Pos
import Verif.LR.Sound
/-! Where the parts of a text are. Proof-internal. -/
set_option linter.unusedVariables false
namespace Verif.Sem
open Verif.LR Verif.Lex

/-- The text before the place a tree starts at, `pre` being the tokens before it. -/
def locStart (pre : List Tok) : Tree → Bytes
  | .leaf t => (((pre ++ [t]).flatMap Tok.pieces).dropLast).flatten
  | .node _ [] => scanned pre
  | .node _ (c :: _) => locStart pre c

/-- The location of a tree. -/
def treeLoc (pre : List Tok) (t : Tree) : Loc :=
  ⟨lineOf (locStart pre t), colOf (locStart pre t), lineOf (scanned (pre ++ t.yield)), colOf (scanned (pre ++ t.yield))⟩

/-- The locations on the stack. -/
def LocOK : List (Nat × SV) → TStk → Prop
  | [], [] => True
  | x :: cs, y :: ts => x.2.2 = treeLoc (stkYield ts) y.2 ∧ LocOK cs ts
  | _, _ => False

theorem LocOK.drop : ∀ (n : Nat) {cs : List (Nat × SV)} {ts : TStk}, LocOK cs ts → LocOK (cs.drop n) (ts.drop n)
  | 0, _, _, h => h
  | n + 1, [], [], _ => trivial
  | n + 1, x :: cs, y :: ts, h => LocOK.drop n h.2
  | n + 1, [], _ :: _, h => h.elim
  | n + 1, _ :: _, [], h => h.elim

theorem LocOK.len : ∀ {cs : List (Nat × SV)} {ts : TStk}, LocOK cs ts → cs.length = ts.length
  | [], [], _ => rfl
  | x :: cs, y :: ts, h => by simp [LocOK.len h.2]
  | [], _ :: _, h => h.elim
  | _ :: _, [], h => h.elim

theorem stkYield_split (n : Nat) (stk : TStk) : stkYield stk = stkYield (stk.drop n) ++ yieldL (popTrees n stk) := by
  by_cases h : n ≤ stk.length
  · unfold stkYield
    rw [← yieldL_append]
    congr 1
    unfold popTrees
    rw [List.take_length, List.take_length, ← List.reverse_append, ← List.map_append, List.take_append_drop]
  · have h1 : stk.drop n = [] := List.drop_eq_nil_of_le (by omega)
    rw [h1]
    unfold stkYield popTrees
    rw [List.take_length, List.take_of_length_le (by omega : stk.length ≤ n)]
    simp [yieldL]

/-- The location of a reduction. -/
theorem LocOK.red {cs : List (Nat × SV)} {ts : TStk} (h : LocOK cs ts) {n : Nat} (hn : n ≤ ts.length) (r : Nat) :
    redLoc cs n = treeLoc (stkYield (ts.drop n)) (.node r (popTrees n ts)) := by
  have hy : stkYield (ts.drop n) ++ (Tree.node r (popTrees n ts)).yield = stkYield ts := by rw [Tree.yield, ← stkYield_split]
  unfold treeLoc
  rw [hy]
  have hl := h.len
  cases n with
  | zero =>
    simp only [popTrees, List.take_zero, List.map_nil, List.reverse_nil, locStart, List.drop_zero]
    unfold redLoc ruleLoc
    simp only [List.take_zero, List.map_nil, List.reverse_nil, List.head?_nil, List.drop_zero]
    cases cs with
    | nil =>
      cases ts with
      | nil => rfl
      | cons _ _ => cases hl
    | cons x cs =>
      cases ts with
      | nil => cases hl
      | cons y ts =>
        simp only [List.head?_cons, Option.map_some]
        have hx : x.2.2 = _ := h.1
        rw [hx]
        obtain ⟨s, t⟩ := y
        simp only [treeLoc, stkYield_cons]
  | succ n =>
    cases cs with
    | nil => rw [List.length_nil] at hl; omega
    | cons x cs =>
      cases ts with
      | nil => cases hl
      | cons y ts =>
        have hd := LocOK.drop n h
        have hdl := hd.len
        obtain ⟨a, as, ha⟩ : ∃ a as, (x :: cs).drop n = a :: as := by
          cases hh : (x :: cs).drop n with
          | nil =>
            have := congrArg List.length hh
            rw [List.length_drop, List.length_nil] at this
            simp only [List.length_cons] at *
            omega
          | cons a as => exact ⟨a, as, rfl⟩
        obtain ⟨b, bs, hb⟩ : ∃ b bs, (y :: ts).drop n = b :: bs := by
          cases hh : (y :: ts).drop n with
          | nil =>
            have := congrArg List.length hh
            rw [List.length_drop, List.length_nil] at this
            simp only [List.length_cons] at *
            omega
          | cons a as => exact ⟨a, as, rfl⟩
        rw [ha, hb] at hd
        have hbs : (y :: ts).drop (n + 1) = bs := by
          have := congrArg (List.drop 1) hb
          rwa [List.drop_drop, List.drop_one, List.tail_cons] at this
        have take_last : ∀ {α : Type} (l : List α) (u : α) (us : List α), l.drop n = u :: us → l.take (n + 1) = l.take n ++ [u] := by
          intro α l u us hu
          rw [List.take_add_one]
          congr 1
          have : l[n]? = some u := by
            have := congrArg (fun z => z[0]?) hu
            simpa using this
          rw [this]; rfl
        have hp : popTrees (n + 1) (y :: ts) = b.2 :: popTrees n (y :: ts) := by
          unfold popTrees
          rw [take_last _ _ _ hb]
          simp
        rw [hp, hbs]
        simp only [locStart]
        unfold redLoc ruleLoc
        have e1 : (((x :: cs).take (n + 1)).map Prod.snd).reverse.head? = some a.2 := by
          rw [take_last _ _ _ ha]; simp
        have e2 : (((x :: cs).take (n + 1)).map Prod.snd).reverse.getLast? = some x.2 := by
          rw [List.getLast?_reverse]; simp
        rw [e1, e2]
        simp only []
        have hx : x.2.2 = _ := h.1
        have hd1 : a.2.2 = _ := hd.1
        rw [hx, hd1]
        obtain ⟨s, t⟩ := y
        simp only [treeLoc, stkYield_cons]

section
variable {A : Alloc} {toks : List Tok} {r0 : Res}

theorem stkYield_node (s r n : Nat) (stk : TStk) : stkYield ((s, .node r (popTrees n stk)) :: stk.drop n) = stkYield stk := by
  rw [stkYield_cons, Tree.yield, ← stkYield_split]

theorem yld_rc {c : Cfg St SV} {stk : TStk} (h : RC (sem A) toks (startSt r0) c stk) : stkYield stk ++ (match c.la with | some x => [x.1] | none => []) ++ c.toks = toks := by
  refine RC.ind (I := fun c stk => stkYield stk ++ (match c.la with | some x => [x.1] | none => []) ++ c.toks = toks) ?_ ?_ ?_ ?_ h
  · rfl
  · intro c stk t ts ih h1 h2
    rw [h1, h2] at ih
    simpa using ih
  · intro c stk t v s ih h1 h2 h3
    rw [h1] at ih
    simp only [stkYield_cons, Tree.yield]
    simpa using ih
  · intro c stk r s v st ih hat hred
    rw [stkYield_node]; exact ih

/-- The locations in a configuration. -/
theorem loc_rc {c : Cfg St SV} {stk : TStk} (h : RC (sem A) toks (startSt r0) c stk) : LocOK c.stk stk := by
  induction h with
  | init => trivial
  | rd c stk t ts h h1 h2 ih => exact ih
  | shift c stk t v s h h1 h2 h3 ih =>
    refine ⟨?_, ih⟩
    obtain ⟨rd, hp⟩ := pos_rc h
    obtain ⟨e1, e2⟩ := hp.la t v h1
    have hy := yld_rc h
    rw [h1] at hy
    have hrd : rd = stkYield stk ++ [t] := by
      have := hp.all
      rw [← hy] at this
      exact List.append_cancel_right this
    show v.2 = treeLoc (stkYield stk) (.leaf t)
    rw [e1]
    have hy := hp.y
    rw [hrd] at hy
    unfold treeLoc
    simp only [locStart, Tree.yield]
    rw [← hy.fl, ← hy.fc]
    have := hy.e
    unfold scanned
    rw [← this.ll, ← this.lc]
  | reduce c stk r s v st h hat hred ih =>
    refine ⟨?_, ih.drop _⟩
    have hl := hat.len
    rw [ih.len] at hl
    show v.2 = treeLoc _ _
    rw [← ih.red hl r]
    have := reduce_ok hat.r1 hat.r2 hred
    exact this.1

end

/-! ## Where a tree starts -/

/-- Symbols that start with a token. -/
def startsTok : List Nat := [N.import_export_options, N.csv_option, N.file_type, N.param_expr, N.literal, N.string_literal, N.bool_literal, N.num_literal, N.null_literal, N.date_literal, N.interval_literal, N.int_literal]
theorem startsTok_rules : ((List.range 358).all fun r => Nat.ble r 1 || !startsTok.contains (lhs r) || match rhs r with
    | [] => false
    | X :: _ => Nat.blt X 199 || startsTok.contains X) = true := by decide +kernel

theorem locStart_tok (pre : List Tok) : ∀ (t : Tree), t.WF → (t.sym < 199 ∨ t.sym ∈ startsTok) → ∃ u us, t.yield = u :: us ∧ locStart pre t = (((pre ++ [u]).flatMap Tok.pieces).dropLast).flatten
  | .leaf t, _, _ => ⟨t, [], rfl, rfl⟩
  | .node r cs, hw, hs => by
    have hr2 : r < 358 := by have := hw.2.1; rwa [rules_len] at this
    have hr := List.all_eq_true.1 startsTok_rules r (List.mem_range.2 hr2)
    have hs : lhs r ∈ startsTok := by
      rcases hs with h | h
      · have := sym_node hw; omega
      · exact h
    rw [List.contains_iff_mem.2 hs] at hr
    have h1 : Nat.ble r 1 = false := by
      cases hb : Nat.ble r 1 with
      | false => rfl
      | true => have := Nat.le_of_ble_eq_true hb; have := hw.1; omega
    rw [h1] at hr
    simp only [Bool.not_true, Bool.or_false, Bool.false_or] at hr
    have hsy := hw.2.2.1
    cases cs with
    | nil =>
      rw [← hsy] at hr
      cases hr
    | cons c cs =>
      rw [← hsy] at hr
      simp only [List.map_cons, Bool.or_eq_true] at hr
      obtain ⟨u, us, e1, e2⟩ := locStart_tok pre c hw.2.2.2.1 (by
        rcases hr with h | h
        · exact .inl (by simpa [Nat.blt_eq] using h)
        · exact .inr (List.contains_iff_mem.1 h))
      exact ⟨u, us ++ yieldL cs, by rw [Tree.yield, yieldL, e1]; rfl, by rw [locStart]; exact e2⟩

end Verif.Sem

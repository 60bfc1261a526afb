import Verif.Sem.Outcome
import Verif.LR.Plan
/-! The messages of rejected texts. Proof-internal, except for `semMsgs` and `SemMsg`. -/
namespace Verif.Sem
open Verif.LR Verif.Lex

/-- The fixed messages of the semantic actions (the `yyerror` calls of src/parser/bison_parser.y). -/
def semMsgs : List Bytes := [
  b!"File type is unknown.",
  b!"File type must only be provided once.",
  b!"CSV options (DELIMITER, NULL, QUOTE) are only allowed for CSV files.",
  b!"Encoding type must only be provided once.",
  b!"CSV options (DELIMITER, NULL, QUOTE) cannot be provided more than once.",
  b!"Unknown CSV option.",
  b!"Expected NULLS FIRST or NULLS LAST ordering.",
  b!"Parameter ? is not a valid literal.",
  b!"Found incorrect date format. Expected format: YYYY-MM-DD",
  b!"Found incorrect interval format. Expected format: INTEGER",
  b!"Found incorrect interval format. Expected format: INTEGER INTERVAL_QUALIIFIER",
  b!"Interval qualifier is unknown."]

/-- The messages of the semantic actions. -/
def SemMsg (m : Bytes) : Prop := m ∈ semMsgs ∨ ∃ column, m = b!"Conflicting nullability constraints for " ++ column

def chkM : Prog → Bool
  | .finish => true
  | .ret => true
  | .fail => true
  | .set _ _ k => chkM k
  | .push _ _ k => chkM k
  | .insert _ _ k => chkM k
  | .del _ k => chkM k
  | .free _ k => chkM k
  | .regParam _ k => chkM k
  | .split _ _ k => chkM k
  | .zeroLen k => chkM k
  | .err m k => semMsgs.contains m && chkM k
  | .errName m _ k => m == b!"Conflicting nullability constraints for " && chkM k
  | .ite _ t e => chkM t && chkM e

theorem chkM_sound {loc : Loc} {k : Prog} {r : Res} {y : YYLoc} {b : Bool} {r' : Res} {y' : YYLoc} (h : RR loc k r y b r' y') : chkM k = true →
    (∀ a m, r.errMsg = some (a, m) → SemMsg m) → ∀ a m, r'.errMsg = some (a, m) → SemMsg m := by
  induction h with
  | ret => exact fun _ h => h
  | fail => exact fun _ h => h
  | iteT _ _ ih => intro h; simp only [chkM, Bool.and_eq_true] at h; exact ih h.1
  | iteF _ _ ih => intro h; simp only [chkM, Bool.and_eq_true] at h; exact ih h.2
  | err _ ih =>
    intro h _
    simp only [chkM, Bool.and_eq_true] at h
    refine ih h.2 ?_
    intro a m hm
    cases hm
    exact .inl (by simpa using h.1)
  | errName _ ih =>
    intro h _
    simp only [chkM, Bool.and_eq_true, beq_iff_eq] at h
    refine ih h.2 ?_
    intro a m hm
    cases hm
    exact .inr ⟨_, by rw [h.1]⟩
  | _ => assumption

theorem rules_chkM : ((List.range 356).all fun i => chkM (actions.getD i .fail)) = true := by decide +kernel
theorem rule_chkM {r : Nat} (h1 : 2 ≤ r) (h2 : r < 358) : chkM (act r) = true := List.all_eq_true.1 rules_chkM (r - 2) (by simp; omega)

theorem msg_rc {A : Alloc} {toks : List Tok} {r0 : Res} (h0 : r0.errMsg = none) {c : Cfg St SV} {stk : TStk} (h : RC (sem A) toks (startSt r0) c stk) :
    ∀ a m, c.st.res.errMsg = some (a, m) → SemMsg m := by
  refine RC.ind (I := fun c stk => ∀ a m, c.st.res.errMsg = some (a, m) → SemMsg m) ?_ ?_ ?_ ?_ h
  · intro a m h
    have h : r0.errMsg = some (a, m) := h
    rw [h0] at h; cases h
  · exact fun c stk t ts ih _ _ => ih
  · exact fun c stk t v s ih _ _ _ => ih
  · intro c stk r s v st ih hat hred
    obtain ⟨e1, e2⟩ := reduce_ok hat.r1 hat.r2 hred
    show ∀ a m, st.res.errMsg = some (a, m) → SemMsg m
    by_cases h2 : r = 2
    · subst h2
      rw [(run2_pos e2).1]; exact ih
    · exact chkM_sound (act_ok_rr hat.r1 hat.r2 h2 e2) (rule_chkM hat.r1 hat.r2) ih

/-- How a rejected text was rejected. -/
theorem ends_msg {A : Alloc} {toks ts : List Tok} {e : Tok} {junk : List Tok} {r0 : Res} (hin : Input toks ts e junk) (h0 : r0.errMsg = none) {ret : Int} {st : St}
    (h : Ends A toks ts e junk r0 (some (ret, st))) {m : Bytes} (hm : st.res.errMsg.map Prod.snd = some m) :
    -- the stack is exhausted
    (m = b!"memory exhausted" ∧ (∀ t, Derives ts t → 200 ≤ t.need + 1) ∧ ∃ n c stk, Reach (sem A) 200 toks (startSt r0) n c stk ∧ 200 ≤ stk.length + 1) ∨
    -- a semantic action failed
    (SemMsg m) ∨
    -- a syntax error
    (∃ pre t rest s, toks = pre ++ t :: rest ∧ pre <+: ts ∧ m = syntaxMsg s (tsym t) ∧ s < 656 ∧ (∃ n stk, TSteps 200 n [] toks stk (t :: rest) ∧ topState stk = s) ∧ actionOn s (tsym t) = some .error ∧
      (∀ ts' tr, Derives ts' tr → ¬ (pre ++ [t]).map tsym <+: ts'.map tsym ++ [0]) ∧
      (∃ T : Tree, Derives T.yield T ∧ pre <+: T.yield) ∧
      st.res.errLine = lineOf (((pre ++ [t]).flatMap Tok.pieces).dropLast.flatten) ∧ st.res.errCol = colOf (((pre ++ [t]).flatMap Tok.pieces).dropLast.flatten)) := by
  have hE := ends_err h0 h
  generalize hx : some (ret, st) = x at h
  cases h with
  | ub => cases hx
  | accept n c stk s t f l hR h1 _ h3 _ _ =>
    cases hx
    have := (hE.1 rfl).1
    rw [this] at hm; cases hm
  | exhausted n c stk f l hR hl _ =>
    cases hx
    cases hm
    exact .inl ⟨rfl, fun t hd => (hd.stop hin hR (.exhausted hl)).2 ⟨_, rfl⟩, _, _, _, hR, hl⟩
  | syntaxError n c stk t rem v f l hR hr h69 ha hla htk _ =>
    cases hx
    cases hm
    right; right
    have hi := hR.inv
    obtain ⟨rd, hp⟩ := pos_rc hR.rc_prep
    have hyl := hi.yld
    rw [hr] at hyl
    have hst := hi.steps
    rw [hr] at hst
    have hrd : rd = stkYield stk ++ [t] := by
      have h1 := hp.all
      rw [htk] at h1
      rw [← hyl] at h1
      have : rd ++ rem = (stkYield stk ++ [t]) ++ rem := by rw [h1]; simp
      exact List.append_cancel_right this
    refine ⟨stkYield stk, t, rem, topState stk, hyl.symm, ?_, rfl, topState_lt hi.ok, ⟨_, stk, hst, rfl⟩, ha, ?_, ?_, ?_, ?_⟩
    · rcases hR.rest hin with ⟨_, suf, _, h2⟩ | ⟨h, _⟩
      · exact ⟨suf, h2.symm⟩
      · exact absurd h h69
    · intro ts' tr hd
      exact first_error hst hyl h69 ha hd
    · exact viable_prec hst h69
    · rw [← hrd]; exact hp.y.fl
    · rw [← hrd]; exact hp.y.fc
  | semError n c stk r st f l hR hat hr2 hrun _ =>
    cases hx
    right; left
    simp only [Option.map_eq_some_iff] at hm
    obtain ⟨⟨a, m'⟩, hm1, hm2⟩ := hm
    cases hm2
    exact chkM_sound (act_err_rr hat.r1 hat.r2 hr2 hrun) (rule_chkM hat.r1 hat.r2) (msg_rc h0 hR.rc_prep) a m' hm1

/-- The kinds of messages exclude each other. -/
theorem kinds {m : Bytes} (h : SemMsg m) : m ≠ b!"memory exhausted" ∧ ¬ b!"syntax error, " <+: m := by
  rcases h with h | ⟨c, rfl⟩
  · have : ∀ m ∈ semMsgs, m ≠ b!"memory exhausted" ∧ (b!"syntax error, ").isPrefixOf m = false := by decide +kernel
    obtain ⟨h1, h2⟩ := this m h
    refine ⟨h1, fun h => ?_⟩
    rw [List.isPrefixOf_iff_prefix.2 h] at h2; cases h2
  · constructor
    · intro h; cases h
    · rintro ⟨w, h⟩; cases h

theorem syntaxMsg_prefix (s x : Nat) : b!"syntax error, " <+: syntaxMsg s x := by
  unfold syntaxMsg
  rw [List.append_assoc]
  have : b!"syntax error, unexpected " = b!"syntax error, " ++ b!"unexpected " := by decide
  rw [this, List.append_assoc]
  exact List.prefix_append _ _

/-! ## The expected tokens -/

theorem mem_candidates {s x : Nat} : x ∈ candidates s ↔ ∃ n, at? yypact s = some n ∧ n ≠ YYPACT_NINF ∧ x < 199 ∧ x ≠ 1 ∧ 0 ≤ n + x ∧ n + x ≤ YYLAST ∧
    at? yycheck (n + x) = some (x : Int) ∧ at? yytable (n + x) ≠ some YYTABLE_NINF := by
  unfold candidates
  cases h : at? yypact s with
  | none => simp
  | some n =>
    simp only []
    by_cases hn : n = YYPACT_NINF
    · rw [if_pos hn]; simp [hn]
    · rw [if_neg hn]
      have : YYNTOKENS.toNat = 199 := rfl
      simp only [this, List.mem_filter, List.mem_range, Bool.and_eq_true, decide_eq_true_eq, Bool.not_eq_true', decide_eq_false_iff_not, Option.some.injEq]
      constructor
      · rintro ⟨h1, ⟨⟨⟨h2, h3⟩, h4⟩, h5⟩, h6⟩
        exact ⟨n, rfl, hn, h1, h5, h2, h3, h4, h6⟩
      · rintro ⟨m, rfl, _, h1, h5, h2, h3, h4, h6⟩
        exact ⟨h1, ⟨⟨⟨h2, h3⟩, h4⟩, h5⟩, h6⟩

/-- The automaton has an action for every token that `yysyntax_error` finds. -/
theorem cand_acceptable {s x : Nat} (h : x ∈ candidates s) : x < 199 ∧ x ≠ 1 ∧ actionOn s x ≠ some .error := by
  obtain ⟨n, h1, h2, h3, h4, h5, h6, h7, h8⟩ := mem_candidates.1 h
  refine ⟨h3, h4, ?_⟩
  unfold actionOn noToken
  rw [h1]
  have : (n == YYPACT_NINF) = false := by simpa using h2
  simp only [Option.map_some, this]
  unfold tokenAct
  rw [h1]
  simp only []
  rw [if_neg (by omega), h7]
  simp only [ne_eq, not_true_eq_false, if_false]
  cases ht : at? yytable (n + x) with
  | none => simp
  | some v =>
    rw [ht] at h8
    simp only [ne_eq, Option.some.injEq] at h8 ⊢
    rw [if_neg h8]
    split <;> simp

/-- In a state whose default action is to report an error, they are all the tokens that are not rejected at once. -/
theorem cand_all {s x : Nat} (hd : defaultAct s = some .error) (hx : x < 199) (h1 : x ≠ 1) (h : actionOn s x ≠ some .error) (hs : s < 656) : x ∈ candidates s := by
  unfold actionOn noToken at h
  have hs' : ∃ n, at? yypact s = some n := by
    rw [at?_nat, yypact_get s hs]; exact ⟨_, rfl⟩
  obtain ⟨n, hn⟩ := hs'
  rw [hn] at h
  simp only [Option.map_some] at h
  by_cases hp : n = YYPACT_NINF
  · have : (n == YYPACT_NINF) = true := by simpa using hp
    rw [this] at h
    exact absurd hd h
  · have : (n == YYPACT_NINF) = false := by simpa using hp
    rw [this] at h
    simp only [] at h
    unfold tokenAct at h
    rw [hn] at h
    simp only [] at h
    by_cases hr : n + x < 0 ∨ YYLAST < n + x
    · rw [if_pos hr] at h; exact absurd hd h
    · rw [if_neg hr] at h
      have hl : (n + x).toNat < yycheck.length := by
        have : yycheck.length = 857 := by decide +kernel
        have : YYLAST = 856 := rfl
        omega
      have hc : ∃ c, at? yycheck (n + x) = some c := by
        unfold at?
        rw [if_pos (by omega)]
        exact ⟨_, List.getElem?_eq_getElem hl⟩
      obtain ⟨c, hc⟩ := hc
      rw [hc] at h
      simp only [ne_eq] at h
      by_cases hcx : c = x
      · subst hcx
        refine mem_candidates.2 ⟨n, hn, hp, hx, h1, by omega, by omega, hc, fun ht => h ?_⟩
        rw [if_neg (by simp), ht]
        rfl
      · rw [if_pos hcx] at h; exact absurd hd h

end Verif.Sem

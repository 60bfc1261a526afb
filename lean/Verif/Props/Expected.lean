import Verif.Props.ResultEx
import Verif.LR.Expect
/-!
# C35: the tokens a syntax error message lists can really follow
-/
namespace Verif.Props
open Verif.Lex Verif.LR Verif.Sem Verif.Api

/-- Some sentence of the grammar (with the precedences; followed by the end of input) begins with these tokens and then the terminal `x`. -/
def CanFollow (pre : List Tok) (x : Nat) : Prop := ∃ (ts : List Tok) (t : Tree), Derives ts t ∧ pre.map tsym ++ [x] <+: ts.map tsym ++ [Verif.LR.T.eof]

theorem assoc_many : ([421, 428, 429, 430, 431, 432, 433, 434, 435, 517].all fun s => decide (4 < (candidates s).length)) = true := by decide +kernel

theorem assoc_none {s : Nat} (h : assocSt s = true) : expected s = [] := by
  have hm : s ∈ [421, 428, 429, 430, 431, 432, 433, 434, 435, 517] := by
    unfold assocSt at h
    rw [bor_iff, bor_iff, band_iff, beq_iff, beq_iff, ble_iff, ble_iff] at h
    simp only [List.mem_cons, List.not_mem_nil, or_false]
    omega
  have := of_decide_eq_true (List.all_eq_true.1 assoc_many s hm)
  unfold expected
  rw [if_neg (by omega)]

theorem nodup_le : ∀ {a b : List Nat}, a.Nodup → (∀ x ∈ a, x ∈ b) → a.length ≤ b.length
  | [], _, _, _ => by simp
  | x :: a, b, h, hs => by
    have hx := hs x (by simp)
    rw [List.nodup_cons] at h
    have := nodup_le (a := a) (b := b.erase x) h.2 (fun y hy => (List.mem_erase_of_ne (by rintro rfl; exact h.1 hy)).2 (hs y (by simp [hy])))
    rw [List.length_erase_of_mem hx] at this
    have := List.length_pos_of_mem hx
    simp only [List.length_cons]
    omega

theorem act69 (a : Nat) : actF 69 a = 3 := by
  have e1 : yypactT.get 69 = 471 := by decide +kernel
  have e2 : dfltF 69 = 3 := by decide +kernel
  unfold actF
  rw [e1]
  exact e2

theorem expected_follow {n : Nat} {toks : List Tok} {stk : TStk} {t : Tok} {rest : List Tok} (h : TSteps 200 n [] toks stk (t :: rest)) (h69 : topState stk ≠ 69)
    (herr : actionOn (topState stk) (tsym t) = some .error) (hs : topState stk < 656) : ∀ x ∈ expected (topState stk), CanFollow (stkYield stk) x := by
  cases hA : assocSt (topState stk) with
  | true => rw [assoc_none hA]; nofun
  | false =>
    obtain ⟨h1, h2, h3⟩ := expect_follow h h69 herr hA
    intro x hx
    have hd : defaultAct (topState stk) = some .error := by
      obtain ⟨a, g1, g2⟩ := dflt_spec hs
      rw [h1] at g2
      cases a with
      | error => exact g1
      | reduce r => cases g2
      | shift r => cases g2
    unfold expected at hx
    split at hx
    · rename_i h4
      obtain ⟨c1, c2, c3⟩ := cand_acceptable hx
      obtain ⟨T, t1, t2⟩ := h3 (by
        rw [cnt_len]
        refine Nat.le_trans (nodup_le (List.nodup_range.filter _) ?_) h4
        intro y hy
        obtain ⟨y1, y2⟩ := List.mem_filter.1 hy
        rw [bnot_iff] at y2
        have y1 := List.mem_range.1 y1
        refine cand_all hd y1 ?_ ?_ hs
        · rintro rfl; rw [h2] at y2; cases y2
        · intro h0
          rw [(act_iff hs _).1 h0] at y2; cases y2) x c1 c3
      exact ⟨_, T, t1, t2⟩
    · cases hx

section
variable {A : Alloc} (hA : Distinct A) {fpr : Int} (hf : FprOK fpr) (buf : Bytes) (sql : List UInt8) (l c : Int)
include hA hf

/-- C35. The message of a syntax error is `syntax error, unexpected t`, where `t` is the first offending token: it cannot follow the tokens `pre` before it;
and, maybe, `, expecting e1 or … or e4`: up to four different terminals, each of which can follow `pre`. -/
theorem C35_expected_can_follow (o : ParseOut) (h : parse A fpr buf sql (newResult l c) = some o) (m : Bytes) (hm : message o.res = some m)
    (hsy : b!"syntax error, " <+: m) :
    ∃ pre t rest es, tokensOf fpr sql = pre ++ t :: rest ∧ pre <+: sentence (tokensOf fpr sql) ∧ m = syntaxErrorText (tsym t) es ∧ es.length ≤ 4 ∧ es.Nodup ∧
      ¬ CanFollow pre (tsym t) ∧ ∀ x ∈ es, CanFollow pre x := by
  obtain ⟨ret, st, hp, rfl⟩ := parse_some h
  obtain ⟨e, junk, hin, hE⟩ := parse_ends (sql := sql) (ok := Occurs fpr sql) hf (hA.ok (l := l) (c := c)) newResult_ok
  rw [hp] at hE
  have hnd : ∀ s, (candidates s).Nodup := by
    intro s
    unfold candidates
    split
    · exact List.nodup_nil
    · split
      · exact List.nodup_nil
      · exact List.nodup_range.filter _
  rcases ends_msg hin rfl hE hm with ⟨rfl, _⟩ | h | ⟨pre, u, rest, s, q1, q0, q2, hs, ⟨n, stk, q3, rfl⟩, q4, q5, _⟩
  · exfalso
    rcases hsy with ⟨w, hw⟩; cases hw
  · exact absurd hsy (kinds h).2
  · have h69 : topState stk ≠ 69 := by
      intro h0
      have := (act_iff (by omega) _).1 q4
      rw [h0, act69] at this
      cases this
    have hy : stkYield stk = pre := by
      have := (run_ok q3 (by simp) trivial (fun _ => ⟨[], rfl, by decide, trivial, fun _ => ⟨0, fun _ _ => trivial⟩⟩)).2.1
      rw [q1] at this
      exact List.append_cancel_right this
    refine ⟨pre, u, rest, expected (topState stk), q1, q0, by rw [q2, syntaxMsg_text], ?_, ?_, ?_, ?_⟩
    · unfold expected; split
      · assumption
      · simp
    · unfold expected; split
      · exact hnd _
      · simp
    · rintro ⟨ts, T, hT, hpre⟩
      exact q5 ts T hT (by simpa using hpre)
    · rw [← hy]; exact expected_follow q3 h69 q4 hs

end

/-- Concretely: `DELETE FROM WHERE x` is rejected at `WHERE`; an identifier could follow. -/
example : (run0 b!"DELETE FROM WHERE x").map view = some ⟨false, 0, some b!"syntax error, unexpected WHERE, expecting IDENTIFIER", 0, 12⟩ :=
  parse_of_eval (f := 60) (q := Option.map view) (by decide +kernel)
/-- Not all that could follow is listed: `INSERT INTO t 5` is rejected, the message lists `SELECT` and `VALUES`; but `(` can follow, too. -/
theorem C35_not_all : (run0 b!"INSERT INTO t 5").map view = some ⟨false, 0, some b!"syntax error, unexpected INTVAL, expecting SELECT or VALUES", 0, 14⟩ ∧
    (run0 b!"INSERT INTO t (a) VALUES (5)").map view = some ⟨true, 1, none, 0, 0⟩ :=
  ⟨parse_of_eval (f := 60) (q := Option.map view) (by decide +kernel), parse_of_eval (f := 120) (q := Option.map view) (by decide +kernel)⟩

end Verif.Props

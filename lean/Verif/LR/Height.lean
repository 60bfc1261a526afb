import Verif.Sem.Graft
import Verif.LR.NeedBound
import Verif.LR.Stos
/-!
# The height of the stack is bounded by the number of tokens since the last semicolon. Proof-internal.

`phiT` is a table with six bits per state, computed by a script: a potential of the states with `phi s + 1 ≤ phi t + 2 * ww X` for every edge from `s` to `t` labelled `X`.
That inequality is all that is used about it, and is checked below.
-/
namespace Verif.LR
open Verif.Lex Verif.Sem

def phiT : Nat := 0x4934945145144d55555555d64945145966165964906574d55555d335161459451448e3945165985944104924924924956555575555554cd3554d54d54cf3cf5555575575514513d14514534d34d34cf51451271a59859659859659659659440c38e3944965965165965944104105965945986163924924124944924924965145165144944175555555534d55534575db4575d75d75d74513cf4514513d54d24575d75d75d75d75d75d75d75d75d75d75d75d75d55d75d14514575d75575d95d34514d34d35555555555555555555555555554d54525965965945145124923906986186166984924964104924924942925134d26186186186186186186186186186186186186166186186126186186186163924925145144945925d25556575555534d34d13d96596534d35553d34d145544f4d35545136594534cf3d55513d15555d96586596596596596595d55555d34d54536184d861861861861861861861861659251651239239a6165d400e59659450e5144165104145955166565985945146575d96596595145145995196596595196595575555515555595d55cb5555d75d554f5515d55555555575d755555655659261261661859861858c31659659659641859659659659659659659758b65534f5533533554515515d75575d75d75d75d75d75d75d75d75d75d6
def phi (s : Nat) : Nat := Nat.mod (Nat.shiftRight phiT (Nat.mul 6 s)) 64
/-- The least number of tokens derived from a symbol; 0 for the symbols above statements. -/
def ww (X : Nat) : Nat := cond (topSyms.contains X) 0 (mF X)

theorem phiRows : allN 656 (fun s => bor (Nat.beq s 69) ((stF s).rows.all fun c _ => bor (bnot (isShift c))
    (Nat.ble (Nat.succ (phi s)) (Nat.add (phi (shTgt c)) (Nat.mul 2 (ww (Nat.sub (yystosT.get (shTgt c)) 1000))))))) = true := by decide +kernel
theorem phiPred : allN 656 (fun s => bor (Nat.beq s 69) ((stF s).pred.all fun A _ =>
    Nat.ble (Nat.succ (phi s)) (Nat.add (phi (gotoF s A)) (Nat.mul 2 (ww A))))) = true := by decide +kernel
theorem phiMax : allN 656 (fun s => Nat.ble (phi s) 28) = true := by decide +kernel
theorem phi_zero : phi 0 = 22 := by decide +kernel

theorem phi_edge {s t X : Nat} (hs : s < 656) (h69 : s ≠ 69) (h : Edge s t X) : phi s + 1 ≤ phi t + 2 * ww X := by
  have hst := stos_edge hs h69 h
  have ht := (edge_spec hs h69 h).1
  rcases h with ⟨hX, h⟩ | ⟨h, rfl⟩
  · obtain ⟨h1, _⟩ := row_of_act hs h69 hX h
    have h2 := allN_spec phiRows s hs
    rw [bor_iff, beq_iff] at h2
    have h2 := RL.all_spec (h2.resolve_left h69) (encAct (.shift t)) (by intro h0; rw [h0] at h1; simp at h1)
    rw [bor_iff, bnot_iff] at h2
    have hsh : isShift (encAct (.shift t)) = true := by
      rw [← (act_iff hs _).1 h]; exact (isShift_iff hs).2 ⟨t, h⟩
    have h2 := h2.resolve_left (by rw [hsh]; simp)
    rw [shTgt_enc, ble_iff] at h2
    have hg := yystos_get t ht
    rw [List.getD_eq_getElem?_getD, hg] at hst
    simp only [Option.getD_some] at hst
    have e : Nat.sub (yystosT.get t) 1000 = X := by show yystosT.get t - 1000 = X; omega
    rw [e] at h2
    exact h2
  · have h2 := allN_spec phiPred s hs
    rw [bor_iff, beq_iff] at h2
    have h2 := PL.all_spec (h2.resolve_left h69) X h
    rw [ble_iff] at h2
    exact h2

/-- Where a semicolon may follow, the statement list is on top. -/
theorem semiShift : allN 656 (fun s => bor (bnot (isShift (actF s 196))) (Nat.beq (yystosT.get s) 1201)) = true := by decide +kernel
theorem semiPred : allN 656 (fun s => bor (Nat.beq ((stF s).pred.find 333) 0) (Nat.beq (yystosT.get s) 1201)) = true := by decide +kernel

/-- A stack on whose top is a statement list contains nothing else. -/
theorem only_list {lim : Nat} {stk : TStk} {f : List Tok} (h : StkOK lim stk f) (hs : yystosT.get (topState stk) = 1201) :
    ∃ s t, stk = [(s, t)] ∧ Edge 0 s N.statement_list := by
  cases stk with
  | nil =>
    have : yystosT.get 0 ≠ 1201 := by decide +kernel
    exact absurd hs this
  | cons p stk =>
    obtain ⟨s, t⟩ := p
    simp only [StkOK] at h
    obtain ⟨h1, h2, h3, h4, _⟩ := h
    have hst := stos_edge h3 h4 h2
    have hg := yystos_get s (edge_spec h3 h4 h2).1
    rw [List.getD_eq_getElem?_getD, hg] at hst
    simp only [Option.getD_some] at hst
    simp only [topState] at hs
    have e : t.sym = N.statement_list := by rw [← hst, hs]; rfl
    rw [e] at h2
    have h0 : topState stk = 0 := by
      rcases h2 with ⟨h, _⟩ | ⟨h, _⟩
      · exact absurd h (by decide)
      · exact pm_list h3 h
    have := topState_zero h1 h0
    subst this
    exact ⟨s, t, rfl, h2⟩

/-- The height of the stack, and the tokens since the last semicolon. -/
theorem height {lim : Nat} : ∀ (stk : TStk) (f : List Tok), StkOK lim stk f →
    ∃ a b, stkYield stk = a ++ b ∧ (∀ m ∈ b, tsym m ≠ T.SEMI) ∧ stk.length + 22 ≤ phi (topState stk) + 2 * b.length
  | [], _, _ => ⟨[], [], rfl, by simp, by simp [topState, phi_zero]⟩
  | (s, t) :: stk, f, h => by
    have h' := h
    simp only [StkOK] at h
    obtain ⟨h1, h2, h3, h4, h5, _⟩ := h
    have he := phi_edge h3 h4 h2
    simp only [topState, List.length_cons]
    rw [stkYield_cons]
    cases ht : topSyms.contains t.sym with
    | false =>
      obtain ⟨a, b, e, hb, hl⟩ := height stk _ h1
      refine ⟨a, b ++ t.yield, by rw [e, List.append_assoc], ?_, ?_⟩
      · intro m hm
        rcases List.mem_append.1 hm with hm | hm
        · exact hb m hm
        · exact no_semi t h5 ht m hm
      · have hw : ww t.sym = mF t.sym := by unfold ww; rw [ht]; rfl
        have := (Tree.need_le t h5).1
        rw [List.length_append]
        omega
    | true =>
      have hw : ww t.sym = 0 := by unfold ww; rw [ht]; rfl
      refine ⟨stkYield stk ++ t.yield, [], by simp, by simp, ?_⟩
      simp only [topSyms, List.contains_eq_mem, List.mem_cons, List.not_mem_nil, or_false, decide_eq_true_eq] at ht
      have hnil : ∀ X, t.sym = X → (PM (topState stk) X → topState stk = 0) → 199 ≤ X → stk.length + 1 + 22 ≤ phi s + 2 * ([] : List Tok).length := by
        intro X hX h0 hge
        have : topState stk = 0 := by
          rw [hX] at h2
          rcases h2 with ⟨h, _⟩ | ⟨h, _⟩
          · omega
          · exact h0 h
        have e := topState_zero h1 this
        rw [this, phi_zero] at he
        subst e
        simp only [List.length_nil]
        omega
      have hone : yystosT.get (topState stk) = 1201 → stk.length + 1 + 22 ≤ phi s + 2 * ([] : List Tok).length := by
        intro hg
        obtain ⟨s', t', rfl, hE⟩ := only_list h1 hg
        have h0 := phi_edge (by decide) (by decide) hE
        have e : ww N.statement_list = 0 := by decide +kernel
        rw [e, phi_zero] at h0
        simp only [topState] at he
        simp only [List.length_cons, List.length_nil]
        omega
      rcases ht with ht | ht | ht | ht
      · exact hnil _ ht (pm_input h3) (by decide)
      · exact hnil _ ht (pm_list h3) (by decide)
      · rw [ht] at h2
        rcases h2 with ⟨h, _⟩ | ⟨h, _⟩
        · exact absurd h (by decide)
        · have := allN_spec semiPred _ h3
          rw [bor_iff, beq_iff, beq_iff] at this
          exact hone (this.resolve_left h)
      · rw [ht] at h2
        rcases h2 with ⟨_, h⟩ | ⟨h, _⟩
        · have := allN_spec semiShift _ h3
          rw [bor_iff, bnot_iff, beq_iff] at this
          refine hone (this.resolve_left ?_)
          rw [(isShift_iff h3).2 ⟨_, h⟩]; simp
        · exact absurd (pm_range h3 h4 h).1 (by decide)

end Verif.LR

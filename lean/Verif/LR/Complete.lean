import Verif.LR.Run
/-! Completeness: the automaton follows any derivation that respects the precedences. Proof-internal. -/
namespace Verif.LR
open Verif.Lex

/-- After state `s`, every continuation on the left edge of `t` can be shifted. -/
def HShift (s : Nat) (t : Tree) : Prop := ∀ X a, 199 ≤ X → a < 199 → t.Leads X a → Shifts (gotoF s X) a

mutual
theorem leads_pm {s : Nat} (hs : s < 656) (h69 : s ≠ 69) {X a : Nat} : ∀ (t : Tree), t.WF → PM s t.sym → t.Leads X a →
    ∃ m, 1 ≤ m ∧ m < 358 ∧ PM s (lhs m) ∧ (rhs m).take 2 = [X, a]
  | .leaf _, _, _, h => by simp [Tree.Leads] at h
  | .node r cs, hw, hp, h => by
    simp only [Tree.WF, rules_len] at hw
    simp only [Tree.Leads] at h
    rcases h with h | h
    · exact ⟨r, by omega, hw.2.1, hp, h⟩
    · exact leadsL_pm hs h69 r cs (by omega) hw.2.1 hw.2.2.1 hw.2.2.2 hp h
theorem leadsL_pm {s : Nat} (hs : s < 656) (h69 : s ≠ 69) {X a : Nat} (r : Nat) : ∀ (cs : List Tree), 1 ≤ r → r < 358 → cs.map Tree.sym = rhs r → WFL cs →
    PM s (lhs r) → LeadsL X a cs → ∃ m, 1 ≤ m ∧ m < 358 ∧ PM s (lhs m) ∧ (rhs m).take 2 = [X, a]
  | [], _, _, _, _, _, h => by simp [LeadsL] at h
  | c :: cs, h1, h2, he, hw, hp, h => by
    simp only [LeadsL] at h
    have hc : 199 ≤ c.sym := by
      cases c with
      | leaf t => simp [Tree.Leads] at h
      | node r' cs' => exact sym_node hw.1
    exact leads_pm hs h69 c hw.1 (pm_closure hs h69 h1 h2 hp (l := cs.map Tree.sym) (by rw [← he]; rfl) hc) h
end

theorem km_of_item {s r k L : Nat} (h : Item s r k L) (hk : k ≠ 0) : KM s r k := by
  obtain ⟨h0, h1 | ⟨h1, _⟩, _⟩ := h
  · unfold KM; rw [h1]; exact h0
  · exact absurd h1 hk

theorem item_69 {r k L : Nat} (h : Item 69 r k L) (hr : r ≠ 1) : k = 0 ∧ PM 69 (lhs r) := by
  obtain ⟨h0, h1 | ⟨h1, h2⟩, _⟩ := h
  · exact absurd (km69 (by unfold KM; rw [h1]; exact h0)).1 hr
  · exact ⟨h1, by unfold PM; rw [h2]; exact h0⟩

theorem pred69 (A : Nat) : (stF 69).pred.find A = 0 := by
  have h : (stF 69).pred.all (fun _ _ => false) = true := by decide +kernel
  apply Classical.byContradiction
  intro hn
  exact Bool.noConfusion (PL.all_spec h A hn)

theorem item_ne69 {s r k L : Nat} (h : Item s r k L) (hr : r ≠ 1) : s ≠ 69 := by
  intro e; subst e
  exact (item_69 h hr).2 (pred69 _)

theorem pm_ne69 {s A : Nat} (h : PM s A) : s ≠ 69 := by
  intro e; subst e
  exact h (pred69 _)

mutual
theorem complete_tree (lim : Nat) : ∀ (t : Tree) (stk : TStk) (u : Tok) (rest : List Tok), t.WF → 199 ≤ t.sym →
    topState stk < 656 → ((stF (topState stk)).pred.find t.sym).testBit (tsym u) = true → t.PrecOK (tsym u) →
    HShift (topState stk) t → stk.length + t.need + 1 < lim →
    ∃ n, TSteps lim n stk (t.yield ++ u :: rest) ((gotoF (topState stk) t.sym, t) :: stk) (u :: rest)
  | .leaf t, stk, u, rest, _, h, _, _, _, _, _ => absurd (tsym_lt t) (by simp only [Tree.sym] at h; omega)
  | .node r cs, stk, u, rest, hw, hsym, hs, hp, hprec, hsh, hd => by
    simp only [Tree.WF, rules_len] at hw
    obtain ⟨hr1, hr2, hsy, hwl⟩ := hw
    simp only [Tree.PrecOK] at hprec
    obtain ⟨hfr, hlast, hpl⟩ := hprec
    have hpm : PM (topState stk) (lhs r) := by
      intro h0
      have : ((stF (topState stk)).pred.find (lhs r)).testBit (tsym u) = true := hp
      rw [h0] at this; simp at this
    have h69 : topState stk ≠ 69 := pm_ne69 hpm
    have hit := pm_item hs h69 (by omega) hr2 hpm
    simp only [Tree.need] at hd
    obtain ⟨n, stk', s', L', h1, h2, h3, h4, h5, h6, h7⟩ := complete_list lim r cs 0 stk stk.length u rest _ hwl hs hit (by omega)
      (by rw [List.drop_zero]; exact hsy.symm) hp hpl
      (fun _ X a hX ha hl => hsh X a hX ha (by simp only [Tree.Leads]; exact Or.inr hl))
      (fun _ X a ht hX ha => hsh X a hX ha (by simp only [Tree.Leads]; exact Or.inl ht))
      (fun h => by omega) hlast rfl (by omega)
    have hst69 : s' ≠ 69 := item_ne69 h3 (by omega)
    have hlen : stk'.length + 1 < lim := by
      have e : stk'.length = cs.length + stk.length := by
        have := congrArg List.length h4
        rw [List.length_drop] at this
        have h8 := congrArg List.length h5
        unfold popTrees at h8
        simp at h8
        omega
      rw [e]
      cases hcs : cs with
      | nil => simp; omega
      | cons c cs' =>
        have := needL_ge 0 cs (by rw [hcs]; simp)
        rw [hcs] at this hd
        simp only [List.length_cons] at this ⊢
        omega
    have hact : actionOn (topState stk') (tsym u) = some (.reduce r) := by
      rw [h2]
      refine item_red h7 hst69 h3 (by omega) ?_ (tsym_lt u) h6 hfr
      rw [← hsy]; simp
    refine ⟨n + 1, TSteps.trans h1 (TSteps.one ?_)⟩
    rw [tstep_act hlen (by rw [h2]; exact hst69), hact]
    simp only [tAct, tReduce]
    rw [ruleLen_eq (by omega) hr2, ruleLhs_eq (by omega) hr2]
    have hcl : (rhs r).length = cs.length := by rw [← hsy]; simp
    simp only [hcl]
    have hl2 : ¬ stk'.length < cs.length := by
      have := congrArg List.length h4
      rw [List.length_drop] at this
      have h8 := congrArg List.length h5
      unfold popTrees at h8
      simp at h8
      omega
    have hr := pm_range hs h69 hpm
    rw [if_neg hl2, h4, goto_spec hs hr.1 hr.2.1, h5]
    rfl
theorem complete_list (lim : Nat) (r : Nat) : ∀ (cs : List Tree) (k : Nat) (stk : TStk) (base : Nat) (u : Tok) (rest : List Tok) (L : Nat), WFL cs →
    topState stk < 656 → Item (topState stk) r k L → r ≠ 1 → (rhs r).drop k = cs.map Tree.sym → L.testBit (tsym u) = true → PrecOKL cs (tsym u) →
    (k = 0 → ∀ X a, 199 ≤ X → a < 199 → LeadsL X a cs → Shifts (gotoF (topState stk) X) a) →
    (k = 0 → ∀ X a, (rhs r).take 2 = [X, a] → 199 ≤ X → a < 199 → Shifts (gotoF (topState stk) X) a) →
    (k = 1 → ∀ X a, (rhs r).take 2 = [X, a] → 199 ≤ X → a < 199 → Shifts (topState stk) a) →
    lastOK r cs → stk.length = base + k → base + needL k cs + 1 < lim →
    ∃ n stk' s' L', TSteps lim n stk (yieldL cs ++ u :: rest) stk' (u :: rest) ∧ topState stk' = s' ∧ Item s' r (k + cs.length) L' ∧
      stk'.drop cs.length = stk ∧ popTrees cs.length stk' = cs ∧ L'.testBit (tsym u) = true ∧ s' < 656
  | [], k, stk, base, u, rest, L, _, hs, hit, _, _, hL, _, _, _, _, _, _, _ =>
    ⟨0, stk, topState stk, L, .refl _ _, rfl, hit, rfl, rfl, hL, hs⟩
  | c :: cs, k, stk, base, u, rest, L, hw, hs, hit, hr1, hd, hL, hp, H0, H0', H1, hlast, hbase, hlim => by
    have h69 := item_ne69 hit hr1
    simp only [List.map_cons] at hd
    simp only [needL] at hlim
    simp only [PrecOKL] at hp
    have hk' : k < (rhs r).length := by
      rcases Nat.lt_or_ge k (rhs r).length with h | h
      · exact h
      · rw [List.drop_eq_nil_of_le h] at hd; cases hd
    have hd' : (rhs r).drop (k + 1) = cs.map Tree.sym := by
      rw [← List.drop_drop, hd]; rfl
    have hget : (rhs r)[k]? = some c.sym := by
      rw [List.drop_eq_getElem_cons hk'] at hd
      rw [List.getElem?_eq_getElem hk']
      injection hd with e _
      rw [e]
    -- one child
    have child : ∃ n s1 L1, TSteps lim n stk (c.yield ++ (yieldL cs ++ u :: rest)) ((s1, c) :: stk) (yieldL cs ++ u :: rest) ∧
        s1 < 656 ∧ Item s1 r (k + 1) L1 ∧ L1.testBit (tsym u) = true ∧ (199 ≤ c.sym → s1 = gotoF (topState stk) c.sym) := by
      have hc : 1 ≤ c.need := by cases c <;> simp only [Tree.need] <;> omega
      cases hcc : c with
      | leaf t =>
        subst hcc
        simp only [Tree.sym] at hd hget
        have hsh : ∃ s1 L1, actionOn (topState stk) (tsym t) = some (.shift s1) ∧ s1 < 656 ∧ Item s1 r (k + 1) L1 ∧ L1.testBit (tsym u) = true := by
          rcases item_shift hs h69 hit hd (tsym_lt t) with ⟨s1, L1, h1, h2, h3, h4⟩ | ⟨hns, hk, Y, l, hY, hY2⟩
          · exact ⟨s1, L1, h1, h2, h3, h4 _ hL⟩
          · exfalso
            subst hk
            have ht2 : (rhs r).take 2 = [Y, tsym t] := by
              rw [hY] at hget ⊢
              cases l with
              | nil => simp at hget
              | cons z l => simp at hget ⊢; exact hget
            exact hns (H1 rfl Y (tsym t) ht2 hY2 (tsym_lt t))
        obtain ⟨s1, L1, h1, h2, h3, h4⟩ := hsh
        refine ⟨1, s1, L1, TSteps.one ?_, h2, h3, h4, fun h => absurd (tsym_lt t) (by simp only [Tree.sym] at h; omega)⟩
        simp only [Tree.need] at hlim
        simp only [Tree.yield, List.cons_append, List.nil_append]
        rw [tstep_act (by omega) h69, h1]
        rfl
      | node r' cs' =>
        have hX : 199 ≤ c.sym := by rw [hcc]; exact sym_node (by rw [← hcc]; exact hw.1)
        obtain ⟨g1, g2, ⟨L1, g3, g4⟩, g5⟩ := item_goto hs h69 hit hd hX
        have hne : ∃ v rest', yieldL cs ++ u :: rest = v :: rest' ∧ tsym v = nextSym (yieldL cs) (tsym u) := by
          cases hy : yieldL cs with
          | nil => exact ⟨u, rest, rfl, rfl⟩
          | cons v w => exact ⟨v, w ++ u :: rest, rfl, rfl⟩
        obtain ⟨v, rest', hv, hv2⟩ := hne
        have hHS : HShift (topState stk) c := by
          intro X a hX2 ha hl
          by_cases hk0 : k = 0
          · exact H0 hk0 X a hX2 ha (by simp only [LeadsL]; exact hl)
          · apply Classical.byContradiction
            intro hns
            obtain ⟨m, hm1, hm2, hm3, hm4⟩ := leads_pm hs h69 c hw.1 g1 hl
            obtain ⟨f1, f2, f3⟩ := fscomp hs h69 hm1 hm2 hm3 hm4 hX2 ha hns r k (km_of_item hit hk0)
            have hcs : cs = [] := by
              have := congrArg List.length hd'
              simp at this
              have : cs.length = 0 := by omega
              exact List.length_eq_zero_iff.1 this
            have hl2 : (rhs r).getLast? = some X := by
              rw [List.getLast?_eq_getElem?]
              rw [← f1]; exact f2
            have := hlast c X a (by rw [hcs]; rfl) hl2 ha hl
            rw [f3] at this
            exact Bool.noConfusion this
        have := complete_tree lim c stk v rest' hw.1 hX hs
          (by rw [hv2]; exact g5 _ (first_next hw.2 hL)) (by rw [hv2]; exact hp.1) hHS (by omega)
        obtain ⟨n, hn⟩ := this
        rw [← hcc]
        exact ⟨n, gotoF (topState stk) c.sym, L1, by rw [hv]; exact hn, g2, g3, g4 _ hL, fun _ => rfl⟩
    obtain ⟨n, s1, L1, hst, hs1, hi1, hL1, hgo⟩ := child
    have hr2 : lastOK r cs := by
      intro c' X a hc' hX ha hl
      refine hlast c' X a ?_ hX ha hl
      cases cs with
      | nil => simp at hc'
      | cons d ds => rw [List.getLast?_cons_cons]; exact hc'
    have := complete_list lim r cs (k + 1) ((s1, c) :: stk) base u rest L1 hw.2 hs1 hi1 hr1 hd' hL1 hp.2
      (fun h => by omega) (fun h => by omega)
      (fun h X a ht hX ha => by
        have hk0 : k = 0 := by omega
        have hXc : c.sym = X := by
          subst hk0
          match hh : rhs r with
          | [] => rw [hh] at ht; simp at ht
          | [x] => rw [hh] at ht; simp at ht
          | x :: y :: l =>
            rw [hh] at ht hget
            simp at ht hget
            rw [← hget, ht.1]
        show Shifts s1 a
        rw [hgo (by omega), hXc]
        exact H0' hk0 X a ht hX ha)
      hr2 (by simp only [List.length_cons]; omega) (by omega)
    obtain ⟨m, stk', s', L', k1, k2, k3, k4, k5, k6, k7⟩ := this
    refine ⟨n + m, stk', s', L', ?_, k2, ?_, ?_, ?_, k6, k7⟩
    · simp only [yieldL, List.append_assoc]
      exact TSteps.trans hst k1
    · rw [List.length_cons]
      rw [show k + (cs.length + 1) = k + 1 + cs.length by omega]; exact k3
    · rw [List.length_cons, ← List.drop_drop, k4]; rfl
    · have hlen : cs.length < stk'.length := by
        have := congrArg List.length k4
        rw [List.length_drop] at this
        simp only [List.length_cons] at this
        omega
      unfold popTrees at k5 ⊢
      rw [List.length_cons, List.take_succ, List.map_append, List.reverse_append, k5]
      have : stk'[cs.length]? = some (s1, c) := by
        rw [← List.head?_drop, k4]; rfl
      rw [this]; rfl
termination_by structural cs => cs
end

end Verif.LR

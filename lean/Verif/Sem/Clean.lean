import Verif.Sem.Finish
/-! Clean-up: bison's destructors, and the destruction of the result. Proof-internal. -/
namespace Verif.Sem
open Verif.LR Verif.Lex

theorem destr_ok : ((List.range 335).all fun s => trA true 16 (destructors.getD s .keep) (symTy s)) = true := by decide +kernel

section
variable {ok : Bytes → Prop} {good : List V → Prop}

theorem destruct_ok {s : Nat} (hs : s < 335) {v : V} (hv : Sat ok good (symTy s) v) (st : St) :
    ∃ f l, destruct s v st = some (st.log f l) ∧ ∀ a, f.count a + l.count a = ac a v := by
  have h := List.all_eq_true.1 destr_ok s (by simp [hs])
  obtain ⟨f, l, e, _⟩ := trA_ok h hv
  refine ⟨f, l, ?_, fun a => treat_ac a _ _ _ _ e⟩
  unfold destruct
  rw [e]

theorem stk_stos {lim : Nat} : ∀ {stk : TStk} {rem : List Tok}, StkOK lim stk rem → ∀ x ∈ stk, (yystos.getD x.1 0).toNat = x.2.sym
  | [], _, _, x, hx => by simp at hx
  | (s, t) :: stk, rem, h, x, hx => by
    simp only [StkOK] at h
    rcases List.mem_cons.1 hx with rfl | hx
    · exact stos_edge h.2.2.1 h.2.2.2.1 h.2.1
    · exact stk_stos h.1 x hx

theorem log_log (st : St) (f l f' l' : List Nat) : (st.log f l).log f' l' = st.log (f ++ f') (l ++ l') := by simp [St.log]
theorem log_nil (st : St) : st.log [] [] = st := by simp [St.log]

theorem popAll_ok : ∀ (cstk : List (Nat × SV)) (ss : List Nat), cstk.map (fun x => (yystos.getD x.1 0).toNat) = ss → (∀ s ∈ ss, s < 335) →
    SatL ok good (ss.map symTy) (vals cstk) → ∀ st, ∃ f l, popAll cstk st = some (st.log f l) ∧ ∀ a, f.count a + l.count a = acL a (vals cstk)
  | [], ss, _, _, _, st => ⟨[], [], by rw [log_nil]; rfl, fun a => by simp [vals, acL_nil]⟩
  | (s, v) :: cstk, ss, he, hlt, hs, st => by
    rw [List.map_cons] at he
    subst he
    cases hs with
    | cons h1 h2 =>
      obtain ⟨f, l, e, hc⟩ := destruct_ok (hlt _ List.mem_cons_self) h1 st
      obtain ⟨f', l', e', hc'⟩ := popAll_ok cstk _ rfl (fun x hx => hlt x (List.mem_cons_of_mem _ hx)) h2 (st.log f l)
      refine ⟨f ++ f', l ++ l', ?_, ?_⟩
      · simp only [popAll]
        rw [e]
        simp only
        rw [e', log_log]
      · intro a
        rw [List.count_append, List.count_append]
        show _ = acL a (v.1 :: vals cstk)
        rw [acL_cons, ← hc a, ← hc' a]; omega

theorem sym_lt {lim : Nat} : ∀ {stk : TStk} {rem : List Tok}, StkOK lim stk rem → ∀ x ∈ stk, x.2.sym < 335
  | [], _, _, x, hx => by simp at hx
  | (s, t) :: stk, rem, h, x, hx => by
    simp only [StkOK] at h
    rcases List.mem_cons.1 hx with rfl | hx
    · exact tree_sym_lt h.2.2.2.2.1
    · exact sym_lt h.1 x hx
where
  tree_sym_lt {t : Tree} (h : t.WF) : t.sym < 335 := by
    cases t with
    | leaf u => have := tsym_lt u; simp only [Tree.sym]; omega
    | node r cs =>
      simp only [Tree.WF, rules_len] at h
      have hc : allN 358 (fun r => Nat.ble (lhsF r) 334) = true := by decide +kernel
      have := allN_spec hc r h.2.1
      rw [ble_iff, ← lhs_eq h.2.1] at this
      simp only [Tree.sym]; omega

/-- The whole stack can be destroyed. -/
theorem popAll_reach {c : Cfg St SV} {stk : TStk} {lim : Nat} {rem : List Tok} (hok : StkOK lim stk rem) (hsim : c.stk.map Prod.fst = stk.map Prod.fst) (ht : SatL ok good ((syms stk).map symTy) (vals c.stk)) (st : St) :
    ∃ f l, popAll c.stk st = some (st.log f l) ∧ ∀ a, f.count a + l.count a = acL a (vals c.stk) := by
  refine popAll_ok c.stk (syms stk) ?_ ?_ ht st
  · have h1 : c.stk.map (fun x => (yystos.getD x.1 0).toNat) = (c.stk.map Prod.fst).map (fun s => (yystos.getD s 0).toNat) := by simp [Function.comp_def]
    rw [h1, hsim, List.map_map]
    exact List.map_congr_left (fun x hx => stk_stos hok x hx)
  · intro s hs
    obtain ⟨x, hx, rfl⟩ := List.mem_map.1 hs
    exact sym_lt hok x hx

theorem dropLa_ok {la : Option (Tok × SV)} (h : ∀ t v, la = some (t, v) → Sat ok good (symTy (tsym t)) v.1) (st : St) :
    ∃ f l, dropLookahead la st = some (st.log f l) ∧ ∀ a, f.count a + l.count a = laAc a la := by
  cases la with
  | none => exact ⟨[], [], by rw [log_nil]; rfl, fun _ => rfl⟩
  | some x =>
    obtain ⟨t, v⟩ := x
    have := tsym_lt t
    exact destruct_ok (by omega) (h t v rfl) st

theorem popAll_drop {c : Cfg St SV} {stk : TStk} {lim : Nat} {rem : List Tok} (n : Nat) (hok : StkOK lim stk rem) (hsim : c.stk.map Prod.fst = stk.map Prod.fst) (ht : SatL ok good ((syms stk).map symTy) (vals c.stk)) (st : St) :
    ∃ f l, popAll (c.stk.drop n) st = some (st.log f l) ∧ ∀ a, f.count a + l.count a = acL a (vals (c.stk.drop n)) := by
  refine popAll_ok (ok := ok) (good := good) (c.stk.drop n) (syms (stk.drop n)) ?_ ?_ ?_ st
  · have h1 : (c.stk.drop n).map (fun x => (yystos.getD x.1 0).toNat) = ((c.stk.map Prod.fst).drop n).map (fun s => (yystos.getD s 0).toNat) := by simp [Function.comp_def, List.map_drop]
    rw [h1, hsim, ← List.map_drop, List.map_map]
    exact List.map_congr_left (fun x hx => stk_stos hok x (List.mem_of_mem_drop hx))
  · intro s hs
    obtain ⟨x, hx, rfl⟩ := List.mem_map.1 hs
    exact sym_lt hok x (List.mem_of_mem_drop hx)
  · have := ht.drop n
    simpa [syms, vals, List.map_drop] using this

/-- A statement can be deleted completely. -/
theorem del_stmt {v : V} (h : Sat ok good (.ref .stmt) v) : ∃ f, treat .del v = some (f, []) ∧ ∀ a, f.count a = ac a v := by
  obtain ⟨f, l, e, hl⟩ := del_ok (sizeOf v + 1) v .stmt (Nat.lt_succ_self _) (by decide) h
  have := hl rfl
  subst this
  refine ⟨f, e, fun a => ?_⟩
  have := treat_ac a _ _ _ _ e
  simpa using this

end
end Verif.Sem

import Verif.Lex.Quote
/-! A text followed by `-`. Proof-internal. -/
namespace Verif.Lex

theorem kw_no_dash : keywords.all (fun k => k.1.all (fun b => b != 45)) = true := by decide +kernel

theorem upperB_ne_dash {b : Nat} (h : upperB b = 45) : b = 45 := by
  unfold upperB at h
  split at h <;> omega

theorem dash_upper {w : Bytes} (h : 45 ∈ w) : 45 ∈ upper w := List.mem_map.2 ⟨45, h, rfl⟩

/-- What can match across a `-`. -/
theorem fires_dash {r : Nat} {p y : Bytes} (hp : p ≠ []) (hql : p.getLast? ≠ some 45) (h : Fires r (p ++ 45 :: y)) : ∃ u, p = 34 :: u ∧ ∀ c ∈ u, c ≠ 34 ∧ c ≠ 10 := by
  generalize hx : p ++ 45 :: y = x at h
  have hm : 45 ∈ x := by rw [← hx]; simp
  have hlen : 2 ≤ x.length := by
    rw [← hx]
    cases p with
    | nil => exact absurd rfl hp
    | cons => simp; omega
  cases h with
  | comment =>
    exfalso
    cases p with
    | nil => exact absurd rfl hp
    | cons b p =>
      cases p with
      | nil => simp at hx; rw [hx.1] at hql; exact hql rfl
      | cons c p => simp at hx
  | blank _ h => exact absurd (h 45 hm) (by decide)
  | kw h1 h2 =>
    exfalso
    have := List.all_eq_true.1 (List.all_eq_true.1 kw_no_dash _ (List.mem_of_getElem? h1)) 45 (by rw [← h2]; exact dash_upper hm)
    exact absurd this (by decide)
  | currentRow h1 _ h3 h4 =>
    exfalso
    simp only [List.mem_append] at hm
    rcases hm with (hm | hm) | hm
    · have := dash_upper hm; rw [h1] at this; exact absurd this (by decide)
    · exact absurd (h3 45 hm) (by decide)
    · have := dash_upper hm; rw [h4] at this; exact absurd this (by decide)
  | charVarying h1 _ h3 h4 =>
    exfalso
    simp only [List.mem_append] at hm
    rcases hm with (hm | hm) | hm
    · have := dash_upper hm; rw [h1] at this; exact absurd this (by decide)
    · exact absurd (h3 45 hm) (by decide)
    · have := dash_upper hm; rw [h4] at this; exact absurd this (by decide)
  | op h =>
    exfalso
    simp only [List.mem_cons, Prod.mk.injEq, List.not_mem_nil, or_false] at h
    rcases h with ⟨_, rfl⟩ | ⟨_, rfl⟩ | ⟨_, rfl⟩ | ⟨_, rfl⟩ | ⟨_, rfl⟩ | ⟨_, rfl⟩ | ⟨_, rfl⟩
    iterate 6 exact absurd hm (by decide)
    cases p with
    | nil => exact absurd rfl hp
    | cons b p =>
      injection hx with _ hx
      have : 45 ∈ p.append (45 :: y) := by show 45 ∈ p ++ 45 :: y; simp
      rw [hx] at this
      exact absurd this (by decide)
  | self _ => simp at hlen
  | float _ h2 h3 =>
    exfalso
    simp only [List.mem_append, List.mem_cons] at hm
    rcases hm with hm | hm | hm
    · exact absurd (h2 45 hm) (by decide)
    · exact absurd hm (by decide)
    · exact absurd (h3 45 hm) (by decide)
  | dotFloat h2 =>
    exfalso
    simp only [List.mem_cons] at hm
    rcases hm with hm | hm
    · exact absurd hm (by decide)
    · exact absurd (h2 45 hm) (by decide)
  | int _ h2 => exact absurd (h2 45 hm) (by decide)
  | @quoted u h1 h2 =>
    cases p with
    | nil => exact absurd rfl hp
    | cons b p =>
      simp only [List.cons_append, List.cons.injEq] at hx
      refine ⟨p, by rw [hx.1], ?_⟩
      -- p ++ 45 :: y = u ++ [34], so p is a prefix of u
      have hx2 := hx.2
      rcases List.append_eq_append_iff.1 hx2 with ⟨e, h3, h4⟩ | ⟨e, h3, h4⟩
      · intro c hc; exact h2 c (by rw [h3]; simp [hc])
      · cases e with
        | nil =>
          simp at h4
        | cons z e =>
          simp at h4
  | word h1 h2 =>
    exfalso
    simp only [List.mem_cons] at hm
    rcases hm with hm | hm
    · rw [← hm] at h1; exact absurd h1 (by decide)
    · exact absurd (h2 45 hm) (by decide)
  | squote => simp at hlen
  | any _ => simp at hlen

theorem hand_dash_initial {p v : Bytes} {r n : Nat} (hp : p ≠ []) (hql : p.getLast? ≠ some 45) (h : handInitial p = (r, n)) (h188 : r ≠ 188 ∨ 10 ∈ p) :
    handInitial (p ++ 45 :: v) = (r, n) := by
  have hb := best_hand (text := p) hp
  rw [h] at hb
  simp only [] at hb
  have hn := hb.le
  have hb' := best_hand (text := p ++ 45 :: v) (by simp)
  have key : Best (p ++ 45 :: v) r n := by
    refine ⟨by simp; omega, ?_, ?_⟩
    · rw [List.take_append_of_le_length hn]; exact hb.fires
    · intro r' p' q e hf
      rcases append_cases e with ⟨f, rfl, e2⟩ | ⟨f, hf0, rfl, e2⟩
      · cases f with
        | nil => exact hb.best r' (p ++ []) [] (by simp) hf
        | cons z f =>
          simp only [List.cons_append, List.cons.injEq] at e2
          obtain ⟨rfl, _⟩ := e2
          exfalso
          obtain ⟨u, rfl, hu⟩ := fires_dash hp hql hf
          have hfi := hb.fires
          rcases n with _ | n
          · simp at hfi; exact fires_ne hfi rfl
          simp only [List.take_succ_cons] at hfi
          rcases h188 with h188 | h188
          · rcases fires_head hfi with ⟨_, hh⟩ | ⟨_, hh⟩ | ⟨g1, g2, hh⟩ | ⟨g1, g2, hh⟩ | ⟨_, hh⟩ | ⟨_, hh⟩ | ⟨_, hh⟩ | ⟨_, hh⟩ | ⟨rfl, _⟩ | ⟨_, hh⟩ | ⟨_, hh⟩ | ⟨hh, _⟩
            · cases hh
            · cases hh
            · cases hh
            · rcases hh with hh | hh <;> cases hh
            · cases hh
            · cases hh
            · cases hh
            · cases hh
            · obtain ⟨u', e4, _, _⟩ := fires182 hfi
              simp only [List.cons_append, List.cons.injEq, true_and] at e4
              have : 34 ∈ u.take n := by rw [e4]; simp
              exact (hu 34 (List.mem_of_mem_take this)).1 rfl
            · cases hh
            · cases hh
            · exact h188 hh
          · rcases List.mem_cons.1 h188 with h | h
            · cases h
            · exact (hu 10 h).2 rfl
      · exact hb.best r' p' f rfl hf
  have := key.unique hb'
  cases hx : handInitial (p ++ 45 :: v)
  rw [hx] at this
  simp only [] at this
  rw [this.1, this.2]

theorem hand_dash {sc : SC} {p v : Bytes} {r n : Nat} (hp : p ≠ []) (h : handStep sc p = (r, n))
    (h188 : r ≠ 188) (hend : n = p.length → r ≠ 1 ∧ r ≠ 2 ∧ r ≠ 186) (hc3 : sc = .comment → 10 ∈ p) (hql : p.getLast? ≠ some 45) : handStep sc (p ++ 45 :: v) = (r, n) := by
  cases sc with
  | initial => exact hand_dash_initial hp hql h (.inl h188)
  | squote =>
    change handSquote _ = _ at h
    show handSquote _ = _
    obtain ⟨b, p1, rfl⟩ : ∃ b p1, p = b :: p1 := by
      cases p with
      | nil => exact absurd rfl hp
      | cons c w1 => exact ⟨c, w1, rfl⟩
    by_cases hb : b = 39
    · subst hb
      cases p1 with
      | nil => simpa [handSquote] using h
      | cons d p1 =>
        by_cases hd : d = 39
        · subst hd; simpa [handSquote] using h
        · simp [handSquote, hd] at h ⊢; exact h
    · have e : ∀ x, handSquote (b :: p1 ++ x) = (186, ((b :: p1 ++ x).takeWhile (fun c => c != 39)).length) := by
        intro x
        unfold handSquote
        split
        · rename_i heq; simp at heq; exact absurd heq.1 hb
        · rename_i heq; simp at heq; exact absurd heq.1 hb
        · rfl
      have e0 := e []
      rw [List.append_nil] at e0
      rw [e0] at h
      rw [e]
      by_cases hq : ∃ x ∈ b :: p1, (x != 39) = false
      · have := (takeWhile_append_of_neg (b := []) (b' := 45 :: v) hq).1
        rw [List.append_nil] at this
        rw [← this]; exact h
      · exfalso
        have hall : ∀ x ∈ b :: p1, (x != 39) = true := by
          intro x hx
          cases hxx : (x != 39) with
          | true => rfl
          | false => exact absurd ⟨x, hx, hxx⟩ hq
        have := takeWhile_le (p := fun x => x != 39) (b := []) hall
        rw [List.append_nil] at this
        simp only [Prod.mk.injEq] at h
        have hle : ((b :: p1).takeWhile (fun c => c != 39)).length ≤ (b :: p1).length := (List.takeWhile_sublist _).length_le
        exact (hend (by omega)).2.2 h.1.symm
  | comment =>
    change handComment _ = _ at h
    show handComment _ = _
    have hnl := hc3 rfl
    have hk := takeWhile_append_of_neg (q := fun c => c != 10) (a := p) (b := []) (b' := 45 :: v) ⟨10, hnl, by simp⟩
    rw [List.append_nil] at hk
    unfold handComment at h ⊢
    rw [← hk.1]
    generalize hI : handInitial p = rn at h
    obtain ⟨rI, nI⟩ := rn
    rw [hand_dash_initial hp hql hI (.inr hnl)]
    exact h

theorem getLast_drop_dash {w : Bytes} (h : w.getLast? ≠ some 45) (n : Nat) : (w.drop n).getLast? ≠ some 45 := by
  rw [List.getLast?_drop]
  split
  · simp
  · exact h

/-- A run to the end of the text, in the `INITIAL` state, is a run to the `-` if the text is followed by `-`. -/
theorem LRun.dash {fpr : Int} {v buf' : Bytes} {st st' : LexSt} {acc acc' : List Bytes} {T : List Tok}
    (h : LRun fpr st acc T st' acc') : Clean st.rest → st.rest.getLast? ≠ some 45 → st' = ⟨.initial, buf', []⟩ →
    LRun fpr ⟨st.sc, st.buf, st.rest ++ 45 :: v⟩ acc T ⟨.initial, buf', 45 :: v⟩ acc' := by
  have side : ∀ {acc' : List Bytes} {sc sc' : SC} {buf1 rest : Bytes} {acc0 acc1 : List Bytes} {r n : Nat} {T' T0 : List Tok} {buf0 : Bytes},
      Clean rest → rest.getLast? ≠ some 45 → rest ≠ [] → handStep sc rest = (r, n) →
      LRun fpr ⟨sc', buf1, rest.drop n⟩ acc1 T' ⟨.initial, buf', []⟩ acc' → LRun fpr ⟨sc, buf0, rest⟩ acc0 T0 ⟨.initial, buf', []⟩ acc' → r ≠ 188 →
      (r = 1 → sc' = .comment) → (r = 2 → sc' = .comment) → (r = 186 → sc' = .squote) →
      rest.take n = (rest ++ 45 :: v).take n ∧ (rest ++ 45 :: v).drop n = rest.drop n ++ 45 :: v ∧
      handStep sc (rest ++ 45 :: v) = (r, n) := by
    intro acc' sc sc' buf1 rest acc0 acc1 r n T' T0 buf0 hc hql hne hs hrun hrun0 h188 h1 h2 h3
    have hn : n ≤ rest.length := by
      have := (longest_hand sc hc hne).le
      rw [hs] at this
      exact this
    refine ⟨?_, ?_, ?_⟩
    · rw [List.take_append_of_le_length hn]
    · rw [List.drop_append_of_le_length hn]
    · refine hand_dash hne hs h188 ?_ ?_ hql
      · intro hnp
        have hfin := hrun.eq_of_length (clean_drop hc n) (by simp only [List.length_drop]; simp; omega)
        have hsc : sc' = .initial := congrArg LexSt.sc hfin.1
        refine ⟨fun hr => ?_, fun hr => ?_, fun hr => ?_⟩
        · rw [h1 hr] at hsc; cases hsc
        · rw [h2 hr] at hsc; cases hsc
        · rw [h3 hr] at hsc; cases hsc
      · intro hsc
        refine Classical.byContradiction fun h10 => ?_
        have := comment_stays hrun0 hc hsc h10
        cases this
  induction h with
  | refl =>
    intro hc hql e
    subst e
    exact .refl
  | @skip sc buf rest acc r n sc' buf1 T st' acc' h1 h2 h3 h4 ih =>
    intro hc hql e
    subst e
    have h188 : r ≠ 188 := by rintro rfl; simp [lexAction] at h3
    obtain ⟨k2, k3, k4⟩ := side hc hql h1 h2 h4 (LRun.skip (acc := acc) h1 h2 h3 h4) h188
      (by rintro rfl; simp [lexAction] at h3; exact h3.1.symm)
      (by rintro rfl; simp [lexAction] at h3; rw [← h3.1]; exact rule2_comment hc h1 h2)
      (by
        rintro rfl; simp [lexAction] at h3; rw [← h3.1]
        have := (longest_hand sc hc h1).isMatch
        rw [h2] at this
        obtain ⟨rule, g1, _, g3, _⟩ := this
        have e : lexRules[186 - 1]? = some rulesPost[17] := rfl
        simp only [] at g1
        rw [e] at g1
        cases g1
        cases sc
        · cases g3
        · rfl
        · cases g3)
    have := ih (clean_drop hc n) (getLast_drop_dash hql n) rfl
    rw [k2] at h3 this
    refine .skip (by simp) k4 h3 ?_
    rw [k3]
    exact this
  | @ret sc buf rest acc r n sc' buf1 c val T st' acc' h1 h2 h3 h5 h4 ih =>
    intro hc hql e
    subst e
    have h188 : r ≠ 188 := by rintro rfl; simp [lexAction] at h3; exact h5 h3.2.2.1.symm
    obtain ⟨k2, k3, k4⟩ := side hc hql h1 h2 h4 (LRun.ret (acc := acc) h1 h2 h3 h5 h4) h188
      (by rintro rfl; simp [lexAction] at h3) (by rintro rfl; simp [lexAction] at h3) (by rintro rfl; simp [lexAction] at h3)
    have := ih (clean_drop hc n) (getLast_drop_dash hql n) rfl
    rw [k2] at h3
    rw [k2]
    refine .ret (by simp) k4 h3 h5 ?_
    rw [k3]
    exact this

end Verif.Lex

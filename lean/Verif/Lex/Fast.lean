import Verif.Lex.Correct
/-! A faster evaluation of `scan` for concrete texts (proof-internal; used to evaluate examples in the kernel). -/
namespace Verif.Lex

noncomputable def fastLoop (text : Bytes) : Nat → Nat → Option (Nat × Nat) → Option (Nat × Nat) :=
  List.rec (motive := fun _ => Nat → Nat → Option (Nat × Nat) → Option (Nat × Nat))
    (fun s n last => bif Nat.beq (yy_acceptT.get s) 0 then last else some (yy_acceptT.get s, n))
    (fun b _ ih s n last =>
      (fun last' t => bif Nat.beq t 1367 then last' else ih t (Nat.add n 1) last')
        (bif Nat.beq (yy_acceptT.get s) 0 then last else some (yy_acceptT.get s, n))
        (fastNext 8 s (yy_ecT.get b))) text

/-- Equal to `scan` on clean texts, see `scan_eq_fast`. -/
noncomputable def scanF (sc : SC) (text : Bytes) : Option ScanRes :=
  match text with
  | [] => some .eof
  | _ :: _ => (fastLoop text (startState sc) 0 none).map fun p => .rule p.1 p.2

theorem fastNext_of {s b : Nat} (h : Live s) (h1 : 1 ≤ b) (h2 : b ≤ 255) :
    (fastNext 8 s (yy_ecT.get b) = 1367 ∨ Live (fastNext 8 s (yy_ecT.get b))) ∧
      stateMasks.get (fastNext 8 s (yy_ecT.get b)) = stepM (stateMasks.get s) (classPos.get (yy_ecT.get b)) := by
  obtain ⟨_, hc1, hc2⟩ := ec_ok h1 h2
  have hcell := (live_row h).2.2 _ hc1 hc2
  unfold cellOk at hcell
  generalize fastNext 8 s (yy_ecT.get b) = t at hcell ⊢
  obtain ⟨g1, hcell⟩ := and_spec hcell
  obtain ⟨g2, g3⟩ := and_spec hcell
  have g1 : 7 < t := Nat.le_of_ble_eq_true g1
  have g2 : t ≤ 1367 := Nat.le_of_ble_eq_true g2
  refine ⟨?_, Nat.eq_of_beq_eq_true g3⟩
  by_cases e : t = 1367
  · exact .inl e
  · exact .inr ⟨by omega, okState_gt g1⟩

theorem fastLoop_spec (sc : SC) (text : Bytes) : ∀ (rest : Bytes) (s n : Nat) (last : Option (Nat × Nat)),
    Clean rest → Live s → n + rest.length = text.length → text.drop n = rest →
    (∀ q, (stateMasks.get s).testBit q = true ↔ Reach sc (text.take n) q) →
    LastOk sc text n last →
    ∃ o, Longest sc text o ∧ fastLoop rest s n (last.map fun p => (yy_acceptT.get p.1, p.2)) = o.map fun p => (yy_acceptT.get p.1, p.2) := by
  have hbif : ∀ (s n : Nat) (last : Option (Nat × Nat)),
      (bif Nat.beq (yy_acceptT.get s) 0 then (last.map fun p => (yy_acceptT.get p.1, p.2)) else some (yy_acceptT.get s, n)) =
      (if yy_acceptT.get s ≠ 0 then some (s, n) else last).map (fun p : Nat × Nat => (yy_acceptT.get p.1, p.2)) := by
    intro s n last
    by_cases e : yy_acceptT.get s = 0
    · have : Nat.beq (yy_acceptT.get s) 0 = true := by rw [e]; rfl
      rw [this, if_neg (by simpa using e)]; rfl
    · have : Nat.beq (yy_acceptT.get s) 0 = false := by
        cases hq : Nat.beq (yy_acceptT.get s) 0 with
        | false => rfl
        | true => exact absurd (Nat.eq_of_beq_eq_true hq) e
      rw [this, if_pos e]; rfl
  intro rest
  induction rest with
  | nil =>
    intro s n last _ hs hn _ hm hl
    have hn : n = text.length := by simpa using hn
    subst hn
    exact ⟨_, lastOk_step hs (Nat.le_refl _) hm hl, hbif s _ last⟩
  | cons b rest ih =>
    intro s n last hc hs hn hd hm hl
    obtain ⟨hb1, hb2⟩ := hc b (by simp)
    obtain ⟨ht, hmask⟩ := fastNext_of hs hb1 hb2
    have hlen : n < text.length := by simp at hn; omega
    have hl' := lastOk_step hs (by omega) hm hl
    have hbn : text[n]? = some b := by
      have := congrArg (fun l => l[0]?) hd
      simpa using this
    have htake : text.take (n + 1) = text.take n ++ [b] := by
      rw [List.take_add_one, hbn]; rfl
    have hm' : ∀ q, (stateMasks.get (fastNext 8 s (yy_ecT.get b))).testBit q = true ↔ Reach sc (text.take (n+1)) q := by
      intro q; rw [hmask, htake]; exact step_reach hb1 hb2 hm q
    have hdef : fastLoop (b :: rest) s n (last.map fun p => (yy_acceptT.get p.1, p.2)) =
      (bif Nat.beq (fastNext 8 s (yy_ecT.get b)) 1367 then
        (bif Nat.beq (yy_acceptT.get s) 0 then (last.map fun p => (yy_acceptT.get p.1, p.2)) else some (yy_acceptT.get s, n))
       else fastLoop rest (fastNext 8 s (yy_ecT.get b)) (n + 1)
        (bif Nat.beq (yy_acceptT.get s) 0 then (last.map fun p => (yy_acceptT.get p.1, p.2)) else some (yy_acceptT.get s, n))) := rfl
    rw [hdef, hbif]
    by_cases e : fastNext 8 s (yy_ecT.get b) = 1367
    · have hb : Nat.beq (fastNext 8 s (yy_ecT.get b)) 1367 = true := by rw [e]; rfl
      rw [hb]
      refine ⟨_, lastOk_jam (n := n + 1) (by omega) ?_ hl', rfl⟩
      intro q hq
      have := (hm' q).2 hq
      rw [e, jam_mask] at this; simp at this
    · have hb : Nat.beq (fastNext 8 s (yy_ecT.get b)) 1367 = false := by
        cases hq : Nat.beq (fastNext 8 s (yy_ecT.get b)) 1367 with
        | false => rfl
        | true => exact absurd (Nat.eq_of_beq_eq_true hq) e
      rw [hb]
      have hlive : Live (fastNext 8 s (yy_ecT.get b)) := by
        rcases ht with h | h
        · exact absurd h e
        · exact h
      refine ih _ (n+1) _ (fun x hx => hc x (by simp [hx])) hlive (by simp at hn; omega) ?_ hm' hl'
      have := congrArg List.tail hd
      simpa [List.tail_drop] using this

theorem longestMatch_unique {sc : SC} {text : Bytes} {r n r' n' : Nat}
    (h : LongestMatch sc text r n) (h' : LongestMatch sc text r' n') : r = r' ∧ n = n' := by
  have e : n = n' := Nat.le_antisymm (h'.longest r n h.le h.isMatch) (h.longest r' n' h'.le h'.isMatch)
  subst e
  exact ⟨Nat.le_antisymm (h.first r' h'.isMatch) (h'.first r h.isMatch), rfl⟩

theorem scan_eq_fast (sc : SC) (text : Bytes) (hc : Clean text) : scan sc text = scanF sc text := by
  cases ht : text with
  | nil => exact scan_nil sc
  | cons b rest =>
    rw [← ht]
    have hne : text ≠ [] := by rw [ht]; simp
    have hm0 : ∀ q, (stateMasks.get (startState sc)).testBit q = true ↔ Reach sc (text.take 0) q := by
      intro q; simpa using start_reach sc q
    have hl0 : LastOk sc text 0 none := fun k hk => by omega
    obtain ⟨o, ho, he⟩ := fastLoop_spec sc text text (startState sc) 0 none hc (start_live sc) (by simp) (by simp) hm0 hl0
    obtain ⟨s, n, e, _, _, _, hlm⟩ := longest_some hc hne ho
    obtain ⟨r', n', h1, _, _, hlm'⟩ := scan_spec sc text hc hne
    obtain ⟨rfl, rfl⟩ := longestMatch_unique hlm hlm'
    have he : fastLoop text (startState sc) 0 none = o.map fun p => (yy_acceptT.get p.1, p.2) := he
    rw [h1]
    have hsf : scanF sc text = (fastLoop text (startState sc) 0 none).map fun p => .rule p.1 p.2 := by
      rw [ht]; rfl
    rw [hsf, he, e]; rfl

/-- The longest-match specification determines `scan`. -/
theorem scan_of_longest {sc : SC} {text : Bytes} {r n : Nat} (hc : Clean text) (hne : text ≠ [])
    (h : LongestMatch sc text r n) : scan sc text = some (.rule r n) := by
  obtain ⟨r', n', h1, _, _, hlm'⟩ := scan_spec sc text hc hne
  obtain ⟨rfl, rfl⟩ := longestMatch_unique h hlm'
  exact h1

end Verif.Lex

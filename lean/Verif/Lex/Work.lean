import Verif.Lex.Gap
import Verif.Lex.Count
import Verif.Lex.Correct
import Verif.Lex.Fast
/-! # How far the scanner reads beyond a match -/
namespace Verif.Lex

def isBlankB (b : Nat) : Prop := b = 9 ∨ b = 10 ∨ b = 32

/-- The bytes from `i` to `j` are blanks. -/
def Blanks (text : Bytes) (i j : Nat) : Prop := ∀ k, i ≤ k → k < j → ∃ b, text[k]? = some b ∧ isBlankB b

theorem Blanks.snoc {text : Bytes} {i j b : Nat} (h : Blanks text i j) (hb : text[j]? = some b) (hbl : isBlankB b) : Blanks text i (j + 1) := by
  intro k h1 h2
  by_cases e : k = j
  · subst e; exact ⟨b, hb, hbl⟩
  · exact h k h1 (by omega)

theorem bool_or_spec {a b : Bool} (h : Bool.rec (motive := fun _ => Bool) a true b = true) : b = true ∨ a = true := by
  cases b with
  | true => exact .inl rfl
  | false => exact .inr h

theorem bool_ite_spec {a c b : Bool} (h : Bool.rec (motive := fun _ => Bool) a c b = true) : (b = true ∧ c = true) ∨ (b = false ∧ a = true) := by
  cases b with
  | true => exact .inl ⟨rfl, h⟩
  | false => exact .inr ⟨rfl, h⟩

theorem gapCell_spec {s c : Nat} (h : gapCell s c = true) :
    fastNext 8 s c = 1367 ∨ (0 < yy_acceptT.get (fastNext 8 s c)) ∨
    (gapT.get (fastNext 8 s c) = 1 ∧ 7 < s ∧ gapT.get s ≤ 1 ∧ 2 ≤ c ∧ c ≤ 3) ∨
    (gapT.get (fastNext 8 s c) = 100 ∧ (gapT.get s = 100 ∨ (gapT.get s = 0 ∧ yy_acceptT.get s = 188))) ∨
    (2 ≤ gapT.get (fastNext 8 s c) ∧ 7 < s ∧ gapT.get s < gapT.get (fastNext 8 s c) ∧ gapT.get (fastNext 8 s c) < 20) := by
  unfold gapCell at h
  simp only [] at h
  generalize fastNext 8 s c = t at h ⊢
  generalize gapT.get s = g at h ⊢
  generalize gapT.get t = k at h ⊢
  rcases bool_ite_spec h with ⟨h1, _⟩ | ⟨_, h⟩
  · exact .inl (Nat.eq_of_beq_eq_true h1)
  rcases bool_ite_spec h with ⟨_, h1⟩ | ⟨k0, h⟩
  · exact .inr (.inl (Nat.le_of_ble_eq_true h1))
  rcases bool_ite_spec h with ⟨h1, h2⟩ | ⟨k1, h⟩
  · obtain ⟨a, h2⟩ := and_spec h2
    obtain ⟨b, h2⟩ := and_spec h2
    obtain ⟨d, e⟩ := and_spec h2
    exact .inr (.inr (.inl ⟨Nat.eq_of_beq_eq_true h1, Nat.le_of_ble_eq_true a, Nat.le_of_ble_eq_true b, Nat.le_of_ble_eq_true d, Nat.le_of_ble_eq_true e⟩))
  rcases bool_ite_spec h with ⟨h1, h2⟩ | ⟨_, h⟩
  · refine .inr (.inr (.inr (.inl ⟨Nat.eq_of_beq_eq_true h1, ?_⟩)))
    rcases bool_or_spec h2 with h2 | h2
    · exact .inl (Nat.eq_of_beq_eq_true h2)
    · obtain ⟨a, b⟩ := and_spec h2
      exact .inr ⟨Nat.eq_of_beq_eq_true a, Nat.eq_of_beq_eq_true b⟩
  · obtain ⟨a, h2⟩ := and_spec h
    obtain ⟨b, d⟩ := and_spec h2
    have k0' : k ≠ 0 := fun e => by subst e; cases k0
    have k1' : k ≠ 1 := fun e => by subst e; cases k1
    have a : 7 < s := Nat.le_of_ble_eq_true a
    have b : g < k := Nat.le_of_ble_eq_true b
    have d : k < 20 := Nat.le_of_ble_eq_true d
    exact .inr (.inr (.inr (.inr ⟨by omega, a, b, d⟩)))

theorem gap_row {s : Nat} (h : Live s) : (yy_acceptT.get s ≠ 0 → gapT.get s = 0) ∧ ∀ c, 1 ≤ c → c ≤ 76 → gapCell s c = true := by
  have hr := gapRow_all s h.1
  unfold gapRow at hr
  rw [h.2] at hr
  obtain ⟨h1, h2⟩ := and_spec hr
  refine ⟨fun e => ?_, fun c hc1 hc2 => allFrom_spec h2 c hc1 (by omega)⟩
  rcases bool_or_spec h1 with h1 | h1
  · exact absurd (Nat.eq_of_beq_eq_true h1) e
  · exact Nat.eq_of_beq_eq_true h1

theorem blank_class {b : Nat} (h1 : 1 ≤ b) (h2 : b ≤ 255) (h3 : 2 ≤ yy_ecT.get b) (h4 : yy_ecT.get b ≤ 3) : isBlankB b := by
  have h := allFrom_spec gapBytes b h1 (by omega)
  unfold gapByte at h
  have e1 : Nat.ble 2 (yy_ecT.get b) = true := Nat.ble_eq_true_of_le h3
  have e2 : Nat.ble (yy_ecT.get b) 3 = true := Nat.ble_eq_true_of_le h4
  rw [e1, e2] at h
  rcases bool_ite_spec h with ⟨h, _⟩ | ⟨_, h⟩
  · obtain ⟨a, c⟩ := and_spec h
    have a := Nat.le_of_ble_eq_true a
    have c := Nat.le_of_ble_eq_true c
    unfold isBlankB; omega
  · exact .inr (.inr (Nat.eq_of_beq_eq_true h))

/-- What has been read since the last accepting state `sl` at `nl`, in a state with code `g`. -/
def Since (text : Bytes) (g sl nl n : Nat) : Prop :=
  (g = 100 ∧ yy_acceptT.get sl = 188) ∨ (g = 1 ∧ Blanks text nl n) ∨ (2 ≤ g ∧ g < 20 ∧ ∃ j, nl ≤ j ∧ j ≤ n ∧ Blanks text nl j ∧ n - j + 1 ≤ g)

def GapInv (text : Bytes) (s n : Nat) (last : Option (Nat × Nat)) : Prop :=
  yy_acceptT.get s ≠ 0 ∨ (n = 0 ∧ gapT.get s = 0 ∧ s ≤ 7) ∨ ∃ sl nl, last = some (sl, nl) ∧ nl ≤ n ∧ Since text (gapT.get s) sl nl n

/-- At the end: the match is of an unknown character, or it is followed by blanks and at most 19 more bytes. -/
def FarOk (text : Bytes) (k : Nat) (o : Option (Nat × Nat)) : Prop :=
  ∃ sl nl, o = some (sl, nl) ∧ nl ≤ k ∧ (yy_acceptT.get sl = 188 ∨ ∃ j, nl ≤ j ∧ j ≤ k ∧ Blanks text nl j ∧ k ≤ j + 19)

theorem gapInv_far {text : Bytes} {s n : Nat} {last : Option (Nat × Nat)} (h : GapInv text s n last) (hn : n ≠ 0) :
    FarOk text n (if yy_acceptT.get s ≠ 0 then some (s, n) else last) := by
  by_cases e : yy_acceptT.get s = 0
  · rw [if_neg (by simpa using e)]
    rcases h with h | h | h
    · exact absurd e h
    · exact absurd h.1 hn
    · obtain ⟨sl, nl, rfl, h1, h2⟩ := h
      refine ⟨sl, nl, rfl, h1, ?_⟩
      rcases h2 with h2 | h2 | h2
      · exact .inl h2.2
      · exact .inr ⟨n, h1, Nat.le_refl _, h2.2, by omega⟩
      · obtain ⟨a, b, j, c, d, f, g⟩ := h2
        exact .inr ⟨j, c, d, f, by omega⟩
  · rw [if_pos e]
    exact ⟨s, n, rfl, Nat.le_refl _, .inr ⟨n, Nat.le_refl _, Nat.le_refl _, fun k h1 h2 => by omega, by omega⟩⟩

theorem gapInv_step {text : Bytes} {s n b : Nat} {last : Option (Nat × Nat)} (hs : Live s) (h : GapInv text s n last) (hb1 : 1 ≤ b) (hb2 : b ≤ 255) (hb : text[n]? = some b)
    (hj : fastNext 8 s (yy_ecT.get b) ≠ 1367) :
    GapInv text (fastNext 8 s (yy_ecT.get b)) (n + 1) (if yy_acceptT.get s ≠ 0 then some (s, n) else last) := by
  obtain ⟨_, hc1, hc2⟩ := ec_ok hb1 hb2
  obtain ⟨ha, hcell⟩ := gap_row hs
  have hcell := gapCell_spec (hcell _ hc1 hc2)
  generalize fastNext 8 s (yy_ecT.get b) = t at hj hcell ⊢
  rcases hcell with hcell | hcell | hcell
  · exact absurd hcell hj
  · exact .inl (by omega)
  by_cases e : yy_acceptT.get s = 0
  · rw [if_neg (by simpa using e)]
    rcases h with h | h | h
    · exact absurd e h
    · rcases hcell with hc | hc | hc <;> omega
    · obtain ⟨sl, nl, rfl, h1, h2⟩ := h
      refine .inr (.inr ⟨sl, nl, rfl, by omega, ?_⟩)
      rcases hcell with hc | hc | hc
      · have hbl := blank_class hb1 hb2 hc.2.2.2.1 hc.2.2.2.2
        rcases h2 with h2 | h2 | h2
        · omega
        · exact .inr (.inl ⟨hc.1, h2.2.snoc hb hbl⟩)
        · omega
      · rcases h2 with h2 | h2 | h2
        · exact .inl ⟨hc.1, h2.2⟩
        · omega
        · omega
      · rcases h2 with h2 | h2 | h2
        · omega
        · exact .inr (.inr ⟨hc.1, hc.2.2.2, n, h1, by omega, h2.2, by omega⟩)
        · obtain ⟨a, b', j, c, d, f, g⟩ := h2
          exact .inr (.inr ⟨hc.1, hc.2.2.2, j, c, by omega, f, by omega⟩)
  · rw [if_pos e]
    have hg := ha e
    refine .inr (.inr ⟨s, n, rfl, by omega, ?_⟩)
    have hb0 : Blanks text n n := fun k h1 h2 => by omega
    rcases hcell with hc | hc | hc
    · exact .inr (.inl ⟨hc.1, hb0.snoc hb (blank_class hb1 hb2 hc.2.2.2.1 hc.2.2.2.2)⟩)
    · refine .inl ⟨hc.1, ?_⟩
      rcases hc.2 with h3 | h3
      · omega
      · exact h3.2
    · exact .inr (.inr ⟨hc.1, hc.2.2.2, n, Nat.le_refl _, by omega, hb0, by omega⟩)

theorem live_next' {s b : Nat} (h : Live s) (h1 : 1 ≤ b) (h2 : b ≤ 255) : yyNext s (yy_ecT.get b) = some (fastNext 8 s (yy_ecT.get b)) := by
  obtain ⟨_, hc1, hc2⟩ := ec_ok h1 h2
  have hcell := (live_row h).2.2 _ hc1 hc2
  unfold cellOk at hcell
  generalize ht : fastNext 8 s (yy_ecT.get b) = t at hcell
  obtain ⟨g1, hcell⟩ := and_spec hcell
  have g1 : 7 < t := Nat.le_of_ble_eq_true g1
  exact fastNext_spec _ _ _ _ ht (by omega)

theorem moves_spec (sc : SC) (text : Bytes) (hne : text ≠ []) : ∀ (rest : Bytes) (s n : Nat) (last : Option (Nat × Nat)),
    Clean rest → Live s → n + rest.length = text.length → text.drop n = rest →
    (∀ q, (stateMasks.get s).testBit q = true ↔ Reach sc (text.take n) q) →
    LastOk sc text n last → GapInv text s n last → (n = 0 → ∀ b, 1 ≤ b → b ≤ 255 → fastNext 8 s (yy_ecT.get b) ≠ 1367) →
    ∃ o k, Longest sc text o ∧ FarOk text k o ∧ n ≤ k ∧ k ≤ text.length ∧ n + matchMoves (rest ++ [0, 0]) s ≤ k + 2 ∧
      (k = text.length ∨ matchLoop (rest ++ [0, 0]) s n last = o) := by
  intro rest
  induction rest with
  | nil =>
    intro s n last _ hs hn _ hm hl hg _
    have hn : n = text.length := by simpa using hn
    subst hn
    refine ⟨_, text.length, lastOk_step hs (Nat.le_refl _) hm hl, gapInv_far hg (by simpa using hne), Nat.le_refl _, Nat.le_refl _, ?_, .inl rfl⟩
    have hne : (7 : Nat) ≠ 1367 := by decide
    simp only [List.nil_append, matchMoves, ec0, live_eob hs, next7, if_neg hne, if_true]
    omega
  | cons b rest ih =>
    intro s n last hc hs hn hd hm hl hg h0
    obtain ⟨hb1, hb2⟩ := hc b (by simp)
    obtain ⟨hec, _, _⟩ := ec_ok hb1 hb2
    have hacc := accept_get (s := s) (by have := hs.1; omega)
    obtain ⟨ht, hmask⟩ := fastNext_of hs hb1 hb2
    have hnext := live_next' hs hb1 hb2
    have hlen : n < text.length := by simp at hn; omega
    have hl' := lastOk_step hs (by omega) hm hl
    have hbn : text[n]? = some b := by
      have := congrArg (fun l => l[0]?) hd
      simpa using this
    have htake : text.take (n + 1) = text.take n ++ [b] := by
      rw [List.take_add_one, hbn]; rfl
    have hm' : ∀ q, (stateMasks.get (fastNext 8 s (yy_ecT.get b))).testBit q = true ↔ Reach sc (text.take (n+1)) q := by
      intro q; rw [hmask, htake]; exact step_reach hb1 hb2 hm q
    have hstep := fun hj => gapInv_step hs hg hb1 hb2 hbn hj
    have h0' := fun h => h0 h b hb1 hb2
    generalize fastNext 8 s (yy_ecT.get b) = t at ht hmask hnext hm' hstep h0'
    simp only [List.cons_append, matchMoves, matchLoop, hec, hacc, hnext, bind, Option.bind]
    by_cases e : t = 1367
    · simp only [if_pos e]
      refine ⟨_, n, ?_, gapInv_far hg (fun h => h0' h e), Nat.le_refl _, by omega, by omega, .inr rfl⟩
      subst e
      refine lastOk_jam (n := n + 1) (by omega) ?_ hl'
      intro q hq
      have := (hm' q).2 hq
      rw [jam_mask] at this; simp at this
    · simp only [if_neg e]
      have hlive : Live t := by
        rcases ht with h | h
        · exact absurd h e
        · exact h
      obtain ⟨o, k, r1, r2, r3, r4, r5, r6⟩ := ih t (n+1) _ (fun x hx => hc x (by simp [hx])) hlive (by simp at hn; omega) (by
        have := congrArg List.tail hd
        simpa [List.tail_drop] using this) hm' hl' (hstep e) (fun h => by omega)
      exact ⟨o, k, r1, r2, by omega, r4, by omega, r6⟩

/-- In a start state every byte leads on. -/
noncomputable def startByte (s b : Nat) : Bool := Bool.rec true false (Nat.beq (fastNext 8 s (yy_ecT.get b)) 1367)
theorem startBytes : ∀ sc, allFrom 1 255 (startByte (startState sc)) = true := by
  intro sc; cases sc <;> decide +kernel
theorem startGaps : ∀ sc, gapT.get (startState sc) = 0 ∧ startState sc ≤ 7 := by
  intro sc; cases sc <;> exact ⟨by decide +kernel, by decide⟩

/-- One match costs at most twice the bytes looked at; these are the match, then blanks, then at most 19 bytes - or all, if an unknown character is found. -/
theorem scanMoves_le (sc : SC) (text : Bytes) (hc : Clean text) (hne : text ≠ []) :
    ∃ r n, scan sc text = some (.rule r n) ∧ 0 < n ∧ LongestMatch sc text r n ∧ scanMoves sc text ≤ 2 * text.length + 2 ∧
      (r = 188 ∨ ∃ j, n ≤ j ∧ j ≤ text.length ∧ Blanks text n j ∧ scanMoves sc text ≤ 2 * j + 40) := by
  have hm0 : ∀ q, (stateMasks.get (startState sc)).testBit q = true ↔ Reach sc (text.take 0) q := by
    intro q; simpa using start_reach sc q
  have hl0 : LastOk sc text 0 none := fun k hk => by omega
  obtain ⟨o, k, h1, h2, _, h4, h5, h6⟩ := moves_spec sc text hne text (startState sc) 0 none hc (start_live sc) (by simp) (by simp) hm0 hl0
    (.inr (.inl ⟨rfl, startGaps sc⟩)) (fun _ b hb1 hb2 e => by
      have := allFrom_spec (startBytes sc) b hb1 (by omega)
      unfold startByte at this
      rw [e] at this; cases this)
  obtain ⟨s, n, e, hn, ha, hle, hlm⟩ := longest_some hc hne h1
  obtain ⟨r', n', e1, e2, _, hlm'⟩ := scan_spec sc text hc hne
  obtain ⟨rfl, rfl⟩ := longestMatch_unique hlm hlm'
  have hM : scanMoves sc text ≤ k + 2 + k := by
    unfold scanMoves
    rcases h6 with h6 | h6
    · subst h6
      split
      · split <;> omega
      · omega
    · rw [h6, e]
      simp only [ha]
      rw [if_neg (by simp only [Option.some.injEq]; omega)]
      omega
  refine ⟨_, n, e1, hn, hlm, by omega, ?_⟩
  obtain ⟨sl, nl, f1, f2, f3⟩ := h2
  rw [e] at f1
  cases f1
  rcases f3 with f3 | ⟨j, f3, f4, f5, f6⟩
  · exact .inl f3
  · exact .inr ⟨j, f3, by omega, f5, by omega⟩

end Verif.Lex

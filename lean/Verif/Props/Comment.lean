import Verif.Props.Lexer
/-!
# C38: exactly how far a comment goes

C08 (comments are like white space) is false. This is what is true: `InComment x codes rest` says what the scanner makes of the text `x` after the two dashes:
it returns tokens with these codes, still in the comment, and then continues after the comment with the text `rest`, or (`none`) reads the whole text as a comment.
`C38_comment_total` and `C38_comment_exact` say that every text is covered, and that the scanner does just that.
-/
namespace Verif.Props
open Verif.Lex Verif.Api

/-- The two-word keywords: `x`, then blanks `y`, then `z`. -/
def TwoWord (x y z : Bytes) (code : Int) : Prop :=
  y ≠ [] ∧ (∀ c ∈ y, c = 32 ∨ c = 9 ∨ c = 10) ∧
    ((x.map upperB = b!"CURRENT" ∧ z.map upperB = b!"ROW" ∧ code = 423) ∨ (x.map upperB = b!"CHARACTER" ∧ z.map upperB = b!"VARYING" ∧ code = 284))

/-- The text does not begin with a blank. -/
def NoBlank (v : Bytes) : Prop := ∀ x, v.head? = some x → ¬ (x = 32 ∨ x = 9 ∨ x = 10)

inductive InComment : Bytes → List Int → Option Bytes → Prop where
  /-- The comment goes to the end of the text. -/
  | done : InComment [] [] none
  /-- A newline that is not followed by a blank ends the comment, … -/
  | newline {v : Bytes} : NoBlank v → InComment (10 :: v) [] (some v)
  /-- … but a newline among other blanks does not: the next line still belongs to the comment. -/
  | blanks {w v : Bytes} {k : List Int} {r : Option Bytes} : (∀ c ∈ w, c = 32 ∨ c = 9 ∨ c = 10) → 10 ∈ w → w ≠ [10] → NoBlank v →
      InComment v k r → InComment (w ++ v) k r
  /-- The rest `c` of a line that is not blank is skipped, … -/
  | line {c v : Bytes} {k : List Int} {r : Option Bytes} : c ≠ [] → 10 ∉ c → (v = [] ∨ v.head? = some 10 ∧ ∃ x ∈ c, ¬ (x = 32 ∨ x = 9)) →
      (∀ x y z q code, c ++ v = x ++ y ++ z ++ q → TwoWord x y z code → 10 ∉ y) →
      InComment v k r → InComment (c ++ v) k r
  /-- … unless it is the first word of a two-word keyword, and the second follows on another line: this is a token. -/
  | words {x y z q : Bytes} {code : Int} {k : List Int} {r : Option Bytes} : TwoWord x y z code → 10 ∈ y →
      InComment q k r → InComment (x ++ y ++ z ++ q) (code :: k) r

theorem blank_iff {c : Nat} : isBlank c = true ↔ (c = 32 ∨ c = 9 ∨ c = 10) := by
  unfold isBlank; simp [or_assoc]

theorem noBlank_iff {v : Bytes} : NoBlank v ↔ ∀ x, v.head? = some x → isBlank x = false := by
  unfold NoBlank
  constructor
  · intro h x hx
    have := h x hx
    rw [← blank_iff] at this
    simpa using this
  · intro h x hx hb
    rw [← blank_iff, h x hx] at hb
    cases hb

/-- C38, first half: every text after two dashes is covered. -/
theorem C38_comment_total (x : Bytes) : ∃ codes rest, InComment x codes rest := by
  suffices H : ∀ (n : Nat) (x : Bytes), x.length ≤ n → ∃ codes rest, InComment x codes rest from H x.length x (Nat.le_refl _)
  intro n
  induction n with
  | zero =>
    intro x hx
    have : x = [] := List.eq_nil_of_length_eq_zero (by omega)
    subst this
    exact ⟨_, _, .done⟩
  | succ n ih =>
    intro x hx
    by_cases hx0 : x = []
    · subst hx0; exact ⟨_, _, .done⟩
    obtain ⟨hsw, hhw⟩ := takeWhile_split isBlank x
    have haw := takeWhile_all isBlank x
    generalize hw : x.takeWhile isBlank = w at *
    generalize hv : x.drop w.length = v at *
    by_cases h10 : 10 ∈ w
    · have hlw : 0 < w.length := List.length_pos_of_mem h10
      by_cases hw1 : w = [10]
      · subst hw1
        rw [hsw]
        exact ⟨_, _, .newline (noBlank_iff.2 hhw)⟩
      · obtain ⟨k, r, hk⟩ := ih v (by rw [hsw] at hx; simp at hx; omega)
        rw [hsw]
        exact ⟨k, r, .blanks (fun c hc => blank_iff.1 (haw c hc)) h10 hw1 (noBlank_iff.2 hhw) hk⟩
    · by_cases h2 : ∃ a y z q code, x = a ++ y ++ z ++ q ∧ TwoWord a y z code ∧ 10 ∈ y
      · obtain ⟨a, y, z, q, code, rfl, ht, hy⟩ := h2
        obtain ⟨k, r, hk⟩ := ih q (by have := List.length_pos_of_mem hy; simp at hx; omega)
        exact ⟨_, _, .words ht hy hk⟩
      · obtain ⟨hsc, hhc⟩ := takeWhile_split (fun c => c != 10) x
        have hac := takeWhile_all (fun c => c != 10) x
        generalize hc : x.takeWhile (fun c => c != 10) = c at *
        generalize hvd : x.drop c.length = u at *
        have hc0 : c ≠ [] := by
          rintro rfl
          cases x with
          | nil => exact hx0 rfl
          | cons b x =>
            have : b = 10 := by
              have := hhc b (by rw [← hvd]; rfl)
              simpa using this
            subst this
            refine h10 ?_
            rw [← hw]
            simp [isBlank]
        obtain ⟨k, r, hk⟩ := ih u (by have := List.length_pos_iff.2 hc0; rw [hsc] at hx; simp at hx; omega)
        rw [hsc]
        refine ⟨k, r, .line hc0 (fun h => ?_) ?_ ?_ hk⟩
        · have := hac 10 h; simp at this
        · cases u with
          | nil => exact .inl rfl
          | cons b u =>
            have hb : b = 10 := by have := hhc b rfl; simpa using this
            subst hb
            refine .inr ⟨rfl, Classical.byContradiction fun hall => h10 ?_⟩
            have hall : ∀ x ∈ c, isBlank x = true := by
              intro x hx
              refine Classical.byContradiction fun hn => hall ⟨x, hx, fun h => hn (blank_iff.2 ?_)⟩
              rcases h with h | h
              · exact .inl h
              · exact .inr (.inl h)
            rw [← hw, hsc]
            rw [List.takeWhile_append_of_pos hall]
            simp [isBlank]
        · intro a y z q code e ht hy
          exact h2 ⟨a, y, z, q, code, by rw [hsc]; exact e, ht, hy⟩

theorem two_letters {x y z : Bytes} {code : Int} (h : TwoWord x y z code) :
    (∀ c ∈ x, isLetter c = true) ∧ x ≠ [] ∧ (∀ c ∈ z, isLetter c = true) := by
  obtain ⟨_, _, ⟨h1, h2, _⟩ | ⟨h1, h2, _⟩⟩ := h
  · refine ⟨letters_of_upper (w := x) ?_, ?_, letters_of_upper (w := z) ?_⟩
    · show ∀ b ∈ x.map upperB, _
      rw [h1]; decide
    · rintro rfl; cases h1
    · show ∀ b ∈ z.map upperB, _
      rw [h2]; decide
  · refine ⟨letters_of_upper (w := x) ?_, ?_, letters_of_upper (w := z) ?_⟩
    · show ∀ b ∈ x.map upperB, _
      rw [h1]; decide
    · rintro rfl; cases h1
    · show ∀ b ∈ z.map upperB, _
      rw [h2]; decide

/-- The start condition after the comment. -/
def stateAfter : Option Bytes → SC
  | some _ => .initial
  | none => .comment

/-- The codes of the tokens read in the comment state are those of the relation, then those of the rest. -/
theorem comment_codes (fpr : Int) {x : Bytes} {codes : List Int} {rest : Option Bytes} (h : InComment x codes rest) : ∀ (buf : Bytes) (acc : List Bytes), Clean x →
    ∃ T acc' sc, T.map Tok.cv = codes.map (fun c => (c, TokVal.none)) ∧ sc = stateAfter rest ∧
      LRun fpr ⟨.comment, buf, x⟩ acc T ⟨sc, buf, rest.getD []⟩ acc' := by
  induction h with
  | done => intro buf acc _; exact ⟨[], acc, .comment, rfl, rfl, .refl⟩
  | @newline v hv =>
    intro buf acc _
    refine ⟨[], [10] :: acc, .initial, rfl, rfl, ?_⟩
    refine lrun_skip (p := [10]) (v := v) (r := 3) (by simp) ?_ rfl
    show handComment (10 :: v) = _
    have htw : (10 :: v).takeWhile isBlank = [10] := takeWhile_stop (a := [10]) (by simp [isBlank]) (noBlank_iff.1 hv)
    have : handInitial (10 :: v) = (4, 1) := by
      unfold handInitial
      have : isBlank 10 = true := rfl
      simp only [this, if_true, htw]; rfl
    simp [handComment, this]
  | @blanks w v k r hb h10 hw hv _ ih =>
    intro buf acc hcl
    obtain ⟨T, acc', sc, h1, h2, h3⟩ := ih buf (w :: acc) (fun b hb => hcl b (by simp [hb]))
    refine ⟨T, acc', sc, h1, h2, ?_⟩
    have hbb : ∀ c ∈ w, isBlank c = true := fun c hc => blank_iff.2 (hb c hc)
    have hw0 : w ≠ [] := by rintro rfl; cases h10
    have hi : handInitial (w ++ v) = (4, w.length) := hand_blank hw0 hbb (noBlank_iff.1 hv)
    have hs : handStep .comment (w ++ v) = (4, w.length) := by
      show handComment _ = _
      unfold handComment
      rw [hi]
      simp only []
      have hk : ((w ++ v).takeWhile (fun c => c != 10)).length < w.length := by
        obtain ⟨a, b, e⟩ := List.append_of_mem h10
        obtain ⟨h1, h2⟩ := takeWhile_split (fun c => c != 10) w
        have h3 := takeWhile_all (fun c => c != 10) w
        generalize w.takeWhile (fun c => c != 10) = u at *
        generalize w.drop u.length = u' at *
        cases u' with
        | nil =>
          rw [List.append_nil] at h1
          rw [h1] at h10
          have := h3 10 h10
          simp at this
        | cons d u' =>
          have hd : d = 10 := by have := h2 d rfl; simpa using this
          subst hd
          rw [h1, List.append_assoc, takeWhile_stop (p := fun c => c != 10) h3 (by simp)]
          simp
      by_cases hk0 : ((w ++ v).takeWhile (fun c => c != 10)).length = 0
      · rw [if_pos hk0, if_neg]
        intro hl
        refine hw ?_
        cases w with
        | nil => cases h10
        | cons d w =>
          have : w = [] := List.eq_nil_of_length_eq_zero (by simpa using hl)
          subst this
          simp at h10
          rw [← h10]
      · rw [if_neg hk0, if_pos (.inl hk)]
    exact (lrun_skip hw0 hs rfl).trans h3
  | @line c v k r hc h10 hv h2w _ ih =>
    intro buf acc hcl
    obtain ⟨T, acc', sc, h1, h2, h3⟩ := ih buf (c :: acc) (fun b hb => hcl b (by simp [hb]))
    refine ⟨T, acc', sc, h1, h2, ?_⟩
    have hle : (handInitial (c ++ v)).2 ≤ c.length := by
      rcases hv with rfl | ⟨hv, x, hx, hxb⟩
      · have := (best_hand (text := c ++ []) (by simp [hc])).le
        simpa using this
      · refine Nat.le_of_not_lt fun hlt => ?_
        have hb := best_hand (text := c ++ v) (by simp [hc])
        have hf := hb.fires
        have hlen := hb.le
        generalize (handInitial (c ++ v)).2 = n at *
        cases v with
        | nil => cases hv
        | cons d v =>
          simp at hv
          subst hv
          have hm : ∃ u, (c ++ 10 :: v).take n = c ++ 10 :: u := by
            rw [List.take_append]
            have : c.take n = c := List.take_of_length_le (by omega)
            rw [this]
            obtain ⟨m, hm⟩ : ∃ m, n - c.length = m + 1 := ⟨n - c.length - 1, by omega⟩
            rw [hm]
            exact ⟨v.take m, by simp⟩
          obtain ⟨u, hu⟩ := hm
          rw [hu] at hf
          rcases fires_newline hf (by simp) with hall | ⟨x', y, z, P, Q, e, hx', hy, hyb, hz, hAB⟩
          · have := hall x (by simp [hx])
            rw [blank_iff] at this
            rcases this with h | h | h
            · exact hxb (.inl h)
            · exact hxb (.inr h)
            · exact h10 (h ▸ hx)
          · have htw : ∃ code, TwoWord x' y z code := by
              rcases hAB with ⟨rfl, rfl⟩ | ⟨rfl, rfl⟩
              · exact ⟨423, hy, fun c hc => blank_iff.1 (hyb c hc), .inl ⟨hx', hz, rfl⟩⟩
              · exact ⟨284, hy, fun c hc => blank_iff.1 (hyb c hc), .inr ⟨hx', hz, rfl⟩⟩
            obtain ⟨code, htw⟩ := htw
            have hd : c ++ 10 :: v = x' ++ y ++ z ++ (c ++ 10 :: v).drop n := by
              have := (List.take_append_drop n (c ++ 10 :: v)).symm
              rw [hu, e] at this
              simpa using this
            have hny := h2w _ _ _ _ _ hd htw
            obtain ⟨l1, _, l2⟩ := two_letters htw
            have : 10 ∈ x' ++ (y ++ z) := by rw [← e]; simp
            simp only [List.mem_append] at this
            rcases this with h | h | h
            · cases l1 10 h
            · exact hny h
            · cases l2 10 h
    have htw : (c ++ v).takeWhile (fun x => x != 10) = c := by
      refine takeWhile_stop (p := fun x => x != 10) (by intro x hx; simp; rintro rfl; exact h10 hx) ?_
      rcases hv with rfl | ⟨hv, _⟩
      · simp
      · rw [hv]; simp
    have hcpos : 0 < c.length := List.length_pos_iff.2 hc
    have hstep : handStep .comment (c ++ v) = (2, c.length) ∨ handStep .comment (c ++ v) = (1, c.length) := by
      show handComment _ = _ ∨ handComment _ = _
      unfold handComment
      rw [htw]
      generalize handInitial (c ++ v) = rn at hle
      obtain ⟨r, n⟩ := rn
      simp only [] at hle ⊢
      rw [if_neg (by omega)]
      by_cases hcnd : c.length < n ∨ n = c.length ∧ r = 1
      · rw [if_pos hcnd]
        rcases hcnd with h | ⟨rfl, rfl⟩
        · omega
        · right; rfl
      · rw [if_neg hcnd]; left; rfl
    rcases hstep with hs | hs
    · exact (lrun_skip hc hs rfl).trans h3
    · exact (lrun_skip hc hs rfl).trans h3
  | @words x y z q code k r ht hy _ ih =>
    intro buf acc hcl
    obtain ⟨T, acc', sc, h1, h2, h3⟩ := ih buf [] (fun b hb => hcl b (by simp [hb]))
    obtain ⟨l1, l0, l2⟩ := two_letters ht
    obtain ⟨y0, yb, hor⟩ := ht
    have hyb : ∀ c ∈ y, isBlank c = true := fun c hc => blank_iff.2 (yb c hc)
    have hk : ((x ++ y ++ z ++ q).takeWhile (fun c => c != 10)).length < (x ++ y ++ z).length ∧ ((x ++ y ++ z ++ q).takeWhile (fun c => c != 10)).length ≠ 0 := by
      have hx10 : ∀ c ∈ x, (c != 10) = true := by
        intro c hc
        have := l1 c hc
        simp
        rintro rfl
        cases this
      have e : x ++ y ++ z ++ q = x ++ (y ++ (z ++ q)) := by simp
      rw [e, List.takeWhile_append_of_pos hx10]
      have hy2 : ((y ++ (z ++ q)).takeWhile (fun c => c != 10)).length < y.length := by
        obtain ⟨h1, h2⟩ := takeWhile_split (fun c => c != 10) y
        have h3 := takeWhile_all (fun c => c != 10) y
        generalize y.takeWhile (fun c => c != 10) = u at *
        generalize y.drop u.length = u' at *
        cases u' with
        | nil =>
          rw [List.append_nil] at h1
          rw [h1] at hy
          have := h3 10 hy
          simp at this
        | cons d u' =>
          have hd : d = 10 := by have := h2 d rfl; simpa using this
          subst hd
          rw [h1, List.append_assoc, takeWhile_stop (p := fun c => c != 10) h3 (by simp)]
          simp
      have := List.length_pos_iff.2 l0
      simp only [List.length_append]
      omega
    have hi : ∃ r, handInitial (x ++ y ++ z ++ q) = (r, (x ++ y ++ z).length) ∧ lexAction fpr .comment buf r (x ++ y ++ z) = some (.ret .comment buf code .none) := by
      have e : x ++ y ++ z ++ q = x ++ (y ++ (z ++ q)) := by simp
      have hx : ∃ b x', x = b :: x' ∧ isLetter b = true := by
        cases x with
        | nil => exact absurd rfl l0
        | cons b x => exact ⟨b, x, rfl, l1 b (by simp)⟩
      obtain ⟨b, x', hx, hb⟩ := hx
      have hih : handInitial (x ++ y ++ z ++ q) = handWord (x ++ y ++ z ++ q) := by
        rw [hx]
        simp only [List.cons_append, handInitial, (letter_facts hb).1, hb, if_true, Bool.false_eq_true, if_false]
      rw [hih, e]
      unfold handWord
      rcases hor with ⟨hx1, hz1, rfl⟩ | ⟨hx1, hz1, rfl⟩
      · rw [twoWords_of (a := b!"CURRENT") (b := b!"ROW") hx1 y0 hyb hz1 (by decide)]
        refine ⟨169, ?_, rfl⟩
        have a1 := congrArg List.length hx1
        have a2 := congrArg List.length hz1
        simp only [List.length_map] at a1 a2
        simp only [List.length_append, a1, a2]
      · have hno : twoWords b!"CURRENT" b!"ROW" (x ++ (y ++ (z ++ q))) = none := by
          unfold twoWords
          rw [if_neg]
          unfold startsCI
          have a1 := congrArg List.length hx1
          simp only [List.length_map] at a1
          have a1 : x.length = 9 := a1
          rw [List.take_append_of_le_length (by rw [a1]; decide)]
          have : upper (x.take 7) = b!"CHARACT" := by
            have := congrArg (List.take 7) hx1
            rw [← List.map_take] at this
            exact this
          show ¬ (upper (x.take 7) == b!"CURRENT") = true
          rw [this]
          decide
        rw [hno, twoWords_of (a := b!"CHARACTER") (b := b!"VARYING") hx1 y0 hyb hz1 (by decide)]
        refine ⟨170, ?_, rfl⟩
        have a1 := congrArg List.length hx1
        have a2 := congrArg List.length hz1
        simp only [List.length_map] at a1 a2
        simp only [List.length_append, a1, a2]
    obtain ⟨r', hi, ha⟩ := hi
    have hs : handStep .comment (x ++ y ++ z ++ q) = (r', (x ++ y ++ z).length) := by
      show handComment _ = _
      unfold handComment
      rw [hi]
      simp only []
      rw [if_neg hk.2, if_pos (.inl hk.1)]
    have hcode : code ≠ 0 := by
      rcases hor with ⟨_, _, rfl⟩ | ⟨_, _, rfl⟩ <;> decide
    have hret := lrun_ret (acc := acc) (by simp [l0]) hs ha hcode
    refine ⟨_, acc', sc, ?_, h2, hret.trans h3⟩
    simp [h1, Tok.cv]

/-- C38, second half: after two dashes the scanner returns just the tokens that `InComment` says, and then those of the text after the comment. -/
theorem C38_comment_exact (fpr : Int) (buf x : Bytes) (hx : ∀ b ∈ x, 1 ≤ b ∧ b ≤ 255) (codes : List Int) (rest : Option Bytes) (h : InComment x codes rest) :
    ∃ T1 st T2 st', lexAll fpr (lexInit buf (b!"--" ++ x)) = some (T1, st) ∧ lexAll fpr (lexInit buf (rest.getD [])) = some (T2, st') ∧
      T1.map Tok.code = codes ++ T2.map Tok.code ∧ T1.map Tok.val = codes.map (fun _ => TokVal.none) ++ T2.map Tok.val := by
  have s1 := lrun_skip (fpr := fpr) (sc := .initial) (sc' := .comment) (buf := buf) (buf' := buf) (p := b!"--") (v := x) (acc := []) (r := 1)
    (by simp) (by simp [handStep, handInitial, isBlank, isLetter, isDigit, handOp]) rfl
  obtain ⟨T, acc', sc, h1, h2, h3⟩ := comment_codes fpr h buf [b!"--"] hx
  have hr := s1.trans h3
  have hcl : Clean (b!"--" ++ x) := by
    intro b hb
    rcases List.mem_append.1 hb with h | h
    · clear hb; revert b; decide
    · exact hx b h
  obtain ⟨e1, c1⟩ := hr.lexH hcl
  refine ⟨_, _, _, _, lexAll_eq fpr _ hcl, lexAll_eq fpr _ (show Clean (lexInit buf (rest.getD [])).rest from c1), ?_⟩
  unfold lexInit
  rw [e1]
  have hfin : (lexH fpr ⟨sc, buf, rest.getD []⟩ acc').1.map Tok.cv = (lexH fpr ⟨.initial, buf, rest.getD []⟩ []).1.map Tok.cv := by
    cases rest with
    | none => simp [lexH_nil, Tok.cv]
    | some v => subst h2; exact (lexH_acc fpr v.length ⟨.initial, buf, v⟩ acc' [] c1 (Nat.le_refl _)).1
  have k1 := congrArg (List.map Prod.fst) hfin
  have k2 := congrArg (List.map Prod.snd) hfin
  have k3 := congrArg (List.map Prod.fst) h1
  have k4 := congrArg (List.map Prod.snd) h1
  simp only [List.map_map, Function.comp_def, Tok.cv, List.map_id'] at k1 k2 k3 k4
  simp only [List.nil_append, List.map_append, k1, k2, k3, k4, and_self]

/-- `--x⏎ SELECT 1`: the newline is followed by a blank, all of the text is a comment. -/
example : InComment b!"x\n SELECT 1" [] none :=
  .line (c := b!"x") (v := b!"\n SELECT 1") (by decide) (by decide) (.inr ⟨rfl, 120, by decide, by decide⟩) (by
    intro x y z q code e ht
    obtain ⟨l1, l0, _⟩ := two_letters ht
    cases x with
    | nil => exact absurd rfl l0
    | cons b x =>
      obtain ⟨_, _, ⟨h, _⟩ | ⟨h, _⟩⟩ := ht
      · simp at e h; rw [← e.1] at h; exact absurd h.1 (by decide)
      · simp at e h; rw [← e.1] at h; exact absurd h.1 (by decide))
    (.blanks (w := b!"\n ") (v := b!"SELECT 1") (by decide) (by decide) (by decide) (by unfold NoBlank; decide)
      (.line (c := b!"SELECT 1") (v := []) (by decide) (by decide) (.inl rfl) (by
        intro x y z q code e ht
        obtain ⟨l1, l0, _⟩ := two_letters ht
        cases x with
        | nil => exact absurd rfl l0
        | cons b x =>
          obtain ⟨_, _, ⟨h, _⟩ | ⟨h, _⟩⟩ := ht
          · simp at e h; rw [← e.1] at h; exact absurd h.1 (by decide)
          · simp at e h; rw [← e.1] at h; exact absurd h.1 (by decide))
        .done))

/-- `--current⏎row⏎x`: the keyword CURRENT ROW, in a comment, and then `x`. -/
example : InComment b!"current\nrow\nx" [423] (some b!"x") :=
  .words (x := b!"current") (y := b!"\n") (z := b!"row") (q := b!"\nx") ⟨by decide, by decide, .inl ⟨by decide, by decide, rfl⟩⟩ (by decide) (.newline (by unfold NoBlank; decide))

end Verif.Props

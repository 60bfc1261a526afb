import Verif.Sem.Prog
/-!
# The strings of date and interval literals

Specification: which strings may follow `DATE` and `INTERVAL`. The parser checks them with `sscanf`, so blanks and signs are allowed where one would not expect them.
-/
namespace Verif.Sql
open Verif.Sem

/-- White space, as in C. -/
def Blank (b : Nat) : Prop := b = 32 ∨ (9 ≤ b ∧ b ≤ 13)
/-- A decimal digit. -/
def Digit (b : Nat) : Prop := 48 ≤ b ∧ b ≤ 57

/-- The value of a sequence of digits. -/
def digitsVal : Bytes → Nat → Nat
  | [], n => n
  | d :: ds, n => digitsVal ds (10 * n + (d - 48))

/-- The string is the number `n`: blanks, a sign or none, and at least one digit; sign and digits together have at most `w` characters, if there is a bound. -/
structure NumberText (w : Option Nat) (n : Int) (s : Bytes) : Prop where
  is : ∃ blanks sign digits, s = blanks ++ sign ++ digits ∧ (∀ b ∈ blanks, Blank b) ∧ (sign = [] ∨ sign = b!"+" ∨ sign = b!"-") ∧ digits ≠ [] ∧ (∀ b ∈ digits, Digit b) ∧
    (∀ k, w = some k → (sign ++ digits).length ≤ k) ∧ n = if sign = b!"-" then -(digitsVal digits 0 : Int) else digitsVal digits 0

/-- A date: three numbers with hyphens between them, of at most four, two and two characters. Whether there is such a day is not checked. -/
def DateText (s : Bytes) : Prop :=
  ∃ a b c i j k, s = a ++ b!"-" ++ b ++ b!"-" ++ c ∧ NumberText (some 4) i a ∧ NumberText (some 2) j b ∧ NumberText (some 2) k c

/-- A number and a word of at most seven characters, with or without blanks between them. -/
def UnitText (s : Bytes) (n : Int) (u : Bytes) : Prop :=
  ∃ a blanks, s = a ++ blanks ++ u ∧ NumberText none n a ∧ (∀ b ∈ blanks, Blank b) ∧ u ≠ [] ∧ u.length ≤ 7 ∧ (∀ b ∈ u, ¬ Blank b) ∧ (blanks = [] → ∀ d, u.head? = some d → ¬ Digit d)

/-- Numbers the code can hold. -/
def FitsInt (n : Int) : Prop := -2147483648 ≤ n ∧ n ≤ 2147483647

/-! ## The checks of the code are these -/

theorem isSpace_iff (b : Nat) : isSpace b = true ↔ Blank b := by
  simp only [isSpace, Blank, Bool.or_eq_true, beq_iff_eq, Bool.and_eq_true, decide_eq_true_eq]
theorem isDigit_iff (b : Nat) : Sem.isDigit b = true ↔ Digit b := by
  simp only [Sem.isDigit, Digit, Bool.and_eq_true, decide_eq_true_eq]
theorem digitsVal_eq : ∀ (ds : Bytes) (n : Nat), digitsVal ds n = ds.foldl (fun n d => 10 * n + (d - 48)) n
  | [], _ => rfl
  | _ :: ds, _ => digitsVal_eq ds _
theorem decVal_eq (ds : Bytes) : Sem.decVal ds = digitsVal ds 0 := (digitsVal_eq ds 0).symm
theorem fitsInt_iff (n : Int) : fitsInt n = true ↔ FitsInt n := by
  simp only [fitsInt, FitsInt, Bool.and_eq_true, decide_eq_true_eq]

theorem dropWhile_append_all {p : Nat → Bool} : ∀ (l r : Bytes), (∀ b ∈ l, p b = true) → (∀ d, r.head? = some d → p d = false) → (l ++ r).dropWhile p = r ∧ (l ++ r).takeWhile p = l
  | [], [], _, _ => ⟨rfl, rfl⟩
  | [], d :: r, _, h => by
    have := h d rfl
    simp [this]
  | b :: l, r, h1, h2 => by
    have hb := h1 b (by simp)
    have := dropWhile_append_all l r (fun b hb => h1 b (by simp [hb])) h2
    simp [hb, this]

theorem head_dropWhile {p : Nat → Bool} : ∀ (l : Bytes) (d : Nat), (l.dropWhile p).head? = some d → p d = false
  | [], d, h => by cases h
  | b :: l, d, h => by
    rw [List.dropWhile_cons] at h
    split at h
    · exact head_dropWhile l d h
    · rename_i hb; cases h; simpa using hb

/-- The digits of `%d`. -/
def scanDs (neg : Bool) (w : Option Nat) (u : Bytes) : Option (Int × Bytes) :=
  let all := u.takeWhile Sem.isDigit
  let ds := match w with
    | some k => all.take k
    | none => all
  if ds.isEmpty then none else some (if neg then -(Sem.decVal ds : Int) else Sem.decVal ds, u.drop ds.length)

theorem scanD_minus {s u : Bytes} {w : Option Nat} (h : skipWs s = 45 :: u) : scanD w s = scanDs true (w.map (· - 1)) u := by
  unfold scanD; rw [h]; rfl
theorem scanD_plus {s u : Bytes} {w : Option Nat} (h : skipWs s = 43 :: u) : scanD w s = scanDs false (w.map (· - 1)) u := by
  unfold scanD; rw [h]; rfl
theorem scanD_plain {s q : Bytes} {w : Option Nat} (h : skipWs s = q) (h1 : q.head? ≠ some 45) (h2 : q.head? ≠ some 43) : scanD w s = scanDs false w q := by
  unfold scanD; rw [h]
  cases q with
  | nil => rfl
  | cons x xs =>
    have h1' : x ≠ 45 := fun h => h1 (by rw [h]; rfl)
    have h2' : x ≠ 43 := fun h => h2 (by rw [h]; rfl)
    simp [scanDs, h1', h2']; rfl

/-- `%d` reads a number. -/
theorem scanD_sound {w : Option Nat} {s r : Bytes} {n : Int} (h : scanD w s = some (n, r)) : ∃ t, s = t ++ r ∧ NumberText w n t ∧ (w = none → ∀ d, r.head? = some d → ¬ Digit d) := by
  have hs : s = s.takeWhile isSpace ++ skipWs s := (List.takeWhile_append_dropWhile).symm
  have hbl : ∀ b ∈ s.takeWhile isSpace, Blank b := fun b hb => (isSpace_iff b).1 (List.all_eq_true.1 List.all_takeWhile b hb)
  generalize hq : skipWs s = q at hs
  -- the sign
  have key : ∀ (sg u : Bytes) (neg : Bool) (w' : Option Nat), q = sg ++ u → (sg = [] ∨ sg = b!"+" ∨ sg = b!"-") → (neg = decide (sg = b!"-")) → (∀ k, w = some k → ∃ k', w' = some k' ∧ (sg = [] → k' = k) ∧ k' ≤ k ∧ (sg ≠ [] → k' = k - 1)) → (w = none → w' = none) →
      scanDs neg w' u = some (n, r) →
      ∃ t, s = t ++ r ∧ NumberText w n t ∧ (w = none → ∀ d, r.head? = some d → ¬ Digit d) := by
    intro sg u neg w' hqs hsg hneg hw hwn h
    unfold scanDs at h
    simp only [] at h
    generalize hds : (match w' with | some k => (u.takeWhile Sem.isDigit).take k | none => u.takeWhile Sem.isDigit) = ds at h
    by_cases hne : ds.isEmpty = true
    · rw [if_pos hne] at h; cases h
    rw [if_neg hne] at h
    simp only [Option.some.injEq, Prod.mk.injEq] at h
    obtain ⟨h1, h2⟩ := h
    have hpre : ds <+: u := by
      rw [← hds]
      split
      · exact (List.take_prefix _ _).trans (List.takeWhile_prefix _)
      · exact List.takeWhile_prefix _
    have hdig : ∀ b ∈ ds, Digit b := by
      intro b hb
      rw [← hds] at hb
      have : b ∈ u.takeWhile Sem.isDigit := by
        split at hb
        · exact List.mem_of_mem_take hb
        · exact hb
      exact (isDigit_iff b).1 (List.all_eq_true.1 List.all_takeWhile b this)
    have hne' : ds ≠ [] := by intro h; rw [h] at hne; exact hne rfl
    obtain ⟨r', hr'⟩ := hpre
    have hr : r = r' := by rw [← h2, ← hr']; simp
    subst hr
    refine ⟨s.takeWhile isSpace ++ sg ++ ds, ?_, ⟨_, sg, ds, rfl, hbl, hsg, hne', hdig, ?_, ?_⟩, ?_⟩
    · conv => lhs; rw [hs, hqs, ← hr']
      simp
    · intro k hk
      obtain ⟨k', e1, e2, e3, e4⟩ := hw k hk
      subst e1
      have hl : ds.length ≤ k' := by rw [← hds]; simp only []; exact List.length_take_le _ _
      rcases hsg with rfl | rfl | rfl
      · simp; omega
      · have := e4 (by decide)
        have : 0 < ds.length := List.length_pos_iff.2 hne'
        simp; omega
      · have := e4 (by decide)
        have : 0 < ds.length := List.length_pos_iff.2 hne'
        simp; omega
    · rw [← h1, hneg, decVal_eq]
      by_cases hx : sg = b!"-" <;> simp [hx]
    · intro hwn' d hd hdd
      have := hwn hwn'
      subst this
      simp only [] at hds
      have he : u.dropWhile Sem.isDigit = r := by
        have := List.takeWhile_append_dropWhile (p := Sem.isDigit) (l := u)
        rw [hds, ← hr'] at this
        rw [← hr']
        exact List.append_cancel_left this
      have := head_dropWhile u d (by rw [he]; exact hd)
      rw [(isDigit_iff d).2 hdd] at this
      cases this
  by_cases h1 : q.head? = some 45
  · cases q with
    | nil => cases h1
    | cons x u =>
      have hx : x = 45 := by injection h1
      subst hx
      rw [scanD_minus hq] at h
      exact key b!"-" u true (w.map (· - 1)) rfl (by simp) (by decide) (by intro k hk; subst hk; exact ⟨k - 1, rfl, (fun h => absurd h (by decide)), (by omega), fun _ => rfl⟩) (by intro h; rw [h]; rfl) h
  · by_cases h2 : q.head? = some 43
    · cases q with
      | nil => cases h2
      | cons x u =>
        have hx : x = 43 := by injection h2
        subst hx
        rw [scanD_plus hq] at h
        exact key b!"+" u false (w.map (· - 1)) rfl (by simp) (by decide) (by intro k hk; subst hk; exact ⟨k - 1, rfl, (fun h => absurd h (by decide)), (by omega), fun _ => rfl⟩) (by intro h; rw [h]; rfl) h
    · rw [scanD_plain hq h1 h2] at h
      exact key [] q false w rfl (by simp) (by decide) (by intro k hk; exact ⟨k, hk, fun _ => rfl, by omega, fun h => absurd rfl h⟩) (fun h => h) h

theorem sg_not_blank (sg : Bytes) (hsg : sg = [] ∨ sg = b!"+" ∨ sg = b!"-") (ds r : Bytes) (hne : ds ≠ []) (hd : ∀ b ∈ ds, Digit b) : ∀ d, (sg ++ ds ++ r).head? = some d → isSpace d = false := by
  intro d h
  rcases hsg with rfl | rfl | rfl
  · cases ds with
    | nil => exact absurd rfl hne
    | cons x xs =>
      have hx : x = d := by injection h
      subst hx
      have := hd x (by simp)
      unfold Digit at this
      cases hh : isSpace x with
      | false => rfl
      | true =>
        have := (isSpace_iff x).1 hh
        unfold Blank at this
        omega
  · have hx : 43 = d := by injection h
    subst hx; rfl
  · have hx : 45 = d := by injection h
    subst hx; rfl

/-- And `%d` reads every number. -/
theorem scanD_complete {w : Option Nat} {t r : Bytes} {n : Int} (h : NumberText w n t) (hr : ∀ d, r.head? = some d → ¬ Digit d) : scanD w (t ++ r) = some (n, r) := by
  obtain ⟨bl, sg, ds, rfl, hbl, hsg, hne, hd, hw, hn⟩ := h
  have h1 : skipWs (bl ++ sg ++ ds ++ r) = sg ++ ds ++ r := by
    have := (dropWhile_append_all (p := isSpace) bl (sg ++ ds ++ r) (fun b hb => (isSpace_iff b).2 (hbl b hb)) (sg_not_blank sg hsg ds r hne hd)).1
    simpa [skipWs] using this
  have h2 : (ds ++ r).takeWhile Sem.isDigit = ds := (dropWhile_append_all (p := Sem.isDigit) ds r (fun b hb => (isDigit_iff b).2 (hd b hb)) (fun d h => by
    cases hh : Sem.isDigit d with
    | false => rfl
    | true => exact absurd ((isDigit_iff d).1 hh) (hr d h))).2
  have hde : ds.isEmpty = false := by cases ds with | nil => exact absurd rfl hne | cons _ _ => rfl
  rcases hsg with rfl | rfl | rfl
  · rw [scanD_plain (q := ds ++ r) h1]
    · unfold scanDs
      rw [h2]
      cases w with
      | none => simp [hde, hn, decVal_eq]
      | some k =>
        have hk := hw k rfl
        have : ds.take k = ds := List.take_of_length_le (by simpa using hk)
        simp [this, hde, hn, decVal_eq]
    all_goals
      cases ds with
      | nil => exact absurd rfl hne
      | cons x xs =>
        have hx := hd x (by simp)
        unfold Digit at hx
        intro h
        injection h with h
        omega
  · rw [scanD_plus (u := ds ++ r) h1]
    unfold scanDs
    rw [h2]
    cases w with
    | none => simp [hde, hn, decVal_eq]
    | some k =>
      have hk := hw k rfl
      have : ds.take (k - 1) = ds := List.take_of_length_le (by simp at hk; omega)
      simp [this, hde, hn, decVal_eq]
  · rw [scanD_minus (u := ds ++ r) h1]
    unfold scanDs
    rw [h2]
    cases w with
    | none => simp [hde, hn, decVal_eq]
    | some k =>
      have hk := hw k rfl
      have : ds.take (k - 1) = ds := List.take_of_length_le (by simp at hk; omega)
      simp [this, hde, hn, decVal_eq]

theorem hyphen_no_digit (s : Bytes) : ∀ d, (b!"-" ++ s).head? = some d → ¬ Digit d := by
  intro d h; cases h; unfold Digit; omega

/-- The check of dates. -/
theorem dateOk_iff (s : Bytes) : dateOk s = true ↔ DateText s := by
  constructor
  · intro h
    unfold dateOk at h
    split at h
    · rename_i i s1 h1
      split at h
      · rename_i j s2 h2
        split at h
        · rename_i k h3
          obtain ⟨a, e1, n1, _⟩ := scanD_sound h1
          obtain ⟨b, e2, n2, _⟩ := scanD_sound h2
          obtain ⟨c, e3, n3, _⟩ := scanD_sound h3
          refine ⟨a, b, c, i, j, k, ?_, n1, n2, n3⟩
          rw [e1, e2, e3]
          simp
        · cases h
      · cases h
    · cases h
  · rintro ⟨a, b, c, i, j, k, rfl, n1, n2, n3⟩
    have h1 := scanD_complete n1 (hyphen_no_digit (b ++ b!"-" ++ c))
    have h2 := scanD_complete n2 (hyphen_no_digit c)
    have h3 := scanD_complete (r := []) n3 (by intro d h; cases h)
    have e : a ++ b!"-" ++ b ++ b!"-" ++ c = a ++ (b!"-" ++ (b ++ b!"-" ++ c)) := by simp
    unfold dateOk
    rw [e, h1]
    simp only [List.singleton_append]
    rw [List.append_assoc, h2]
    simp only [List.singleton_append]
    rw [List.append_nil] at h3
    rw [h3]

theorem scanD_number {s : Bytes} {n : Int} : scanD none s = some (n, []) ↔ NumberText none n s := by
  constructor
  · intro h
    obtain ⟨t, e, hn, _⟩ := scanD_sound h
    rw [e, List.append_nil]; exact hn
  · intro h
    have := scanD_complete (r := []) h (by intro d h; cases h)
    rwa [List.append_nil] at this

theorem durOk_true (s : Bytes) : durOk s = some true ↔ ∃ n, NumberText none n s ∧ FitsInt n := by
  constructor
  · intro h
    unfold durOk at h
    split at h
    · rename_i n r h1
      split at h
      · rename_i hf
        simp only [Option.some.injEq, List.isEmpty_iff] at h
        subst h
        exact ⟨n, scanD_number.1 h1, (fitsInt_iff n).1 hf⟩
      · cases h
    · cases h
  · rintro ⟨n, h, hf⟩
    unfold durOk
    rw [scanD_number.2 h]
    simp [(fitsInt_iff n).2 hf]

theorem durOk_false (s : Bytes) (h : durOk s = some false) : ¬ ∃ n, NumberText none n s := by
  rintro ⟨n, hn⟩
  unfold durOk at h
  rw [scanD_number.2 hn] at h
  simp only [] at h
  split at h <;> simp at h

theorem scanUnit_sound {s u : Bytes} (h : scanUnit s = some (u, [])) : ∃ n r, scanD none s = some (n, r) ∧ UnitText s n u := by
  unfold scanUnit at h
  split at h
  · rename_i n r h1
    simp only [] at h
    split at h
    · cases h
    rename_i hne
    simp only [Option.some.injEq, Prod.mk.injEq] at h
    obtain ⟨e1, e2⟩ := h
    obtain ⟨t, et, ht, hd⟩ := scanD_sound h1
    rw [e1] at e2 hne
    have hu : skipWs r = u := by
      have hp : u <+: skipWs r := by rw [← e1]; exact (List.take_prefix _ _).trans (List.takeWhile_prefix _)
      obtain ⟨z, hz⟩ := hp
      rw [← hz] at e2 ⊢
      simp at e2
      simp [e2]
    have hr : r = r.takeWhile isSpace ++ u := by rw [← hu]; exact (List.takeWhile_append_dropWhile).symm
    refine ⟨n, r, h1, t, r.takeWhile isSpace, ?_, ht, fun b hb => (isSpace_iff b).1 (List.all_eq_true.1 List.all_takeWhile b hb), ?_, ?_, ?_, ?_⟩
    · rw [List.append_assoc, ← hr]; exact et
    · intro he; rw [he] at hne; exact hne rfl
    · rw [← e1]; exact List.length_take_le _ _
    · intro b hb hbl
      rw [← e1] at hb
      have := List.all_eq_true.1 List.all_takeWhile b (List.mem_of_mem_take hb)
      rw [(isSpace_iff b).2 hbl] at this
      cases this
    · intro hb d hd'
      rw [hb, List.nil_append] at hr
      exact hd rfl d (by rw [hr]; exact hd')
  · cases h

theorem scanUnit_complete {s u : Bytes} {n : Int} (h : UnitText s n u) : scanUnit s = some (u, []) ∧ ∃ r, scanD none s = some (n, r) := by
  obtain ⟨a, bl, rfl, ha, hbl, hne, hl, hnb, hd⟩ := h
  have hh : ∀ d, (bl ++ u).head? = some d → ¬ Digit d := by
    intro d h
    cases bl with
    | nil => exact hd rfl d h
    | cons b bs =>
      have hb : b = d := by injection h
      subst hb
      have := hbl b (by simp)
      unfold Blank at this
      unfold Digit
      omega
  have h1 := scanD_complete ha hh
  have h2 : skipWs (bl ++ u) = u := (dropWhile_append_all (p := isSpace) bl u (fun b hb => (isSpace_iff b).2 (hbl b hb)) (fun d h => by
    have hm : d ∈ u := by cases u with | nil => cases h | cons x xs => injection h with h; simp [h]
    cases hs : isSpace d with
    | false => rfl
    | true => exact absurd ((isSpace_iff d).1 hs) (hnb d hm))).1
  have h3 : u.takeWhile (fun b => !isSpace b) = u := by
    have := (dropWhile_append_all (p := fun b => !isSpace b) u [] (fun b hb => by
      cases hs : isSpace b with
      | false => rfl
      | true => exact absurd ((isSpace_iff b).1 hs) (hnb b hb)) (by intro d h; cases h)).2
    rwa [List.append_nil] at this
  have h4 : u.take 7 = u := List.take_of_length_le hl
  have he : u.isEmpty = false := by cases u with | nil => exact absurd rfl hne | cons _ _ => rfl
  rw [List.append_assoc]
  refine ⟨?_, _, h1⟩
  unfold scanUnit
  rw [h1]
  simp only []
  rw [h2, h3, h4, he]
  simp

theorem durUnitOk_true (s : Bytes) : durUnitOk s = some true ↔ ∃ n u, UnitText s n u ∧ FitsInt n ∧ scanUnit s = some (u, []) := by
  constructor
  · intro h
    unfold durUnitOk at h
    split at h
    · rename_i n r h1
      split at h
      · rename_i hf
        split at h
        · rename_i u r' h2
          simp only [Option.some.injEq, List.isEmpty_iff] at h
          subst h
          obtain ⟨n', r'', h3, h4⟩ := scanUnit_sound h2
          rw [h1] at h3
          cases h3
          exact ⟨n, u, h4, (fitsInt_iff n).1 hf, h2⟩
        · cases h
      · cases h
    · cases h
  · rintro ⟨n, u, h, hf, hs⟩
    obtain ⟨_, r, hr⟩ := scanUnit_complete h
    unfold durUnitOk
    rw [hr]
    simp only []
    rw [(fitsInt_iff n).2 hf, hs]
    rfl

theorem durUnitOk_false (s : Bytes) (h : durUnitOk s = some false) : ¬ ∃ n u, UnitText s n u := by
  rintro ⟨n, u, hn⟩
  obtain ⟨h2, r, hr⟩ := scanUnit_complete hn
  unfold durUnitOk at h
  rw [hr, h2] at h
  simp only [] at h
  split at h <;> simp at h

/-- The number and the word are determined by the string. -/
theorem UnitText.unique {s u u' : Bytes} {n n' : Int} (h : UnitText s n u) (h' : UnitText s n' u') : u = u' ∧ n = n' := by
  obtain ⟨h1, r, h2⟩ := scanUnit_complete h
  obtain ⟨h1', r', h2'⟩ := scanUnit_complete h'
  rw [h1] at h1'
  rw [h2] at h2'
  cases h1'; cases h2'
  exact ⟨rfl, rfl⟩

end Verif.Sql

import Verif.Sem.DenAt
import Verif.LR.Transport
import Verif.Lex.CaseFacts
/-! The value of a derivation whose token values, or whose number of parameters, are changed. Proof-internal. -/
namespace Verif.Sem
open Verif.Lex Verif.LR

mutual
def _root_.Verif.LR.Tree.mapTok (g : Tok → Tok) : Tree → Tree
  | .leaf t => .leaf (g t)
  | .node r cs => .node r (mapTokL g cs)
def mapTokL (g : Tok → Tok) : List Tree → List Tree
  | [] => []
  | c :: cs => c.mapTok g :: mapTokL g cs
end

/-- The image of a value of a derivation. -/
def hP (f : Hm) (x : V × PS) : V × PS := (x.1.h f, ⟨x.2.n + f.k, x.2.err⟩)

theorem evRule_h {f : Hm} (hf : StrHom f) {r : Nat} (h1 : 2 ≤ r) (h2 : r < 358) (vs : List V) (s : PS) :
    evRule r (hL f vs) ⟨s.n + f.k, s.err⟩ = (evRule r vs s).map (hP f) := by
  by_cases h3 : r = 2
  · subst h3; rfl
  rw [evRule_act h1 h2 h3, evRule_act h1 h2 h3]
  have hs : Sim f.k (pureSt s) (pureSt ⟨s.n + f.k, s.err⟩) := ⟨by simp [pureSt], rfl, rfl, rfl⟩
  have h := run_h hf Z ⟨0, 0, 0, 0⟩ ⟨0, 0, 0, 0⟩ (act r) (mkEnv vs) (noFin_act h1 h2 h3) hs
  rw [mkEnv_h] at h
  cases hx : run Z ⟨0, 0, 0, 0⟩ (act r) (mkEnv vs) (pureSt s) <;> rw [hx] at h <;>
    cases hy : run Z ⟨0, 0, 0, 0⟩ (act r) (mkEnv (hL f vs)) (pureSt ⟨s.n + f.k, s.err⟩) <;> rw [hy] at h
  · obtain ⟨rfl, hs⟩ := h
    simp only [Option.map_some, hP, St.ps, hs.plist, hs.err]
  all_goals first | rfl | exact h.elim

mutual
theorem den_map {f : Hm} (hf : StrHom f) {g : Tok → Tok} (hg : ∀ t, tokValue Z 0 (g t).val = (tokValue Z 0 t.val).h f) :
    ∀ (t : Tree) (_ : t.WF) (s : PS), den (t.mapTok g) ⟨s.n + f.k, s.err⟩ = (den t s).map (hP f)
  | .leaf t, _, s => by simp only [Tree.mapTok, den, hg t]; rfl
  | .node r cs, hw, s => by
    have h2 := hw.2.1
    rw [rules_len] at h2
    simp only [Tree.mapTok, den, denL_map hf hg cs hw.2.2.2 s]
    cases denL cs s with
    | none => rfl
    | some x => exact evRule_h hf hw.1 h2 x.1 x.2
theorem denL_map {f : Hm} (hf : StrHom f) {g : Tok → Tok} (hg : ∀ t, tokValue Z 0 (g t).val = (tokValue Z 0 t.val).h f) :
    ∀ (ts : List Tree) (_ : WFL ts) (s : PS), denL (mapTokL g ts) ⟨s.n + f.k, s.err⟩ = (denL ts s).map fun x => (hL f x.1, ⟨x.2.n + f.k, x.2.err⟩)
  | [], _, s => rfl
  | c :: cs, hw, s => by
    simp only [mapTokL, denL, den_map hf hg c hw.1 s]
    cases den c s with
    | none => rfl
    | some x =>
      obtain ⟨v, s'⟩ := x
      simp only [Option.map_some, hP, denL_map hf hg cs hw.2 s']
      cases denL cs s' with
      | none => rfl
      | some y => simp [hL]
end

mutual
theorem mapTok_id : ∀ (t : Tree), t.mapTok id = t
  | .leaf t => rfl
  | .node r cs => by simp only [Tree.mapTok, mapTokL_id cs]
theorem mapTokL_id : ∀ (ts : List Tree), mapTokL id ts = ts
  | [] => rfl
  | c :: cs => by simp only [mapTokL, mapTok_id c, mapTokL_id cs]
end

theorem tokValue_shift (k : Nat) (v : TokVal) : tokValue Z 0 v = (tokValue Z 0 v).h ⟨id, k⟩ := by cases v <;> rfl

/-- With `k` more parameters to the left. -/
theorem denL_shift (k : Nat) (ts : List Tree) (hw : WFL ts) (n : Nat) (e : Bool) :
    denL ts ⟨n + k, e⟩ = (denL ts ⟨n, e⟩).map fun x => (hL ⟨id, k⟩ x.1, ⟨x.2.n + k, x.2.err⟩) := by
  have := denL_map (strHom_id k) (g := id) (fun t => tokValue_shift k t.val) ts hw ⟨n, e⟩
  rw [mapTokL_id] at this
  exact this

/-! ## Upper case -/

theorem takeWhile_upper {p : Nat → Bool} (hp : ∀ b, p (upperB b) = p b) (u : Bytes) : (upper u).takeWhile p = upper (u.takeWhile p) := by
  unfold upper
  induction u with
  | nil => rfl
  | cons b u ih =>
    simp only [List.map_cons, List.takeWhile_cons, hp]
    cases p b
    · rfl
    · simp [ih]

theorem dropWhile_upper {p : Nat → Bool} (hp : ∀ b, p (upperB b) = p b) (u : Bytes) : (upper u).dropWhile p = upper (u.dropWhile p) := by
  unfold upper
  induction u with
  | nil => rfl
  | cons b u ih =>
    simp only [List.map_cons, List.dropWhile_cons, hp]
    cases p b
    · rfl
    · simp [ih]

theorem isSpace_upper (b : Nat) : isSpace (upperB b) = isSpace b := by
  unfold upperB isSpace
  split
  · rw [Bool.eq_iff_iff]; simp; omega
  · rfl
theorem isDigit_upper (b : Nat) : isDigit (upperB b) = isDigit b := by
  unfold upperB isDigit
  split
  · rw [Bool.eq_iff_iff]; simp; omega
  · rfl

theorem digits_upper {u : Bytes} (h : ∀ b ∈ u, isDigit b = true) : upper u = u := by
  unfold upper
  induction u with
  | nil => rfl
  | cons b u ih =>
    have hb := h b (by simp)
    have : upperB b = b := by
      unfold upperB
      unfold isDigit at hb
      simp at hb
      rw [if_neg (by omega)]
    simp only [List.map_cons, this, ih (fun x hx => h x (List.mem_cons_of_mem _ hx))]

theorem mem_takeWhile {p : Nat → Bool} : ∀ {u : Bytes} {b : Nat}, b ∈ u.takeWhile p → p b = true
  | c :: u, b, h => by
    rw [List.takeWhile_cons] at h
    cases hc : p c with
    | false => rw [hc] at h; simp at h
    | true =>
      rw [hc] at h
      simp only [if_true, List.mem_cons] at h
      rcases h with rfl | h
      · exact hc
      · exact mem_takeWhile h
  | [], b, h => by simp at h

theorem upper_drop (n : Nat) (u : Bytes) : (upper u).drop n = upper (u.drop n) := by simp [upper, List.map_drop]
theorem upper_take (n : Nat) (u : Bytes) : (upper u).take n = upper (u.take n) := by simp [upper, List.map_take]

/-- The part of `scanD` behind the sign. -/
def scanU (neg : Bool) (w : Option Nat) (u : Bytes) : Option (Int × Bytes) :=
  let all := u.takeWhile isDigit
  let ds := match w with
    | some k => all.take k
    | none => all
  if ds.isEmpty then none
  else some (if neg then -(decVal ds : Int) else decVal ds, u.drop ds.length)

theorem scanU_upper (neg : Bool) (w : Option Nat) (u : Bytes) : scanU neg w (upper u) = (scanU neg w u).map fun x => (x.1, upper x.2) := by
  unfold scanU
  simp only [takeWhile_upper isDigit_upper, digits_upper (u := u.takeWhile isDigit) (fun b hb => mem_takeWhile hb), upper_drop]
  generalize (match w with | some k => (u.takeWhile isDigit).take k | none => u.takeWhile isDigit) = ds
  cases ds.isEmpty <;> rfl

/-- The sign. -/
def sgn (w : Option Nat) (s : Bytes) : Bool × Bytes × Option Nat := match s with
  | 45 :: u => (true, u, w.map (· - 1))
  | 43 :: u => (false, u, w.map (· - 1))
  | _ => (false, s, w)

theorem scanD_eq (w : Option Nat) (s : Bytes) : scanD w s = scanU (sgn w (skipWs s)).1 (sgn w (skipWs s)).2.2 (sgn w (skipWs s)).2.1 := by
  unfold scanD scanU sgn
  rfl

theorem sgn_upper (w : Option Nat) (s : Bytes) : sgn w (upper s) = ((sgn w s).1, upper (sgn w s).2.1, (sgn w s).2.2) := by
  cases s with
  | nil => rfl
  | cons b u =>
    show sgn w (upperB b :: upper u) = _
    by_cases h1 : b = 45
    · subst h1; rfl
    by_cases h2 : b = 43
    · subst h2; rfl
    have e1 : ∀ (c : Nat) (v : Bytes), c ≠ 45 → c ≠ 43 → sgn w (c :: v) = (false, c :: v, w) := by
      intro c v k1 k2
      unfold sgn
      split
      · rename_i h; cases h; exact absurd rfl k1
      · rename_i h; cases h; exact absurd rfl k2
      · rfl
    have h3 : upperB b ≠ 45 ∧ upperB b ≠ 43 := by
      unfold upperB; split <;> omega
    rw [e1 b u h1 h2, e1 _ _ h3.1 h3.2]
    rfl

theorem scanD_upper (w : Option Nat) (s : Bytes) : scanD w (upper s) = (scanD w s).map fun x => (x.1, upper x.2) := by
  rw [scanD_eq, scanD_eq]
  have : skipWs (upper s) = upper (skipWs s) := dropWhile_upper isSpace_upper s
  rw [this, sgn_upper, scanU_upper]

theorem dateOk_eq (s : Bytes) : dateOk s = (match scanD (some 4) s with
    | some (_, r) => r.head? == some 45 && (match scanD (some 2) r.tail with
      | some (_, r) => r.head? == some 45 && (match scanD (some 2) r.tail with
        | some (_, r) => r.isEmpty
        | none => false)
      | none => false)
    | none => false) := by
  have h1 : ∀ (x : Option (Int × Bytes)), (match x with | some (_, []) => true | _ => false) = (match x with | some (_, r) => r.isEmpty | none => false) := by
    intro x
    cases x with
    | none => rfl
    | some y => obtain ⟨a, r⟩ := y; cases r <;> rfl
  have h2 : ∀ (x : Option (Int × Bytes)) (k : Bytes → Bool), (match x with | some (_, 45 :: s) => k s | _ => false) =
      (match x with | some (_, r) => r.head? == some 45 && k r.tail | none => false) := by
    intro x k
    cases x with
    | none => rfl
    | some y =>
      obtain ⟨a, r⟩ := y
      cases r with
      | nil => rfl
      | cons b r =>
        by_cases hb : b = 45
        · subst hb; simp
        · have : ((b :: r : Bytes).head? == some 45) = false := by simpa using hb
          simp only [this, Bool.false_and]
          split
          · rename_i h; cases h; exact absurd rfl hb
          · rfl
  have h3 := h2 (scanD (some 4) s) (fun s => match scanD (some 2) s with
      | some (_, 45 :: s) => (match scanD (some 2) s with | some (_, []) => true | _ => false)
      | _ => false)
  unfold dateOk
  refine Eq.trans ?_ (h3.trans ?_)
  · rfl
  · cases scanD (some 4) s with
    | none => rfl
    | some x =>
      obtain ⟨a, r⟩ := x
      simp only []
      congr 1
      refine (h2 (scanD (some 2) r.tail) (fun s => match scanD (some 2) s with | some (_, []) => true | _ => false)).trans ?_
      cases scanD (some 2) r.tail with
      | none => rfl
      | some x =>
        simp only []
        congr 1
        exact h1 _

theorem head_upper (u : Bytes) : ((upper u).head? == some 45) = (u.head? == some 45) := by
  cases u with
  | nil => rfl
  | cons b u =>
    show (some (upperB b) == some 45) = (some b == some 45)
    rw [Bool.eq_iff_iff]
    simp
    unfold upperB
    split <;> omega

theorem tail_upper (u : Bytes) : (upper u).tail = upper u.tail := by cases u <;> rfl
theorem isEmpty_upper (u : Bytes) : (upper u).isEmpty = u.isEmpty := by cases u <;> rfl

theorem dateOk_upper (s : Bytes) : dateOk (upper s) = dateOk s := by
  rw [dateOk_eq, dateOk_eq, scanD_upper]
  cases scanD (some 4) s with
  | none => rfl
  | some x =>
    simp only [Option.map_some, head_upper, tail_upper, scanD_upper]
    congr 1
    cases scanD (some 2) x.2.tail with
    | none => rfl
    | some x =>
      simp only [Option.map_some, head_upper, tail_upper, scanD_upper]
      congr 1
      cases scanD (some 2) x.2.tail with
      | none => rfl
      | some x => simp only [Option.map_some, isEmpty_upper]

theorem durOk_upper (s : Bytes) : durOk (upper s) = durOk s := by
  unfold durOk
  rw [scanD_upper]
  cases scanD none s with
  | none => rfl
  | some x => simp only [Option.map_some, isEmpty_upper]

theorem scanUnit_upper (s : Bytes) : scanUnit (upper s) = (scanUnit s).map fun x => (upper x.1, upper x.2) := by
  unfold scanUnit
  rw [scanD_upper]
  cases scanD none s with
  | none => rfl
  | some x =>
    have hs : ∀ u, skipWs (upper u) = upper (skipWs u) := fun u => dropWhile_upper isSpace_upper u
    simp only [Option.map_some, hs, takeWhile_upper (p := fun b => !isSpace b) (fun b => by simp only [isSpace_upper]), upper_take, isEmpty_upper]
    split
    · rfl
    · simp [upper_drop, upper]

theorem durUnitOk_upper (s : Bytes) : durUnitOk (upper s) = durUnitOk s := by
  unfold durUnitOk
  rw [scanD_upper, scanUnit_upper]
  cases scanD none s with
  | none => rfl
  | some x =>
    simp only [Option.map_some]
    cases scanUnit s with
    | none => rfl
    | some y => simp only [Option.map_some, isEmpty_upper]

theorem eqNoCase_upper (b s : Bytes) : eqNoCase (upper b) s = eqNoCase b s := by
  unfold eqNoCase
  congr 1
  unfold upper
  rw [List.map_map]
  congr 1
  funext x
  simp only [Function.comp, lowerB, upperB]
  split <;> split <;> (try split) <;> omega

theorem strHom_upper : StrHom ⟨upper, 0⟩ where
  eqn := eqNoCase_upper
  date := dateOk_upper
  dur := durOk_upper
  durU := durUnitOk_upper
  scan b := by
    show (scanD none (upper b)).map Prod.fst = _
    rw [scanD_upper, Option.map_map]; rfl
  unit b := by
    show (scanUnit (upper b)).map Prod.fst = _
    rw [scanUnit_upper, Option.map_map]; rfl

/-! ## Trees that differ in the case of the tokens only -/

/-- The token with its value in upper case, and without its text. -/
def upTok (t : Tok) : Tok := ⟨t.code, t.val.upper, []⟩

theorem upTok_val (t : Tok) : tokValue Z 0 (upTok t).val = (tokValue Z 0 t.val).h ⟨upper, 0⟩ := by
  unfold upTok
  cases t.val <;> rfl

mutual
theorem same_mapTok {g : Tok → Tok} : ∀ {t u : Tree}, Same t u → t.yield.map g = u.yield.map g → t.mapTok g = u.mapTok g
  | .leaf t, .leaf u, _, h => by
    simp only [Tree.yield, List.map_cons, List.map_nil, List.cons.injEq, and_true] at h
    simp only [Tree.mapTok, h]
  | .node r cs, .node _ ds, .node hs, h => by
    simp only [Tree.mapTok, same_mapTokL cs ds hs h]
theorem same_mapTokL {g : Tok → Tok} : ∀ (ts us : List Tree), SameL ts us → (yieldL ts).map g = (yieldL us).map g → mapTokL g ts = mapTokL g us
  | [], [], _, _ => rfl
  | c :: cs, d :: ds, .cons hc hs, h => by
    simp only [yieldL, List.map_append] at h
    have hl := congrArg List.length hc.yield
    simp only [List.length_map] at hl
    obtain ⟨h1, h2⟩ := List.append_inj h (by simpa using hl)
    simp only [mapTokL, same_mapTok hc h1, same_mapTokL cs ds hs h2]
end

end Verif.Sem

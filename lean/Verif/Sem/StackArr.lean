import Verif.Sem.Stack
import Verif.Sem.Typed
import Verif.Sem.Pos
/-! The arrays of `yyparse` and the list of `LR/Driver`. Proof-internal. -/
namespace Verif.Sem
open Verif.Lex Verif.LR

/-- The part of an array that is in use. -/
def used {α β : Type} (x0 : β) (f : α → β) (stk : List α) : List β := x0 :: (stk.map f).reverse

theorem used_len {α β : Type} (x0 : β) (f : α → β) (stk : List α) : (used x0 f stk).length = stk.length + 1 := by simp [used]

theorem used_drop {α β : Type} (x0 : β) (f : α → β) (stk : List α) (n : Nat) : used x0 f (stk.drop n) <+: used x0 f stk := by
  unfold used
  rw [List.cons_prefix_cons]
  refine ⟨rfl, ?_⟩
  have : (stk.map f).reverse = ((stk.drop n).map f).reverse ++ ((stk.take n).map f).reverse := by
    rw [← List.reverse_append, ← List.map_append, List.take_append_drop]
  rw [this]
  exact List.prefix_append _ _

theorem used_cons {α β : Type} (x0 : β) (f : α → β) (a : α) (stk : List α) : used x0 f (a :: stk) = used x0 f stk ++ [f a] := by
  simp [used]

theorem used_top {α β : Type} (x0 : β) (f : α → β) (stk : List α) : (used x0 f stk)[stk.length]? = some ((stk.head?.map f).getD x0) := by
  cases stk with
  | nil => rfl
  | cons a t =>
    rw [used_cons, List.getElem?_append_right (by rw [used_len]; simp), used_len]
    simp

theorem prefix_get {α : Type} {p a : List α} (h : p <+: a) {i : Nat} {x : α} (hx : p[i]? = some x) : a[i]? = some x := by
  obtain ⟨t, rfl⟩ := h
  have : i < p.length := by
    rcases Nat.lt_or_ge i p.length with h | h
    · exact h
    · rw [List.getElem?_eq_none h] at hx; cases hx
  rw [List.getElem?_append_left this, hx]

theorem prefix_set {α : Type} {p a : List α} (h : p <+: a) (hl : p.length < a.length) (x : α) : (p ++ [x]) <+: a.set p.length x := by
  obtain ⟨t, rfl⟩ := h
  cases t with
  | nil => simp at hl
  | cons b t =>
    rw [List.set_append_right _ _ (Nat.le_refl _)]
    simp

theorem wr_ok {α : Type} {l : List α} {i : Nat} {x : α} (h : i < l.length) : wr l i x = some (l.set i x) := if_pos h

theorem sub_ok {i n : Nat} (h : n ≤ i) : sub? i n = some (i - n) := if_pos h

abbrev Stk := List (Nat × SV)

/-- The arrays hold the stack. -/
structure Arr (stk : Stk) (y : YY) : Prop where
  ss : used 0 Prod.fst stk <+: y.ss
  ssl : y.ss.length = 200
  vs : ∃ v0, used v0 (fun p => p.2.1) stk <+: y.vs
  vsl : y.vs.length = 200
  ls : used ⟨0, 0, 0, 0⟩ (fun p => p.2.2) stk <+: y.ls
  lsl : y.ls.length = 200
  ssp : y.ssp = stk.length
  vsp : y.vsp = stk.length
  lsp : y.lsp = stk.length
  lt : ∀ p ∈ stk, p.1 < 656

theorem Arr.top {stk : Stk} {y : YY} (h : Arr stk y) : y.ss[y.ssp]? = some (topState stk) := by
  rw [h.ssp]
  refine prefix_get h.ss ?_
  rw [used_top]
  cases stk <;> rfl

theorem Arr.topV {s : Nat} {v : SV} {stk : Stk} {y : YY} (h : Arr ((s, v) :: stk) y) : y.vs[y.vsp]? = some v.1 ∧ y.ls[y.lsp]? = some v.2 ∧ y.ss[y.ssp]? = some s := by
  obtain ⟨v0, hv⟩ := h.vs
  refine ⟨?_, ?_, h.top⟩
  · rw [h.vsp]; exact prefix_get hv (by rw [used_top]; rfl)
  · rw [h.lsp]; exact prefix_get h.ls (by rw [used_top]; rfl)

theorem Arr.topL {stk : Stk} {y : YY} (h : Arr stk y) : ∃ l, y.ls[y.lsp]? = some l := by
  rw [h.lsp]
  exact ⟨_, prefix_get h.ls (used_top _ _ _)⟩

theorem Arr.small {stk : Stk} {y : YY} (h : Arr stk y) : stk.length + 1 ≤ 200 := by
  have h1 := h.ss.length_le
  rw [used_len, h.ssl] at h1
  exact h1

theorem pop_ok {stk : Stk} {y : YY} (h : Arr stk y) {n : Nat} (hn : n ≤ stk.length) :
    popStack n y = some { y with vsp := stk.length - n, ssp := stk.length - n, lsp := stk.length - n } := by
  unfold popStack
  rw [sub_ok (by rw [h.vsp]; exact hn), sub_ok (by rw [h.ssp]; exact hn), sub_ok (by rw [h.lsp]; exact hn), h.vsp, h.ssp, h.lsp]
  rfl

/-- Other variables do not matter. -/
theorem Arr.congr {stk : Stk} {y y' : YY} (h : Arr stk y) (e1 : y'.ss = y.ss) (e2 : y'.vs = y.vs) (e3 : y'.ls = y.ls) (e4 : y'.ssp = y.ssp) (e5 : y'.vsp = y.vsp)
    (e6 : y'.lsp = y.lsp) : Arr stk y' :=
  ⟨e1 ▸ h.ss, e1 ▸ h.ssl, e2 ▸ h.vs, e2 ▸ h.vsl, e3 ▸ h.ls, e3 ▸ h.lsl, e4 ▸ h.ssp, e5 ▸ h.vsp, e6 ▸ h.lsp, h.lt⟩

theorem Arr.popped {stk : Stk} {y y' : YY} (h : Arr stk y) (n : Nat) (e1 : y'.ss = y.ss) (e2 : y'.vs = y.vs) (e3 : y'.ls = y.ls) (e4 : y'.ssp = stk.length - n)
    (e5 : y'.vsp = stk.length - n) (e6 : y'.lsp = stk.length - n) : Arr (stk.drop n) y' := by
  obtain ⟨v0, hv⟩ := h.vs
  refine ⟨e1 ▸ (used_drop _ _ _ _).trans h.ss, e1 ▸ h.ssl, ⟨v0, e2 ▸ (used_drop _ _ _ _).trans hv⟩, e2 ▸ h.vsl, e3 ▸ (used_drop _ _ _ _).trans h.ls, e3 ▸ h.lsl, ?_, ?_, ?_, ?_⟩
  · rw [e4, List.length_drop]
  · rw [e5, List.length_drop]
  · rw [e6, List.length_drop]
  · intro p hp; exact h.lt p (List.mem_of_mem_drop hp)

theorem push_ok {stk : Stk} {y : YY} (h : Arr stk y) (hs : stk.length + 1 < 200) {s : Nat} (hlt : s < 656) (v : V) (l : Loc) :
    ∃ ss vs ls, pushAll s v l y = some { y with vs := vs, vsp := stk.length + 1, ls := ls, lsp := stk.length + 1, state := s, ssp := stk.length + 1, ss := ss } ∧
      ∀ y' : YY, y'.ss = ss → y'.vs = vs → y'.ls = ls → y'.ssp = stk.length + 1 → y'.vsp = stk.length + 1 → y'.lsp = stk.length + 1 → Arr ((s, (v, l)) :: stk) y' := by
  obtain ⟨v0, hv⟩ := h.vs
  refine ⟨y.ss.set (stk.length + 1) s, y.vs.set (stk.length + 1) v, y.ls.set (stk.length + 1) l, ?_, ?_⟩
  · unfold pushAll
    rw [h.vsp, h.lsp, h.ssp, wr_ok (by rw [h.vsl]; exact hs), wr_ok (by rw [h.lsl]; exact hs), wr_ok (by rw [h.ssl]; exact hs)]
    rfl
  · intro y' e1 e2 e3 e4 e5 e6
    have p1 := prefix_set h.ss (by rw [used_len, h.ssl]; exact hs) s
    have p2 := prefix_set hv (by rw [used_len, h.vsl]; exact hs) v
    have p3 := prefix_set h.ls (by rw [used_len, h.lsl]; exact hs) l
    rw [used_len] at p1 p2 p3
    refine ⟨?_, ?_, ⟨v0, ?_⟩, ?_, ?_, ?_, ?_, ?_, ?_, ?_⟩
    · rw [used_cons, e1]; exact p1
    · rw [e1, List.length_set, h.ssl]
    · rw [used_cons, e2]; exact p2
    · rw [e2, List.length_set, h.vsl]
    · rw [used_cons, e3]; exact p3
    · rw [e3, List.length_set, h.lsl]
    · rw [e4]; rfl
    · rw [e5]; rfl
    · rw [e6]; rfl
    · intro p hp
      rcases List.mem_cons.1 hp with e | hp
      · rw [e]; exact hlt
      · exact h.lt p hp

/-! ## Clean-up -/

theorem stos_get {s : Nat} (h : s < 656) : at? yystos s = some (yystos.getD s 0) := by
  have hl : yystos.length = 656 := by decide +kernel
  unfold at?
  rw [if_pos (by omega)]
  simp only [Int.toNat_natCast]
  rw [List.getD_eq_getElem?_getD, List.getElem?_eq_getElem (by omega)]
  rfl

theorem popRest_ok : ∀ (stk : Stk) (f : Nat) (y : YY) (st' : St), stk.length < f → Arr stk y → popAll stk y.st = some st' →
    ∃ y', popRest f y = some y' ∧ y'.st = st' ∧ y'.own = y.own ∧ y'.blocks = y.blocks := by
  intro stk
  induction stk with
  | nil =>
    intro f y st' hf ha hp
    match f, hf with
    | f + 1, _ =>
      simp only [popAll, Option.some.injEq] at hp
      refine ⟨y, ?_, hp, rfl, rfl⟩
      unfold popRest
      rw [if_pos (show y.ssp = 0 from ha.ssp)]
  | cons x stk ih =>
    intro f y st' hf ha hp
    obtain ⟨s, v⟩ := x
    match f, hf with
    | f + 1, hf =>
      unfold popAll at hp
      cases hd : destruct (yystos.getD s 0).toNat v.1 y.st with
      | none => rw [hd] at hp; cases hp
      | some st1 =>
        rw [hd] at hp
        simp only at hp
        obtain ⟨e1, e2, e3⟩ := ha.topV
        have hs := ha.lt (s, v) (by simp)
        have ha1 : Arr ((s, v) :: stk) { y with st := st1 } := ha.congr rfl rfl rfl rfl rfl rfl
        have hp1 := pop_ok ha1 (n := 1) (by simp)
        obtain ⟨y', k1, k2, k3, k4⟩ := ih f { y with st := st1, vsp := stk.length, ssp := stk.length, lsp := stk.length } st' (by simpa using hf)
          (by have := ha1.popped (y' := { y with st := st1, vsp := stk.length, ssp := stk.length, lsp := stk.length }) 1 rfl rfl rfl (by simp) (by simp) (by simp)
              simpa using this) hp
        refine ⟨y', ?_, k2, k3, k4⟩
        unfold popRest
        rw [if_neg (by rw [ha.ssp]; simp)]
        simp only [Option.bind_eq_bind, e3, stos_get hs, e1, e2, destructAt, hd, Option.map_some, Option.bind_some, hp1]
        simpa using k1

/-- The lookahead as the variables of `yyparse`. -/
def LaOk (la : Option (Tok × SV)) (y : YY) : Prop :=
  match la with
  | none => y.chr = -2
  | some (t, v) => y.chr = (if t.code ≤ 0 then 0 else t.code) ∧ y.lval = v.1

theorem yytr_ok (t : Tok) : yytr (if t.code ≤ 0 then 0 else t.code) = some (tsym t) := by
  have hl : yytranslate.length = 437 := by decide +kernel
  have h0 : at? yytranslate 0 = some 0 := by decide +kernel
  unfold yytr tsym tokSym
  by_cases h : t.code ≤ 0
  · rw [if_pos h, if_pos h, if_pos (by decide), h0]; rfl
  · rw [if_neg h, if_neg h]
    by_cases h2 : t.code ≤ YYMAXUTOK
    · rw [if_pos ⟨by omega, h2⟩, if_pos h2]
      unfold at?
      have h3 : t.code ≤ 436 := h2
      rw [if_pos (by omega), List.getD_eq_getElem?_getD, List.getElem?_eq_getElem (by omega)]
      rfl
    · rw [if_neg (by omega), if_neg h2]

theorem yyreturn_ok {stk : Stk} {y : YY} {la : Option (Tok × SV)} {st1 st2 : St} (r : Int) (ha : Arr stk y) (hla : LaOk la y) (hlen : y.len = 0)
    (h1 : dropLookahead la y.st = some st1) (h2 : popAll stk st1 = some st2) (hb : y.blocks = if y.own then 1 else 0) : yyreturn r y = some (.ret r st2 0) := by
  have key : ∀ y1 : YY, Arr stk y1 → y1.st = st1 → y1.len = 0 → y1.own = y.own → y1.blocks = y.blocks →
      (do let y ← popStack y1.len y1
          let y ← popRest 201 y
          if y.own then
            if y.blocks = 0 then none else some (YRes.ret r y.st (y.blocks - 1))
          else some (YRes.ret r y.st y.blocks)) = some (.ret r st2 0) := by
    intro y1 g1 g2 g3 g4 g5
    have hp := pop_ok g1 (n := 0) (Nat.zero_le _)
    have e : ({ y1 with vsp := stk.length - 0, ssp := stk.length - 0, lsp := stk.length - 0 } : YY) = y1 := by
      cases y1
      simp only [Nat.sub_zero, YY.mk.injEq]
      have := g1.ssp; have := g1.vsp; have := g1.lsp
      simp_all
    rw [e] at hp
    simp only [g3, hp, Option.bind_eq_bind, Option.bind_some]
    obtain ⟨y', k1, k2, k3, k4⟩ := popRest_ok stk 201 y1 st2 (by have := g1.small; omega) g1 (by rw [g2]; exact h2)
    rw [k1]
    simp only [Option.bind_some, k3, k4, g4, g5, hb, k2]
    cases y.own <;> rfl
  unfold yyreturn
  cases la with
  | none =>
    have hc : y.chr = -2 := hla
    have e1 : discard y = some y := by unfold discard; rw [if_neg (by rw [hc]; simp)]
    rw [e1, Option.bind_eq_bind, Option.bind_some]
    simp only [dropLookahead, Option.some.injEq] at h1
    exact key y ha h1 hlen rfl rfl
  | some tv =>
    obtain ⟨t, v⟩ := tv
    obtain ⟨hc, hv⟩ := hla
    have ht : yytr y.chr = some (tsym t) := by rw [hc, yytr_ok]
    have e1 : discard y = some { y with st := st1 } := by
      unfold discard
      rw [if_pos (by rw [hc]; split <;> omega), ht, Option.bind_eq_bind, Option.bind_some, destructAt]
      simp only [dropLookahead] at h1
      rw [← hv] at h1
      rw [h1]; rfl
    rw [e1, Option.bind_eq_bind, Option.bind_some]
    exact key { y with st := st1 } (ha.congr rfl rfl rfl rfl rfl rfl) rfl hlen rfl rfl

/-! ## No state shifts the `error` token -/

theorem errShift_all : ((List.range 656).all fun s => decide (errShift s = some none)) = true := by decide +kernel

theorem errShift_none {s : Nat} (h : s < 656) : errShift s = some none := by
  have := List.all_eq_true.1 errShift_all s (by simp [h])
  simpa using this

theorem topState_lt' {stk : Stk} (h : ∀ p ∈ stk, p.1 < 656) : topState stk < 656 := by
  cases stk with
  | nil => decide
  | cons x t => exact h x (by simp)

theorem errlab1_ok : ∀ (stk : Stk) (f : Nat) (y : YY) (la : Option (Tok × SV)) (st1 st2 : St), stk.length < f → Arr stk y → y.state = topState stk → LaOk la y →
    y.len = 0 → popAll stk y.st = some st1 → dropLookahead la st1 = some st2 → (y.blocks = if y.own then 1 else 0) →
    errlab1 f y = some (.ret 1 st2 0) := by
  intro stk
  induction stk with
  | nil =>
    intro f y la st1 st2 hf ha hs hla hlen h1 h2 hb
    match f, hf with
    | f + 1, _ =>
      unfold errlab1
      rw [hs, errShift_none (by decide), Option.bind_eq_bind, Option.bind_some]
      simp only []
      rw [if_pos (show y.ssp = 0 from ha.ssp)]
      simp only [popAll, Option.some.injEq] at h1
      refine yyreturn_ok (stk := []) (la := la) (st1 := st2) (st2 := st2) 1 (ha.congr rfl rfl rfl rfl rfl rfl) hla hlen ?_ rfl hb
      simp only []
      rw [h1]; exact h2
  | cons x stk ih =>
    intro f y la st1 st2 hf ha hs hla hlen h1 h2 hb
    obtain ⟨s, v⟩ := x
    match f, hf with
    | f + 1, hf =>
      unfold popAll at h1
      cases hd : destruct (yystos.getD s 0).toNat v.1 y.st with
      | none => rw [hd] at h1; cases h1
      | some st3 =>
        rw [hd] at h1
        simp only at h1
        obtain ⟨e1, e2, e3⟩ := ha.topV
        have hslt := ha.lt (s, v) (by simp)
        have hs' : y.state = s := hs
        have ha1 : Arr ((s, v) :: stk) { y with range1 := v.2, errstatus := 3, st := st3 } := ha.congr rfl rfl rfl rfl rfl rfl
        have hp1 := pop_ok ha1 (n := 1) (by simp)
        have ha2 : Arr stk { y with range1 := v.2, errstatus := 3, st := st3, vsp := stk.length, ssp := stk.length, lsp := stk.length } := by
          have := ha1.popped (y' := { y with range1 := v.2, errstatus := 3, st := st3, vsp := stk.length, ssp := stk.length, lsp := stk.length }) 1 rfl rfl rfl (by simp) (by simp) (by simp)
          simpa using this
        have ht := ha2.top
        simp only [] at ht
        unfold errlab1
        rw [hs', errShift_none hslt, Option.bind_eq_bind, Option.bind_some]
        simp only []
        rw [if_neg (by rw [ha.ssp]; simp)]
        simp only [] at hp1
        rw [hs'] at hp1
        simp only [Option.bind_eq_bind, e2, stos_get hslt, e1, destructAt, hd, Option.map_some, Option.bind_some, hp1, List.length_cons, Nat.add_sub_cancel, ht]
        exact ih f { y with range1 := v.2, errstatus := 3, st := st3, vsp := stk.length, ssp := stk.length, lsp := stk.length, state := topState stk } la st1 st2 (by simpa using hf)
          (ha2.congr rfl rfl rfl rfl rfl rfl) rfl hla hlen h1 h2 hb

end Verif.Sem

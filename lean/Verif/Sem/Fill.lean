import Verif.Sem.DenoteFacts
import Verif.Sem.ParSet
/-! Numbering the parameters by address gives every parameter the number it was created with. Proof-internal. -/
namespace Verif.Sem

theorem fillL_map : ∀ (vs : List V), fillL vs = vs.map V.fill
  | [] => rfl
  | v :: vs => by rw [fillL, List.map_cons, fillL_map vs]

mutual
/-- Set `ival` of the expressions whose address is in the domain of `g`. -/
def V.numBy (g : Nat → Option Int) : V → V
  | .obj a c fs => .obj a c (match (if c = .Expr then g a else none) with
    | some n => newIval n (numByL g fs)
    | none => numByL g fs)
  | .vec a vs => .vec a (numByL g vs)
  | .tup fs => .tup (numByL g fs)
  | v => v
def numByL (g : Nat → Option Int) : List V → List V
  | [] => []
  | v :: vs => v.numBy g :: numByL g vs
end

theorem numByL_map (g : Nat → Option Int) : ∀ (vs : List V), numByL g vs = vs.map (V.numBy g)
  | [] => rfl
  | v :: vs => by rw [numByL, List.map_cons, numByL_map g vs]

theorem numBy_num {w : V} (h : w.isNum = true) (g : Nat → Option Int) : w.numBy g = w := by cases w <;> simp [V.isNum] at h <;> rfl
theorem isNum_numBy (w : V) (g : Nat → Option Int) : (w.numBy g).isNum = w.isNum := by cases w <;> rfl

theorem newIval_numBy (g : Nat → Option Int) (n : Int) (fs : List V) : numByL g (newIval n fs) = newIval n (numByL g fs) := by
  unfold newIval
  rw [numByL_map, numByL_map, List.getElem?_map]
  cases h : fs[10]? with
  | none => rfl
  | some w =>
    simp only [Option.map_some, isNum_numBy]
    split
    · rw [List.map_set]; rfl
    · rfl

mutual
theorem numBy_none : ∀ (v : V), v.numBy (fun _ => none) = v
  | .obj a c fs => by simp [V.numBy, numByL_none fs]
  | .vec a vs => by simp [V.numBy, numByL_none vs]
  | .tup fs => by simp [V.numBy, numByL_none fs]
  | .undef => rfl
  | .null => rfl
  | .int _ => rfl
  | .pos _ => rfl
  | .idx _ => rfl
  | .raw _ => rfl
  | .str _ _ => rfl
theorem numByL_none : ∀ (vs : List V), numByL (fun _ => none) vs = vs
  | [] => rfl
  | v :: vs => by rw [numByL, numBy_none v, numByL_none vs]
end

/-- `g` changed at `a`. -/
def upd (g : Nat → Option Int) (a : Nat) (n : Int) : Nat → Option Int := fun b => if b = a then some n else g b

mutual
theorem numBy_congr0 {g : Nat → Option Int} {a : Nat} {n : Int} : ∀ (v : V), ac a v = 0 → v.numBy (upd g a n) = v.numBy g
  | .obj b c fs, h => by
    rw [ac_obj] at h
    have hb : b ≠ a := by intro hb; simp [one, hb] at h
    have ih := numByL_congr0 (g := g) (a := a) (n := n) fs (by omega)
    simp only [V.numBy, ih, upd, if_neg hb]
  | .vec b vs, h => by
    rw [ac_vec] at h
    have ih := numByL_congr0 (g := g) (a := a) (n := n) vs (by omega)
    simp only [V.numBy, ih]
  | .tup fs, h => by
    rw [ac_tup] at h
    have ih := numByL_congr0 (g := g) (a := a) (n := n) fs h
    simp only [V.numBy, ih]
  | .undef, _ => rfl
  | .null, _ => rfl
  | .int _, _ => rfl
  | .pos _, _ => rfl
  | .idx _, _ => rfl
  | .raw _, _ => rfl
  | .str _ _, _ => rfl
theorem numByL_congr0 {g : Nat → Option Int} {a : Nat} {n : Int} : ∀ (vs : List V), acL a vs = 0 → numByL (upd g a n) vs = numByL g vs
  | [], _ => rfl
  | v :: vs, h => by
    rw [acL_cons] at h
    simp only [numByL, numBy_congr0 (g := g) (n := n) v (by omega : ac a v = 0), numByL_congr0 (g := g) (n := n) vs (by omega : acL a vs = 0)]
end

mutual
theorem setIval_absent {a : Nat} {n : Int} : ∀ (v : V), ac a v = 0 → v.setIval a n = v
  | .obj b c fs, h => by
    rw [ac_obj] at h
    have hb : b ≠ a := by intro hb; simp [one, hb] at h
    simp only [V.setIval, if_neg (fun hh : b = a ∧ c = .Expr => hb hh.1), setIvalL_absent (n := n) fs (by omega : acL a fs = 0)]
  | .vec b vs, h => by
    rw [ac_vec] at h
    simp only [V.setIval, setIvalL_absent (n := n) vs (by omega : acL a vs = 0)]
  | .tup fs, h => by
    rw [ac_tup] at h
    simp only [V.setIval, setIvalL_absent (n := n) fs h]
  | .undef, _ => rfl
  | .null, _ => rfl
  | .int _, _ => rfl
  | .pos _, _ => rfl
  | .idx _, _ => rfl
  | .raw _, _ => rfl
  | .str _ _, _ => rfl
theorem setIvalL_absent {a : Nat} {n : Int} : ∀ (vs : List V), acL a vs = 0 → setIvalL a n vs = vs
  | [], _ => rfl
  | v :: vs, h => by
    rw [acL_cons] at h
    simp only [setIvalL, setIval_absent (n := n) v (by omega : ac a v = 0), setIvalL_absent (n := n) vs (by omega : acL a vs = 0)]
end

mutual
/-- Setting one more. -/
theorem numBy_set {g : Nat → Option Int} {a : Nat} {n : Int} (hg : g a = none) : ∀ (v : V), ac a v ≤ 1 → (v.setIval a n).numBy g = v.numBy (upd g a n)
  | .obj b c fs, h => by
    rw [ac_obj] at h
    simp only [V.setIval]
    by_cases hb : b = a
    · have h0 : acL a fs = 0 := by have : one a b = 1 := by simp [one, hb]
                                   omega
      have e := numByL_congr0 (g := g) (n := n) fs h0
      by_cases hc : c = .Expr
      · rw [if_pos ⟨hb, hc⟩]
        simp only [V.numBy, hc, if_true, hb, hg, upd, newIval_numBy]
        show _ = V.obj a Cls.Expr (newIval n (numByL (upd g a n) fs))
        rw [e]
      · rw [if_neg (fun hh => hc hh.2), setIvalL_absent fs h0]
        simp only [V.numBy, if_neg hc, e]
    · rw [if_neg (fun hh => hb hh.1)]
      have ih := numByL_set (n := n) hg fs (by omega)
      simp only [V.numBy, ih, upd, if_neg hb]
  | .vec b vs, h => by
    rw [ac_vec] at h
    simp only [V.setIval, V.numBy, numByL_set (n := n) hg vs (by omega)]
  | .tup fs, h => by
    rw [ac_tup] at h
    simp only [V.setIval, V.numBy, numByL_set (n := n) hg fs h]
  | .undef, _ => rfl
  | .null, _ => rfl
  | .int _, _ => rfl
  | .pos _, _ => rfl
  | .idx _, _ => rfl
  | .raw _, _ => rfl
  | .str _ _, _ => rfl
theorem numByL_set {g : Nat → Option Int} {a : Nat} {n : Int} (hg : g a = none) : ∀ (vs : List V), acL a vs ≤ 1 → numByL g (setIvalL a n vs) = numByL (upd g a n) vs
  | [], _ => rfl
  | v :: vs, h => by
    rw [acL_cons] at h
    simp only [setIvalL, numByL, numBy_set (n := n) hg v (by omega), numByL_set (n := n) hg vs (by omega)]
end

/-- The number of an address in a list. -/
def look : List Nat → Nat → Nat → Option Int
  | [], _ => fun _ => none
  | a :: l, k => upd (look l (k + 1)) a k

theorem look_none : ∀ {l : List Nat} {k a : Nat}, a ∉ l → look l k a = none
  | [], _, _, _ => rfl
  | b :: l, k, a, h => by
    simp only [List.mem_cons, not_or] at h
    rw [look, upd, if_neg h.1, look_none h.2]

theorem look_some : ∀ {l : List Nat} {k : Nat} {a : Nat} {n : Int}, l.Nodup → (a, n) ∈ keyed k l → look l k a = some n
  | [], _, _, _, _, h => by simp [keyed] at h
  | b :: l, k, a, n, hn, h => by
    rw [List.nodup_cons] at hn
    simp only [keyed, List.mem_cons, Prod.mk.injEq] at h
    rw [look, upd]
    rcases h with ⟨rfl, rfl⟩ | h
    · rw [if_pos rfl]
    · have hm : a ∈ l := by
        have := List.mem_map_of_mem (f := Prod.fst) h
        rw [keyed_fst] at this; exact this
      rw [if_neg (fun hh : a = b => hn.1 (hh ▸ hm))]
      exact look_some hn.2 h

theorem look_mem {l : List Nat} {k a : Nat} (h : look l k a ≠ none) : a ∈ l := by
  refine Classical.byContradiction fun h' => h (look_none h')

theorem acL_setIvalL (a b : Nat) (n : Int) (vs : List V) : acL a (setIvalL b n vs) = acL a vs := by
  unfold acL
  rw [setIvalL_addrs]

theorem numberL_numBy : ∀ (l : List Nat) (k : Nat) (vs : List V), l.Nodup → (∀ a ∈ l, acL a vs ≤ 1) → numberL l k vs = numByL (look l k) vs
  | [], k, vs, _, _ => by rw [numberL, look, numByL_none]
  | a :: l, k, vs, hn, h => by
    rw [List.nodup_cons] at hn
    rw [numberL, numberL_numBy l (k + 1) _ hn.2 (fun b hb => by rw [acL_setIvalL]; exact h b (List.mem_cons_of_mem _ hb)), look]
    exact numByL_set (look_none hn.1) vs (h a (by simp))

theorem isPar_h (f : Hm) (c : Cls) (fs : List V) : isPar c (hL f fs) = isPar c fs := by
  cases fs with
  | nil => rfl
  | cons v fs => cases c <;> cases v <;> rfl

theorem numOf_h (f : Hm) (hk : f.k = 0) (o : Option V) : numOf (o.map (V.h f)) = numOf o := by
  cases o with
  | none => rfl
  | some v => cases v <;> simp [numOf, V.h, hk]

theorem parKey_h (f : Hm) (hk : f.k = 0) (fs : List V) : parKey (hL f fs) = parKey fs := by
  unfold parKey
  rw [hL_map, List.getElem?_map, numOf_h f hk]

theorem isNum_h (f : Hm) (w : V) : (w.h f).isNum = w.isNum := by cases w <;> rfl

theorem newIval_h (f : Hm) (n : Int) (fs : List V) : newIval n (hL f fs) = hL f (newIval n fs) := by
  unfold newIval
  rw [hL_map, List.getElem?_map]
  cases h : fs[10]? with
  | none => simp [hL_map]
  | some w =>
    simp only [Option.map_some, isNum_h]
    split
    · rw [hL_map, List.map_set]; rfl
    · rw [hL_map]

mutual
theorem fill_h (g : Nat → Option Int) : ∀ (v : V), (∀ a k, (a, k) ∈ v.pars → g a = some k) → (∀ a, g a ≠ none → ac a v = fc a v) → (v.numBy g).h E0 = (v.h E0).fill
  | .obj b c fs, h1, h2 => by
    have ih := fillL_h g fs (fun a k hk => h1 a k (by simp only [V.pars, List.mem_append]; exact .inr hk)) (fun a ha => by
      have := h2 a ha
      rw [ac_obj, fc_obj] at this
      have := fcL_le_acL a fs
      split at * <;> omega)
    simp only [V.numBy, V.h, V.fill, isPar_h, parKey_h E0 rfl]
    by_cases hp : isPar c fs = true
    · have hc : c = .Expr := by
        unfold isPar at hp
        split at hp
        · rfl
        · cases hp
      have hg := h1 b (parKey fs) (by simp [V.pars, hp])
      rw [if_pos hp, if_pos hc, hg]
      simp only [← newIval_h, ih]
    · rw [if_neg hp]
      by_cases hc : c = .Expr
      · have hg : g b = none := by
          refine Classical.byContradiction fun h => ?_
          have := h2 b h
          rw [ac_obj, fc_obj, if_neg hp] at this
          have h3 := fcL_le_acL b fs
          have : one b b = 1 := by simp [one]
          omega
        rw [if_pos hc, hg]
        simp only [ih]
      · rw [if_neg hc]
        simp only [ih]
  | .vec b vs, h1, h2 => by
    have ih := fillL_h g vs h1 (fun a ha => by
      have := h2 a ha
      rw [ac_vec] at this
      have := fcL_le_acL a vs
      have e : fc a (.vec b vs) = fcL a vs := rfl
      omega)
    simp only [V.numBy, V.h, V.fill, ih]
  | .tup fs, h1, h2 => by
    have ih := fillL_h g fs h1 (fun a ha => by
      have := h2 a ha
      rw [ac_tup] at this
      exact this)
    simp only [V.numBy, V.h, V.fill, ih]
  | .undef, _, _ => rfl
  | .null, _, _ => rfl
  | .int _, _, _ => rfl
  | .pos _, _, _ => rfl
  | .idx _, _, _ => rfl
  | .raw _, _, _ => rfl
  | .str _ _, _, _ => rfl
theorem fillL_h (g : Nat → Option Int) : ∀ (vs : List V), (∀ a k, (a, k) ∈ parsL vs → g a = some k) → (∀ a, g a ≠ none → acL a vs = fcL a vs) → hL E0 (numByL g vs) = fillL (hL E0 vs)
  | [], _, _ => rfl
  | v :: vs, h1, h2 => by
    simp only [numByL, hL, fillL]
    rw [fill_h g v (fun a k hk => h1 a k (by simp only [parsL, List.mem_append]; exact .inl hk)) (fun a ha => by
      have := h2 a ha
      rw [acL_cons, fcL_cons] at this
      have := fc_le_ac a v
      have := fcL_le_acL a vs
      omega), fillL_h g vs (fun a k hk => h1 a k (by simp only [parsL, List.mem_append]; exact .inr hk)) (fun a ha => by
      have := h2 a ha
      rw [acL_cons, fcL_cons] at this
      have := fc_le_ac a v
      have := fcL_le_acL a vs
      omega)]
end

/-- Numbering by address, addresses forgotten. -/
theorem numberL_fill {l : List Nat} {vs : List V} (hn : l.Nodup) (h : ∀ a ∈ l, acL a vs ≤ 1) (hp : (keyed 0 l).Perm (parsL vs)) :
    hL E0 (numberL l 0 vs) = fillL (hL E0 vs) := by
  rw [numberL_numBy l 0 vs hn h]
  refine fillL_h _ vs ?_ ?_
  · intro a k hk
    exact look_some hn (hp.mem_iff.2 hk)
  · intro a ha
    have hm := look_mem ha
    have hm' : a ∈ (parsL vs).map Prod.fst := by
      have := hp.map Prod.fst
      rw [keyed_fst] at this
      exact this.mem_iff.1 hm
    have h1 : 0 < fcL a vs := List.count_pos_iff.2 hm'
    have h2 := fcL_le_acL a vs
    have h3 := h a hm
    omega

end Verif.Sem

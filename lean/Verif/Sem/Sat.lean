import Verif.Sem.Check
/-! Lemmas about shapes. Proof-internal. -/
namespace Verif.Sem

/-- An object of class `c` with fields `fs` is a parameter (`?`). -/
def isPar (c : Cls) (fs : List V) : Bool :=
  match c, fs with
  | .Expr, .int n :: _ => decide (n = ExprType.kExprParameter)
  | _, _ => false

/-- The number `ival2` of an expression. -/
def numOf : Option V → Int
  | some (.idx n) => n
  | _ => -1
def parKey (fs : List V) : Int := numOf fs[11]?

mutual
/-- The addresses of the parameters (`?`) in a value, with their numbers. -/
def V.pars : V → List (Nat × Int)
  | .obj a c fs => (if isPar c fs then [(a, parKey fs)] else []) ++ parsL fs
  | .vec _ vs => parsL vs
  | .tup fs => parsL fs
  | _ => []
def parsL : List V → List (Nat × Int)
  | [] => []
  | v :: vs => v.pars ++ parsL vs
end

mutual
theorem pars_sub : ∀ (v : V), v.addrs = [] → v.pars = []
  | .undef, _ => rfl
  | .null, _ => rfl
  | .int _, _ => rfl
  | .pos _, _ => rfl
  | .idx _, _ => rfl
  | .raw _, _ => rfl
  | .str _ _, _ => rfl
  | .vec _ _, h => by simp [V.addrs] at h
  | .obj _ _ _, h => by simp [V.addrs] at h
  | .tup fs, h => by simp only [V.addrs] at h; simp only [V.pars]; exact parsL_sub fs h
theorem parsL_sub : ∀ (vs : List V), addrsL vs = [] → parsL vs = []
  | [], _ => rfl
  | v :: vs, h => by
    simp only [addrsL, List.append_eq_nil_iff] at h
    simp [parsL, pars_sub v h.1, parsL_sub vs h.2]
end

theorem addrsL_append (a b : List V) : addrsL (a ++ b) = addrsL a ++ addrsL b := by
  induction a with
  | nil => rfl
  | cons x a ih => simp [addrsL, ih]
theorem parsL_append (a b : List V) : parsL (a ++ b) = parsL a ++ parsL b := by
  induction a with
  | nil => rfl
  | cons x a ih => simp [parsL, ih]

/-- How often `a` occurs as a parameter. -/
abbrev pc (a : Nat × Int) (v : V) : Nat := v.pars.count a
abbrev pcL (a : Nat × Int) (vs : List V) : Nat := (parsL vs).count a

theorem pcL_cons (a : Nat × Int) (v : V) (vs : List V) : pcL a (v :: vs) = pc a v + pcL a vs := by simp [pcL, parsL]
theorem pcL_append (a : Nat × Int) (u v : List V) : pcL a (u ++ v) = pcL a u + pcL a v := by simp [pcL, parsL_append]
theorem pcL_set (a : Nat × Int) : ∀ (vs : List V) (i : Nat) (w x : V), vs[i]? = some w → pcL a (vs.set i x) + pc a w = pcL a vs + pc a x
  | [], i, w, x, h => by simp at h
  | v :: vs, 0, w, x, h => by
    simp at h; subst h
    simp only [List.set_cons_zero, pcL_cons]; omega
  | v :: vs, i + 1, w, x, h => by
    simp at h
    have := pcL_set a vs i w x h
    simp only [List.set_cons_succ, pcL_cons]; omega

section
variable {ok : Bytes → Prop} {good : List V → Prop}
local notation "S" => Sat ok good
local notation "SL" => SatL ok good

theorem SatL.get {ps : List P} {vs : List V} (h : SL ps vs) : ∀ {i : Nat} {p : P}, ps[i]? = some p → ∃ v, vs[i]? = some v ∧ S p v := by
  induction vs generalizing ps with
  | nil => cases h; intro i p h; simp at h
  | cons v vs ih =>
    cases h with
    | cons h1 h2 =>
      intro i p hi
      cases i with
      | zero => simp at hi; subst hi; exact ⟨v, rfl, h1⟩
      | succ i => exact ih h2 (by simpa using hi)

theorem SatL.set {ps : List P} {vs : List V} (h : SL ps vs) {p : P} {v : V} (hv : S p v) : ∀ (i : Nat), SL (ps.set i p) (vs.set i v) := by
  induction vs generalizing ps with
  | nil => cases h; intro i; exact .nil
  | cons w vs ih =>
    cases h with
    | cons h1 h2 =>
      intro i
      cases i with
      | zero => exact .cons hv h2
      | succ i => exact .cons h1 (ih h2 i)

theorem SatL.append {ps qs : List P} {vs ws : List V} (h : SL ps vs) (h' : SL qs ws) : SL (ps ++ qs) (vs ++ ws) := by
  induction vs generalizing ps with
  | nil => cases h; exact h'
  | cons v vs ih => cases h with | cons h1 h2 => exact .cons h1 (ih h2)

theorem SatL.len {ps : List P} {vs : List V} (h : SL ps vs) : ps.length = vs.length := by
  induction vs generalizing ps with
  | nil => cases h; rfl
  | cons v vs ih => cases h with | cons h1 h2 => simp [ih h2]

theorem SatL.mem {ps : List P} {vs : List V} (h : SL ps vs) : ∀ {v : V}, v ∈ vs → ∃ p ∈ ps, S p v := by
  induction vs generalizing ps with
  | nil => intro v hv; simp at hv
  | cons w vs ih =>
    cases h with
    | cons h1 h2 =>
      intro v hv
      rcases List.mem_cons.1 hv with rfl | hv
      · exact ⟨_, by simp, h1⟩
      · obtain ⟨p, hp, h⟩ := ih h2 hv
        exact ⟨p, by simp [hp], h⟩

/-- The last element. -/
theorem SatL.snoc {ps : List P} {vs : List V} (h : SL ps vs) {f : P} (hf : ps.getLast? = some f) :
    ∃ vs' w, vs = vs' ++ [w] ∧ SL ps.dropLast vs' ∧ S f w := by
  induction vs generalizing ps with
  | nil => cases h; simp at hf
  | cons v vs ih =>
    cases h with
    | @cons p _ ps' _ h1 h2 =>
      cases ps' with
      | nil => cases h2; simp at hf; subst hf; exact ⟨[], v, rfl, .nil, h1⟩
      | cons q qs =>
        obtain ⟨vs', w, e, h3, h4⟩ := ih h2 (by simpa using hf)
        subst e
        exact ⟨v :: vs', w, rfl, .cons h1 h3, h4⟩

theorem unf_sound : ∀ (n : Nat) {p : P} {v : V}, S p v → ∃ q ∈ unf n p, S q v
  | 0, p, v, h => ⟨p, by simp [unf], h⟩
  | n + 1, p, v, h => by
    cases h with
    | ref hm h =>
      obtain ⟨q, hq, h'⟩ := unf_sound n h
      refine ⟨q, ?_, h'⟩
      simp only [unf, List.mem_flatMap]
      exact ⟨_, hm, hq⟩
    | undef => exact ⟨_, by simp [unf], .undef⟩
    | null => exact ⟨_, by simp [unf], .null⟩
    | num => exact ⟨_, by simp [unf], .num _⟩
    | pos => exact ⟨_, by simp [unf], .pos _⟩
    | idx => exact ⟨_, by simp [unf], .idx _⟩
    | posnum1 => exact ⟨_, by simp [unf], .posnum1 _⟩
    | posnum2 => exact ⟨_, by simp [unf], .posnum2 _⟩
    | ints h => exact ⟨_, by simp [unf], .ints h⟩
    | raw => exact ⟨_, by simp [unf], .raw _⟩
    | str _ h => exact ⟨_, by simp [unf], .str _ h⟩
    | strQ _ h h' => exact ⟨_, by simp [unf], .strQ _ h h'⟩
    | vec _ h h' h'' => exact ⟨_, by simp [unf], .vec _ h h' h''⟩
    | obj _ h h' => exact ⟨_, by simp [unf], .obj _ h h'⟩
    | tup h => exact ⟨_, by simp [unf], .tup h⟩

theorem set_self {α : Type} : ∀ (l : List α) (i : Nat) (x : α), l[i]? = some x → l.set i x = l
  | [], i, x, h => by simp at h
  | a :: l, 0, x, h => by simp at h; simp [h]
  | a :: l, i + 1, x, h => by simp at h; simp [set_self l i x h]

theorem SatL.set' {ps : List P} {vs : List V} (h : SL ps vs) {i : Nat} {p : P} {v : V} (hi : vs[i]? = some v) (hv : S p v) : SL (ps.set i p) vs := by
  have := h.set hv i
  rwa [set_self vs i v hi] at this

theorem expP_sound (deep : Bool) : ∀ (ss : List Sel) {p : P} {v : V}, S p v → ∃ q ∈ expP deep ss p, S q v
  | [], p, v, h => by
    cases deep with
    | true => exact unf_sound 4 h
    | false => exact ⟨p, by simp [expP], h⟩
  | s :: ss, p, v, h => by
    obtain ⟨q, hq, h'⟩ := unf_sound 4 h
    have : ∃ q' ∈ expOne (expP deep ss) s q, S q' v := by
      clear hq h
      unfold expOne
      split
      · split
        · rename_i f hf
          cases h' with
          | obj a hL hg =>
            obtain ⟨w, hw, hS⟩ := hL.get hf
            obtain ⟨f', hf', hS'⟩ := expP_sound deep ss hS
            exact ⟨_, List.mem_map.2 ⟨f', hf', rfl⟩, .obj a (hL.set' hw hS') hg⟩
        · exact ⟨_, List.mem_singleton.2 rfl, h'⟩
      · split
        · rename_i f hf
          cases h' with
          | tup hL =>
            obtain ⟨w, hw, hS⟩ := hL.get hf
            obtain ⟨f', hf', hS'⟩ := expP_sound deep ss hS
            exact ⟨_, List.mem_map.2 ⟨f', hf', rfl⟩, .tup (hL.set' hw hS')⟩
        · exact ⟨_, List.mem_singleton.2 rfl, h'⟩
      · split
        · rename_i f hf
          cases h' with
          | vec a h1 h2 hL =>
            obtain ⟨vs', w, e, hS1, hS⟩ := hL.snoc hf
            obtain ⟨f', hf', hS'⟩ := expP_sound deep ss hS
            subst e
            exact ⟨_, List.mem_map.2 ⟨f', hf', rfl⟩, .vec a h1 h2 (hS1.append (.cons hS' .nil))⟩
        · exact ⟨_, List.mem_singleton.2 rfl, h'⟩
      · exact ⟨_, List.mem_singleton.2 rfl, h'⟩
    obtain ⟨q', h1, h2⟩ := this
    refine ⟨q', ?_, h2⟩
    simp only [expP, List.mem_flatMap]
    exact ⟨q, hq, h1⟩

theorem getA_sound : ∀ (ss : List Sel) {q p : P} {v : V}, S q v → getA q ss = some p → ∃ w, v.get ss = some w ∧ S p w
  | [], q, p, v, h, hg => by
    rw [getA] at hg
    cases hg
    exact ⟨v, by rw [V.get], h⟩
  | s :: ss, q, p, v, h, hg => by
    unfold getA at hg
    split at hg
    · contradiction
    · rename_i c fs i ss' heq
      injection heq with h1 h2
      subst h1 h2
      split at hg
      · rename_i f hf
        cases h with
        | obj a hL hgd =>
          obtain ⟨w, hw, hS⟩ := hL.get hf
          obtain ⟨x, hx, hS'⟩ := getA_sound ss hS hg
          exact ⟨x, by simp only [V.get, hw, hx], hS'⟩
      · cases hg
    · rename_i fs i ss' heq
      injection heq with h1 h2
      subst h1 h2
      split at hg
      · rename_i f hf
        cases h with
        | tup hL =>
          obtain ⟨w, hw, hS⟩ := hL.get hf
          obtain ⟨x, hx, hS'⟩ := getA_sound ss hS hg
          exact ⟨x, by simp only [V.get, hw, hx], hS'⟩
      · cases hg
    · rename_i e ne suf ss' heq
      injection heq with h1 h2
      subst h1 h2
      split at hg
      · rename_i f hf
        cases h with
        | @vec a _ _ _ pre post h1 h2 hL =>
          obtain ⟨vs', w, e, hS1, hS⟩ := hL.snoc hf
          obtain ⟨x, hx, hS'⟩ := getA_sound ss hS hg
          subst e
          exact ⟨x, by simp only [V.get, ← List.append_assoc, List.getLast?_concat, hx], hS'⟩
      · cases hg
    · cases hg

theorem isPar_set {g : Bool} {c : Cls} {fs : List V} {i : Nat} (h : okFld g c i = true) (x : V) : isPar c (fs.set i x) = isPar c fs := by
  cases c <;> try rfl
  cases i with
  | zero => simp [okFld] at h
  | succ i => cases fs with
    | nil => rfl
    | cons w fs => cases w <;> rfl

theorem parKey_set {g : Bool} {fs : List V} {i : Nat} (h : okFld g .Expr i = true) (x : V) : parKey (fs.set i x) = parKey fs := by
  unfold parKey
  rw [List.getElem?_set_ne]
  rintro rfl
  simp [okFld] at h

theorem parPart_set {g : Bool} {c : Cls} {fs : List V} {i : Nat} (h : okFld g c i = true) (b : Nat) (x : V) :
    (if isPar c (fs.set i x) then [(b, parKey (fs.set i x))] else []) = (if isPar c fs then [(b, parKey fs)] else []) := by
  rw [isPar_set h]
  split
  · rename_i hp
    have hE : c = .Expr := by
      unfold isPar at hp
      split at hp
      · rfl
      · cases hp
    subst hE
    rw [parKey_set h]
  · rfl

theorem pc_obj (a : Nat × Int) (b : Nat) (c : Cls) (fs : List V) : pc a (.obj b c fs) = (if isPar c fs then [(b, parKey fs)] else []).count a + pcL a fs := by
  simp [pc, pcL, V.pars]

theorem putA_sound {g : Bool} (hgd : g = true → ∀ fs, good fs) {x : P} {w : V} (hx : S x w) : ∀ (ss : List Sel) {q q' : P} {v : V}, S q v → putA g q ss x = some q' →
    ∃ v' old, v.put ss w = some v' ∧ v.get ss = some old ∧ S q' v' ∧ ∀ a, pc a v' + pc a old = pc a v + pc a w
  | [], q, q', v, h, hg => by
    rw [putA] at hg
    cases hg
    exact ⟨w, v, by rw [V.put], by rw [V.get], hx, fun a => by omega⟩
  | s :: ss, q, q', v, h, hg => by
    unfold putA at hg
    split at hg
    · contradiction
    · rename_i c fs i ss' heq
      injection heq with h1 h2
      subst h1 h2
      split at hg
      · rename_i f hok hf
        split at hg
        · rename_i f' hf'
          cases hg
          cases h with
          | @obj a _ _ vs hL hgood =>
            obtain ⟨u, hu, hS⟩ := hL.get hf
            obtain ⟨u', old, h1, h2, h3, h4⟩ := putA_sound hgd hx ss hS hf'
            refine ⟨.obj a c (vs.set i u'), old, by simp only [V.put, hu, h1], by simp only [V.get, hu, h2], .obj a (hL.set h3 i) ?_, ?_⟩
            · intro hc
              subst hc
              simp [okFld] at hok
              exact hgd hok _
            · intro b
              rw [pc_obj, pc_obj, parPart_set hok]
              have := pcL_set b vs i u u' hu
              have := h4 b
              omega
        · cases hg
      · cases hg
    · rename_i fs i ss' heq
      injection heq with h1 h2
      subst h1 h2
      split at hg
      · rename_i f hf
        split at hg
        · rename_i f' hf'
          cases hg
          cases h with
          | @tup _ vs hL =>
            obtain ⟨u, hu, hS⟩ := hL.get hf
            obtain ⟨u', old, h1, h2, h3, h4⟩ := putA_sound hgd hx ss hS hf'
            refine ⟨.tup (vs.set i u'), old, by simp only [V.put, hu, h1], by simp only [V.get, hu, h2], .tup (hL.set h3 i), ?_⟩
            intro b
            have := pcL_set b vs i u u' hu
            have := h4 b
            simp only [pc, pcL, V.pars] at *
            omega
        · cases hg
      · cases hg
    · rename_i e ne suf ss' heq
      injection heq with h1 h2
      subst h1 h2
      split at hg
      · rename_i f hf
        split at hg
        · rename_i f' hf'
          cases hg
          cases h with
          | @vec a _ _ _ pre post h1 h2 hL =>
            obtain ⟨vs', u, e, hS1, hS⟩ := hL.snoc hf
            obtain ⟨u', old, h5, h6, h3, h4⟩ := putA_sound hgd hx ss hS hf'
            subst e
            refine ⟨.vec a (pre ++ (vs' ++ [u'])), old, ?_, ?_, .vec a h1 h2 (hS1.append (.cons h3 .nil)), ?_⟩
            · simp only [V.put, ← List.append_assoc, List.getLast?_concat, h5, List.dropLast_concat]
            · simp only [V.get, ← List.append_assoc, List.getLast?_concat, h6]
            · intro b
              have := h4 b
              simp only [pc, V.pars, parsL_append, parsL, List.count_append, List.count_nil] at *
              omega
        · cases hg
      · cases hg
    · cases hg

theorem defd_sound {p : P} {v : V} (h : S p v) (hd : defd p = true) : v.isUndef = false := by
  obtain ⟨q, hq, h'⟩ := unf_sound 4 h
  have := List.all_eq_true.1 hd q hq
  cases h' <;> first | rfl | (simp [defd1] at this)

theorem noAddr0_sound {p : P} {v : V} (h : S p v) (hd : noAddr0 p = true) : v.addrs = [] := by
  cases h <;> first | rfl | (simp [noAddr0] at hd)

theorem noAddrL_sound : ∀ {ps : List P} {vs : List V}, SL ps vs → ps.all noAddr0 = true → addrsL vs = []
  | _, [], _, _ => rfl
  | _, v :: vs, h, hd => by
    cases h with
    | cons h1 h2 =>
      simp only [List.all_cons, Bool.and_eq_true] at hd
      simp only [addrsL, noAddr0_sound h1 hd.1, noAddrL_sound h2 hd.2, List.append_nil]

theorem noAddr_sound {p : P} {v : V} (h : S p v) (hd : noAddr p = true) : v.addrs = [] := by
  obtain ⟨q, hq, h'⟩ := unf_sound 4 h
  have := List.all_eq_true.1 hd q hq
  clear hd hq h
  cases h' with
  | tup hL => simp only [noAddr1] at this; simp only [V.addrs]; exact noAddrL_sound hL this
  | ref _ _ => simp [noAddr1, noAddr0] at this
  | vec => simp [noAddr1, noAddr0] at this
  | obj => simp [noAddr1, noAddr0] at this
  | str => simp [noAddr1, noAddr0] at this
  | strQ => simp [noAddr1, noAddr0] at this
  | _ => rfl

theorem addrsL_nil {vs : List V} (h : ∀ v ∈ vs, v.addrs = []) : addrsL vs = [] := by
  induction vs with
  | nil => rfl
  | cons v vs ih => simp only [addrsL, h v (by simp), ih (fun w hw => h w (by simp [hw])), List.append_nil]

theorem noAddrAll_sound {ps : List P} {vs : List V} (h : SL ps vs) (hd : ps.all noAddr = true) : addrsL vs = [] := by
  refine addrsL_nil fun v hv => ?_
  obtain ⟨p, hp, hS⟩ := h.mem hv
  exact noAddr_sound hS (List.all_eq_true.1 hd p hp)

theorem all2_sound {f : P → P → Bool} {ps qs : List P} {vs : List V} (hf : ∀ p q v, p ∈ ps → f p q = true → S p v → S q v) (h : all2 f ps qs = true) (hL : SL ps vs) : SL qs vs := by
  induction vs generalizing ps qs with
  | nil =>
    cases hL
    cases qs with
    | nil => exact .nil
    | cons => simp [all2] at h
  | cons v vs ih =>
    cases hL with
    | cons h1 h2 =>
      cases qs with
      | nil => simp [all2] at h
      | cons q qs =>
        simp only [all2, Bool.and_eq_true] at h
        exact .cons (hf _ _ _ (by simp) h.1 h1) (ih (fun p q v hp => hf p q v (by simp [hp])) h.2 h2)

theorem sub_sound : ∀ (n : Nat) {p q : P} {v : V}, sub n p q = true → S p v → S q v
  | 0, _, _, _, h, _ => by simp [sub] at h
  | n + 1, p, q, v, h, hS => by
    unfold sub at h
    split at h
    · cases hS
    · rename_i t u
      simp only [Bool.or_eq_true, decide_eq_true_eq] at h
      rcases h with (h | h) | h
      · subst h; exact hS
      · obtain ⟨q', h1, h2⟩ := List.any_eq_true.1 h
        exact .ref h1 (sub_sound n h2 hS)
      · cases hS with
        | ref hm hp => exact sub_sound n (List.all_eq_true.1 h _ hm) hp
    · cases hS with
      | ref hm hp => exact sub_sound n (List.all_eq_true.1 h _ hm) hp
    · obtain ⟨q', h1, h2⟩ := List.any_eq_true.1 h
      exact .ref h1 (sub_sound n h2 hS)
    · exact hS
    · exact hS
    · exact hS
    · exact hS
    · exact hS
    · exact hS
    · exact hS
    · cases hS with | strQ a h1 _ => exact .str a h1
    · exact hS
    · cases hS; exact .posnum1 _
    · cases hS; exact .posnum2 _
    · cases hS with
      | ints hm =>
        obtain ⟨y, h1, h2⟩ := List.any_eq_true.1 (List.all_eq_true.1 h _ hm)
        rw [decide_eq_true_eq] at h2
        exact .ints (h2 ▸ h1)
    · cases hS; exact .num _
    · cases hS; exact .posnum2 _
    · rename_i e ne suf e' ne'
      simp only [Bool.and_eq_true] at h
      obtain ⟨⟨h1, h2⟩, h3⟩ := h
      cases hS with
      | @vec a _ _ _ pre post g1 g2 gL =>
        have : V.vec a (pre ++ post) = .vec a ((pre ++ post) ++ []) := by simp
        rw [this]
        refine .vec a ?_ ?_ .nil
        · intro v hv
          rcases List.mem_append.1 hv with hv | hv
          · exact sub_sound n h1 (g1 v hv)
          · obtain ⟨p, hp, hp'⟩ := gL.mem hv
            exact sub_sound n (List.all_eq_true.1 h2 p hp) hp'
        · intro hne h0
          simp only [List.append_eq_nil_iff] at h0
          rw [hne] at h3
          simp only [Bool.not_true, Bool.false_or, Bool.or_eq_true] at h3
          rcases h3 with h3 | h3
          · exact g2 h3 h0.1
          · have := gL.len
            rw [h0.2] at this
            have : suf = [] := List.length_eq_zero_iff.1 this
            subst this
            simp at h3
    · rename_i e ne suf e' ne' suf' _
      simp only [Bool.and_eq_true] at h
      obtain ⟨⟨h1, h2⟩, h3⟩ := h
      cases hS with
      | @vec a _ _ _ pre post g1 g2 gL =>
        refine .vec a (fun v hv => sub_sound n h1 (g1 v hv)) ?_ (all2_sound (fun p q v _ => sub_sound n) h2 gL)
        intro hne
        rw [hne] at h3
        exact g2 (by simpa using h3)
    · simp only [Bool.and_eq_true, decide_eq_true_eq] at h
      cases hS with
      | obj a hL hg =>
        obtain ⟨h1, h2⟩ := h
        subst h1
        exact .obj a (all2_sound (fun p q v _ => sub_sound n) h2 hL) hg
    · cases hS with
      | tup hL => exact .tup (all2_sound (fun p q v _ => sub_sound n) h hL)
    · cases h
end
end Verif.Sem

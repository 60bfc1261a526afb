import Verif.Sem.Own
/-! The end of the parse: numbering the parameters. Proof-internal. -/
namespace Verif.Sem
open Verif.LR Verif.Lex

/-! ## Every expression has a number in `ival` -/

/-- A number. -/
def numP : Option P → Bool
  | some .num => true
  | some .posnum => true
  | _ => false

theorem numP_spec {o : Option P} (h : numP o = true) : ∃ p, o = some p ∧ (p = .num ∨ p = .posnum) := by
  unfold numP at h
  split at h
  · exact ⟨_, rfl, .inl rfl⟩
  · exact ⟨_, rfl, .inr rfl⟩
  · cases h

mutual
/-- Expressions described by the shape have a number in field 10. -/
def wfP : P → Bool
  | .obj c ps => wfPL ps && (if c = .Expr then numP ps[10]? else true)
  | .vec e _ suf => wfP e && wfPL suf
  | .tup ps => wfPL ps
  | _ => true
def wfPL : List P → Bool
  | [] => true
  | p :: ps => wfP p && wfPL ps
end

theorem wfPL_iff {ps : List P} : wfPL ps = true ↔ ∀ p ∈ ps, wfP p = true := by
  induction ps with
  | nil => simp [wfPL]
  | cons p ps ih => simp [wfPL, ih]

theorem alts_wf (t : Ty) : ∀ p ∈ alts t, wfP p = true := by
  have : (alts t).all wfP = true := by
    cases t
    case opt => rfl
    all_goals decide +kernel
  exact List.all_eq_true.1 this

mutual
/-- Expressions have a number in field 10. -/
def V.exprOK : V → Prop
  | .obj _ c fs => (c = .Expr → ∃ w, fs[10]? = some w ∧ w.isNum = true) ∧ exprOKL fs
  | .vec _ vs => exprOKL vs
  | .tup fs => exprOKL fs
  | _ => True
def exprOKL : List V → Prop
  | [] => True
  | v :: vs => v.exprOK ∧ exprOKL vs
end

theorem exprOKL_iff {vs : List V} : exprOKL vs ↔ ∀ v ∈ vs, v.exprOK := by
  induction vs with
  | nil => simp [exprOKL]
  | cons v vs ih => simp [exprOKL, ih]

theorem setIvalL_append (b : Nat) (n : Int) : ∀ (u v : List V), setIvalL b n (u ++ v) = setIvalL b n u ++ setIvalL b n v
  | [], v => rfl
  | x :: u, v => by simp only [List.cons_append, setIvalL, setIvalL_append b n u v]
theorem setIvalL_map (b : Nat) (n : Int) : ∀ (u : List V), setIvalL b n u = u.map (V.setIval b n)
  | [] => rfl
  | x :: u => by simp only [setIvalL, List.map_cons, setIvalL_map b n u]

section
variable {ok : Bytes → Prop} {good : List V → Prop}

theorem sat_num {p : P} {w : V} (h : Sat ok good p w) (hp : p = .num ∨ p = .posnum) : w.isNum = true := by
  rcases hp with rfl | rfl <;> cases h <;> rfl

theorem sat_set (n : Int) {p : P} {w : V} (hp : p = .num ∨ p = .posnum) : Sat ok good p (.int n) := by
  rcases hp with rfl | rfl
  · exact .num n
  · exact .posnum2 n

mutual
theorem sat_exprOK : ∀ {p : P} {v : V}, Sat ok good p v → wfP p = true → v.exprOK
  | _, _, .undef, _ => trivial
  | _, _, .null, _ => trivial
  | _, _, .num _, _ => trivial
  | _, _, .pos _, _ => trivial
  | _, _, .idx _, _ => trivial
  | _, _, .posnum1 _, _ => trivial
  | _, _, .posnum2 _, _ => trivial
  | _, _, .ints _, _ => trivial
  | _, _, .raw _, _ => trivial
  | _, _, .str _ _, _ => trivial
  | _, _, .strQ _ _ _, _ => trivial
  | _, _, .ref (t := t) hm hs, _ => sat_exprOK hs (alts_wf t _ hm)
  | _, _, .vec a h1 h2 h3, hw => by
    simp only [wfP, Bool.and_eq_true] at hw
    simp only [V.exprOK]
    rw [exprOKL_iff]
    intro v hv
    rcases List.mem_append.1 hv with hv | hv
    · exact sat_exprOK (h1 v hv) hw.1
    · exact exprOKL_iff.1 (satL_exprOK h3 hw.2) v hv
  | _, _, .obj (c := c) a h hg, hw => by
    simp only [wfP, Bool.and_eq_true] at hw
    refine ⟨?_, satL_exprOK h hw.1⟩
    intro hc
    have hw2 := hw.2
    rw [if_pos hc] at hw2
    obtain ⟨p, e, hp⟩ := numP_spec hw2
    obtain ⟨w, e1, e2⟩ := h.get e
    exact ⟨w, e1, sat_num e2 hp⟩
  | _, _, .tup h, hw => by
    simp only [wfP] at hw
    exact satL_exprOK h hw
theorem satL_exprOK : ∀ {ps : List P} {vs : List V}, SatL ok good ps vs → wfPL ps = true → exprOKL vs
  | _, _, .nil, _ => trivial
  | _, _, .cons h hs, hw => by
    simp only [wfPL, Bool.and_eq_true] at hw
    exact ⟨sat_exprOK h hw.1, satL_exprOK hs hw.2⟩
end

mutual
/-- Numbering a parameter preserves shapes. -/
theorem sat_setIval (hg' : ∀ a n fs, good fs → good (setIvalL a n fs)) (b : Nat) (n : Int) : ∀ {p : P} {v : V}, Sat ok good p v → wfP p = true → Sat ok good p (v.setIval b n)
  | _, _, .undef, _ => .undef
  | _, _, .null, _ => .null
  | _, _, .num _, _ => .num _
  | _, _, .pos _, _ => .pos _
  | _, _, .idx _, _ => .idx _
  | _, _, .posnum1 _, _ => .posnum1 _
  | _, _, .posnum2 _, _ => .posnum2 _
  | _, _, .ints h, _ => .ints h
  | _, _, .raw _, _ => .raw _
  | _, _, .str _ h, _ => .str _ h
  | _, _, .strQ _ h h', _ => .strQ _ h h'
  | _, _, .ref (t := t) hm hs, _ => .ref hm (sat_setIval hg' b n hs (alts_wf t _ hm))
  | _, _, .vec (pre := pre) (post := post) a h1 h2 h3, hw => by
    simp only [wfP, Bool.and_eq_true] at hw
    simp only [V.setIval]
    have e : setIvalL b n (pre ++ post) = setIvalL b n pre ++ setIvalL b n post := setIvalL_append b n pre post
    rw [e]
    refine .vec a ?_ ?_ (satL_setIval hg' b n h3 hw.2)
    · intro v hv
      rw [setIvalL_map] at hv
      obtain ⟨w, hw', rfl⟩ := List.mem_map.1 hv
      exact sat_setIval hg' b n (h1 w hw') hw.1
    · intro hne
      have := h2 hne
      rw [setIvalL_map]
      intro h
      exact this (List.map_eq_nil_iff.1 h)
  | _, _, .obj (c := c) (ps := ps) (fs := fs) a h hgd, hw => by
    simp only [wfP, Bool.and_eq_true] at hw
    simp only [V.setIval]
    split
    · rename_i hc
      have hw2 := hw.2
      rw [if_pos hc.2] at hw2
      refine .obj a ?_ (by intro h; rw [hc.2] at h; cases h)
      unfold newIval
      split
      · rename_i w hwf
        split
        · obtain ⟨p, e, hp⟩ := numP_spec hw2
          exact set_num e hwf hp h
        · exact h
      · exact h
    · exact .obj a (satL_setIval hg' b n h hw.1) (fun hc => hg' b n fs (hgd hc))
  | _, _, .tup h, hw => by
    simp only [wfP] at hw
    exact .tup (satL_setIval hg' b n h hw)
theorem satL_setIval (hg' : ∀ a n fs, good fs → good (setIvalL a n fs)) (b : Nat) (n : Int) : ∀ {ps : List P} {vs : List V}, SatL ok good ps vs → wfPL ps = true → SatL ok good ps (setIvalL b n vs)
  | _, _, .nil, _ => .nil
  | _, _, .cons h hs, hw => by
    simp only [wfPL, Bool.and_eq_true] at hw
    exact .cons (sat_setIval hg' b n h hw.1) (satL_setIval hg' b n hs hw.2)
theorem set_num {n : Int} {ps : List P} {p : P} {fs : List V} {w : V} (e : ps[10]? = some p) (hwf : fs[10]? = some w) (hp : p = .num ∨ p = .posnum) (h : SatL ok good ps fs) :
    SatL ok good ps (fs.set 10 (.int n)) := by
  have := h.set (p := p) (v := .int n) (sat_set (w := .null) n hp) 10
  rw [set_self ps 10 p e] at this
  exact this
end
end

/-! ## Finding and numbering parameters -/

mutual
theorem ivalAt_none (a : Nat) : ∀ (v : V), ac a v = 0 → v.ivalAt a = none
  | .obj b c fs, h => by
    rw [ac_obj] at h
    simp only [V.ivalAt]
    rw [if_neg]
    · exact ivalAtL_none a fs (by omega)
    · rintro ⟨rfl, _⟩
      simp [one] at h
  | .vec b vs, h => by
    rw [ac_vec] at h
    simp only [V.ivalAt]
    exact ivalAtL_none a vs (by omega)
  | .tup fs, h => by
    rw [ac_tup] at h
    simp only [V.ivalAt]
    exact ivalAtL_none a fs h
  | .undef, _ => rfl
  | .null, _ => rfl
  | .int _, _ => rfl
  | .pos _, _ => rfl
  | .idx _, _ => rfl
  | .raw _, _ => rfl
  | .str _ _, _ => rfl
theorem ivalAtL_none (a : Nat) : ∀ (vs : List V), acL a vs = 0 → ivalAtL a vs = none
  | [], _ => rfl
  | v :: vs, h => by
    rw [acL_cons] at h
    simp only [ivalAtL]
    rw [ivalAt_none a v (by omega)]
    exact ivalAtL_none a vs (by omega)
end

/-- How often `a` is the address of a parameter. -/
def fcL (a : Nat) (vs : List V) : Nat := ((parsL vs).map Prod.fst).count a
def fc (a : Nat) (v : V) : Nat := (v.pars.map Prod.fst).count a

theorem fcL_cons (a : Nat) (v : V) (vs : List V) : fcL a (v :: vs) = fc a v + fcL a vs := by
  simp only [fcL, fc, parsL, List.map_append, List.count_append]

theorem fc_obj (a b : Nat) (c : Cls) (fs : List V) : fc a (.obj b c fs) = (if isPar c fs then one a b else 0) + fcL a fs := by
  simp only [fc, fcL, V.pars, List.map_append, List.count_append]
  split
  · rfl
  · rfl

mutual
theorem fc_le_ac (a : Nat) : ∀ (v : V), fc a v ≤ ac a v
  | .obj b c fs => by
    rw [fc_obj, ac_obj]
    have := fcL_le_acL a fs
    split <;> omega
  | .vec b vs => by
    rw [ac_vec]
    have := fcL_le_acL a vs
    show fcL a vs ≤ _
    omega
  | .tup fs => fcL_le_acL a fs
  | .undef => Nat.zero_le _
  | .null => Nat.zero_le _
  | .int _ => Nat.zero_le _
  | .pos _ => Nat.zero_le _
  | .idx _ => Nat.zero_le _
  | .raw _ => Nat.zero_le _
  | .str _ _ => Nat.zero_le _
theorem fcL_le_acL (a : Nat) : ∀ (vs : List V), fcL a vs ≤ acL a vs
  | [] => Nat.zero_le _
  | v :: vs => by
    rw [fcL_cons, acL_cons]
    have := fc_le_ac a v
    have := fcL_le_acL a vs
    omega
end

mutual
/-- A parameter is found. -/
theorem ivalAt_some (a : Nat) : ∀ (v : V), ac a v ≤ 1 → 1 ≤ fc a v → v.exprOK → ∃ w, v.ivalAt a = some w ∧ w.isNum = true
  | .obj b c fs, h1, h2, h3 => by
    rw [ac_obj] at h1
    rw [fc_obj] at h2
    simp only [V.ivalAt]
    have hle := fcL_le_acL a fs
    split
    · rename_i hc
      exact h3.1 hc.2
    · rename_i hc
      refine ivalAtL_some a fs (by omega) ?_ h3.2
      split at h2
      · rename_i hp
        have hE : c = .Expr := by
          unfold isPar at hp
          split at hp
          · rfl
          · cases hp
        have : b ≠ a := fun h => hc ⟨h, hE⟩
        have : one a b = 0 := by simp [one, this]
        omega
      · omega
  | .vec b vs, h1, h2, h3 => by
    rw [ac_vec] at h1
    simp only [V.ivalAt]
    exact ivalAtL_some a vs (by omega) h2 h3
  | .tup fs, h1, h2, h3 => by
    rw [ac_tup] at h1
    simp only [V.ivalAt]
    exact ivalAtL_some a fs h1 h2 h3
  | .undef, _, h, _ => by simp [fc, V.pars] at h
  | .null, _, h, _ => by simp [fc, V.pars] at h
  | .int _, _, h, _ => by simp [fc, V.pars] at h
  | .pos _, _, h, _ => by simp [fc, V.pars] at h
  | .idx _, _, h, _ => by simp [fc, V.pars] at h
  | .raw _, _, h, _ => by simp [fc, V.pars] at h
  | .str _ _, _, h, _ => by simp [fc, V.pars] at h
theorem ivalAtL_some (a : Nat) : ∀ (vs : List V), acL a vs ≤ 1 → 1 ≤ fcL a vs → exprOKL vs → ∃ w, ivalAtL a vs = some w ∧ w.isNum = true
  | [], _, h, _ => by simp [fcL, parsL] at h
  | v :: vs, h1, h2, h3 => by
    rw [acL_cons] at h1
    rw [fcL_cons] at h2
    simp only [ivalAtL]
    have hle := fcL_le_acL a vs
    by_cases hv : 1 ≤ fc a v
    · obtain ⟨w, e1, e2⟩ := ivalAt_some a v (by omega) hv h3.1
      rw [e1]
      exact ⟨w, rfl, e2⟩
    · rw [ivalAt_none a v (by have := fc_le_ac a v; omega)]
      exact ivalAtL_some a vs (by omega) (by omega) h3.2
end

/-- The number, if it is one. -/
def renum (n : Int) (w : V) : V := if w.isNum then .int n else w

theorem newIval_get (n : Int) (fs : List V) : (newIval n fs)[10]? = fs[10]?.map (renum n) := by
  unfold newIval
  cases h : fs[10]? with
  | none => simp [h]
  | some w =>
    have hlt : 10 < fs.length := by
      rcases Nat.lt_or_ge 10 fs.length with h' | h'
      · exact h'
      · rw [List.getElem?_eq_none h'] at h; cases h
    cases hw : w.isNum
    · simp [hw, renum, h]
    · simp [hw, renum, List.getElem?_set_self hlt]

theorem num_ivalAt {w : V} (h : w.isNum = true) (b : Nat) : w.ivalAt b = none := by cases w <;> simp [V.isNum] at h <;> rfl

theorem ivalAtL_set (b : Nat) : ∀ (fs : List V) (i : Nat) (w x : V), fs[i]? = some w → w.ivalAt b = x.ivalAt b → ivalAtL b (fs.set i x) = ivalAtL b fs
  | [], _, _, _, h, _ => by simp at h
  | v :: vs, 0, w, x, h, hx => by simp at h; subst h; simp only [List.set_cons_zero, ivalAtL, hx]
  | v :: vs, i + 1, w, x, h, hx => by
    simp at h
    simp only [List.set_cons_succ, ivalAtL, ivalAtL_set b vs i w x h hx]

theorem ivalAtL_newIval (b : Nat) (n : Int) (fs : List V) : ivalAtL b (newIval n fs) = ivalAtL b fs := by
  unfold newIval
  split
  · rename_i w hw
    split
    · rename_i hn
      exact ivalAtL_set b fs 10 w (.int n) hw (by rw [num_ivalAt hn]; rfl)
    · rfl
  · rfl

mutual
theorem ivalAt_set (a : Nat) (n : Int) : ∀ (v : V), (v.setIval a n).ivalAt a = (v.ivalAt a).map (renum n)
  | .obj b c fs => by
    simp only [V.setIval, V.ivalAt]
    split
    · rename_i hc
      simp only [V.ivalAt, if_pos hc]
      exact newIval_get n fs
    · rename_i hc
      simp only [V.ivalAt, if_neg hc]
      exact ivalAtL_setL a n fs
  | .vec b vs => by simp only [V.setIval, V.ivalAt]; exact ivalAtL_setL a n vs
  | .tup fs => by simp only [V.setIval, V.ivalAt]; exact ivalAtL_setL a n fs
  | .undef => rfl
  | .null => rfl
  | .int _ => rfl
  | .pos _ => rfl
  | .idx _ => rfl
  | .raw _ => rfl
  | .str _ _ => rfl
theorem ivalAtL_setL (a : Nat) (n : Int) : ∀ (vs : List V), ivalAtL a (setIvalL a n vs) = (ivalAtL a vs).map (renum n)
  | [] => rfl
  | v :: vs => by
    simp only [setIvalL, ivalAtL]
    rw [ivalAt_set a n v]
    cases v.ivalAt a with
    | none => simp only [Option.map_none]; exact ivalAtL_setL a n vs
    | some w => rfl
end

theorem setIval_num {w : V} (h : w.isNum = true) (a : Nat) (n : Int) : w.setIval a n = w := by cases w <;> simp [V.isNum] at h <;> rfl

theorem setIvalL_get (a : Nat) (n : Int) (fs : List V) (i : Nat) : (setIvalL a n fs)[i]? = fs[i]?.map (V.setIval a n) := by
  rw [setIvalL_map, List.getElem?_map]

mutual
theorem ivalAt_set_ne {a b : Nat} (hab : b ≠ a) (n : Int) : ∀ (v : V), v.exprOK → (v.setIval a n).ivalAt b = v.ivalAt b
  | .obj x c fs, hok => by
    simp only [V.setIval, V.ivalAt]
    split
    · rename_i hc
      have hb : ¬ (x = b ∧ c = .Expr) := by rintro ⟨rfl, _⟩; exact hab hc.1
      simp only [V.ivalAt, if_neg hb]
      exact ivalAtL_newIval b n fs
    · rename_i hc
      simp only [V.ivalAt]
      split
      · rename_i hb
        obtain ⟨w, e1, e2⟩ := hok.1 hb.2
        rw [setIvalL_get, e1, Option.map_some, setIval_num e2]
      · exact ivalAtL_set_ne hab n fs hok.2
  | .vec _ vs, hok => by simp only [V.setIval, V.ivalAt]; exact ivalAtL_set_ne hab n vs hok
  | .tup fs, hok => by simp only [V.setIval, V.ivalAt]; exact ivalAtL_set_ne hab n fs hok
  | .undef, _ => rfl
  | .null, _ => rfl
  | .int _, _ => rfl
  | .pos _, _ => rfl
  | .idx _, _ => rfl
  | .raw _, _ => rfl
  | .str _ _, _ => rfl
theorem ivalAtL_set_ne {a b : Nat} (hab : b ≠ a) (n : Int) : ∀ (vs : List V), exprOKL vs → ivalAtL b (setIvalL a n vs) = ivalAtL b vs
  | [], _ => rfl
  | v :: vs, hok => by
    simp only [setIvalL, ivalAtL]
    rw [ivalAt_set_ne hab n v hok.1, ivalAtL_set_ne hab n vs hok.2]
end

mutual
theorem setIval_exprOK (a : Nat) (n : Int) : ∀ (v : V), v.exprOK → (v.setIval a n).exprOK
  | .obj x c fs, hok => by
    simp only [V.setIval]
    split
    · rename_i hc
      obtain ⟨w, e1, e2⟩ := hok.1 hc.2
      refine ⟨fun _ => ⟨.int n, ?_, rfl⟩, ?_⟩
      · rw [newIval_get, e1, Option.map_some, renum, if_pos e2]
      · rw [exprOKL_iff]
        intro v hv
        unfold newIval at hv
        rw [e1] at hv
        simp only [e2, if_true] at hv
        rcases List.mem_or_eq_of_mem_set hv with h | h
        · exact exprOKL_iff.1 hok.2 v h
        · subst h; trivial
    · rename_i hc
      refine ⟨fun h => ?_, setIvalL_exprOK a n fs hok.2⟩
      obtain ⟨w, e1, e2⟩ := hok.1 h
      exact ⟨w, by rw [setIvalL_get, e1, Option.map_some, setIval_num e2], e2⟩
  | .vec _ vs, hok => by simp only [V.setIval, V.exprOK]; exact setIvalL_exprOK a n vs hok
  | .tup fs, hok => by simp only [V.setIval, V.exprOK]; exact setIvalL_exprOK a n fs hok
  | .undef, _ => trivial
  | .null, _ => trivial
  | .int _, _ => trivial
  | .pos _, _ => trivial
  | .idx _, _ => trivial
  | .raw _, _ => trivial
  | .str _ _, _ => trivial
theorem setIvalL_exprOK (a : Nat) (n : Int) : ∀ (vs : List V), exprOKL vs → exprOKL (setIvalL a n vs)
  | [], _ => trivial
  | v :: vs, hok => ⟨setIval_exprOK a n v hok.1, setIvalL_exprOK a n vs hok.2⟩
end

/-! ## `addParams` -/

/-- Number the parameters in the order of the list, starting from `id`. -/
def numberL : List Nat → Nat → List V → List V
  | [], _, vs => vs
  | a :: as, id, vs => numberL as (id + 1) (setIvalL a id vs)

theorem keysOf_some {stmts : List V} : ∀ {l : List Nat}, (∀ a ∈ l, ∃ n : Int, ivalAtL a stmts = some (.int n)) → ∃ ks, keysOf stmts l = some ks ∧ ks.map Prod.snd = l
  | [], _ => ⟨[], rfl, rfl⟩
  | a :: l, h => by
    obtain ⟨n, e⟩ := h a (by simp)
    obtain ⟨ks, e1, e2⟩ := keysOf_some (l := l) (fun b hb => h b (List.mem_cons_of_mem _ hb))
    exact ⟨(n, a) :: ks, by simp only [keysOf, e, e1], by rw [List.map_cons, e2]⟩

theorem insertKey_perm (k : Int) (a : Nat) : ∀ (l : List (Int × Nat)), (insertKey k a l).Perm ((k, a) :: l)
  | [] => .refl _
  | (k', b) :: l => by
    simp only [insertKey]
    split
    · exact .refl _
    · exact ((insertKey_perm k a l).cons (k', b)).trans (.swap _ _ _)

theorem sort_perm : ∀ (ks acc : List (Int × Nat)), (ks.foldl (fun acc (x : Int × Nat) => insertKey x.1 x.2 acc) acc).Perm (ks ++ acc)
  | [], acc => .refl _
  | (k, a) :: ks, acc => by
    rw [List.foldl_cons]
    refine (sort_perm ks _).trans ?_
    refine ((insertKey_perm k a acc).append_left ks).trans ?_
    exact List.perm_middle

theorem addParameter_some {r : Res} {a : Nat} (h : ∀ b ∈ r.params ++ [a], ∃ n : Int, ivalAtL b r.stmts = some (.int n)) :
    ∃ ps, r.addParameter a = some { r with params := ps } ∧ ps.Perm (r.params ++ [a]) := by
  obtain ⟨ks, e1, e2⟩ := keysOf_some h
  unfold Res.addParameter
  rw [e1]
  refine ⟨_, rfl, ?_⟩
  have := (sort_perm ks []).map Prod.snd
  rw [List.append_nil, e2] at this
  exact this

theorem addParams_some : ∀ (l : List Nat) (id : Nat) (r : Res), exprOKL r.stmts → (∀ a ∈ l, ∃ w, ivalAtL a r.stmts = some w ∧ w.isNum = true) →
    (∀ a ∈ r.params, ∃ n : Int, ivalAtL a r.stmts = some (.int n)) →
    ∃ ps, addParams l id r = some { r with stmts := numberL l id r.stmts, params := ps } ∧ ps.Perm (r.params ++ l)
  | [], id, r, _, _, _ => ⟨r.params, rfl, by rw [List.append_nil]⟩
  | a :: l, id, r, hok, hl, hp => by
    obtain ⟨w, e1, e2⟩ := hl a (by simp)
    have hset : ∀ b, (∃ w, ivalAtL b r.stmts = some w ∧ w.isNum = true) → b = a ∨ ivalAtL b (setIvalL a id r.stmts) = ivalAtL b r.stmts := by
      intro b _
      by_cases hb : b = a
      · exact .inl hb
      · exact .inr (ivalAtL_set_ne hb id r.stmts hok)
    have ha : ivalAtL a (setIvalL a id r.stmts) = some (.int id) := by
      rw [ivalAtL_setL, e1, Option.map_some, renum, if_pos e2]
    have hp' : ∀ b ∈ r.params ++ [a], ∃ n : Int, ivalAtL b (setIvalL a id r.stmts) = some (.int n) := by
      intro b hb
      by_cases hba : b = a
      · subst hba; exact ⟨id, ha⟩
      · rw [ivalAtL_set_ne hba id r.stmts hok]
        rcases List.mem_append.1 hb with hb | hb
        · exact hp b hb
        · simp at hb; exact absurd hb hba
    obtain ⟨ps, f1, f2⟩ := addParameter_some (r := { r with stmts := setIvalL a id r.stmts }) hp'
    simp only [addParams, e1, e2, if_true, f1]
    obtain ⟨ps', g1, g2⟩ := addParams_some l (id + 1) { r with stmts := setIvalL a id r.stmts, params := ps } (setIvalL_exprOK a id _ hok)
      (by
        intro b hb
        by_cases hba : b = a
        · subst hba; exact ⟨_, ha, rfl⟩
        · show ∃ w, ivalAtL b (setIvalL a id r.stmts) = some w ∧ _
          rw [ivalAtL_set_ne hba id r.stmts hok]
          exact hl b (List.mem_cons_of_mem _ hb))
      (by
        intro b hb
        exact hp' b (f2.mem_iff.1 hb))
    refine ⟨ps', g1, ?_⟩
    refine g2.trans ?_
    refine (f2.append_right l).trans ?_
    rw [List.append_assoc]; exact .refl _

theorem insertKey_last (k : Int) (a : Nat) : ∀ (acc : List (Int × Nat)), (∀ x ∈ acc, x.1 < k) → insertKey k a acc = acc ++ [(k, a)]
  | [], _ => rfl
  | (k', b) :: l, h => by
    have := h (k', b) (by simp)
    simp only [insertKey]
    rw [if_neg (by simp only at this; omega), insertKey_last k a l (fun x hx => h x (List.mem_cons_of_mem _ hx))]; rfl

theorem sort_sorted : ∀ (ks acc : List (Int × Nat)), (acc ++ ks).Pairwise (fun x y => x.1 < y.1) →
    ks.foldl (fun acc (x : Int × Nat) => insertKey x.1 x.2 acc) acc = acc ++ ks
  | [], acc, _ => by simp
  | (k, a) :: ks, acc, h => by
    rw [List.foldl_cons]
    have h1 : ∀ x ∈ acc, x.1 < k := by
      intro x hx
      exact (List.pairwise_append.1 h).2.2 x hx (k, a) (by simp)
    rw [insertKey_last k a acc h1, sort_sorted ks (acc ++ [(k, a)]) (by rw [List.append_assoc]; exact h), List.append_assoc]; rfl

/-- The `i`-th entry of the list, counted from `k`, has number `i`. -/
def Numbered (stmts : List V) (k : Nat) (l : List Nat) : Prop := ∀ i a, l[i]? = some a → ivalAtL a stmts = some (.int ((k + i : Nat) : Int))

theorem keysOf_numbered {stmts : List V} : ∀ (l : List Nat) (k : Nat), Numbered stmts k l →
    ∃ ks, keysOf stmts l = some ks ∧ ks.map Prod.snd = l ∧ ks.Pairwise (fun x y => x.1 < y.1) ∧ ∀ x ∈ ks, (k : Int) ≤ x.1
  | [], k, _ => ⟨[], rfl, rfl, .nil, by simp⟩
  | a :: l, k, h => by
    have e : ivalAtL a stmts = some (.int (k : Int)) := h 0 a rfl
    obtain ⟨ks, e1, e2, e3, e4⟩ := keysOf_numbered l (k + 1) (fun i b hb => by
      have := h (i + 1) b (by simpa using hb)
      rw [this]; congr 3; omega)
    refine ⟨((k : Int), a) :: ks, by simp only [keysOf, e, e1], by rw [List.map_cons, e2], .cons ?_ e3, ?_⟩
    · intro x hx
      have := e4 x hx
      show (k : Int) < x.1
      omega
    · intro x hx
      rcases List.mem_cons.1 hx with rfl | hx
      · exact Int.le_refl _
      · have := e4 x hx; omega

theorem addParameter_numbered {r : Res} {a : Nat} (h : Numbered r.stmts 0 (r.params ++ [a])) : r.addParameter a = some { r with params := r.params ++ [a] } := by
  obtain ⟨ks, e1, e2, e3, _⟩ := keysOf_numbered _ 0 h
  unfold Res.addParameter
  rw [e1]
  have : ks.foldl (fun acc (x : Int × Nat) => insertKey x.1 x.2 acc) [] = ks := by rw [sort_sorted ks [] (by simpa using e3)]; rfl
  simp only [this, e2]

theorem addParams_numbered : ∀ (l : List Nat) (r : Res), exprOKL r.stmts → (r.params ++ l).Nodup → Numbered r.stmts 0 r.params → (∀ a ∈ l, ∃ w, ivalAtL a r.stmts = some w ∧ w.isNum = true) →
    addParams l r.params.length r = some { r with stmts := numberL l r.params.length r.stmts, params := r.params ++ l } ∧
      Numbered (numberL l r.params.length r.stmts) 0 (r.params ++ l)
  | [], r, _, _, hn, _ => by simp only [List.append_nil]; exact ⟨rfl, hn⟩
  | a :: l, r, hok, hnd, hn, hl => by
    obtain ⟨w, e1, e2⟩ := hl a (by simp)
    have ha : ivalAtL a (setIvalL a r.params.length r.stmts) = some (.int (r.params.length : Int)) := by
      rw [ivalAtL_setL, e1, Option.map_some, renum, if_pos e2]
    have hna : a ∉ r.params := by
      intro h
      exact (List.nodup_append.1 hnd).2.2 a h a (by simp) rfl
    have hnum : Numbered (setIvalL a r.params.length r.stmts) 0 (r.params ++ [a]) := by
      intro i b hb
      by_cases hi : i < r.params.length
      · rw [List.getElem?_append_left hi] at hb
        have hba : b ≠ a := by intro h; subst h; exact hna (List.mem_of_getElem? hb)
        rw [ivalAtL_set_ne hba _ r.stmts hok]
        exact hn i b hb
      · rw [List.getElem?_append_right (by omega)] at hb
        have h0 : i - r.params.length = 0 := by
          cases h : i - r.params.length with
          | zero => rfl
          | succ m => rw [h] at hb; simp at hb
        rw [h0] at hb
        simp at hb
        subst hb
        rw [ha]
        congr 3; omega
    have hadd := addParameter_numbered (r := { r with stmts := setIvalL a r.params.length r.stmts }) hnum
    simp only [addParams, e1, e2, if_true, hadd]
    have hnd' : (r.params ++ [a] ++ l).Nodup := by rw [List.append_assoc]; exact hnd
    have ih := addParams_numbered l { r with stmts := setIvalL a r.params.length r.stmts, params := r.params ++ [a] } (setIvalL_exprOK a _ _ hok) hnd' hnum
      (by
        intro b hb
        have hba : b ≠ a := by
          intro h; subst h
          exact (List.nodup_append.1 hnd').2.2 b (by simp) b hb rfl
        show ∃ w, ivalAtL b (setIvalL a r.params.length r.stmts) = some w ∧ _
        rw [ivalAtL_set_ne hba _ r.stmts hok]
        exact hl b (List.mem_cons_of_mem _ hb))
    simp only [List.length_append, List.length_cons, List.length_nil, Nat.zero_add, List.append_assoc, List.cons_append, List.nil_append] at ih
    exact ih

theorem numberL_addrs : ∀ (l : List Nat) (id : Nat) (vs : List V), addrsL (numberL l id vs) = addrsL vs
  | [], _, _ => rfl
  | a :: l, id, vs => by rw [numberL, numberL_addrs l, setIvalL_addrs]

theorem numberL_append : ∀ (l : List Nat) (id : Nat) (u v : List V), numberL l id (u ++ v) = numberL l id u ++ numberL l id v
  | [], _, _, _ => rfl
  | a :: l, id, u, v => by rw [numberL, setIvalL_append, numberL_append l]; rfl

theorem numberL_len : ∀ (l : List Nat) (id : Nat) (vs : List V), (numberL l id vs).length = vs.length
  | [], _, _ => rfl
  | a :: l, id, vs => by rw [numberL, numberL_len l, setIvalL_map, List.length_map]

theorem numberL_sat {ok : Bytes → Prop} {good : List V → Prop} (hg' : ∀ a n fs, good fs → good (setIvalL a n fs)) {p : P} (hp : wfP p = true) :
    ∀ (l : List Nat) (id : Nat) (vs : List V), (∀ v ∈ vs, Sat ok good p v) → ∀ v ∈ numberL l id vs, Sat ok good p v
  | [], _, _, h => h
  | a :: l, id, vs, h => by
    rw [numberL]
    refine numberL_sat hg' hp l _ _ ?_
    intro v hv
    rw [setIvalL_map] at hv
    obtain ⟨w, hw, rfl⟩ := List.mem_map.1 hv
    exact sat_setIval hg' a id (h w hw) hp

end Verif.Sem

import Verif.Sem.NumRel
/-! The values of derivations that differ in the values of the numbers only. Proof-internal. -/
namespace Verif.Sem
open Verif.Lex Verif.LR
set_option linter.unusedSimpArgs false
set_option linter.unusedVariables false

/-- A number that is no enumerator. -/
def star : Int := 1000000

/-- A value of shape `p` contains no `star`, and no `double`. -/
def P.fixed : Nat → P → Bool
  | n + 1, .ref t => (alts t).all (P.fixed n)
  | n + 1, .vec e _ suf => P.fixed n e && suf.all (P.fixed n)
  | n + 1, .obj _ fs => fs.all (P.fixed n)
  | n + 1, .tup fs => fs.all (P.fixed n)
  | _ + 1, .never => true
  | _ + 1, .undef => true
  | _ + 1, .null => true
  | _ + 1, .pos => true
  | _ + 1, .idx => true
  | _ + 1, .str => true
  | _ + 1, .strQ _ => true
  | _ + 1, .ints l => l.all fun m => !(m == star)
  | _, _ => false

/-- What is at the field `j` of a value of shape `p` contains no `star`, and no `double`. -/
def P.fixedF (j : Nat) : Nat → P → Bool
  | n + 1, .ref t => (alts t).all (P.fixedF j n)
  | n + 1, .obj _ fs => match fs[j]? with
    | some q => q.fixed n
    | none => false
  | n + 1, .tup fs => match fs[j]? with
    | some q => q.fixed n
    | none => false
  | _, _ => false

/-- The left value is the right one, with `star` in place of some numbers. -/
abbrev SR : V → V → Prop := VR (fun m n => m = n ∨ m = star) (fun _ _ => True)
abbrev SRL : List V → List V → Prop := VRL (fun m n => m = n ∨ m = star) (fun _ _ => True)

section
variable {ok : Bytes → Prop} {good : List V → Prop}

theorem satL_len : ∀ {ps : List P} {vs : List V}, SatL ok good ps vs → ps.length = vs.length
  | _, _, .nil => rfl
  | _, _, .cons _ h => by simp [satL_len h]

theorem satL_at : ∀ {ps : List P} {vs : List V}, SatL ok good ps vs → ∀ {i : Nat} {p : P}, ps[i]? = some p → ∃ v, vs[i]? = some v ∧ Sat ok good p v
  | _, _, .nil, i, p, h => by simp at h
  | _, _, .cons h1 h2, 0, p, h => by simp only [List.getElem?_cons_zero, Option.some.injEq] at h; subst h; exact ⟨_, rfl, h1⟩
  | _, _, .cons h1 h2, i + 1, p, h => by simp only [List.getElem?_cons_succ] at h ⊢; exact satL_at h2 h

theorem eqL_of {n : Nat} (hn : ∀ {p : P} {x v : V}, Sat ok good p x → p.fixed n = true → SR x v → x = v) :
    ∀ {ps : List P} {xs vs : List V}, SatL ok good ps xs → ps.all (P.fixed n) = true → SRL xs vs → xs = vs
  | _, _, _, .nil, _, .nil => rfl
  | _, _, _, .cons h1 h2, hp, .cons g1 g2 => by
    simp only [List.all_cons, Bool.and_eq_true] at hp
    rw [hn h1 hp.1 g1, eqL_of hn h2 hp.2 g2]

theorem eqL_all {n : Nat} (hn : ∀ {p : P} {x v : V}, Sat ok good p x → p.fixed n = true → SR x v → x = v) {p : P} (hp : p.fixed n = true) :
    ∀ {xs vs : List V}, (∀ x ∈ xs, Sat ok good p x) → SRL xs vs → xs = vs
  | _, _, _, .nil => rfl
  | _, _, h, .cons g1 g2 => by
    rw [hn (h _ (List.mem_cons_self)) hp g1, eqL_all hn hp (fun x hx => h x (List.mem_cons_of_mem _ hx)) g2]

theorem srl_split : ∀ {xs ys vs : List V}, SRL (xs ++ ys) vs → ∃ us ws, vs = us ++ ws ∧ SRL xs us ∧ SRL ys ws
  | [], ys, vs, h => ⟨[], vs, rfl, .nil, h⟩
  | x :: xs, ys, _, .cons h1 h2 => by
    obtain ⟨us, ws, rfl, g1, g2⟩ := srl_split h2
    exact ⟨_ :: us, ws, rfl, .cons h1 g1, g2⟩

theorem fixed_eq : ∀ (n : Nat) {p : P} {x v : V}, Sat ok good p x → p.fixed n = true → SR x v → x = v
  | 0, p, x, v, hs, hp, hr => by simp [P.fixed] at hp
  | n + 1, p, x, v, hs, hp, hr => by
    have ih : ∀ {p : P} {x v : V}, Sat ok good p x → p.fixed n = true → SR x v → x = v := fun h1 h2 h3 => fixed_eq n h1 h2 h3
    cases hs with
    | undef => cases hr; rfl
    | null => cases hr; rfl
    | num m => simp [P.fixed] at hp
    | pos m => cases hr; rfl
    | idx m => cases hr; rfl
    | posnum1 m => simp [P.fixed] at hp
    | posnum2 m => simp [P.fixed] at hp
    | ints hm =>
      cases hr with
      | int h =>
        rcases h with h | h
        · rw [h]
        · simp only [P.fixed, List.all_eq_true] at hp
          have := hp _ hm
          simp [h] at this
    | raw b => simp [P.fixed] at hp
    | str a _ => cases hr; rfl
    | strQ a _ _ => cases hr; rfl
    | ref hm h =>
      simp only [P.fixed, List.all_eq_true] at hp
      exact ih h (hp _ hm) hr
    | vec a h1 h2 h3 =>
      simp only [P.fixed, Bool.and_eq_true] at hp
      cases hr with
      | vec _ hr =>
        obtain ⟨us, ws, rfl, g1, g2⟩ := srl_split hr
        rw [eqL_all ih hp.1 h1 g1, eqL_of ih h3 hp.2 g2]
    | obj a h _ =>
      simp only [P.fixed] at hp
      cases hr with
      | obj _ _ hr => rw [eqL_of ih h hp hr]
    | tup h =>
      simp only [P.fixed] at hp
      cases hr with
      | tup hr => rw [eqL_of ih h hp hr]

theorem fixedF_eq {j : Nat} : ∀ (n : Nat) {p : P} {x v : V}, Sat ok good p x → p.fixedF j n = true → SR x v → x.get [.fld j] = v.get [.fld j]
  | 0, p, x, v, hs, hp, hr => by simp [P.fixedF] at hp
  | n + 1, p, x, v, hs, hp, hr => by
    have key : ∀ {ps : List P} {xs vs : List V}, SatL ok good ps xs → (match ps[j]? with | some q => q.fixed n | none => false) = true → SRL xs vs → xs[j]? = vs[j]? := by
      intro ps xs vs h1 h2 h3
      split at h2
      · rename_i q hq
        obtain ⟨y, g1, g2⟩ := satL_at h1 hq
        have := VRL.at h3 j
        rw [g1] at this ⊢
        cases hw : vs[j]? with
        | none => rw [hw] at this; cases this
        | some w =>
          rw [hw] at this
          cases this with
          | some h => rw [fixed_eq n g2 h2 h]
      · cases h2
    cases hs with
    | ref hm h =>
      simp only [P.fixedF, List.all_eq_true] at hp
      exact fixedF_eq n h (hp _ hm) hr
    | obj a h _ =>
      simp only [P.fixedF] at hp
      cases hr with
      | obj _ _ hr => simp only [V.get, key h hp hr]
    | tup h =>
      simp only [P.fixedF] at hp
      cases hr with
      | tup hr => simp only [V.get, key h hp hr]
    | _ => simp [P.fixedF] at hp

/-! ## The types of expressions are no numbers -/

mutual
/-- Every expression in the value has an enumerator as its type. -/
def V.typed : V → Bool
  | .obj _ c fs => (!(decide (c = .Expr)) || (match fs with | .int n :: _ => !(decide (n = star)) | _ => false)) && typedL fs
  | .vec _ vs => typedL vs
  | .tup fs => typedL fs
  | _ => true
def typedL : List V → Bool
  | [] => true
  | v :: vs => v.typed && typedL vs
end

mutual
def P.typed : P → Bool
  | .obj c fs => (!(decide (c = .Expr)) || (match fs with | .ints l :: _ => l.all fun m => !(decide (m = star)) | _ => false)) && ptypedL fs
  | .vec e _ suf => P.typed e && ptypedL suf
  | .tup fs => ptypedL fs
  | _ => true
def ptypedL : List P → Bool
  | [] => true
  | p :: ps => p.typed && ptypedL ps
end

theorem alts_typed : ∀ (t : Ty) (p : P), p ∈ alts t → p.typed = true := by
  have h : ∀ t : Ty, (alts t).all P.typed = true := by
    intro t
    cases t with
    | opt t => rfl
    | _ => decide +kernel
  intro t p hp
  exact List.all_eq_true.1 (h t) p hp

theorem syms_typed : (List.range 335).all (fun x => (symTy x).typed) = true := by decide +kernel

theorem typedL_append : ∀ (vs ws : List V), typedL (vs ++ ws) = (typedL vs && typedL ws)
  | [], ws => by simp [typedL]
  | v :: vs, ws => by simp [typedL, typedL_append vs ws, Bool.and_assoc]

theorem typedL_all : ∀ {vs : List V}, (∀ v ∈ vs, v.typed = true) → typedL vs = true
  | [], _ => rfl
  | v :: vs, h => by simp only [typedL, Bool.and_eq_true]; exact ⟨h v List.mem_cons_self, typedL_all fun w hw => h w (List.mem_cons_of_mem _ hw)⟩

mutual
theorem sat_typed : ∀ {p : P} {v : V}, Sat ok good p v → p.typed = true → v.typed = true
  | _, _, .undef, _ | _, _, .null, _ | _, _, .num _, _ | _, _, .pos _, _ | _, _, .idx _, _ | _, _, .posnum1 _, _ | _, _, .posnum2 _, _ | _, _, .ints _, _ | _, _, .raw _, _
  | _, _, .str _ _, _ | _, _, .strQ _ _ _, _ => by simp [V.typed]
  | _, _, .ref hm h, _ => sat_typed h (alts_typed _ _ hm)
  | _, _, .vec a h1 _ h3, hp => by
    simp only [P.typed, Bool.and_eq_true] at hp
    simp only [V.typed, typedL_append, Bool.and_eq_true]
    exact ⟨typedL_all fun v hv => sat_typed (h1 v hv) hp.1, satL_typed h3 hp.2⟩
  | _, _, .obj a h _, hp => by
    simp only [P.typed, Bool.and_eq_true] at hp
    simp only [V.typed, Bool.and_eq_true]
    refine ⟨?_, satL_typed h hp.2⟩
    have h1 := hp.1
    simp only [Bool.or_eq_true] at h1 ⊢
    rcases h1 with h1 | h1
    · exact .inl h1
    · right
      cases h with
      | nil => cases h1
      | cons g1 g2 =>
        cases g1 with
        | ints hm => exact List.all_eq_true.1 h1 _ hm
        | _ => cases h1
  | _, _, .tup h, hp => by
    simp only [P.typed] at hp
    simp only [V.typed]
    exact satL_typed h hp
theorem satL_typed : ∀ {ps : List P} {vs : List V}, SatL ok good ps vs → ptypedL ps = true → typedL vs = true
  | _, _, .nil, _ => rfl
  | _, _, .cons h1 h2, hp => by
    simp only [ptypedL, Bool.and_eq_true] at hp
    simp only [typedL, Bool.and_eq_true]
    exact ⟨sat_typed h1 hp.1, satL_typed h2 hp.2⟩
end
end

/-! ## The rules -/

/-- The paths among the right-hand side of rule `r` whose values contain no numbers (but enumerators). -/
def lookPaths (r : Nat) : List Path := (List.range (rhs r).length).flatMap fun i =>
  (if (symTy ((rhs r).getD i 0)).fixed 4 then [⟨i + 1, []⟩] else []) ++
    (List.range 3).flatMap fun j => if (symTy ((rhs r).getD i 0)).fixedF j 5 then [⟨i + 1, [.fld j]⟩] else []

theorem acts_see : (List.range 358).all (fun r => Nat.blt r 3 || Num.sees (lookPaths r) (act r)) = true := by decide +kernel

theorem act_sees {r : Nat} (h1 : 3 ≤ r) (h2 : r < 358) : Num.sees (lookPaths r) (act r) = true := by
  have := List.all_eq_true.1 acts_see r (List.mem_range.2 h2)
  simp only [Bool.or_eq_true] at this
  rcases this with h | h
  · have : r < 3 := by simpa using h
    omega
  · exact h

theorem getP_mkEnv {xs : List V} {i : Nat} {s : List Sel} (h : i < xs.length) : getP (mkEnv xs) ⟨i + 1, s⟩ = match xs[i]? with | some v => v.get s | none => none := by
  unfold getP mkEnv
  simp only [List.cons_append, List.getElem?_cons_succ, List.getElem?_append_left h]
  rfl

theorem look_eq {r : Nat} {xs vs : List V} (hs : SatL (fun _ => True) (fun _ => True) ((rhs r).map symTy) xs) (hr : SRL xs vs) : EqAt (lookPaths r) (mkEnv xs) (mkEnv vs) := by
  intro p hp
  unfold lookPaths at hp
  obtain ⟨i, hi, hp⟩ := List.mem_flatMap.1 hp
  have hi := List.mem_range.1 hi
  have hlx : xs.length = (rhs r).length := by have := satL_len hs; simpa using this.symm
  have hlv : vs.length = (rhs r).length := by rw [← hr.len, hlx]
  have hget : ((rhs r).map symTy)[i]? = some (symTy ((rhs r).getD i 0)) := by
    rw [List.getElem?_map, List.getD_eq_getElem?_getD, List.getElem?_eq_getElem hi]; rfl
  obtain ⟨x, hx, hsx⟩ := satL_at hs hget
  have hat := VRL.at hr i
  rw [hx] at hat
  cases hv : vs[i]? with
  | none => rw [hv] at hat; cases hat
  | some v =>
    rw [hv] at hat
    cases hat with
    | some hxv =>
      rcases List.mem_append.1 hp with hp | hp
      · split at hp
        · rename_i hf
          simp only [List.mem_singleton] at hp
          subst hp
          rw [getP_mkEnv (by omega), getP_mkEnv (by omega), hx, hv]
          simp only [V.get, fixed_eq _ hsx hf hxv]
        · cases hp
      · obtain ⟨j, _, hp⟩ := List.mem_flatMap.1 hp
        split at hp
        · rename_i hf
          simp only [List.mem_singleton] at hp
          subst hp
          rw [getP_mkEnv (by omega), getP_mkEnv (by omega), hx, hv]
          exact fixedF_eq _ hsx hf hxv
        · cases hp

theorem VRL.mkEnv {I : Int → Int → Prop} {F : Bytes → Bytes → Prop} {xs vs : List V} (h : VRL I F xs vs) : VRL I F (mkEnv xs) (mkEnv vs) := by
  unfold Sem.mkEnv
  rw [h.len]
  refine .cons .undef (VRL.append h ?_)
  generalize 11 - vs.length = n
  induction n with
  | zero => exact .nil
  | succ n ih => exact .cons .undef ih

theorem evRule_rel {I : Int → Int → Prop} {F : Bytes → Bytes → Prop} (hI : ∀ n, I n n) (hF : ∀ b, F b b) {r : Nat} (h1 : 2 ≤ r) (h2 : r < 358) {vs ws : List V}
    (hr : VRL I F vs ws) (he : EqAt (lookPaths r) (mkEnv vs) (mkEnv ws)) (s : PS) :
    OptR (fun x y => VR I F x.1 y.1 ∧ x.2 = y.2) (evRule r vs s) (evRule r ws s) := by
  by_cases h3 : r = 2
  · subst h3
    rw [evRule, evRule, if_pos rfl, if_pos rfl]
    exact .some ⟨.undef, rfl⟩
  · rw [evRule_act h1 h2 h3, evRule_act h1 h2 h3]
    have := run_num hI hF Z ⟨0, 0, 0, 0⟩ (act r) (lookPaths r) (act_sees (by omega) h2) (mkEnv vs) (mkEnv ws) (pureSt s) hr.mkEnv he
    generalize run Z ⟨0, 0, 0, 0⟩ (act r) (mkEnv vs) (pureSt s) = a at this
    generalize run Z ⟨0, 0, 0, 0⟩ (act r) (mkEnv ws) (pureSt s) = b at this
    cases this with
    | ok st h => exact .some ⟨h, rfl⟩
    | error st => exact .none
    | ub => exact .none

/-! ## Derivations -/

section
variable (I : Int → Int → Prop) (F : Bytes → Bytes → Prop)
/-- Two tokens, and the first with `star` in place of its number. -/
structure Tok3 (x t u : Tok) : Prop where
  sym1 : tsym x = tsym t
  sym2 : tsym x = tsym u
  shape : TokShape x
  v1 : SR (tokValue Z 0 x.val) (tokValue Z 0 t.val)
  v2 : SR (tokValue Z 0 x.val) (tokValue Z 0 u.val)
  v12 : VR I F (tokValue Z 0 t.val) (tokValue Z 0 u.val)

mutual
/-- Derivations of the same shape. -/
inductive Tree3 : Tree → Tree → Tree → Prop where
  | leaf {x t u : Tok} : Tok3 I F x t u → Tree3 (.leaf x) (.leaf t) (.leaf u)
  | node (r : Nat) {xs ts us : List Tree} : Tree3L xs ts us → Tree3 (.node r xs) (.node r ts) (.node r us)
inductive Tree3L : List Tree → List Tree → List Tree → Prop where
  | nil : Tree3L [] [] []
  | cons {x t u : Tree} {xs ts us : List Tree} : Tree3 x t u → Tree3L xs ts us → Tree3L (x :: xs) (t :: ts) (u :: us)
end

/-- All three are undefined, or related. -/
inductive Den3 : Option (V × PS) → Option (V × PS) → Option (V × PS) → Prop where
  | none : Den3 none none none
  | some {x v w : V} (s : PS) : SR x v → SR x w → VR I F v w → Den3 (some (x, s)) (some (v, s)) (some (w, s))
inductive Den3L : Option (List V × PS) → Option (List V × PS) → Option (List V × PS) → Prop where
  | none : Den3L none none none
  | some {xs vs ws : List V} (s : PS) : SRL xs vs → SRL xs ws → VRL I F vs ws → Den3L (some (xs, s)) (some (vs, s)) (some (ws, s))
end

section
variable {I : Int → Int → Prop} {F : Bytes → Bytes → Prop} (hI : ∀ n, I n n) (hF : ∀ b, F b b)
include hI hF

theorem evRuleN3 {r : Nat} (h1 : 2 ≤ r) (h2 : r < 358) {xs vs ws : List V} (hs : SatL (fun _ => True) (fun _ => True) ((rhs r).map symTy) xs) (g1 : SRL xs vs) (g2 : SRL xs ws)
    (g3 : VRL I F vs ws) (s : PS) : Den3 I F (evRule r xs s) (evRule r vs s) (evRule r ws s) := by
  have e1 := look_eq hs g1
  have e2 := look_eq hs g2
  have e3 : EqAt (lookPaths r) (mkEnv vs) (mkEnv ws) := fun p hp => (e1 p hp).symm.trans (e2 p hp)
  have q1 := evRule_rel (I := fun m n => m = n ∨ m = star) (F := fun _ _ => True) (fun _ => .inl rfl) (fun _ => trivial) h1 h2 g1 e1 s
  have q2 := evRule_rel (I := fun m n => m = n ∨ m = star) (F := fun _ _ => True) (fun _ => .inl rfl) (fun _ => trivial) h1 h2 g2 e2 s
  have q3 := evRule_rel hI hF h1 h2 g3 e3 s
  generalize evRule r xs s = a at *
  generalize evRule r vs s = b at *
  generalize evRule r ws s = c at *
  cases q1 with
  | none =>
    cases q2 with
    | none => exact .none
  | some q1 =>
    cases q2 with
    | some q2 =>
      cases q3 with
      | some q3 =>
        rename_i a b c
        obtain ⟨a, s1⟩ := a
        obtain ⟨b, s2⟩ := b
        obtain ⟨c, s3⟩ := c
        obtain ⟨k1, l1⟩ := q1
        obtain ⟨k2, l2⟩ := q2
        obtain ⟨k3, l3⟩ := q3
        simp only at k1 l1 k2 l2 k3 l3
        subst l1; subst l2
        exact .some _ k1 k2 k3

mutual
theorem den3 : ∀ {x t u : Tree}, Tree3 I F x t u → x.WF → (∀ m ∈ x.yield, TokShape m) → ∀ (s : PS), Den3 I F (den x s) (den t s) (den u s)
  | _, _, _, .leaf h, _, _, s => by
    simp only [den]
    exact .some s h.v1 h.v2 h.v12
  | _, _, _, .node r h, hw, hm, s => by
    have ih := den3L h hw.2.2.2 (by simpa only [Tree.yield] using hm) s
    simp only [den]
    rename_i xs ts us
    generalize hx : denL xs s = a at ih
    generalize denL ts s = b at ih
    generalize denL us s = c at ih
    cases ih with
    | none => exact .none
    | some s' g1 g2 g3 =>
      have := denL_sat (ok := fun _ => True) hw.2.2.2 (fun m h => ⟨hm m (by simpa only [Tree.yield] using h), fun _ _ => trivial⟩) hx
      rw [hw.2.2.1] at this
      exact evRuleN3 hI hF hw.1 (by have := hw.2.1; rwa [rules_len] at this) this g1 g2 g3 s'
theorem den3L : ∀ {xs ts us : List Tree}, Tree3L I F xs ts us → WFL xs → (∀ m ∈ yieldL xs, TokShape m) → ∀ (s : PS), Den3L I F (denL xs s) (denL ts s) (denL us s)
  | _, _, _, .nil, _, _, s => by
    simp only [denL]
    exact .some s .nil .nil .nil
  | _, _, _, .cons h1 h2, hw, hm, s => by
    rename_i x t u xs ts us
    have i1 := den3 h1 hw.1 (fun m h => hm m (by simp [yieldL, h])) s
    simp only [denL]
    generalize den x s = a at i1
    generalize den t s = b at i1
    generalize den u s = c at i1
    cases i1 with
    | none => exact .none
    | some s' g1 g2 g3 =>
      simp only []
      have i2 := den3L h2 hw.2 (fun m h => hm m (by simp [yieldL, h])) s'
      generalize denL xs s' = a at i2
      generalize denL ts s' = b at i2
      generalize denL us s' = c at i2
      cases i2 with
      | none => exact .none
      | some s'' k1 k2 k3 => exact .some s'' (.cons g1 k1) (.cons g2 k2) (.cons g3 k3)
end

/-! ## The numbering of the parameters -/

omit hI hF in
theorem numOf_rel {a b : Option V} (h : OptR (VR I F) a b) : numOf a = numOf b := by
  cases h with
  | none => rfl
  | some h => cases h <;> rfl

omit hF in
theorem newIval_rel {n : Int} {vs ws : List V} (h : VRL I F vs ws) : VRL I F (newIval n vs) (newIval n ws) := by
  unfold newIval
  ocases (VRL.at h 10) with h1
  · exact h
  · have : x1.isNum = x2.isNum := by cases h1 <;> rfl
    rw [this]
    split
    · exact VRL.set h 10 (.int (hI n))
    · exact h

omit hI hF in
theorem isPar3 {c : Cls} {xs vs ws : List V} (ht : (!(decide (c = .Expr)) || (match xs with | .int n :: _ => !(decide (n = star)) | _ => false)) = true) (g1 : SRL xs vs) (g2 : SRL xs ws) :
    isPar c vs = isPar c ws := by
  by_cases hc : c = .Expr
  · subst hc
    simp only [decide_true, Bool.not_true, Bool.false_or] at ht
    split at ht
    · rename_i n fs
      have hn : n ≠ star := by simpa using ht
      cases g1 with
      | cons a1 b1 =>
        cases g2 with
        | cons a2 b2 =>
          cases a1 with
          | int a1 =>
            cases a2 with
            | int a2 =>
              rcases a1 with a1 | a1
              · rcases a2 with a2 | a2
                · subst a1; subst a2; rfl
                · exact absurd a2 hn
              · exact absurd a1 hn
    · cases ht
  · have : ∀ fs, isPar c fs = false := by
      intro fs
      unfold isPar
      split
      · exact absurd rfl hc
      · rfl
    rw [this, this]

mutual
theorem fill3 : ∀ {x v w : V}, SR x v → SR x w → VR I F v w → x.typed = true → VR I F v.fill w.fill
  | _, _, _, g1, g2, .undef, _ => by simp only [V.fill]; exact .undef
  | _, _, _, g1, g2, .null, _ => by simp only [V.fill]; exact .null
  | _, _, _, g1, g2, .int h, _ => by simp only [V.fill]; exact .int h
  | _, _, _, g1, g2, .pos _, _ => by simp only [V.fill]; exact .pos _
  | _, _, _, g1, g2, .idx _, _ => by simp only [V.fill]; exact .idx _
  | _, _, _, g1, g2, .raw h, _ => by simp only [V.fill]; exact .raw h
  | _, _, _, g1, g2, .str _ _, _ => by simp only [V.fill]; exact .str _ _
  | _, _, _, .vec _ g1, .vec _ g2, .vec a g3, ht => by
    simp only [V.typed] at ht
    simp only [V.fill]
    exact .vec a (fill3L g1 g2 g3 ht)
  | _, _, _, .tup g1, .tup g2, .tup g3, ht => by
    simp only [V.typed] at ht
    simp only [V.fill]
    exact .tup (fill3L g1 g2 g3 ht)
  | _, _, _, .obj _ _ g1, .obj _ _ g2, .obj a c g3, ht => by
    simp only [V.typed, Bool.and_eq_true] at ht
    simp only [V.fill]
    have key := fill3L g1 g2 g3 ht.2
    rw [isPar3 ht.1 g1 g2, show parKey _ = parKey _ from numOf_rel (VRL.at g3 11)]
    split
    · exact .obj a c (newIval_rel hI key)
    · exact .obj a c key
theorem fill3L : ∀ {xs vs ws : List V}, SRL xs vs → SRL xs ws → VRL I F vs ws → typedL xs = true → VRL I F (fillL vs) (fillL ws)
  | _, _, _, _, _, .nil, _ => .nil
  | _, _, _, .cons g1 h1, .cons g2 h2, .cons g3 h3, ht => by
    simp only [typedL, Bool.and_eq_true] at ht
    simp only [fillL]
    exact .cons (fill3 g1 g2 g3 ht.1) (fill3L h1 h2 h3 ht.2)
end

omit hI hF in
theorem symTy_typed (x : Nat) : (symTy x).typed = true := by
  by_cases h : x < 335
  · exact List.all_eq_true.1 syms_typed x (List.mem_range.2 h)
  · have : symTy x = .undef := by
      unfold symTy
      rw [if_neg (by show x ≠ 3; omega), if_neg (by show x ≠ 4; omega), if_neg (by show x ≠ 5; omega), if_neg (by show x ≠ 6; omega), if_neg (by show x ≠ 0; omega), if_neg (by omega), if_neg (by omega)]
      rw [List.getD_eq_getElem?_getD, List.getElem?_eq_none (by have := congrArg List.length ntTypes_keys; simp at this; omega)]
      rfl
    rw [this]; rfl

/-- The statements that derivations stand for which differ in numbers only. -/
theorem denInput3 {x t u : Tree} (h : Tree3 I F x t u) (hw : x.WF) (hm : ∀ m ∈ x.yield, TokShape m) : OptR (VRL I F) (denInput t) (denInput u) := by
  cases h with
  | leaf h => exact .none
  | node r h =>
    rename_i xs ts us
    have hm' : ∀ m ∈ yieldL xs, TokShape m := by simpa only [Tree.yield] using hm
    have ih := den3L hI hF h hw.2.2.2 hm' ⟨0, false⟩
    simp only [denInput]
    generalize hx : denL xs ⟨0, false⟩ = a at ih
    generalize denL ts ⟨0, false⟩ = b at ih
    generalize denL us ⟨0, false⟩ = c at ih
    cases ih with
    | none => exact .none
    | some s g1 g2 g3 =>
      have hs := denL_sat (ok := fun _ => True) hw.2.2.2 (fun m h => ⟨hm' m h, fun _ _ => trivial⟩) hx
      cases g3 with
      | nil => exact .none
      | cons k3 l3 =>
        cases g1 with
        | cons k1 l1 =>
          cases g2 with
          | cons k2 l2 =>
            cases k3 with
            | vec a k3 =>
              cases k1 with
              | vec _ k1 =>
                cases k2 with
                | vec _ k2 =>
                  refine .some (fill3L hI hF k1 k2 k3 ?_)
                  have hty : ∀ {ps : List P} {y : V} {ys : List V}, (∀ p ∈ ps, p.typed = true) → SatL (fun _ => True) (fun _ => True) ps (y :: ys) → y.typed = true := by
                    intro ps y ys hps h
                    cases h with
                    | cons h1 h2 => exact sat_typed h1 (hps _ List.mem_cons_self)
                  have := hty (fun p hp => by obtain ⟨s, _, rfl⟩ := List.mem_map.1 hp; exact symTy_typed s) hs
                  simpa only [V.typed] using this
            | _ => exact .none
end

end Verif.Sem

import Verif.Sem.Erase
import Verif.Sem.DenType
/-!
# The actions do not look at numbers

Two runs of an action on values that differ in numbers only, and not in the numbers the action looks at, have results that differ in numbers only. Proof-internal, but for `VR`.
-/
namespace Verif.Sem
open Verif.Lex Verif.LR
set_option linter.unusedSimpArgs false
set_option linter.unusedVariables false

section
variable (I : Int → Int → Prop) (F : Bytes → Bytes → Prop)
mutual
/-- The values are equal, except that numbers may be replaced by numbers related by `I`, and the texts of `double`s by texts related by `F`. -/
inductive VR : V → V → Prop where
  | undef : VR .undef .undef
  | null : VR .null .null
  | int {m n : Int} : I m n → VR (.int m) (.int n)
  | pos (n : Int) : VR (.pos n) (.pos n)
  | idx (n : Nat) : VR (.idx n) (.idx n)
  | raw {b c : Bytes} : F b c → VR (.raw b) (.raw c)
  | str (a : Nat) (b : Bytes) : VR (.str a b) (.str a b)
  | vec (a : Nat) {vs ws : List V} : VRL vs ws → VR (.vec a vs) (.vec a ws)
  | obj (a : Nat) (c : Cls) {vs ws : List V} : VRL vs ws → VR (.obj a c vs) (.obj a c ws)
  | tup {vs ws : List V} : VRL vs ws → VR (.tup vs) (.tup ws)
inductive VRL : List V → List V → Prop where
  | nil : VRL [] []
  | cons {v w : V} {vs ws : List V} : VR v w → VRL vs ws → VRL (v :: vs) (w :: ws)
end
end

/-- Both undefined, or both defined and related. -/
inductive OptR {α β : Type} (R : α → β → Prop) : Option α → Option β → Prop where
  | none : OptR R none none
  | some {a : α} {b : β} : R a b → OptR R (some a) (some b)

theorem OptR.split {α β : Type} {R : α → β → Prop} {x : Option α} {y : Option β} (h : OptR R x y) : (x = .none ∧ y = .none) ∨ ∃ a b, x = .some a ∧ y = .some b ∧ R a b := by
  cases h with
  | none => exact .inl ⟨rfl, rfl⟩
  | some h => exact .inr ⟨_, _, rfl, rfl, h⟩

set_option hygiene false in
macro "ocases " "(" t:term ")" " with " h:ident : tactic => `(tactic| (rcases OptR.split $t with ⟨q1, q2⟩ | ⟨x1, x2, q1, q2, $h:ident⟩ <;> simp only [q1, q2]))

section
variable {I : Int → Int → Prop} {F : Bytes → Bytes → Prop}

theorem VRL.len : ∀ {vs ws : List V}, VRL I F vs ws → vs.length = ws.length
  | _, _, .nil => rfl
  | _, _, .cons _ h => by simp [VRL.len h]

theorem VRL.at : ∀ {vs ws : List V}, VRL I F vs ws → ∀ (i : Nat), OptR (VR I F) vs[i]? ws[i]?
  | _, _, .nil, i => by simp only [List.getElem?_nil]; exact .none
  | _, _, .cons h _, 0 => by simp only [List.getElem?_cons_zero]; exact .some h
  | _, _, .cons _ h, i + 1 => by simp only [List.getElem?_cons_succ]; exact VRL.at h i

theorem VRL.set : ∀ {vs ws : List V}, VRL I F vs ws → ∀ (i : Nat) {x y : V}, VR I F x y → VRL I F (vs.set i x) (ws.set i y)
  | _, _, .nil, i, _, _, _ => .nil
  | _, _, .cons _ h, 0, _, _, hx => .cons hx h
  | _, _, .cons h1 h, i + 1, _, _, hx => .cons h1 (VRL.set h i hx)

theorem VRL.append : ∀ {vs ws vs' ws' : List V}, VRL I F vs ws → VRL I F vs' ws' → VRL I F (vs ++ vs') (ws ++ ws')
  | _, _, _, _, .nil, h => h
  | _, _, _, _, .cons h1 h2, h => .cons h1 (VRL.append h2 h)

theorem VRL.last : ∀ {vs ws : List V}, VRL I F vs ws → OptR (VR I F) vs.getLast? ws.getLast?
  | _, _, .nil => .none
  | _, _, .cons h .nil => .some h
  | _, _, .cons _ (.cons h1 h2) => by
    rw [List.getLast?_cons_cons, List.getLast?_cons_cons]
    exact VRL.last (.cons h1 h2)

theorem VRL.dropLast : ∀ {vs ws : List V}, VRL I F vs ws → VRL I F vs.dropLast ws.dropLast
  | _, _, .nil => .nil
  | _, _, .cons h .nil => .nil
  | _, _, .cons h (.cons h1 h2) => by
    simp only [List.dropLast_cons_cons]
    exact .cons h (VRL.dropLast (.cons h1 h2))

theorem VRL.filter {q : V → Bool} (hq : ∀ {v w : V}, VR I F v w → q v = q w) : ∀ {vs ws : List V}, VRL I F vs ws → VRL I F (vs.filter q) (ws.filter q)
  | _, _, .nil => .nil
  | v :: vs, w :: ws, .cons h h2 => by
    have e := hq h
    by_cases hv : q v = true
    · rw [List.filter_cons_of_pos hv, List.filter_cons_of_pos (e ▸ hv)]
      exact .cons h (VRL.filter hq h2)
    · rw [List.filter_cons_of_neg hv, List.filter_cons_of_neg (e ▸ hv)]
      exact VRL.filter hq h2

mutual
theorem VR.refl (hI : ∀ n, I n n) (hF : ∀ b, F b b) : ∀ (v : V), VR I F v v
  | .undef => .undef
  | .null => .null
  | .int n => .int (hI n)
  | .pos n => .pos n
  | .idx n => .idx n
  | .raw b => .raw (hF b)
  | .str a b => .str a b
  | .vec a vs => .vec a (VRL.refl hI hF vs)
  | .obj a c fs => .obj a c (VRL.refl hI hF fs)
  | .tup fs => .tup (VRL.refl hI hF fs)
theorem VRL.refl (hI : ∀ n, I n n) (hF : ∀ b, F b b) : ∀ (vs : List V), VRL I F vs vs
  | [] => .nil
  | v :: vs => .cons (VR.refl hI hF v) (VRL.refl hI hF vs)
end

mutual
theorem VR.addrs : ∀ {v w : V}, VR I F v w → v.addrs = w.addrs
  | _, _, .undef | _, _, .null | _, _, .int _ | _, _, .pos _ | _, _, .idx _ | _, _, .raw _ | _, _, .str _ _ => rfl
  | _, _, .vec a h => by simp only [V.addrs, VRL.addrs h]
  | _, _, .obj a c h => by simp only [V.addrs, VRL.addrs h]
  | _, _, .tup h => by simp only [V.addrs, VRL.addrs h]
theorem VRL.addrs : ∀ {vs ws : List V}, VRL I F vs ws → addrsL vs = addrsL ws
  | _, _, .nil => rfl
  | _, _, .cons h1 h2 => by simp only [addrsL, VR.addrs h1, VRL.addrs h2]
end

mutual
theorem VR.treat : ∀ {v w : V}, VR I F v w → ∀ (k : How), treat k v = treat k w
  | _, _, .undef, k | _, _, .null, k | _, _, .pos _, k | _, _, .idx _, k | _, _, .str _ _, k => rfl
  | _, _, .int _, k => by cases k <;> simp only [Sem.treat, V.addrs]
  | _, _, .raw _, k => by cases k <;> simp only [Sem.treat, V.addrs]
  | _, _, .vec a h, k => by cases k <;> simp only [Sem.treat, V.addrs, VRL.addrs h, VRL.treatEl h]
  | _, _, .obj a c h, k => by cases k <;> simp only [Sem.treat, V.addrs, VRL.addrs h, VRL.treatFs h]
  | _, _, .tup h, k => by cases k <;> simp only [Sem.treat, V.addrs, VRL.addrs h, VRL.treatFs h]
theorem VRL.treatFs : ∀ {vs ws : List V}, VRL I F vs ws → ∀ (hs : List How), treatFs hs vs = treatFs hs ws
  | _, _, .nil, hs => rfl
  | _, _, .cons h1 h2, [] => by simp only [Sem.treatFs]
  | _, _, .cons h1 h2, k :: hs => by simp only [Sem.treatFs, VR.treat h1, VRL.treatFs h2]
theorem VRL.treatEl : ∀ {vs ws : List V}, VRL I F vs ws → ∀ (e : How), treatEl e vs = treatEl e ws
  | _, _, .nil, e => rfl
  | _, _, .cons h1 h2, e => by simp only [Sem.treatEl, VR.treat h1, VRL.treatEl h2]
end

theorem VR.isUndef {v w : V} (h : VR I F v w) : v.isUndef = w.isUndef := by cases h <;> rfl
theorem VR.addr {v w : V} (h : VR I F v w) : v.addr? = w.addr? := by cases h <;> rfl
theorem VR.isCol {v w : V} (h : VR I F v w) : isColumnDef v = isColumnDef w := by
  cases h <;> first | rfl | (rename_i c _ _ _; cases c <;> rfl)
theorem VR.isCons {v w : V} (h : VR I F v w) : isConstraint v = isConstraint w := by
  cases h <;> first | rfl | (rename_i c _ _ _; cases c <;> rfl)

theorem get_rel : ∀ (p : List Sel) {v w : V}, VR I F v w → OptR (VR I F) (v.get p) (w.get p)
  | [], _, _, h => by simp only [V.get]; exact .some h
  | .fld i :: p, _, _, h => by
    cases h with
    | obj a c h =>
      simp only [V.get]
      ocases (VRL.at h i) with h
      · exact .none
      · exact get_rel p h
    | tup h =>
      simp only [V.get]
      ocases (VRL.at h i) with h
      · exact .none
      · exact get_rel p h
    | _ => exact .none
  | .back :: p, _, _, h => by
    cases h with
    | vec a h =>
      simp only [V.get]
      ocases (VRL.last h) with h
      · exact .none
      · exact get_rel p h
    | _ => exact .none

theorem put_rel : ∀ (p : List Sel) {v w x y : V}, VR I F v w → VR I F x y → OptR (VR I F) (v.put p x) (w.put p y)
  | [], _, _, _, _, h, hx => by simp only [V.put]; exact .some hx
  | .fld i :: p, _, _, x, y, h, hx => by
    cases h with
    | obj a c h =>
      simp only [V.put]
      ocases (VRL.at h i) with h1
      · exact .none
      · skip
        ocases (put_rel p h1 hx) with h2
        · exact .none
        · exact .some (.obj a c (VRL.set h i h2))
    | tup h =>
      simp only [V.put]
      ocases (VRL.at h i) with h1
      · exact .none
      · skip
        ocases (put_rel p h1 hx) with h2
        · exact .none
        · exact .some (.tup (VRL.set h i h2))
    | _ => exact .none
  | .back :: p, _, _, x, y, h, hx => by
    cases h with
    | vec a h =>
      simp only [V.put]
      ocases (VRL.last h) with h1
      · exact .none
      · skip
        ocases (put_rel p h1 hx) with h2
        · exact .none
        · exact .some (.vec a (VRL.append (VRL.dropLast h) (.cons h2 .nil)))
    | _ => exact .none

theorem getP_rel {e e' : List V} (h : VRL I F e e') (p : Path) : OptR (VR I F) (getP e p) (getP e' p) := by
  unfold getP
  ocases (VRL.at h p.var) with h
  · exact .none
  · exact get_rel _ h

theorem putP_rel {e e' : List V} (h : VRL I F e e') (p : Path) {x y : V} (hx : VR I F x y) : OptR (VRL I F) (putP e p x) (putP e' p y) := by
  unfold putP
  ocases (VRL.at h p.var) with h1
  · exact .none
  · skip
    ocases (put_rel p.sels h1 hx) with h2
    · exact .none
    · exact .some (VRL.set h _ h2)

end

/-! ## Paths at which both environments have the same value -/

def EqAt (es : List Path) (e e' : List V) : Prop := ∀ p ∈ es, getP e p = getP e' p

/-- Assigning at `p` does not change what is at `q`. -/
def apart (p q : Path) : Bool := q.var != p.var || (match q.sels, p.sels with
  | .fld i :: _, .fld j :: _ => i != j
  | _, _ => false)

theorem get_put_ne {i j : Nat} (h : i ≠ j) (s u : List Sel) {v v' x : V} (hp : v.put (.fld j :: u) x = some v') : v'.get (.fld i :: s) = v.get (.fld i :: s) := by
  cases v with
  | obj a c fs =>
    simp only [V.put] at hp
    split at hp
    · split at hp
      · cases hp
        simp only [V.get, List.getElem?_set_ne (Ne.symm h)]
      · cases hp
    · cases hp
  | tup fs =>
    simp only [V.put] at hp
    split at hp
    · split at hp
      · cases hp
        simp only [V.get, List.getElem?_set_ne (Ne.symm h)]
      · cases hp
    · cases hp
  | _ => simp [V.put] at hp

theorem getP_putP_apart {env env' : List V} {p q : Path} {x : V} (h : putP env p x = some env') (ha : apart p q = true) : getP env' q = getP env q := by
  by_cases hv : q.var = p.var
  · unfold apart at ha
    simp only [hv, bne_self_eq_false, Bool.false_or] at ha
    obtain ⟨pv, ps⟩ := p
    obtain ⟨qv, qs⟩ := q
    simp only at hv ha
    subst hv
    split at ha
    · rename_i i s j u
      have hne : i ≠ j := by simpa using ha
      unfold putP at h
      unfold getP
      simp only at h ⊢
      cases hv : env[qv]? with
      | none => rw [hv] at h; cases h
      | some v =>
        rw [hv] at h
        simp only at h
        cases hp : v.put (.fld j :: u) x with
        | none => rw [hp] at h; cases h
        | some v' =>
          rw [hp] at h
          cases h
          have hlt : qv < env.length := (List.getElem?_eq_some_iff.1 hv).1
          simp only [hlt, List.getElem?_set_self]
          exact get_put_ne hne s u hp
    · cases ha
  · exact getP_putP_ne h hv

theorem EqAt.put {es : List Path} {e e' d d' : List V} (h : EqAt es e e') {p : Path} {x y : V} (h1 : putP e p x = some d) (h2 : putP e' p y = some d') : EqAt (es.filter (apart p)) d d' := by
  intro q hq
  obtain ⟨m, ha⟩ := List.mem_filter.1 hq
  rw [getP_putP_apart h1 ha, getP_putP_apart h2 ha]
  exact h q m

theorem EqAt.at {es : List Path} {e e' : List V} (h : EqAt es e e') {p : Path} (hp : es.contains p = true) : getP e p = getP e' p := h p (by simpa using hp)

theorem get_put : ∀ (s : List Sel) {v v' x : V}, v.put s x = some v' → v'.get s = some x
  | [], v, v', x, h => by simp only [V.put, Option.some.injEq] at h; rw [V.get, h]
  | .fld i :: s, v, v', x, h => by
    cases v with
    | obj a c fs =>
      simp only [V.put] at h
      split at h
      · rename_i w hw
        split at h
        · rename_i w' hp
          cases h
          have hlt := (List.getElem?_eq_some_iff.1 hw).1
          simp only [V.get, List.getElem?_set_self hlt]
          exact get_put s hp
        · cases h
      · cases h
    | tup fs =>
      simp only [V.put] at h
      split at h
      · rename_i w hw
        split at h
        · rename_i w' hp
          cases h
          have hlt := (List.getElem?_eq_some_iff.1 hw).1
          simp only [V.get, List.getElem?_set_self hlt]
          exact get_put s hp
        · cases h
      · cases h
    | _ => simp [V.put] at h
  | .back :: s, v, v', x, h => by
    cases v with
    | vec a vs =>
      simp only [V.put] at h
      split at h
      · split at h
        · rename_i w' hp
          cases h
          simp only [V.get, List.getLast?_concat]
          exact get_put s hp
        · cases h
      · cases h
    | _ => simp [V.put] at h

theorem getP_putP_same {env env' : List V} {p : Path} {x : V} (h : putP env p x = some env') : getP env' p = some x := by
  unfold putP at h
  unfold getP
  cases hv : env[p.var]? with
  | none => rw [hv] at h; cases h
  | some v =>
    rw [hv] at h
    simp only at h
    cases hp : v.put p.sels x with
    | none => rw [hp] at h; cases h
    | some v' =>
      rw [hp] at h
      cases h
      have hlt : p.var < env.length := (List.getElem?_eq_some_iff.1 hv).1
      simp only [hlt, List.getElem?_set_self]
      exact get_put _ hp

/-! ## Which paths the actions look at -/

namespace Num
def ok (es : List Path) : Atom → Bool
  | .dur p => es.contains p
  | .unit p => es.contains p
  | _ => true
/-- The paths still known after evaluation. -/
def next (es : List Path) : Atom → List Path
  | .mv q => es.filter (apart q)
  | _ => es
/-- The values are known to be the same. -/
def fix (es : List Path) : Atom → Bool
  | .mv q => es.contains q
  | .cp q => es.contains q
  | _ => true
def oks : List Path → List Atom → Bool
  | _, [] => true
  | es, a :: as => ok es a && oks (next es a) as
def nexts : List Path → List Atom → List Path
  | es, [] => es
  | es, a :: as => nexts (next es a) as
def fixes : List Path → List Atom → List Bool
  | _, [] => []
  | es, a :: as => fix es a :: fixes (next es a) as
def okR (es : List Path) : Rv → Bool
  | .atom a => ok es a
  | .obj _ fs => oks es fs
  | .vec vs => oks es vs
  | .tup fs => oks es fs
def nextR (es : List Path) : Rv → List Path
  | .atom a => next es a
  | .obj _ fs => nexts es fs
  | .vec vs => nexts es vs
  | .tup fs => nexts es fs
/-- The paths known after assigning to `p`. -/
def adds (p : Path) (es : List Path) : Rv → List Path
  | .atom a => if fix es a then [p] else []
  | .obj _ fs => if p.sels.isEmpty then flagged p.var 0 (fixes es fs) else []
  | .vec [] => [p]
  | _ => []
def okC (es : List Path) : Cond → Bool
  | .null _ => true
  | .err => true
  | .eq p _ => es.contains p
  | .has p _ => es.contains p
  | .strIs p _ => es.contains p
  | .dateOk p => es.contains p
  | .durOk p => es.contains p
  | .durUnitOk p => es.contains p

/-- What the program looks at is, at the beginning, at paths among `es`. -/
def sees : List Path → Prog → Bool
  | _, .ret => true
  | _, .fail => true
  | es, .set p e k => okR es e && sees ((nextR es e).filter (apart p) ++ adds p es e) k
  | es, .push p e k => ok es e && sees ((next es e).filter (apart p)) k
  | es, .insert p e k => ok es e && fix es e && (next es e).contains p && sees ((next es e).filter (apart p) ++ [p]) k
  | es, .del p k => sees (es.filter (apart p)) k
  | es, .free p k => sees (es.filter (apart p)) k
  | es, .ite c t e => okC es c && sees es t && sees es e
  | es, .err _ k => sees es k
  | es, .errName _ p k => es.contains p && sees es k
  | es, .zeroLen k => sees es k
  | es, .regParam _ k => sees es k
  | es, .split p q k => sees (((es.filter (apart q)).filter (apart ⟨p.var, p.sels ++ [.fld 10]⟩)).filter (apart ⟨p.var, p.sels ++ [.fld 11]⟩)) k
  | _, .finish => false
end Num

section
variable {I : Int → Int → Prop} {F : Bytes → Bytes → Prop} (hI : ∀ n, I n n) (hF : ∀ b, F b b)
include hI hF

theorem atom_rel {a : Atom} {es : List Path} {e e' : List V} (hr : VRL I F e e') (he : EqAt es e e') (ho : Num.ok es a = true) (st : St) :
    OptR (fun x y => VR I F x.1 y.1 ∧ VRL I F x.2 y.2 ∧ EqAt (Num.next es a) x.2 y.2 ∧ (Num.fix es a = true → x.1 = y.1)) (evalAtom a e st) (evalAtom a e' st) := by
  cases a with
  | null => exact .some ⟨.null, hr, he, fun _ => rfl⟩
  | int n => exact .some ⟨.int (hI n), hr, he, fun _ => rfl⟩
  | undef => exact .some ⟨.undef, hr, he, fun _ => rfl⟩
  | unknownType => exact .some ⟨VR.refl hI hF _, hr, he, fun _ => rfl⟩
  | strLen => exact .some ⟨.pos _, hr, he, fun _ => rfl⟩
  | totalCol => exact .some ⟨.pos _, hr, he, fun _ => rfl⟩
  | nParams => exact .some ⟨.idx _, hr, he, fun _ => rfl⟩
  | cp p =>
    have hfix : Num.fix es (.cp p) = true → getP e p = getP e' p := fun h => he.at h
    simp only [evalAtom]
    cases h1 : getP e p with
    | none =>
      have := getP_rel hr p
      rw [h1] at this
      cases h2 : getP e' p with
      | none => exact .none
      | some y => rw [h2] at this; cases this
    | some x =>
      have := getP_rel hr p
      rw [h1] at this hfix
      cases h2 : getP e' p with
      | none => rw [h2] at this; cases this
      | some y =>
        rw [h2] at this hfix
        cases this with
        | some hv => cases hv with
          | int hv => exact .some ⟨.int hv, hr, he, fun h => by have := hfix h; injection this⟩
          | raw hv => exact .some ⟨.raw hv, hr, he, fun h => by have := hfix h; injection this⟩
          | _ => exact .none
  | mv p =>
    have hfix : Num.fix es (.mv p) = true → getP e p = getP e' p := fun h => he.at h
    simp only [evalAtom]
    have := getP_rel hr p
    cases h1 : getP e p with
    | none =>
      rw [h1] at this
      cases h2 : getP e' p with
      | none => exact .none
      | some y => rw [h2] at this; cases this
    | some x =>
      rw [h1] at this hfix
      cases h2 : getP e' p with
      | none => rw [h2] at this; cases this
      | some y =>
        rw [h2] at this hfix
        cases this with
        | some hv =>
          simp only []
          rw [hv.isUndef]
          split
          · exact .none
          · have hq := putP_rel hr p (VR.undef (I := I) (F := F))
            cases h3 : putP e p .undef with
            | none =>
              rw [h3] at hq
              cases h4 : putP e' p .undef with
              | none => exact .none
              | some d' => rw [h4] at hq; cases hq
            | some d =>
              rw [h3] at hq
              cases h4 : putP e' p .undef with
              | none => rw [h4] at hq; cases hq
              | some d' =>
                rw [h4] at hq
                cases hq with
                | some hq => exact .some ⟨hv, hq, he.put h3 h4, fun h => by have := hfix h; injection this⟩
  | dur p =>
    have h := he.at (p := p) ho
    have h' : strAt e p = strAt e' p := by unfold strAt; rw [h]
    simp only [evalAtom, ← h']
    cases strAt e p with
    | none => exact .none
    | some b =>
      simp only []
      cases scanD none b with
      | none => exact .none
      | some x => exact .some ⟨.int (hI _), hr, he, fun _ => rfl⟩
  | unit p =>
    have h := he.at (p := p) ho
    have h' : strAt e p = strAt e' p := by unfold strAt; rw [h]
    simp only [evalAtom, ← h']
    cases strAt e p with
    | none => exact .none
    | some b =>
      simp only []
      cases scanUnit b with
      | none => exact .none
      | some x => exact .some ⟨.raw (hF _), hr, he, fun _ => rfl⟩

theorem atoms_rel : ∀ {as : List Atom} {es : List Path} {e e' : List V}, VRL I F e e' → EqAt es e e' → Num.oks es as = true → ∀ (st : St),
    OptR (fun (x y : List V × List V) => VRL I F x.1 y.1 ∧ VRL I F x.2 y.2 ∧ EqAt (Num.nexts es as) x.2 y.2 ∧ ∀ (i : Nat), (Num.fixes es as)[i]? = some true → x.1[i]? = y.1[i]?) (evalAtoms as e st) (evalAtoms as e' st)
  | [], es, e, e', hr, he, _, st => by
    simp only [evalAtoms]
    exact .some ⟨.nil, hr, he, fun i h => rfl⟩
  | a :: as, es, e, e', hr, he, ho, st => by
    simp only [Num.oks, Bool.and_eq_true] at ho
    simp only [evalAtoms]
    ocases (atom_rel hI hF hr he ho.1 st) with h1
    · exact .none
    · skip
      obtain ⟨h1, h2, h3, h4⟩ := h1
      ocases (atoms_rel h2 h3 ho.2 st) with g
      · exact .none
      · skip
        obtain ⟨g1, g2, g3, g4⟩ := g
        refine .some ⟨.cons h1 g1, g2, g3, fun i hi => ?_⟩
        cases i with
        | zero =>
          simp only [Num.fixes, List.getElem?_cons_zero, Option.some.injEq] at hi ⊢
          exact h4 hi
        | succ i =>
          simp only [Num.fixes, List.getElem?_cons_succ] at hi ⊢
          exact g4 i hi

theorem rv_rel (A : Alloc) {x : Rv} {es : List Path} {e e' : List V} (hr : VRL I F e e') (he : EqAt es e e') (ho : Num.okR es x = true) (st : St) :
    OptR (fun a b => VR I F a.1 b.1 ∧ VRL I F a.2.1 b.2.1 ∧ a.2.2 = b.2.2 ∧ EqAt (Num.nextR es x) a.2.1 b.2.1 ∧
      ∀ (p : Path) (d d' : List V), putP a.2.1 p a.1 = some d → putP b.2.1 p b.1 = some d' → EqAt (Num.adds p es x) d d') (evalRv A x e st) (evalRv A x e' st) := by
  cases x with
  | atom a =>
    simp only [evalRv]
    ocases (atom_rel hI hF hr he ho st) with h
    · exact .none
    · skip
      obtain ⟨h1, h2, h3, h4⟩ := h
      refine .some ⟨h1, h2, rfl, h3, fun p d d' hd hd' q hq => ?_⟩
      simp only [Num.adds] at hq
      split at hq
      · rename_i hfix
        simp only [List.mem_singleton] at hq
        subst hq
        rw [getP_putP_same hd, getP_putP_same hd', h4 hfix]
      · cases hq
  | obj c fs =>
    simp only [evalRv]
    ocases (atoms_rel hI hF hr he ho st) with h
    · exact .none
    · skip
      obtain ⟨h1, h2, h3, h4⟩ := h
      refine .some ⟨.obj _ _ h1, h2, rfl, h3, fun p d d' hd hd' q hq => ?_⟩
      simp only [Num.adds] at hq
      split at hq
      · rename_i hs
        obtain ⟨pv, ps⟩ := p
        simp only [List.isEmpty_iff] at hs
        subst hs
        obtain ⟨j, rfl, hj⟩ := flagged_mem hq
        have := h4 j hj
        rw [getP_putP_var hd, getP_putP_var hd']
        simp only [V.get, Nat.zero_add, this]
      · cases hq
  | vec vs =>
    simp only [evalRv]
    ocases (atoms_rel hI hF hr he ho st) with h
    · exact .none
    · skip
      obtain ⟨h1, h2, h3, h4⟩ := h
      refine .some ⟨.vec _ h1, h2, rfl, h3, fun p d d' hd hd' q hq => ?_⟩
      cases vs with
      | nil =>
        simp only [Num.adds, List.mem_singleton] at hq
        subst hq
        rw [getP_putP_same hd, getP_putP_same hd']
        simp only [evalAtoms, Option.some.injEq] at q1 q2
        subst q1; subst q2
        rfl
      | cons a vs => simp only [Num.adds] at hq; cases hq
  | tup fs =>
    simp only [evalRv]
    ocases (atoms_rel hI hF hr he ho st) with h
    · exact .none
    · skip
      obtain ⟨h1, h2, h3, h4⟩ := h
      refine .some ⟨.tup h1, h2, rfl, h3, fun p d d' hd hd' q hq => ?_⟩
      simp only [Num.adds] at hq
      cases hq

theorem cond_rel {c : Cond} {es : List Path} {e e' : List V} (hr : VRL I F e e') (he : EqAt es e e') (ho : Num.okC es c = true) (st : St) : evalCond c e st = evalCond c e' st := by
  have str : ∀ p, es.contains p = true → strAt e p = strAt e' p := fun p h => by unfold strAt; rw [he.at h]
  cases c with
  | null p =>
    simp only [evalCond]
    ocases (getP_rel hr p) with h
    · cases h <;> rfl
  | err => rfl
  | eq p n => simp only [evalCond, he.at (p := p) ho]
  | has p n => simp only [evalCond, he.at (p := p) ho]
  | strIs p s => simp only [evalCond, str p ho]
  | dateOk p => simp only [evalCond, str p ho]
  | durOk p => simp only [evalCond, str p ho]
  | durUnitOk p => simp only [evalCond, str p ho]
end

/-- The results of two actions are related. -/
inductive OutR (I : Int → Int → Prop) (F : Bytes → Bytes → Prop) : Out → Out → Prop where
  | ok {v w : V} (st : St) : VR I F v w → OutR I F (.ok v st) (.ok w st)
  | error (st : St) : OutR I F (.error st) (.error st)
  | ub : OutR I F .ub .ub

theorem EqAt.append {es fs : List Path} {e e' : List V} (h1 : EqAt es e e') (h2 : EqAt fs e e') : EqAt (es ++ fs) e e' := by
  intro p hp
  rcases List.mem_append.1 hp with h | h
  · exact h1 p h
  · exact h2 p h

section
variable {I : Int → Int → Prop} {F : Bytes → Bytes → Prop} (hI : ∀ n, I n n) (hF : ∀ b, F b b)
include hI hF

/-- The interpreter of the actions respects the relation, if the values it looks at are the same. -/
theorem run_num (A : Alloc) (loc : Loc) : ∀ (k : Prog) (es : List Path), Num.sees es k = true → ∀ (e e' : List V) (st : St), VRL I F e e' → EqAt es e e' →
    OutR I F (run A loc k e st) (run A loc k e' st)
  | .ret, es, hs, e, e', st, hr, he => by
    cases hr with
    | nil => exact .ub
    | cons h1 h2 => simp only [run, VRL.addrs h2]; exact .ok _ h1
  | .fail, es, hs, e, e', st, hr, he => by simp only [run, VRL.addrs hr]; exact .error _
  | .set p x k, es, hs, e, e', st, hr, he => by
    simp only [Num.sees, Bool.and_eq_true] at hs
    simp only [run]
    ocases (rv_rel hI hF A hr he hs.1 st) with h
    · exact .ub
    · skip
      obtain ⟨v, d, st1⟩ := x1
      obtain ⟨w, d', st2⟩ := x2
      obtain ⟨h1, h2, h3, h4, h5⟩ := h
      simp only at h1 h2 h3 h4 h5
      subst h3
      simp only []
      have hg := getP_rel h2 p
      have hq := putP_rel h2 p h1
      generalize hx : getP d p = x1 at hg
      generalize hx' : getP d' p = x2 at hg
      generalize hy : putP d p v = y1 at hq
      generalize hy' : putP d' p w = y2 at hq
      cases hg with
      | none => exact .ub
      | some hg =>
        cases hq with
        | none => exact .ub
        | some hq =>
          simp only [VR.addrs hg]
          exact run_num A loc k _ hs.2 _ _ _ hq ((h4.put hy hy').append (h5 p _ _ hy hy'))
  | .push p x k, es, hs, e, e', st, hr, he => by
    simp only [Num.sees, Bool.and_eq_true] at hs
    simp only [run]
    ocases (atom_rel hI hF hr he hs.1 st) with h
    · exact .ub
    · skip
      obtain ⟨v, d⟩ := x1
      obtain ⟨w, d'⟩ := x2
      obtain ⟨h1, h2, h3, h4⟩ := h
      simp only at h1 h2 h3 h4
      simp only []
      have hg := getP_rel h2 p
      generalize hx : getP d p = x1 at hg
      generalize hx' : getP d' p = x2 at hg
      cases hg with
      | none => exact .ub
      | some hg =>
        cases hg with
        | vec a hv =>
          simp only []
          have hq := putP_rel h2 p (VR.vec a (VRL.append hv (.cons h1 .nil)))
          generalize hy : putP d p _ = y1 at hq
          generalize hy' : putP d' p _ = y2 at hq
          cases hq with
          | none => exact .ub
          | some hq => exact run_num A loc k _ hs.2 _ _ _ hq (h3.put hy hy')
        | _ => exact .ub
  | .insert p x k, es, hs, e, e', st, hr, he => by
    simp only [Num.sees, Bool.and_eq_true] at hs
    obtain ⟨⟨⟨hs1, hs2⟩, hs3⟩, hs4⟩ := hs
    simp only [run]
    ocases (atom_rel hI hF hr he hs1 st) with h
    · exact .ub
    · skip
      obtain ⟨v, d⟩ := x1
      obtain ⟨w, d'⟩ := x2
      obtain ⟨h1, h2, h3, h4⟩ := h
      simp only at h1 h2 h3 h4
      have e1 := h4 hs2
      subst e1
      have e2 := h3.at hs3
      cases v with
      | int n =>
        simp only []
        rw [← e2]
        cases hx : getP d p with
        | none => exact .ub
        | some y =>
          cases y with
          | vec a vs =>
            simp only []
            have hq := putP_rel h2 p (VR.refl hI hF (.vec a (if hasInt n vs then vs else vs ++ [.int n])))
            generalize hy : putP d p _ = y1 at hq
            generalize hy' : putP d' p _ = y2 at hq
            cases hq with
            | none => exact .ub
            | some hq =>
              refine run_num A loc k _ hs4 _ _ _ hq ((h3.put hy hy').append ?_)
              intro q hq'
              simp only [List.mem_singleton] at hq'
              subst hq'
              rw [getP_putP_same hy, getP_putP_same hy']
          | _ => exact .ub
      | _ => exact .ub
  | .del p k, es, hs, e, e', st, hr, he => by
    simp only [Num.sees] at hs
    simp only [run]
    ocases (getP_rel hr p) with h
    · exact .ub
    · skip
      simp only [VR.treat h]
      split
      · have hq := putP_rel hr p (VR.undef (I := I) (F := F))
        generalize hy : putP e p .undef = y1 at hq
        generalize hy' : putP e' p .undef = y2 at hq
        cases hq with
        | none => exact .ub
        | some hq => exact run_num A loc k _ hs _ _ _ hq (he.put hy hy')
      · exact .ub
  | .free p k, es, hs, e, e', st, hr, he => by
    simp only [Num.sees] at hs
    simp only [run]
    ocases (getP_rel hr p) with h
    · exact .ub
    · skip
      simp only [VR.treat h]
      split
      · have hq := putP_rel hr p (VR.undef (I := I) (F := F))
        generalize hy : putP e p .undef = y1 at hq
        generalize hy' : putP e' p .undef = y2 at hq
        cases hq with
        | none => exact .ub
        | some hq => exact run_num A loc k _ hs _ _ _ hq (he.put hy hy')
      · exact .ub
  | .ite c t f, es, hs, e, e', st, hr, he => by
    simp only [Num.sees, Bool.and_eq_true] at hs
    simp only [run, cond_rel hI hF hr he hs.1.1 st]
    split
    · exact run_num A loc t es hs.1.2 _ _ _ hr he
    · exact run_num A loc f es hs.2 _ _ _ hr he
    · exact .ub
  | .err m k, es, hs, e, e', st, hr, he => by
    simp only [Num.sees] at hs
    simp only [run]
    exact run_num A loc k es hs _ _ _ hr he
  | .errName m p k, es, hs, e, e', st, hr, he => by
    simp only [Num.sees, Bool.and_eq_true] at hs
    have : strAt e p = strAt e' p := by unfold strAt; rw [he.at hs.1]
    simp only [run, this]
    split
    · exact run_num A loc k es hs.2 _ _ _ hr he
    · exact .ub
  | .zeroLen k, es, hs, e, e', st, hr, he => by
    simp only [Num.sees] at hs
    simp only [run]
    exact run_num A loc k es hs _ _ _ hr he
  | .regParam p k, es, hs, e, e', st, hr, he => by
    simp only [Num.sees] at hs
    simp only [run]
    ocases (getP_rel hr p) with h
    · exact .ub
    · skip
      simp only [VR.addr h]
      split
      · exact run_num A loc k es hs _ _ _ hr he
      · exact .ub
  | .split p q k, es, hs, e, e', st, hr, he => by
    simp only [Num.sees] at hs
    simp only [run]
    ocases (getP_rel hr q) with h
    · exact .ub
    · skip
      cases h with
      | vec b hv =>
        simp only []
        have hq := putP_rel hr q (VR.vec (I := I) (F := F) b .nil)
        generalize hy : putP e q _ = y1 at hq
        generalize hy' : putP e' q _ = y2 at hq
        cases hq with
        | none => exact .ub
        | some hq =>
          simp only []
          have he1 := he.put hy hy'
          have g1 := getP_rel hq ⟨p.var, p.sels ++ [.fld 10]⟩
          have g2 := getP_rel hq ⟨p.var, p.sels ++ [.fld 11]⟩
          generalize getP _ ⟨p.var, p.sels ++ [.fld 10]⟩ = z1 at g1 ⊢
          generalize getP _ ⟨p.var, p.sels ++ [.fld 10]⟩ = z1' at g1 ⊢
          generalize getP _ ⟨p.var, p.sels ++ [.fld 11]⟩ = z2 at g2 ⊢
          generalize getP _ ⟨p.var, p.sels ++ [.fld 11]⟩ = z2' at g2 ⊢
          cases g1 with
          | none => exact .ub
          | some g1 =>
            cases g2 with
            | none => exact .ub
            | some g2 =>
              simp only []
              have f1 := putP_rel hq ⟨p.var, p.sels ++ [.fld 10]⟩ (VR.vec (A.new st.nalloc) (VRL.filter (q := isColumnDef) VR.isCol hv))
              generalize hw : putP _ ⟨p.var, p.sels ++ [.fld 10]⟩ _ = w1 at f1 ⊢
              generalize hw' : putP _ ⟨p.var, p.sels ++ [.fld 10]⟩ _ = w1' at f1 ⊢
              cases f1 with
              | none => exact .ub
              | some f1 =>
                simp only []
                have he2 := he1.put hw hw'
                have f2 := putP_rel f1 ⟨p.var, p.sels ++ [.fld 11]⟩ (VR.vec (A.new (st.nalloc + 1)) (VRL.filter (q := isConstraint) VR.isCons hv))
                generalize hu : putP _ ⟨p.var, p.sels ++ [.fld 11]⟩ _ = u1 at f2 ⊢
                generalize hu' : putP _ ⟨p.var, p.sels ++ [.fld 11]⟩ _ = u1' at f2 ⊢
                cases f2 with
                | none => exact .ub
                | some f2 =>
                  simp only []
                  have hflt := VRL.filter (q := fun v => !isColumnDef v && !isConstraint v) (fun h => by simp only [VR.isCol h, VR.isCons h]) hv
                  rw [VR.addrs g1, VR.addrs g2, VRL.addrs hflt]
                  exact run_num A loc k _ hs _ _ _ f2 (he2.put hu hu')
      | _ => exact .ub
  | .finish, es, hs, e, e', st, hr, he => by simp [Num.sees] at hs
end

end Verif.Sem

import Verif.Api.Print
/-!
# Printing does not see addresses

`V.e` forgets the addresses in a value and makes the positions of the scanner indeterminate. What is printed for `v.e` is printed for `v`.
-/
namespace Verif.Print
open Verif.Sem

mutual
def e0 : V → V
  | .undef => .undef
  | .null => .null
  | .int n => .int n
  | .pos _ => .undef
  | .idx n => .idx n
  | .raw b => .raw b
  | .str _ b => .str 0 b
  | .vec _ vs => .vec 0 (eL vs)
  | .obj _ c fs => .obj 0 c (eL fs)
  | .tup fs => .tup (eL fs)
def eL : List V → List V
  | [] => []
  | v :: vs => e0 v :: eL vs
end

theorem eL_map : ∀ (vs : List V), eL vs = vs.map e0
  | [] => rfl
  | v :: vs => by rw [eL, List.map_cons, eL_map vs]

theorem get_e : ∀ (p : List Sel) (v : V), (e0 v).get p = (v.get p).map e0
  | [], v => by cases v <;> rfl
  | .fld i :: p, v => by
    cases v with
    | obj a c fs =>
      simp only [e0, V.get, eL_map, List.getElem?_map]
      cases fs[i]? with
      | none => rfl
      | some w => exact get_e p w
    | tup fs =>
      simp only [e0, V.get, eL_map, List.getElem?_map]
      cases fs[i]? with
      | none => rfl
      | some w => exact get_e p w
    | _ => rfl
  | .back :: p, v => by
    cases v with
    | vec a vs =>
      simp only [e0, V.get, eL_map, List.getLast?_map]
      cases vs.getLast? with
      | none => rfl
      | some w => exact get_e p w
    | _ => rfl

/-- If the first call is defined, the second prints the same. -/
def Le (a b : Out) : Prop := ∀ ls, a = .ok ls → b = .ok ls

theorem Le.refl (a : Out) : Le a a := fun _ h => h
theorem Le.ub (a : Out) : Le .ub a := fun _ h => by cases h
theorem Le.app {a b a' b' : Out} (h : Le a b) (h' : Le a' b') : Le (a ++ a') (b ++ b') := by
  intro ls hl
  cases a with
  | ub => cases hl
  | ok x =>
    cases a' with
    | ub => cases hl
    | ok y => rw [h x rfl, h' y rfl]; exact hl
theorem Le.deref {v : V} {p : List Sel} {f g : V → Out} (h : ∀ w, Le (f (e0 w)) (g w)) : Le (deref (e0 v) p f) (Print.deref v p g) := by
  unfold Print.deref
  rw [get_e]
  cases v.get p with
  | none => exact Le.ub _
  | some w => exact h w
theorem Le.ifPtr {v : V} {a b a' b' : Out} (h : Le a b) (h' : Le a' b') : Le (ifPtr (e0 v) a a') (Print.ifPtr v b b') := by
  cases v <;> first | exact h | exact h' | exact Le.ub _
theorem Le.asInt {v : V} {f g : Int → Out} (h : ∀ n, Le (f n) (g n)) : Le (asInt (e0 v) f) (Print.asInt v g) := by
  cases v <;> first | exact h _ | exact Le.ub _
theorem Le.seqL {f g : V → Out} (h : ∀ w, Le (f (e0 w)) (g w)) : ∀ (vs : List V), Le (seqL f (eL vs)) (Print.seqL g vs)
  | [] => Le.refl _
  | v :: vs => (h v).app (Le.seqL h vs)
theorem Le.forEach {v : V} {f g : V → Out} (h : ∀ w, Le (f (e0 w)) (g w)) : Le (forEach (e0 v) f) (Print.forEach v g) := by
  cases v <;> first | exact Le.seqL h _ | exact Le.ub _
theorem Le.ite {c : Prop} [Decidable c] {a b a' b' : Out} (h : Le a b) (h' : Le a' b') : Le (if c then a else a') (if c then b else b') := by
  by_cases hc : c
  · rw [if_pos hc, if_pos hc]; exact h
  · rw [if_neg hc, if_neg hc]; exact h'
theorem Le.str {v : V} {n : Nat} : Le (inprintStr (e0 v) n) (inprintStr v n) := by
  cases v <;> first | exact Le.refl _ | exact Le.ub _
theorem Le.flt {v : V} {n : Nat} : Le (inprintFlt (e0 v) n) (inprintFlt v n) := by
  cases v <;> first | exact Le.refl _ | exact Le.ub _
theorem Le.num {v : V} {n : Nat} : Le (inprintInt (e0 v) n) (inprintInt v n) := Le.asInt fun _ => Le.refl _
theorem Le.op {v : V} {n : Nat} : Le (inprintOp (e0 v) n) (inprintOp v n) := Le.asInt fun _ => Le.refl _
theorem Le.date {v : V} {n : Nat} : Le (inprintDate (e0 v) n) (inprintDate v n) := Le.asInt fun _ => Le.refl _
theorem Le.type {v : V} {n : Nat} : Le (inprintType (e0 v) n) (inprintType v n) :=
  Le.deref fun _ => Le.asInt fun _ => Le.deref fun _ => Le.asInt fun _ => Le.refl _
theorem Le.bound {v : V} {f g : Bytes → Out} (h : ∀ b, Le (f b) (g b)) : Le (withBound (e0 v) f) (withBound v g) :=
  Le.deref fun _ => Le.asInt fun _ => Le.deref fun _ => Le.asInt fun _ => Le.deref fun _ => Le.asInt fun _ => h _

/-- Decompose a call. -/
macro "le" : tactic => `(tactic| repeat' (first
  | assumption
  | exact Le.refl _
  | exact Le.str | exact Le.flt | exact Le.num | exact Le.op | exact Le.date | exact Le.type
  | apply Le.app
  | apply Le.ifPtr
  | apply Le.ite
  | (apply Le.deref; intro _)
  | (apply Le.forEach; intro _)
  | (apply Le.asInt; intro _)
  | (apply Le.bound; intro _)))

theorem Le.alias {v : V} {n : Nat} : Le (printAlias (e0 v) n) (printAlias v n) := by
  unfold printAlias; le
theorem Le.lock {v : V} {n : Nat} : Le (printLock (e0 v) n) (printLock v n) := by
  unfold printLock; le
theorem Le.format {v : V} {n : Nat} : Le (printFormat (e0 v) n) (printFormat v n) := by
  unfold printFormat; le

/-- The six functions that call each other. -/
structure LeAll (k : Nat) : Prop where
  table : ∀ v n, Le (printTableRefInfo k (e0 v) n) (printTableRefInfo k v n)
  oper : ∀ v n, Le (printOperatorExpression k (e0 v) n) (printOperatorExpression k v n)
  expr : ∀ v n, Le (printExpression k (e0 v) n) (printExpression k v n)
  order : ∀ v n, Le (printOrderBy k (e0 v) n) (printOrderBy k v n)
  window : ∀ v n, Le (printWindowDescription k (e0 v) n) (printWindowDescription k v n)
  sel : ∀ v n, Le (printSelectStatementInfo k (e0 v) n) (printSelectStatementInfo k v n)

theorem leAll : ∀ k, LeAll k
  | 0 => by
    constructor <;> intro v n <;>
      simp only [printTableRefInfo, printOperatorExpression, printExpression, printOrderBy, printWindowDescription, printSelectStatementInfo] <;> exact Le.ub _
  | k + 1 => by
    have H := leAll k
    have h1 := H.table; have h2 := H.oper; have h3 := H.expr; have h4 := H.order; have h5 := H.window; have h6 := H.sel
    constructor <;> intro v n
    · simp only [printTableRefInfo]
      repeat' (first | exact h1 _ _ | exact h3 _ _ | exact h6 _ _ | exact Le.alias | exact Le.refl _ | exact Le.str | apply Le.app | apply Le.ifPtr | apply Le.ite | (apply Le.deref; intro _) | (apply Le.forEach; intro _) | (apply Le.asInt; intro _))
    · simp only [printOperatorExpression]
      repeat' (first | exact h3 _ _ | exact Le.refl _ | exact Le.op | apply Le.app | apply Le.ifPtr | apply Le.ite | (apply Le.deref; intro _) | (apply Le.forEach; intro _) | (apply Le.asInt; intro _))
    · simp only [printExpression]
      repeat' (first | exact h2 _ _ | exact h3 _ _ | exact h5 _ _ | exact h6 _ _ | exact Le.refl _ | exact Le.str | exact Le.flt | exact Le.num | exact Le.date | exact Le.type | apply Le.app | apply Le.ifPtr | apply Le.ite | (apply Le.deref; intro _) | (apply Le.forEach; intro _) | (apply Le.asInt; intro _))
    · simp only [printOrderBy]
      repeat' (first | exact h3 _ _ | exact Le.refl _ | apply Le.app | apply Le.ifPtr | apply Le.ite | (apply Le.deref; intro _) | (apply Le.forEach; intro _) | (apply Le.asInt; intro _))
    · simp only [printWindowDescription]
      repeat' (first | exact h3 _ _ | exact h4 _ _ | exact Le.refl _ | apply Le.app | apply Le.ifPtr | apply Le.ite | (apply Le.deref; intro _) | (apply Le.forEach; intro _) | (apply Le.asInt; intro _) | (apply Le.bound; intro _))
    · simp only [printSelectStatementInfo]
      repeat' (first | exact h1 _ _ | exact h3 _ _ | exact h4 _ _ | exact h6 _ _ | exact Le.lock | exact Le.refl _ | apply Le.app | apply Le.ifPtr | apply Le.ite | (apply Le.deref; intro _) | (apply Le.forEach; intro _) | (apply Le.asInt; intro _))

theorem Le.statement (k : Nat) (v : V) : Le (printStatementInfo k (e0 v)) (printStatementInfo k v) := by
  have H := leAll k
  have h1 := H.expr; have h2 := H.sel
  unfold printStatementInfo printInsertStatementInfo printCreateStatementInfo printImportStatementInfo printExportStatementInfo printTransactionStatementInfo
  repeat' (first | exact h1 _ _ | exact h2 _ _ | exact Le.format | exact Le.refl _ | exact Le.str | apply Le.app | apply Le.ifPtr | apply Le.ite | (apply Le.deref; intro _) | (apply Le.forEach; intro _) | (apply Le.asInt; intro _))

end Verif.Print

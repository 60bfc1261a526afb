import Verif.Props.ResultEx
import Verif.Sem.Null
/-!
# Properties of the AST (C27, C28, C29)
-/
namespace Verif.Props
open Verif.Lex Verif.LR Verif.Sem Verif.Api

/-- The value `w` is (a part of) the value. -/
inductive Inside (w : V) : V → Prop where
  | here : Inside w w
  | obj (a : Nat) (c : Cls) {fs : List V} {v : V} : v ∈ fs → Inside w v → Inside w (.obj a c fs)
  | vec (a : Nat) {vs : List V} {v : V} : v ∈ vs → Inside w v → Inside w (.vec a vs)
  | tup {vs : List V} {v : V} : v ∈ vs → Inside w v → Inside w (.tup vs)

section
variable {ok : Bytes → Prop} {good : List V → Prop}

/-- What a shape says about the parts of a value. -/
def Parts (ok : Bytes → Prop) (good : List V → Prop) : V → Prop
  | .obj _ c fs => ∃ ps, SatL ok good ps fs ∧ (c = .ColumnDefinition → good fs)
  | .vec _ vs => ∀ v ∈ vs, ∃ q, Sat ok good q v
  | .tup vs => ∀ v ∈ vs, ∃ q, Sat ok good q v
  | _ => True

theorem sat_parts : ∀ {p : P} {v : V}, Sat ok good p v → Parts ok good v
  | _, _, .obj _ h hg => ⟨_, h, hg⟩
  | _, _, .ref _ h => sat_parts h
  | _, _, .vec _ h1 _ h3 => fun v hv => by
    rcases List.mem_append.1 hv with h | h
    · exact ⟨_, h1 v h⟩
    · obtain ⟨q, _, hq⟩ := h3.mem h
      exact ⟨q, hq⟩
  | _, _, .tup h => fun v hv => by
    obtain ⟨q, _, hq⟩ := h.mem hv
    exact ⟨q, hq⟩
  | _, _, .undef => trivial
  | _, _, .null => trivial
  | _, _, .num _ => trivial
  | _, _, .pos _ => trivial
  | _, _, .idx _ => trivial
  | _, _, .posnum1 _ => trivial
  | _, _, .posnum2 _ => trivial
  | _, _, .ints _ => trivial
  | _, _, .raw _ => trivial
  | _, _, .str _ _ => trivial
  | _, _, .strQ _ _ _ => trivial

theorem sat_obj_inv {p : P} {a : Nat} {c : Cls} {fs : List V} (h : Sat ok good p (.obj a c fs)) : ∃ ps, SatL ok good ps fs ∧ (c = .ColumnDefinition → good fs) := sat_parts h
theorem sat_vec_inv {p : P} {a : Nat} {vs : List V} (h : Sat ok good p (.vec a vs)) : ∀ v ∈ vs, ∃ q, Sat ok good q v := sat_parts h
theorem sat_tup_inv {p : P} {vs : List V} (h : Sat ok good p (.tup vs)) : ∀ v ∈ vs, ∃ q, Sat ok good q v := sat_parts h

/-- All column definitions inside a value are good. -/
theorem sat_inside {a : Nat} {fs : List V} {v : V} (hi : Inside (.obj a .ColumnDefinition fs) v) : ∀ {p : P}, Sat ok good p v → good fs := by
  induction hi with
  | here => intro p h; obtain ⟨_, _, hg⟩ := sat_obj_inv h; exact hg rfl
  | obj a c hm _ ih =>
    intro p h
    obtain ⟨ps, hs, _⟩ := sat_obj_inv h
    obtain ⟨q, _, hq⟩ := hs.mem hm
    exact ih hq
  | vec a hm _ ih =>
    intro p h
    obtain ⟨q, hq⟩ := sat_vec_inv h _ hm
    exact ih hq
  | tup hm _ ih =>
    intro p h
    obtain ⟨q, hq⟩ := sat_tup_inv h _ hm
    exact ih hq
end

/-- The statements of a valid result, with a property of its column definitions. -/
theorem parse_good {A : Alloc} (hA : Distinct A) {fpr : Int} (hf : FprOK fpr) {buf : Bytes} {sql : List UInt8} {l c : Int} {good : List V → Prop} (h66 : ∀ {ok}, Good66 ok good)
    (hg' : ∀ a n fs, good fs → good (setIvalL a n fs)) {o : ParseOut} (h : parse A fpr buf sql (newResult l c) = some o) (hv : o.res.isValid = true) :
    ∀ v ∈ o.res.stmts, Sat (Occurs fpr sql) good (.ref .stmt) v := by
  obtain ⟨ret, st, hp, rfl⟩ := parse_some h
  obtain ⟨e, junk, hin, hE⟩ := parse_ends (sql := sql) (ok := fun _ => True) hf (hA.ok (l := l) (c := c)) newResult_ok
  rw [hp] at hE
  have h0 : ret = 0 := by simpa using hv
  have hmsg := ((ends_err rfl hE).1 h0).1
  generalize hx : some (ret, st) = x at hE
  cases hE with
  | ub => cases hx
  | exhausted => cases hx; cases h0
  | syntaxError => cases hx; cases h0
  | semError => cases hx; cases h0
  | accept n cf stk s t f l' hR g1 g2 g3 g4 g5 =>
    cases hx
    have hi : ∃ p ∈ stk, p.2.sym = N.input := ⟨(s, t), by rw [g1]; simp, g3.2.1⟩
    obtain ⟨c2, stk2, b, vs, k1, k2, k3, k4, k5, _⟩ :=
      fin_rc (ok := Occurs fpr sql) h66 hg' (hA.ok (l := l) (c := c)) (tokensOf_shape hf sql).1 (fun t ht b hb => ⟨t, ht, hb⟩) newResult_ok hR.rc hi (.inr hmsg)
    exact k5.res.stmts

/-! ## C29 -/

/-- C29. In a valid result, every column definition has consistent nullability: it is not declared both NULL and NOT NULL, nor both NULL and PRIMARY KEY, and it is
nullable iff it is declared neither NOT NULL nor PRIMARY KEY. -/
theorem C29_nullability_consistent {A : Alloc} (hA : Distinct A) {fpr : Int} (hf : FprOK fpr) (buf : Bytes) (sql : List UInt8) (l c : Int) (o : ParseOut)
    (h : parse A fpr buf sql (newResult l c) = some o) (hv : o.res.isValid = true) :
    ∀ v ∈ o.res.stmts, ∀ a fs, Inside (.obj a .ColumnDefinition fs) v → NullOK fs := by
  intro v hm a fs hi
  exact sat_inside hi (parse_good hA hf good66_null nullOK_setIval h hv v hm)

/-- The kinds of constraints and the nullability of the columns of a CREATE TABLE statement. -/
def intsOf : List V → List Int
  | [] => []
  | .int k :: vs => k :: intsOf vs
  | _ :: vs => intsOf vs
def colFields : V → List Int × Int
  | .obj _ _ [.vec _ ks, _, _, .int n, _] => (intsOf ks, n)
  | _ => ([], -1)
def colsOf : V → List (List Int × Int)
  | .obj _ _ fs => match fs[10]? with
    | some (V.vec _ cols) => cols.map colFields
    | _ => []
  | _ => []

/-- The columns of a text's statements. -/
def colsView (o : ParseOut) : Bool × List (List Int × Int) := (o.res.isValid, o.res.stmts.flatMap colsOf)

/-- A concrete case: three columns. -/
example : (run0 b!"CREATE TABLE t (a INT NOT NULL UNIQUE, b INT NULL, c INT PRIMARY KEY)").map colsView =
    some (true, [([ConstraintType.NotNull, ConstraintType.Unique], 0), ([ConstraintType.Null], 1), ([ConstraintType.PrimaryKey], 0)]) :=
  parse_of_eval (f := 80) (q := Option.map colsView) (by decide +kernel)

/-- Conflicting constraints are rejected. -/
example : (run0 b!"CREATE TABLE t (a INT NULL PRIMARY KEY)").map view = some ⟨false, 0, some b!"Conflicting nullability constraints for a", 0, 16⟩ :=
  parse_of_eval (f := 30) (q := Option.map view) (by decide +kernel)

end Verif.Props

import Verif.Api.Access
import Verif.Props.RoundTrip
/-!
# C42: the accessors of the AST

`Verif.Api.Access` models them.
-/
namespace Verif.Props
open Verif.Lex Verif.LR Verif.Sem Verif.Api Verif.Api.Access

/-! ## Parts of values -/

mutual
/-- A value and all values it holds or points to. -/
def parts : V → List V
  | .vec a vs => .vec a vs :: partsL vs
  | .obj a c fs => .obj a c fs :: partsL fs
  | .tup fs => .tup fs :: partsL fs
  | v => [v]
def partsL : List V → List V
  | [] => []
  | v :: vs => parts v ++ partsL vs
end

mutual
/-- The shapes of objects in a shape. -/
def objs : P → List (Cls × List P)
  | .obj c ps => (c, ps) :: objsL ps
  | .vec e _ suf => objs e ++ objsL suf
  | .tup ps => objsL ps
  | _ => []
def objsL : List P → List (Cls × List P)
  | [] => []
  | p :: ps => objs p ++ objsL ps
end

/-- A shape of an object that occurs in the AST. -/
def Known (c : Cls) (ps : List P) : Prop := ∃ t q, q ∈ alts t ∧ (c, ps) ∈ objs q

section
variable {ok : Bytes → Prop} {good : List V → Prop}

theorem partsL_append (a b : List V) : partsL (a ++ b) = partsL a ++ partsL b := by
  induction a with
  | nil => rfl
  | cons x a ih => simp [partsL, ih]

theorem partsL_mem {w : V} : ∀ {vs : List V}, w ∈ partsL vs → ∃ v ∈ vs, w ∈ parts v
  | [], h => by simp [partsL] at h
  | v :: vs, h => by
    rw [partsL, List.mem_append] at h
    rcases h with h | h
    · exact ⟨v, by simp, h⟩
    · obtain ⟨u, hu, h⟩ := partsL_mem h
      exact ⟨u, by simp [hu], h⟩

mutual
theorem sat_objs : ∀ {p : P} {v : V}, Sat ok good p v → ∀ {a c fs}, V.obj a c fs ∈ parts v → ∃ ps, SatL ok good ps fs ∧ ((c, ps) ∈ objs p ∨ Known c ps)
  | _, _, .undef, _, _, _, h => by simp [parts] at h
  | _, _, .null, _, _, _, h => by simp [parts] at h
  | _, _, .num _, _, _, _, h => by simp [parts] at h
  | _, _, .pos _, _, _, _, h => by simp [parts] at h
  | _, _, .idx _, _, _, _, h => by simp [parts] at h
  | _, _, .posnum1 _, _, _, _, h => by simp [parts] at h
  | _, _, .posnum2 _, _, _, _, h => by simp [parts] at h
  | _, _, .ints _, _, _, _, h => by simp [parts] at h
  | _, _, .raw _, _, _, _, h => by simp [parts] at h
  | _, _, .str _ _, _, _, _, h => by simp [parts] at h
  | _, _, .strQ _ _ _, _, _, _, h => by simp [parts] at h
  | _, _, .ref hp hs, _, _, _, h => by
    obtain ⟨ps, h1, h2 | h2⟩ := sat_objs hs h
    · exact ⟨ps, h1, .inr ⟨_, _, hp, h2⟩⟩
    · exact ⟨ps, h1, .inr h2⟩
  | _, _, .vec _ h1 _ h3, _, _, _, h => by
    simp only [parts, List.mem_cons, reduceCtorEq, false_or, partsL_append, List.mem_append] at h
    rcases h with h | h
    · obtain ⟨v, hv, h⟩ := partsL_mem h
      obtain ⟨ps, g1, g2 | g2⟩ := sat_objs (h1 v hv) h
      · exact ⟨ps, g1, .inl (by simp [objs, g2])⟩
      · exact ⟨ps, g1, .inr g2⟩
    · obtain ⟨ps, g1, g2 | g2⟩ := satL_objs h3 h
      · exact ⟨ps, g1, .inl (by simp [objs, g2])⟩
      · exact ⟨ps, g1, .inr g2⟩
  | _, _, .obj _ h1 _, _, _, _, h => by
    simp only [parts, List.mem_cons, V.obj.injEq] at h
    rcases h with ⟨_, rfl, rfl⟩ | h
    · exact ⟨_, h1, .inl (by simp [objs])⟩
    · obtain ⟨ps, g1, g2 | g2⟩ := satL_objs h1 h
      · exact ⟨ps, g1, .inl (by simp [objs, g2])⟩
      · exact ⟨ps, g1, .inr g2⟩
  | _, _, .tup h1, _, _, _, h => by
    simp only [parts, List.mem_cons, reduceCtorEq, false_or] at h
    obtain ⟨ps, g1, g2 | g2⟩ := satL_objs h1 h
    · exact ⟨ps, g1, .inl (by simp [objs, g2])⟩
    · exact ⟨ps, g1, .inr g2⟩
theorem satL_objs : ∀ {ps : List P} {vs : List V}, SatL ok good ps vs → ∀ {a c fs}, V.obj a c fs ∈ partsL vs → ∃ qs, SatL ok good qs fs ∧ ((c, qs) ∈ objsL ps ∨ Known c qs)
  | _, _, .nil, _, _, _, h => by simp [partsL] at h
  | _, _, .cons h1 h2, _, _, _, h => by
    rw [partsL, List.mem_append] at h
    rcases h with h | h
    · obtain ⟨ps, g1, g2 | g2⟩ := sat_objs h1 h
      · exact ⟨ps, g1, .inl (by simp [objsL, g2])⟩
      · exact ⟨ps, g1, .inr g2⟩
    · obtain ⟨ps, g1, g2 | g2⟩ := satL_objs h2 h
      · exact ⟨ps, g1, .inl (by simp [objsL, g2])⟩
      · exact ⟨ps, g1, .inr g2⟩
end

/-! ## The shapes are right for the accessors -/

/-- A pointer to a string, or null. -/
def ptrP : P → Bool
  | .null | .str | .ref .str | .ref (.opt .str) => true
  | _ => false
def enumP : P → Bool
  | .ints _ => true
  | _ => false
def aliasPtr : P → Bool
  | .null | .ref (.opt .tableAlias) => true
  | _ => false
def fieldP (f : P → Bool) (ps : List P) (i : Nat) : Bool := match ps[i]? with
  | some p => f p
  | none => false

/-- The `StatementType` of a class (specification; src/sql/SQLStatement.h:9-26). -/
def stmtKind : Cls → Option Int
  | .SelectStatement => some StatementType.kStmtSelect
  | .ImportStatement => some StatementType.kStmtImport
  | .InsertStatement => some StatementType.kStmtInsert
  | .UpdateStatement => some StatementType.kStmtUpdate
  | .DeleteStatement => some StatementType.kStmtDelete
  | .CreateStatement => some StatementType.kStmtCreate
  | .DropStatement => some StatementType.kStmtDrop
  | .PrepareStatement => some StatementType.kStmtPrepare
  | .ExecuteStatement => some StatementType.kStmtExecute
  | .ExportStatement => some StatementType.kStmtExport
  | .AlterStatement => some StatementType.kStmtAlter
  | .ShowStatement => some StatementType.kStmtShow
  | .TransactionStatement => some StatementType.kStmtTransaction
  | _ => none

def onlyP (n : Int) : P → Bool
  | .ints [m] => decide (m = n)
  | _ => false

def shapeOk (x : Cls × List P) : Bool := match x.1 with
  | .Expr => fieldP enumP x.2 0 && fieldP ptrP x.2 5 && fieldP ptrP x.2 6 && fieldP ptrP x.2 8
  | .TableRef => fieldP ptrP x.2 1 && fieldP ptrP x.2 2 && fieldP aliasPtr x.2 3
  | c => match stmtKind c with
    | some n => fieldP (onlyP n) x.2 2
    | none => true

theorem known_ok {c : Cls} {ps : List P} (h : Known c ps) : shapeOk (c, ps) = true := by
  obtain ⟨t, q, hq, ho⟩ := h
  have : ∀ t, (alts t).all (fun q => (objs q).all shapeOk) = true := by
    intro t; cases t <;> first | rfl | decide +kernel
  exact List.all_eq_true.1 (List.all_eq_true.1 (this t) q hq) _ ho

theorem cstr_of {p : P} {v : V} (hp : ptrP p = true) (h : Sat ok good p v) : ∃ x, cstr v = some x := by
  have str : ∀ {v}, Sat ok good .str v → ∃ x, cstr v = some x := fun h => by cases h; exact ⟨_, rfl⟩
  have rstr : ∀ {v}, Sat ok good (.ref .str) v → ∃ x, cstr v = some x := fun h => by
    cases h with | ref h1 h2 => simp [alts] at h1; subst h1; exact str h2
  unfold ptrP at hp
  split at hp
  · cases h; exact ⟨_, rfl⟩
  · exact str h
  · exact rstr h
  · cases h with | ref h1 h2 =>
      simp [alts] at h1
      rcases h1 with rfl | rfl
      · cases h2; exact ⟨_, rfl⟩
      · exact rstr h2
  · cases hp

theorem field_of {f : P → Bool} {ps : List P} {vs : List V} {i : Nat} (hf : fieldP f ps i = true) (h : SatL ok good ps vs) :
    ∃ p v, f p = true ∧ vs[i]? = some v ∧ Sat ok good p v := by
  unfold fieldP at hf
  split at hf
  · rename_i p hp
    obtain ⟨v, h1, h2⟩ := h.get hp
    exact ⟨p, v, hf, h1, h2⟩
  · cases hf

theorem ptr_of {ps : List P} {vs : List V} {i : Nat} (hf : fieldP ptrP ps i = true) (h : SatL ok good ps vs) : ∃ v x, vs[i]? = some v ∧ cstr v = some x := by
  obtain ⟨p, v, h1, h2, h3⟩ := field_of hf h
  obtain ⟨x, hx⟩ := cstr_of h1 h3
  exact ⟨v, x, h2, hx⟩

theorem expr_defined {a : Nat} {fs : List V} {ps : List P} (hk : Known .Expr ps) (h : SatL ok good ps fs) :
    (∀ t, (exprIsType (.obj a .Expr fs) t).isSome = true) ∧ (exprIsLiteral (.obj a .Expr fs)).isSome = true ∧ (exprHasAlias (.obj a .Expr fs)).isSome = true ∧
    (exprHasTable (.obj a .Expr fs)).isSome = true ∧ (exprGetName (.obj a .Expr fs)).isSome = true := by
  have := known_ok hk
  simp only [shapeOk, Bool.and_eq_true] at this
  obtain ⟨⟨⟨h0, h5⟩, h6⟩, h8⟩ := this
  obtain ⟨p, v, e1, e2, e3⟩ := field_of h0 h
  obtain ⟨v5, x5, a5, b5⟩ := ptr_of h5 h
  obtain ⟨v6, x6, a6, b6⟩ := ptr_of h6 h
  obtain ⟨v8, x8, a8, b8⟩ := ptr_of h8 h
  have hn : ∃ n, v = .int n := by
    unfold enumP at e1; split at e1
    · cases e3; exact ⟨_, rfl⟩
    · cases e1
  obtain ⟨n, rfl⟩ := hn
  have ht : ∀ t, exprIsType (.obj a .Expr fs) t = some (decide (t = n)) := fun t => by simp [exprIsType, exprField, e2, enum]
  refine ⟨fun t => by rw [ht]; rfl, ?_, ?_, ?_, ?_⟩
  · unfold exprIsLiteral
    simp only [ht]
    have or_some : ∀ (x : Bool) (y : Option Bool), y.isSome = true → (orElse (some x) y).isSome = true := fun x y h => by cases x <;> simp [orElse, h]
    repeat' apply or_some
    rfl
  · simp [exprHasAlias, exprField, a8, b8]
  · simp [exprHasTable, exprField, a6, b6]
  · unfold exprGetName
    simp only [exprField, a8, a5, Option.bind_some, b8, b5]
    cases x8 <;> rfl

theorem table_defined {a : Nat} {fs : List V} {ps : List P} (hk : Known .TableRef ps) (h : SatL ok good ps fs) :
    (tableHasSchema (.obj a .TableRef fs)).isSome = true ∧ (tableGetName (.obj a .TableRef fs)).isSome = true := by
  have := known_ok hk
  simp only [shapeOk, Bool.and_eq_true] at this
  obtain ⟨⟨h1, h2⟩, h3⟩ := this
  obtain ⟨v1, x1, a1, b1⟩ := ptr_of h1 h
  obtain ⟨v2, x2, a2, b2⟩ := ptr_of h2 h
  obtain ⟨p, v, e1, e2, e3⟩ := field_of h3 h
  refine ⟨by simp [tableHasSchema, tableField, a1, b1], ?_⟩
  unfold tableGetName
  simp only [tableField, e2, a2, Option.bind_some, b2]
  unfold aliasPtr at e1
  split at e1
  · cases e3; rfl
  · cases e3 with | ref g1 g2 =>
      simp [alts] at g1
      rcases g1 with rfl | rfl
      · cases g2; rfl
      · cases g2 with | ref g1 g2 =>
          simp [alts, aliasP] at g1
          subst g1
          cases g2 with | obj a g _ =>
            cases g with | cons g1 g2 => cases g1; rfl
  · cases e1

theorem stmt_kind {a : Nat} {c : Cls} {fs : List V} {ps : List P} {n : Int} (hk : Known c ps) (hc : stmtKind c = some n) (h : SatL ok good ps fs) :
    stmtType (.obj a c fs) = some n := by
  have hok := known_ok hk
  have : fieldP (onlyP n) ps 2 = true := by
    cases c <;> simp [stmtKind] at hc <;> subst hc <;> simpa [shapeOk, stmtKind] using hok
  obtain ⟨p, v, e1, e2, e3⟩ := field_of this h
  have hs : isStatement c = true := by cases c <;> simp [stmtKind] at hc <;> rfl
  have hv : v = .int n := by
    unfold onlyP at e1; split at e1
    · cases e3 with | ints h => simp at h e1; rw [h, e1]
    · cases e1
  simp [stmtType, hs, e2, hv, enum]

end

section
variable {A : Alloc} (hA : Distinct A) {fpr : Int} (hf : FprOK fpr) (buf : Bytes) (sql : List UInt8) (l c : Int)
include hA hf

/-- C42. After any parse, successful or not: on every `Expr` and every `TableRef` that can be reached from a statement of the result, all accessors are defined:
they read no indeterminate value and follow no wild pointer. -/
theorem C42_accessors_defined (o : ParseOut) (h : parse A fpr buf sql (newResult l c) = some o) : ∀ v ∈ o.res.stmts, ∀ a fs,
    (V.obj a .Expr fs ∈ parts v → (∀ t, (exprIsType (.obj a .Expr fs) t).isSome = true) ∧ (exprIsLiteral (.obj a .Expr fs)).isSome = true ∧
      (exprHasAlias (.obj a .Expr fs)).isSome = true ∧ (exprHasTable (.obj a .Expr fs)).isSome = true ∧ (exprGetName (.obj a .Expr fs)).isSome = true) ∧
    (V.obj a .TableRef fs ∈ parts v → (tableHasSchema (.obj a .TableRef fs)).isSome = true ∧ (tableGetName (.obj a .TableRef fs)).isSome = true) := by
  intro v hv a fs
  have hs := C25_statements_well_formed hA hf buf sql l c o h v hv
  refine ⟨fun hw => ?_, fun hw => ?_⟩
  · obtain ⟨ps, h1, h2 | h2⟩ := sat_objs hs hw
    · simp [objs] at h2
    · exact expr_defined h2 h1
  · obtain ⟨ps, h1, h2 | h2⟩ := sat_objs hs hw
    · simp [objs] at h2
    · exact table_defined h2 h1

/-- C42. The type of a statement tells its class, so that it is safe to cast it: for every statement `w` of the result, of any class `k`, and every statement
inside another one, `type()` is the one of the class, and `isType(t)` and `is(t)` are true exactly for it. -/
theorem C42_type_tells_class (o : ParseOut) (h : parse A fpr buf sql (newResult l c) = some o) : ∀ v ∈ o.res.stmts,
    (∃ a k fs, v = .obj a k fs ∧ stmtKind k ≠ none) ∧
    ∀ a k fs, V.obj a k fs ∈ parts v → stmtKind k ≠ none → stmtType (.obj a k fs) = stmtKind k ∧ ∀ t, stmtIs (.obj a k fs) t = some true ↔ stmtKind k = some t := by
  intro v hv
  have hs := C25_statements_well_formed hA hf buf sql l c o h v hv
  refine ⟨?_, fun a k fs hw hk => ?_⟩
  · cases hs with | ref g1 g2 =>
    have : (alts .stmt).all (fun p => match p with | .obj k _ => (stmtKind k).isSome | _ => false) = true := by decide +kernel
    have := List.all_eq_true.1 this _ g1
    cases g2 <;> simp at this
    exact ⟨_, _, _, rfl, by intro e; rw [e] at this; cases this⟩
  · obtain ⟨ps, h1, h2 | h2⟩ := sat_objs hs hw
    · simp [objs] at h2
    · cases hc : stmtKind k with
      | none => exact absurd hc hk
      | some n =>
        have := stmt_kind (a := a) h2 hc h1
        refine ⟨this, fun t => ?_⟩
        simp [stmtIs, this]
end

/-- Different classes have different types. -/
theorem C42_kinds_differ {k k' : Cls} {n : Int} (h : stmtKind k = some n) (h' : stmtKind k' = some n) : k = k' := by
  have h2 := h.trans h'.symm
  cases k <;> first | (cases k' <;> first | rfl | exact absurd h2 (by decide)) | cases h

/-! ## What they return

Addresses, and the numbering of the parameters (`V.fill`), do not matter. -/

theorem cstr_h (v : V) : cstr (v.h E0) = cstr v := by cases v <;> rfl
theorem enum_h (v : V) : enum (v.h E0) = enum v := by cases v <;> rfl
theorem cstr_fill (v : V) : cstr v.fill = cstr v := by cases v <;> rfl
theorem enum_fill (v : V) : enum v.fill = enum v := by cases v <;> rfl

theorem exprField_h (v : V) (i : Nat) : exprField (v.h E0) i = (exprField v i).map (V.h E0) := by
  cases v <;> try rfl
  rename_i a c fs
  cases c <;> first | rfl | (simp only [V.h, exprField, hL_map, List.getElem?_map])
theorem newIval_get (n : Int) (fs : List V) {i : Nat} (hi : i ≠ 10) : (newIval n fs)[i]? = fs[i]? := by
  unfold newIval
  split
  · split
    · rw [List.getElem?_set_ne (by omega)]
    · rfl
  · rfl
theorem exprField_fill (v : V) {i : Nat} (hi : i ≠ 10) : exprField v.fill i = (exprField v i).map V.fill := by
  cases v <;> try rfl
  rename_i a c fs
  cases c <;> try rfl
  simp only [V.fill, exprField]
  split
  · rw [newIval_get _ _ hi, fillL_map, List.getElem?_map]
  · rw [fillL_map, List.getElem?_map]

/-- The accessors of expressions. -/
structure ExprView where
  isType : Int → Option Bool
  isLiteral : Option Bool
  hasAlias : Option Bool
  hasTable : Option Bool
  getName : Option (Option Bytes)

def exprView (v : V) : ExprView := ⟨exprIsType v, exprIsLiteral v, exprHasAlias v, exprHasTable v, exprGetName v⟩

theorem exprView_congr {v w : V} (h0 : (exprField v 0).bind enum = (exprField w 0).bind enum) (h5 : (exprField v 5).bind cstr = (exprField w 5).bind cstr)
    (h6 : (exprField v 6).bind cstr = (exprField w 6).bind cstr) (h8 : (exprField v 8).bind cstr = (exprField w 8).bind cstr) : exprView v = exprView w := by
  have ht : ∀ t, exprIsType v t = exprIsType w t := fun t => by rw [exprIsType, exprIsType, h0]
  have ht' : exprIsType v = exprIsType w := funext ht
  unfold exprView exprIsLiteral exprHasAlias exprHasTable exprGetName
  rw [ht', h5, h6, h8]

theorem bind_map_cstr {f : V → V} (hf : ∀ v, cstr (f v) = cstr v) (x : Option V) : (x.map f).bind cstr = x.bind cstr := by cases x <;> simp [hf]
theorem bind_map_enum {f : V → V} (hf : ∀ v, enum (f v) = enum v) (x : Option V) : (x.map f).bind enum = x.bind enum := by cases x <;> simp [hf]

theorem exprView_h (v : V) : exprView (v.h E0) = exprView v := by
  apply exprView_congr <;> rw [exprField_h] <;> first | exact bind_map_enum enum_h _ | exact bind_map_cstr cstr_h _
theorem exprView_fill (v : V) : exprView v.fill = exprView v := by
  apply exprView_congr <;> rw [exprField_fill _ (by omega)] <;> first | exact bind_map_enum enum_fill _ | exact bind_map_cstr cstr_fill _

theorem tableField_h (v : V) (i : Nat) : tableField (v.h E0) i = (tableField v i).map (V.h E0) := by
  cases v <;> try rfl
  rename_i a c fs
  cases c <;> first | rfl | (simp only [V.h, tableField, hL_map, List.getElem?_map])
theorem tableField_fill (v : V) (i : Nat) : tableField v.fill i = (tableField v i).map V.fill := by
  cases v <;> try rfl
  rename_i a c fs
  cases c <;> try rfl
  simp only [V.fill, tableField, isPar, Bool.false_eq_true, if_false]
  rw [fillL_map, List.getElem?_map]

theorem tableHasSchema_h (v : V) : tableHasSchema (v.h E0) = tableHasSchema v := by
  rw [tableHasSchema, tableHasSchema, tableField_h, bind_map_cstr cstr_h]
theorem tableHasSchema_fill (v : V) : tableHasSchema v.fill = tableHasSchema v := by
  rw [tableHasSchema, tableHasSchema, tableField_fill, bind_map_cstr cstr_fill]
theorem tableGetName_h (v : V) : tableGetName (v.h E0) = tableGetName v := by
  unfold tableGetName
  rw [tableField_h, tableField_h, bind_map_cstr cstr_h]
  cases tableField v 3 with
  | none => rfl
  | some w =>
    cases w <;> try rfl
    rename_i a c fs
    cases c <;> try rfl
    simp only [Option.map_some, V.h, hL_map, List.getElem?_map, bind_map_cstr cstr_h]
theorem tableGetName_fill (v : V) : tableGetName v.fill = tableGetName v := by
  unfold tableGetName
  rw [tableField_fill, tableField_fill, bind_map_cstr cstr_fill]
  cases tableField v 3 with
  | none => rfl
  | some w =>
    cases w <;> try rfl
    rename_i a c fs
    cases c <;> try rfl
    simp only [Option.map_some, V.fill, isPar, Bool.false_eq_true, if_false, fillL_map, List.getElem?_map, bind_map_cstr cstr_fill]

theorem stmtType_h (v : V) : stmtType (v.h E0) = stmtType v := by
  cases v <;> try rfl
  rename_i a c fs
  simp only [V.h, stmtType, hL_map, List.getElem?_map, bind_map_enum enum_h]
theorem stmtType_fill (v : V) : stmtType v.fill = stmtType v := by
  cases v <;> try rfl
  rename_i a c fs
  simp only [V.fill, stmtType]
  by_cases hp : isPar c fs = true
  · have : isStatement c = false := by cases c <;> first | rfl | simp [isPar] at hp
    rw [this]; rfl
  · rw [if_neg hp, fillL_map, List.getElem?_map, bind_map_enum enum_fill]

/-! ### Specification -/

section
open Verif.Sql

/-- The name an expression has without an alias: that of the column or function; string and date literals store their text in the same place. -/
def ownName : Sql.Expr → Option Name
  | .col _ n => some n
  | .call _ f _ _ => some f
  | .lit (.str b) => some b
  | .lit (.date b _) => some b
  | .paren e => ownName e
  | _ => none
def aliasName : Sql.Alias → Option Name
  | .none => none
  | .as n => some n
  | .bare n => some n
def tableAliasName : TAlias → Option Name
  | .plain a => aliasName a
  | .cols n _ => some n
/-- `t.c` or `t.*` -/
def qualified : Sql.Expr → Bool
  | .col t _ => t.isSome
  | .star t => t.isSome
  | .paren e => qualified e
  | _ => false
/-- A literal or a parameter. -/
def literal : Sql.Expr → Bool
  | .lit _ => true
  | .param _ => true
  | .paren e => literal e
  | _ => false
def itemList : Items → List (Sql.Expr × Sql.Alias)
  | .one e a => [(e, a)]
  | .snoc l e a => itemList l ++ [(e, a)]

/-- The accessors of the object of an expression with an alias. -/
structure Reads (v : V) (e : Sql.Expr) (a : Sql.Alias) : Prop where
  getName : exprGetName v = some (aliasName a <|> ownName e)
  hasAlias : exprHasAlias v = some (aliasName a).isSome
  hasTable : exprHasTable v = some (qualified e)
  isLiteral : exprIsLiteral v = some (literal e)

theorem Reads.of_view {v w : V} {e : Sql.Expr} {a : Sql.Alias} (h : exprView v = exprView w) (hw : Reads w e a) : Reads v e a :=
  ⟨(congrArg ExprView.getName h).trans hw.1, (congrArg ExprView.hasAlias h).trans hw.2, (congrArg ExprView.hasTable h).trans hw.3,
    (congrArg ExprView.isLiteral h).trans hw.4⟩

theorem opt_str (t : Option Name) : cstr (ostr t) = some t := by cases t <;> rfl

def litType (n : Int) : Bool := [ExprType.kExprLiteralInt, ExprType.kExprLiteralFloat, ExprType.kExprLiteralString, ExprType.kExprParameter, ExprType.kExprLiteralNull,
  ExprType.kExprLiteralDate, ExprType.kExprLiteralInterval].contains n

/-- The name, table, alias and type of an expression. -/
def Facts (r : ExprV) (e : Sql.Expr) : Prop :=
  cstr r.name = some (ownName e) ∧ (cstr r.table).map Option.isSome = some (qualified e) ∧ r.alias = .null ∧ litType r.type = literal e

theorem facts : ∀ (e : Sql.Expr), Facts e.r e
  | .paren e => by
    have := facts e
    simpa only [Facts, Expr.r, ownName, qualified, literal] using this
  | .lit l => by
    cases l with
    | num n => cases n <;> exact ⟨rfl, rfl, rfl, rfl⟩
    | interval i => cases i <;> exact ⟨rfl, rfl, rfl, rfl⟩
    | _ => exact ⟨rfl, rfl, rfl, rfl⟩
  | .param _ => ⟨rfl, rfl, rfl, rfl⟩
  | .col t n => ⟨rfl, by simp only [Expr.r, opt_str]; rfl, rfl, rfl⟩
  | .star t => ⟨rfl, by simp only [Expr.r, opt_str]; rfl, rfl, rfl⟩
  | .query _ => ⟨rfl, rfl, rfl, rfl⟩
  | .neg _ => ⟨rfl, rfl, rfl, rfl⟩
  | .not _ => ⟨rfl, rfl, rfl, rfl⟩
  | .isNull _ _ => ⟨rfl, rfl, rfl, rfl⟩
  | .isNotNull _ => ⟨rfl, rfl, rfl, rfl⟩
  | .bin .. => ⟨rfl, rfl, rfl, rfl⟩
  | .logic .. => ⟨rfl, rfl, rfl, rfl⟩
  | .inList no .. => by cases no <;> exact ⟨rfl, rfl, rfl, rfl⟩
  | .inQuery no .. => by cases no <;> exact ⟨rfl, rfl, rfl, rfl⟩
  | .between .. => ⟨rfl, rfl, rfl, rfl⟩
  | .exist no .. => by cases no <;> exact ⟨rfl, rfl, rfl, rfl⟩
  | .case .. => ⟨rfl, rfl, rfl, rfl⟩
  | .call .. => ⟨rfl, rfl, rfl, rfl⟩
  | .extract .. => ⟨rfl, rfl, rfl, rfl⟩
  | .cast .. => ⟨rfl, rfl, rfl, rfl⟩
  | .array .. => ⟨rfl, rfl, rfl, rfl⟩
  | .index .. => ⟨rfl, rfl, rfl, rfl⟩

theorem isLiteral_v (r : ExprV) : exprIsLiteral r.v = some (litType r.type) := by
  have ht : ∀ t, exprIsType r.v t = some (decide (t = r.type)) := fun _ => rfl
  unfold exprIsLiteral litType
  simp only [ht]
  simp only [List.contains_cons, List.contains_nil, Bool.or_false]
  have or_some : ∀ (x y : Bool), orElse (some x) (some y) = some (x || y) := fun x y => by cases x <;> rfl
  simp only [or_some]
  congr 1
  simp only [eq_comm (a := r.type), BEq.beq]

theorem put_type (a : Sql.Alias) (r : ExprV) : (a.put r).type = r.type := by cases a <;> rfl
theorem put_name (a : Sql.Alias) (r : ExprV) : (a.put r).name = r.name := by cases a <;> rfl
theorem put_table (a : Sql.Alias) (r : ExprV) : (a.put r).table = r.table := by cases a <;> rfl
theorem put_alias (a : Sql.Alias) {r : ExprV} (h : r.alias = .null) : cstr (a.put r).alias = some (aliasName a) := by
  cases a
  · simp only [Alias.put, h]; rfl
  · rfl
  · rfl

/-- C42, expressions: the object of an expression with an alias (or none) says what was written. -/
theorem C42_expression (e : Sql.Expr) (a : Sql.Alias) : Reads (a.put e.r).v e a := by
  obtain ⟨h1, h2, h3, h4⟩ := facts e
  have h5 := put_alias a h3
  refine ⟨?_, ?_, ?_, ?_⟩
  · change (match cstr (a.put e.r).alias with | none => none | some (some b) => some (some b) | some none => cstr (a.put e.r).name) = _
    rw [h5, put_name, h1]
    cases aliasName a <;> rfl
  · change (cstr (a.put e.r).alias).map _ = _
    rw [h5]; rfl
  · change (cstr (a.put e.r).table).map _ = _
    rw [put_table, h2]
  · rw [isLiteral_v, put_type, h4]

/-- C42, tables: `getName()` is the alias or else the name of the table. -/
theorem C42_table (t : TName) (a : TAlias) : tableGetName (TableN.name t a).r.v = some (tableAliasName a <|> some t.name) ∧ tableHasSchema (TableN.name t a).r.v = some t.schema.isSome := by
  refine ⟨?_, ?_⟩
  · cases a with
    | plain a => cases a <;> rfl
    | cols n l => rfl
  · change (cstr (ostr t.schema)).map _ = _
    rw [opt_str]; rfl

theorem items_vals : ∀ (l : Items), l.vals = (itemList l).map fun x => (x.2.put x.1.r).v
  | .one e a => rfl
  | .snoc l e a => by rw [Items.vals, itemList, List.map_append, items_vals l]; rfl

/-- The kinds of statements (specification). -/
def kindOfStmt : Sql.Stmt → Int
  | .query _ => StatementType.kStmtSelect
  | .createFile .. | .createTable .. | .createAs .. | .createIndex .. | .createView .. => StatementType.kStmtCreate
  | .insertValues .. | .insertQuery .. => StatementType.kStmtInsert
  | .delete .. | .truncate .. => StatementType.kStmtDelete
  | .update .. => StatementType.kStmtUpdate
  | .dropTable .. | .dropView .. | .deallocate .. | .dropIndex .. => StatementType.kStmtDrop
  | .alterDrop .. => StatementType.kStmtAlter
  | .execute .. | .executeArgs .. => StatementType.kStmtExecute
  | .transaction .. => StatementType.kStmtTransaction
  | .prepare .. => StatementType.kStmtPrepare
def kindOfItem : Item → Int
  | .stmt s _ => kindOfStmt s
  | .showTables | .showColumns _ | .describe _ => StatementType.kStmtShow
  | .importFile .. | .copyFrom .. => StatementType.kStmtImport
  | .copyTo .. | .copyQuery .. => StatementType.kStmtExport

theorem stmtType_item (len : V) (i : Item) : stmtType (i.v len) = some (kindOfItem i) := by
  cases i with
  | stmt s h => cases s <;> rfl
  | _ => rfl

theorem h_obj {v : V} {a : Nat} {k : Cls} {fs : List V} (h : v.h E0 = .obj a k fs) : ∃ b gs, v = .obj b k gs ∧ hL E0 gs = fs := by
  cases v <;> simp [V.h] at h
  exact ⟨_, _, by rw [h.2.1], h.2.2⟩
theorem h_vec {v : V} {a : Nat} {fs : List V} (h : v.h E0 = .vec a fs) : ∃ b gs, v = .vec b gs ∧ hL E0 gs = fs := by
  cases v <;> simp [V.h] at h
  exact ⟨_, _, rfl, h.2⟩
theorem hL_get {vs ws : List V} (h : hL E0 vs = ws) {i : Nat} {w : V} (hi : ws[i]? = some w) : ∃ v, vs[i]? = some v ∧ v.h E0 = w := by
  rw [← h, hL_map, List.getElem?_map] at hi
  cases hv : vs[i]? with
  | none => rw [hv] at hi; cases hi
  | some v => rw [hv] at hi; exact ⟨v, rfl, Option.some.inj hi⟩

variable {A : Alloc} (hA : Distinct A) {fpr : Int} (hf : FprOK fpr) (buf : Bytes) (sql : List UInt8) (l c : Int)
include hA hf

theorem valid_ast (s : Script) (b : Bool) (hs : Text (s.text b) (cText sql)) (hn : Numbered 0 (s.text b)) (o : ParseOut)
    (h : parse A fpr buf sql (newResult l c) = some o) (hv : o.res.isValid = true) : hL E0 o.res.stmts = s.items.map fun i => (i.v (.pos 0)).fill := by
  obtain ⟨o', h', ⟨_, ha⟩ | ⟨hv', _⟩⟩ := C23_round_trip hA hf buf sql l c s b hs hn
  · rw [h] at h'; cases h'; exact ha
  · rw [h] at h'; cases h'; rw [hv] at hv'; cases hv'

/-- C42, kinds: `type()` of the statements of an accepted script are the kinds that were written. -/
theorem C42_kinds (s : Script) (b : Bool) (hs : Text (s.text b) (cText sql)) (hn : Numbered 0 (s.text b)) (o : ParseOut)
    (h : parse A fpr buf sql (newResult l c) = some o) (hv : o.res.isValid = true) : o.res.stmts.map stmtType = s.items.map fun i => some (kindOfItem i) := by
  have := congrArg (List.map stmtType) (valid_ast hA hf buf sql l c s b hs hn o h hv)
  simpa only [hL_map, List.map_map, Function.comp_def, stmtType_h, stmtType_fill, stmtType_item] using this

/-- C42, queries: if the `i`-th statement of an accepted script is `SELECT items FROM tables ...`, its `selectList` has an `Expr` for each item, whose `getName()`
is the alias if one is written, else the name of the column or function (or the text of a string or date literal), else null; `hasAlias()`, `hasTable()` and `isLiteral()`
tell whether an alias and a qualifier are written and whether it is a literal or parameter. If there is just one table, `getName()` of `fromTable` is its alias or else its name,
and `hasSchema()` tells whether a schema is written. -/
theorem C42_select (s : Script) (b : Bool) (hs : Text (s.text b) (cText sql)) (hn : Numbered 0 (s.text b)) (o : ParseOut)
    (h : parse A fpr buf sql (newResult l c) = some o) (hv : o.res.isValid = true) (i : Nat) {w : With} {t : Option Int} {d : Bool} {items : Items} {f : From} {wh : OExpr}
    {g : Group} {ord : Order} {lim : Limit} {k : Locks} {hi : Hints}
    (hq : s.items[i]? = some (.stmt (.query (.plain w (.plain (.mk t d items f wh g) ord lim k))) hi)) :
    ∃ a fs a' vs, o.res.stmts[i]? = some (.obj a .SelectStatement fs) ∧ fs[5]? = some (.vec a' vs) ∧ vs.length = (itemList items).length ∧
      (∀ (j : Nat) e al, (itemList items)[j]? = some (e, al) → ∃ x, vs[j]? = some x ∧ Reads x e al) ∧
      ∀ tn al, f = .one (.base (.name tn al)) → ∃ x, fs[3]? = some x ∧ tableGetName x = some (tableAliasName al <|> some tn.name) ∧ tableHasSchema x = some tn.schema.isSome := by
  have ha := valid_ast hA hf buf sql l c s b hs hn o h hv
  obtain ⟨v, hv1, hv2⟩ := hL_get ha (i := i) (by rw [List.getElem?_map, hq]; rfl)
  obtain ⟨a, fs, rfl, hfs⟩ := h_obj hv2
  obtain ⟨v5, h5, e5⟩ := hL_get hfs (i := 5) rfl
  obtain ⟨a', vs, rfl, hvs⟩ := h_vec e5
  rw [fillL_map, items_vals, List.map_map] at hvs
  refine ⟨a, fs, a', vs, hv1, h5, ?_, ?_, ?_⟩
  · have := congrArg List.length hvs
    rw [hL_map, List.length_map, List.length_map] at this
    exact this
  · intro j e al hj
    obtain ⟨x, hx, ex⟩ := hL_get hvs (i := j) (by rw [List.getElem?_map, hj]; rfl)
    refine ⟨x, hx, Reads.of_view ?_ (C42_expression e al)⟩
    rw [← exprView_h, ex]
    exact exprView_fill _
  · rintro tn al rfl
    obtain ⟨x, hx, ex⟩ := hL_get hfs (i := 3) rfl
    refine ⟨x, hx, ?_, ?_⟩
    · rw [← tableGetName_h, ex, tableGetName_fill]
      exact (C42_table tn al).1
    · rw [← tableHasSchema_h, ex, tableHasSchema_fill]
      exact (C42_table tn al).2

end

/-! ### Column types -/

/-- C42, column types: `==` compares the type and its three numbers; `!=` is its negation. -/
theorem C42_column_types (t n p s t' n' p' s' : Int) :
    colTypeEq (.tup [.int t, .int n, .int p, .int s]) (.tup [.int t', .int n', .int p', .int s']) = some (decide (t = t' ∧ n = n' ∧ p = p' ∧ s = s')) ∧
    colTypeNe (.tup [.int t, .int n, .int p, .int s]) (.tup [.int t', .int n', .int p', .int s']) = some (!decide (t = t' ∧ n = n' ∧ p = p' ∧ s = s')) := by
  have : colTypeEq (.tup [.int t, .int n, .int p, .int s]) (.tup [.int t', .int n', .int p', .int s']) = some (decide (t = t' ∧ n = n' ∧ p = p' ∧ s = s')) := by
    unfold colTypeEq
    by_cases h : t = t'
    · simp [h, Bool.decide_and, Bool.and_assoc]
    · simp [h]
  exact ⟨this, by rw [colTypeNe, this]; rfl⟩

/-- C42, kinds of constraints: what `<<` writes for the kind of a column constraint is the SQL text of that constraint as `render` writes it (with a space behind it);
for a reference to another table it is FOREIGN KEY. -/
theorem C42_constraint_text (k : Sql.Constraint) : match k with
    | .references _ _ => constraintText k.kind = b!"FOREIGN KEY"
    | k => Sql.render k.words = constraintText k.kind ++ b!" " := by
  cases k with
  | references _ _ => rfl
  | _ => decide +kernel

/-! ### Example -/

/-- The theorems apply: the first statement of `demo` selects `a` and `f(?)` from `t`. -/
example {A : Alloc} (hA : Distinct A) {fpr : Int} (hf : FprOK fpr) (buf : Bytes) (l c : Int) :
    ∃ o a fs a' vs x y z, parse A fpr buf ((Sql.render (demo.text true)).map UInt8.ofNat) (newResult l c) = some o ∧
      o.res.stmts.map stmtType = [some StatementType.kStmtSelect, some StatementType.kStmtDelete] ∧ o.res.stmts[0]? = some (.obj a .SelectStatement fs) ∧
      fs[5]? = some (.vec a' vs) ∧ vs[0]? = some x ∧ exprGetName x = some (some b!"a") ∧ vs[1]? = some y ∧ exprGetName y = some (some b!"f") ∧
      exprIsLiteral y = some false ∧ fs[3]? = some z ∧ tableGetName z = some (some b!"t") := by
  have hw : Sql.Text (demo.text true) (cText ((Sql.render (demo.text true)).map UInt8.ofNat)) := by
    rw [Sql.cText_ofNat (Sql.render_bytes demo_ok.1 (demo.text_kn true))]
    exact Sql.render_text demo_ok.1 (demo.text_kn true)
  obtain ⟨o, ho, ⟨hv, ha⟩ | ⟨_, _, hl⟩⟩ := C23_rendering hA hf buf l c demo true demo_ok.1 demo_ok.2
  · obtain ⟨a, fs, a', vs, h1, h2, h3, h4, h5⟩ := C42_select hA hf buf _ l c demo true hw demo_ok.2 o ho hv 0 rfl
    obtain ⟨x, hx, rx⟩ := h4 0 _ _ rfl
    obtain ⟨y, hy, ry⟩ := h4 1 _ _ rfl
    obtain ⟨z, hz, rz, _⟩ := h5 _ _ rfl
    exact ⟨o, a, fs, a', vs, x, y, z, ho, C42_kinds hA hf buf _ l c demo true hw demo_ok.2 o ho hv, h1, h2, hx, rx.1, hy, ry.1, ry.4, hz, rz⟩
  · rw [demo_length] at hl; omega

end Verif.Props

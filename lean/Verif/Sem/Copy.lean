import Verif.Sem.DenType
/-! The actions of the COPY options. Proof-internal. -/
namespace Verif.Sem
open Verif.Lex Verif.LR

/-- A string or null. -/
def optStr : Option Bytes → V
  | none => .null
  | some b => .str 0 b

/-- The CSV options. -/
structure Csv where
  delimiter : Option Bytes := none
  null : Option Bytes := none
  quote : Option Bytes := none

def Csv.v (c : Csv) : V := .obj 0 .CsvOptions [optStr c.delimiter, optStr c.null, optStr c.quote]
def csvV : Option Csv → V
  | none => .null
  | some c => c.v
/-- The options of a COPY. -/
def ieo (f : Int) (e : Option Bytes) (c : Option Csv) : V := .obj 0 .ImportExportOptions [.int f, optStr e, csvV c]

theorem pev_t {c : Cond} {t f : Prog} {env : List V} {e : Bool} (h : evalCond c env (st0 e) = some true) : pev (.ite c t f) env e = pev t env e := by rw [pev, h]
theorem pev_f {c : Cond} {t f : Prog} {env : List V} {e : Bool} (h : evalCond c env (st0 e) = some false) : pev (.ite c t f) env e = pev f env e := by rw [pev, h]

theorem pev_never : ∀ (k : Prog) (env : List V) (e : Bool), neverRet k = true → pev k env e = none
  | .ret, _, _, h => by cases h
  | .fail, _, _, _ => rfl
  | .finish, _, _, _ => rfl
  | .regParam _ _, _, _, _ => rfl
  | .set p x k, env, e, h => by
    unfold pev
    repeat' split
    all_goals first | rfl | exact pev_never k _ _ h
  | .push p x k, env, e, h => by
    unfold pev
    repeat' split
    all_goals first | rfl | exact pev_never k _ _ h
  | .insert p x k, env, e, h => by
    unfold pev
    repeat' split
    all_goals first | rfl | exact pev_never k _ _ h
  | .del p k, env, e, h => by
    unfold pev
    repeat' split
    all_goals first | rfl | exact pev_never k _ _ h
  | .free p k, env, e, h => by
    unfold pev
    repeat' split
    all_goals first | rfl | exact pev_never k _ _ h
  | .ite c t f, env, e, h => by
    simp only [neverRet, Bool.and_eq_true] at h
    unfold pev
    repeat' split
    · exact pev_never t _ _ h.1
    · exact pev_never f _ _ h.2
    · rfl
  | .err _ k, env, e, h => by unfold pev; exact pev_never k _ _ h
  | .errName _ _ k, env, e, h => by
    unfold pev
    split
    · exact pev_never k _ _ h
    · rfl
  | .zeroLen k, env, e, h => by unfold pev; exact pev_never k _ _ h
  | .split p q k, env, e, h => by
    unfold pev
    repeat' split
    all_goals first | rfl | exact pev_never k _ _ h

macro "ev_pev" d:ident : tactic => `(tactic| simp [$d:ident, pev, mkEnv, evalCond, evalRv, evalAtoms, evalAtom, getP, putP, V.get, V.put, V.isUndef, strAt, ieo, csvV, Csv.v, optStr,
  ImportExportOptions.format, ImportExportOptions.encoding, ImportExportOptions.csv_options])

theorem ev42 (f : Int) {g : Int} (hg : g ≠ ImportType.kImportAuto) (e : Option Bytes) (c : Option Csv) (x y : V) (n : Nat) (er : Bool) :
    evRule 42 [ieo f e c, x, y, .int g] ⟨n, er⟩ = if f = ImportType.kImportAuto ∧ (c.isSome → g = ImportType.kImportCSV) then some (ieo g e c, ⟨n, er⟩) else none := by
  rw [evRule_pev (by omega) (by omega) (by omega)]
  have : act 42 = act42 := rfl
  rw [this]
  by_cases h1 : f = ImportType.kImportAuto
  · subst h1
    by_cases h2 : g = ImportType.kImportCSV
    · subst h2; rw [if_pos ⟨rfl, fun _ => rfl⟩]
      cases c <;> rfl
    · cases c with
      | none => rw [if_pos ⟨rfl, fun h => by cases h⟩]; rfl
      | some c =>
        rw [if_neg (by simp [h2])]
        unfold act42
        rw [pev_t rfl, pev_f rfl, pev_f (by rw [← decide_eq_false h2]; rfl), pev_f (by rw [← decide_eq_false hg]; rfl), pev_never _ _ _ rfl]; rfl
  · rw [if_neg (by simp [h1])]
    unfold act42
    rw [pev_f (by rw [← decide_eq_false h1]; rfl), pev_never _ _ _ rfl]; rfl

theorem ev43 (g : Int) (x : V) (n : Nat) (er : Bool) : evRule 43 [x, .int g] ⟨n, er⟩ = some (ieo g none none, ⟨n, er⟩) := ev_of rfl rfl

theorem ev44 (f : Int) (b : Bytes) (e : Option Bytes) (c : Option Csv) (x y : V) (n : Nat) (er : Bool) :
    evRule 44 [ieo f e c, x, y, .str 0 b] ⟨n, er⟩ = if e = none then some (ieo f (some b) c, ⟨n, er⟩) else none := by
  rw [evRule_pev (by omega) (by omega) (by omega)]
  have : act 44 = act44 := rfl
  rw [this]
  cases e with
  | none => cases c <;> rfl
  | some e =>
    rw [if_neg (by simp)]
    unfold act44
    rw [pev_f rfl, pev_never _ _ _ rfl]; rfl

theorem ev45 (b : Bytes) (x : V) (n : Nat) (er : Bool) : evRule 45 [x, .str 0 b] ⟨n, er⟩ = some (ieo ImportType.kImportAuto (some b) none, ⟨n, er⟩) := ev_of rfl rfl

/-- Which CSV option. -/
inductive CsvKind where
  | delimiter | null | quote
deriving DecidableEq
def CsvKind.code : CsvKind → Int
  | .delimiter => CsvOptionType.Delimiter
  | .null => CsvOptionType.Null
  | .quote => CsvOptionType.Quote
def Csv.get (c : Csv) : CsvKind → Option Bytes
  | .delimiter => c.delimiter
  | .null => c.null
  | .quote => c.quote
def Csv.put (c : Csv) (b : Bytes) : CsvKind → Csv
  | .delimiter => { c with delimiter := some b }
  | .null => { c with null := some b }
  | .quote => { c with quote := some b }
def csvPair (k : CsvKind) (b : Bytes) : V := .obj 0 .CsvOptionPair [.int k.code, .str 0 b]

theorem ev46 (f : Int) (b : Bytes) (e : Option Bytes) (c : Option Csv) (k : CsvKind) (x : V) (n : Nat) (er : Bool) :
    evRule 46 [ieo f e c, x, csvPair k b] ⟨n, er⟩ =
      if (f = ImportType.kImportAuto ∨ f = ImportType.kImportCSV) ∧ (c.getD {}).get k = none then some (ieo f e (some ((c.getD {}).put b k)), ⟨n, er⟩) else none := by
  rw [evRule_pev (by omega) (by omega) (by omega)]
  have : act 46 = act46 := rfl
  rw [this]
  by_cases h1 : f = ImportType.kImportAuto
  · subst h1
    cases e <;> cases k <;> rcases c with _ | ⟨_ | d, _ | u, _ | q⟩ <;> rfl
  · by_cases h2 : f = ImportType.kImportCSV
    · subst h2
      cases e <;> cases k <;> rcases c with _ | ⟨_ | d, _ | u, _ | q⟩ <;> rfl
    · rw [if_neg (by simp [h1, h2])]
      unfold act46 csvOptionNext
      rw [pev_f (by rw [← decide_eq_false h1]; rfl), pev_f (by rw [← decide_eq_false h2]; rfl), pev_never _ _ _ rfl]; rfl

theorem ev47 (k : CsvKind) (b : Bytes) (n : Nat) (er : Bool) : evRule 47 [csvPair k b] ⟨n, er⟩ = some (ieo ImportType.kImportAuto none (some (({} : Csv).put b k)), ⟨n, er⟩) := by
  cases k <;> exact ev_of rfl rfl

theorem ev48 (a b : Bytes) (n : Nat) (er : Bool) : evRule 48 [.str 0 a, .str 0 b] ⟨n, er⟩ =
    if eqNoCase a b!"DELIMITER" then some (csvPair .delimiter b, ⟨n, er⟩) else if eqNoCase a b!"QUOTE" then some (csvPair .quote b, ⟨n, er⟩) else none := by
  rw [evRule_pev (by omega) (by omega) (by omega)]
  have : act 48 = act48 := rfl
  rw [this]
  by_cases h1 : eqNoCase a b!"DELIMITER" = true
  · ev_pev act48
    rw [h1]; rfl
  · by_cases h2 : eqNoCase a b!"QUOTE" = true
    · ev_pev act48
      rw [Bool.not_eq_true] at h1
      rw [h1, h2]; rfl
    · ev_pev act48
      rw [Bool.not_eq_true] at h1 h2
      rw [h1, h2]; rfl

theorem ev49 (b : Bytes) (x : V) (n : Nat) (er : Bool) : evRule 49 [x, .str 0 b] ⟨n, er⟩ = some (csvPair .null b, ⟨n, er⟩) := ev_of rfl rfl

/-- The file types. -/
def fileType (b : Bytes) : Option Int :=
  if eqNoCase b b!"csv" then some ImportType.kImportCSV
  else if eqNoCase b b!"tbl" then some ImportType.kImportTbl
  else if eqNoCase b b!"binary" then some ImportType.kImportBinary
  else if eqNoCase b b!"bin" then some ImportType.kImportBinary
  else none

theorem ev37 (b : Bytes) (n : Nat) (er : Bool) : evRule 37 [.str 0 b] ⟨n, er⟩ = (fileType b).map fun f => (.int f, ⟨n, er⟩) := by
  rw [evRule_pev (by omega) (by omega) (by omega)]
  have : act 37 = act37 := rfl
  rw [this]
  unfold fileType
  ev_pev act37
  cases eqNoCase b b!"csv" <;> cases eqNoCase b b!"tbl" <;> cases eqNoCase b b!"binary" <;> cases eqNoCase b b!"bin" <;> rfl

theorem ev162 (a b : Bytes) (n : Nat) (er : Bool) : evRule 162 [.str 0 a, .str 0 b] ⟨n, er⟩ =
    if eqNoCase a b!"nulls" then (if eqNoCase b b!"first" then some (.int NullOrdering.First, ⟨n, er⟩) else if eqNoCase b b!"last" then some (.int NullOrdering.Last, ⟨n, er⟩) else none) else none := by
  rw [evRule_pev (by omega) (by omega) (by omega)]
  have : act 162 = act162 := rfl
  rw [this]
  ev_pev act162
  cases eqNoCase a b!"nulls" <;> cases eqNoCase b b!"first" <;> cases eqNoCase b b!"last" <;> rfl

end Verif.Sem

import Verif.Sem.Copy
import Verif.Props.Value
import Verif.Props.Ast
/-!
# C28: the options of COPY
-/
namespace Verif.Props
open Verif.Lex Verif.LR Verif.Sem Verif.Api

/-! ## Specification -/

/-- What an option is about. -/
inductive OptKind where
  | format | encoding | delimiter | null | quote
deriving DecidableEq

/-- An option consists of two tokens, a key and an argument. -/
abbrev Opt := Tok × Tok

/-- The options in a text `k a , k a , … , k a`. -/
def optsOf : List Tok → List Opt
  | [k, a] => [(k, a)]
  | k :: a :: _ :: l => (k, a) :: optsOf l
  | _ => []

/-- `FORMAT`, `ENCODING` and `NULL` are keywords; `DELIMITER` and `QUOTE` are identifiers, read without regard to case. -/
def kindOf (o : Opt) : Option OptKind :=
  if tsym o.1 = T.FORMAT then some .format
  else if tsym o.1 = T.ENCODING then some .encoding
  else if tsym o.1 = T.NULL then some .null
  else match o.1.val with
    | .sval b => if eqNoCase b b!"DELIMITER" then some .delimiter else if eqNoCase b b!"QUOTE" then some .quote else none
    | _ => none

/-- The text of an argument. -/
def argOf (o : Opt) : Bytes := match o.2.val with
  | .sval b => b
  | _ => []

/-- The file type named by an argument: `csv`, `tbl`, `binary` or `bin`. -/
def typeOf (o : Opt) : Option Int := fileType (argOf o)

/-- The argument of the first option of a kind. -/
def optArg (os : List Opt) (k : OptKind) : Option Bytes := (os.find? fun o => kindOf o = some k).map argOf

/-- The format; unspecified: `kImportAuto`. -/
def optFormat (os : List Opt) : Int := match os.find? fun o => kindOf o = some .format with
  | some o => (typeOf o).getD ImportType.kImportAuto
  | none => ImportType.kImportAuto

/-- One of the CSV options. -/
def isCsv (k : OptKind) : Prop := k = .delimiter ∨ k = .null ∨ k = .quote
instance : DecidablePred isCsv := fun _ => inferInstanceAs (Decidable (_ ∨ _))

/-- There is a CSV option. -/
def HasCsv (os : List Opt) : Prop := ∃ o ∈ os, ∃ k, kindOf o = some k ∧ isCsv k

/-- The options are consistent: each is known, the file type is known, each is given at most once, and CSV options are given only with the format CSV, or
without a format. -/
structure OptsOK (os : List Opt) : Prop where
  known : ∀ o ∈ os, kindOf o ≠ none
  types : ∀ o ∈ os, kindOf o = some .format → typeOf o ≠ none
  once : (os.map kindOf).Nodup
  csv : HasCsv os → ∀ o ∈ os, kindOf o = some .format → typeOf o = some ImportType.kImportCSV

open Classical in
/-- The options object the parser makes. -/
noncomputable def optsV (os : List Opt) : V :=
  .obj 0 .ImportExportOptions [.int (optFormat os), optStr (optArg os .encoding),
    if HasCsv os then .obj 0 .CsvOptions [optStr (optArg os .delimiter), optStr (optArg os .null), optStr (optArg os .quote)] else .null]

/-! ## Proofs -/

theorem optsOf_snoc (c k a : Tok) : ∀ (l : List Tok), l.length % 3 = 2 → optsOf (l ++ [c, k, a]) = optsOf l ++ [(k, a)]
  | [x, y], _ => rfl
  | x :: y :: z :: l, h => by
    have : l.length % 3 = 2 := by simp only [List.length_cons] at h; omega
    simp only [List.cons_append]
    have h1 : ∀ l' : List Tok, l' ≠ [] → optsOf (x :: y :: z :: l') = (x, y) :: optsOf l' := by intro l' _; rfl
    have e : optsOf (x :: y :: z :: l) = (x, y) :: optsOf l := rfl
    rw [e, h1 _ (by simp), optsOf_snoc c k a l this]
    rfl
  | [], h => by simp at h
  | [_], h => by simp at h

theorem rules_ieo : (List.range 358).filter (fun r => lhs r == N.import_export_options) = [42, 43, 44, 45, 46, 47] := by decide +kernel
theorem rules_csv : (List.range 358).filter (fun r => lhs r == N.csv_option) = [48, 49] := by decide +kernel
theorem rules_ft : (List.range 358).filter (fun r => lhs r == N.file_type) = [37] := by decide +kernel

theorem rule_in {X : Nat} {l : List Nat} (hl : (List.range 358).filter (fun r => lhs r == X) = l) {r : Nat} {cs : List Tree} (hw : (Tree.node r cs).WF) (hs : (Tree.node r cs).sym = X) : r ∈ l := by
  have h2 := hw.2.1
  rw [rules_len] at h2
  rw [← hl, List.mem_filter]
  exact ⟨List.mem_range.2 h2, by simpa [Tree.sym] using hs⟩

def Has (os : List Opt) (k : OptKind) : Prop := ∃ o ∈ os, kindOf o = some k

theorem find_none {os : List Opt} {k : OptKind} : (os.find? fun o => kindOf o = some k) = none ↔ ¬ Has os k := by
  simp [List.find?_eq_none, Has]

theorem optArg_none {os : List Opt} {k : OptKind} : optArg os k = none ↔ ¬ Has os k := by rw [optArg, Option.map_eq_none_iff, find_none]

theorem find_snoc (os : List Opt) (o : Opt) (k : OptKind) : ((os ++ [o]).find? fun o => kindOf o = some k) =
    ((os.find? fun o => kindOf o = some k).or (if kindOf o = some k then some o else none)) := by
  rw [List.find?_append]
  congr 1
  simp only [List.find?_cons, List.find?_nil]
  by_cases h : kindOf o = some k <;> simp [h]

theorem optArg_snoc_ne {os : List Opt} {o : Opt} {k : OptKind} (h : kindOf o ≠ some k) : optArg (os ++ [o]) k = optArg os k := by
  rw [optArg, find_snoc, if_neg h, Option.or_none]; rfl
theorem optArg_snoc_eq {os : List Opt} {o : Opt} {k : OptKind} (h : kindOf o = some k) (hn : ¬ Has os k) : optArg (os ++ [o]) k = some (argOf o) := by
  rw [optArg, find_snoc, if_pos h, find_none.2 hn]; rfl
theorem optFormat_snoc_ne {os : List Opt} {o : Opt} (h : kindOf o ≠ some .format) : optFormat (os ++ [o]) = optFormat os := by
  rw [optFormat, find_snoc, if_neg h, Option.or_none]; rfl
theorem optFormat_snoc_eq {os : List Opt} {o : Opt} {g : Int} (h : kindOf o = some .format) (hn : ¬ Has os .format) (hg : typeOf o = some g) : optFormat (os ++ [o]) = g := by
  rw [optFormat, find_snoc, if_pos h, find_none.2 hn]
  show (typeOf o).getD _ = g
  rw [hg]; rfl

theorem has_snoc {os : List Opt} {o : Opt} {k : OptKind} : Has (os ++ [o]) k ↔ Has os k ∨ kindOf o = some k := by
  simp [Has, or_and_right, exists_or]

theorem hasCsv_snoc {os : List Opt} {o : Opt} : HasCsv (os ++ [o]) ↔ HasCsv os ∨ ∃ k, kindOf o = some k ∧ isCsv k := by
  simp [HasCsv, or_and_right, exists_or]

theorem fileType_ne {b : Bytes} {g : Int} (h : fileType b = some g) : g ≠ ImportType.kImportAuto := by
  unfold fileType at h
  repeat' split at h
  all_goals first | (cases h; decide) | cases h

theorem format_auto {os : List Opt} (h : OptsOK os) : optFormat os = ImportType.kImportAuto ↔ ¬ Has os .format := by
  rw [← find_none, optFormat]
  cases hf : os.find? fun o => kindOf o = some .format with
  | none => simp
  | some o =>
    have h1 := List.mem_of_find?_eq_some hf
    have h2 := List.find?_some hf
    simp only [decide_eq_true_eq] at h2
    have h3 := h.types o h1 h2
    cases ht : typeOf o with
    | none => exact absurd ht h3
    | some g => simpa [ht] using fileType_ne ht

theorem uniq {os : List Opt} (h : (os.map kindOf).Nodup) {o o' : Opt} (h1 : o ∈ os) (h2 : o' ∈ os) (e : kindOf o = kindOf o') : o = o' := by
  induction os with
  | nil => cases h1
  | cons x os ih =>
    simp only [List.map_cons, List.nodup_cons, List.mem_map, not_exists, not_and] at h
    rcases List.mem_cons.1 h1 with rfl | h1
    · rcases List.mem_cons.1 h2 with rfl | h2
      · rfl
      · exact absurd e.symm (h.1 _ h2)
    · rcases List.mem_cons.1 h2 with rfl | h2
      · exact absurd e (h.1 o (by assumption))
      · exact ih h.2 h1 h2

theorem format_csv {os : List Opt} (h : OptsOK os) : (optFormat os = ImportType.kImportAuto ∨ optFormat os = ImportType.kImportCSV) ↔
    ∀ o ∈ os, kindOf o = some .format → typeOf o = some ImportType.kImportCSV := by
  rw [format_auto h]
  constructor
  · rintro (h1 | h1) o ho hk
    · exact absurd ⟨o, ho, hk⟩ h1
    · rw [optFormat] at h1
      cases hf : os.find? fun o => kindOf o = some .format with
      | none => exact absurd ⟨o, ho, hk⟩ (find_none.1 hf)
      | some o' =>
        rw [hf] at h1
        have h2 := List.mem_of_find?_eq_some hf
        have h3 := List.find?_some hf
        simp only [decide_eq_true_eq] at h3
        have := uniq h.once ho h2 (by rw [hk, h3])
        subst this
        cases ht : typeOf o with
        | none => exact absurd ht (h.types o ho hk)
        | some g => simp only [ht, Option.getD_some] at h1; rw [h1]
  · intro h1
    by_cases h2 : Has os .format
    · right
      obtain ⟨o, ho, hk⟩ := h2
      rw [optFormat]
      cases hf : os.find? fun o => kindOf o = some .format with
      | none => exact absurd ⟨o, ho, hk⟩ (find_none.1 hf)
      | some o' =>
        have h3 := List.mem_of_find?_eq_some hf
        have h4 := List.find?_some hf
        simp only [decide_eq_true_eq] at h4
        simp only [h1 o' h3 h4, Option.getD_some]
    · exact .inl h2

open Classical in
noncomputable def csvOpt (os : List Opt) : Option Csv := if HasCsv os then some ⟨optArg os .delimiter, optArg os .null, optArg os .quote⟩ else none

theorem optsV_eq (os : List Opt) : optsV os = ieo (optFormat os) (optArg os .encoding) (csvOpt os) := by
  rw [optsV, ieo, csvOpt]
  congr 5
  split <;> rfl

theorem nodup_snoc {os : List Opt} {o : Opt} {k : OptKind} (hk : kindOf o = some k) : ((os ++ [o]).map kindOf).Nodup ↔ (os.map kindOf).Nodup ∧ ¬ Has os k := by
  rw [List.map_append, List.nodup_append]
  simp only [List.map_cons, List.map_nil, List.nodup_cons, List.not_mem_nil, not_false_eq_true, List.nodup_nil, and_self, true_and, List.mem_map, List.mem_cons, or_false, Has, hk]
  constructor
  · rintro ⟨h1, h2⟩
    exact ⟨h1, fun ⟨x, hx, he⟩ => h2 _ ⟨x, hx, rfl⟩ _ rfl he⟩
  · rintro ⟨h1, h2⟩
    refine ⟨h1, ?_⟩
    rintro _ ⟨x, hx, rfl⟩ _ rfl he
    exact h2 ⟨x, hx, he⟩

theorem ok_left {os : List Opt} {o : Opt} (h : OptsOK (os ++ [o])) : OptsOK os := by
  refine ⟨fun x hx => h.known x (by simp [hx]), fun x hx => h.types x (by simp [hx]), ?_, ?_⟩
  · have := h.once
    rw [List.map_append, List.nodup_append] at this
    exact this.1
  · intro hc x hx
    exact h.csv (hasCsv_snoc.2 (.inl hc)) x (by simp [hx])

theorem ok_format {os : List Opt} {o : Opt} {g : Int} (hk : kindOf o = some .format) (hg : typeOf o = some g) : OptsOK (os ++ [o]) ↔
    OptsOK os ∧ optFormat os = ImportType.kImportAuto ∧ ((csvOpt os).isSome → g = ImportType.kImportCSV) := by
  have hc : (csvOpt os).isSome ↔ HasCsv os := by unfold csvOpt; split <;> simp_all
  rw [hc]
  have nc : ¬ ∃ k, kindOf o = some k ∧ isCsv k := by rw [hk]; rintro ⟨k, hk, h⟩; cases hk; revert h; decide
  constructor
  · intro h
    have h1 := ok_left h
    have h2 := (nodup_snoc hk).1 h.once
    refine ⟨h1, (format_auto h1).2 h2.2, fun h3 => ?_⟩
    have := h.csv (hasCsv_snoc.2 (.inl h3)) o (by simp) hk
    rw [hg] at this
    exact Option.some.inj this
  · rintro ⟨h1, h2, h3⟩
    have h2 := (format_auto h1).1 h2
    refine ⟨?_, ?_, (nodup_snoc hk).2 ⟨h1.once, h2⟩, ?_⟩
    · intro x hx
      rcases List.mem_append.1 hx with hx | hx
      · exact h1.known x hx
      · simp only [List.mem_cons, List.not_mem_nil, or_false] at hx; subst hx; rw [hk]; simp
    · intro x hx hxk
      rcases List.mem_append.1 hx with hx | hx
      · exact h1.types x hx hxk
      · simp only [List.mem_cons, List.not_mem_nil, or_false] at hx; subst hx; rw [hg]; simp
    · intro hh x hx hxk
      have hh' := (hasCsv_snoc.1 hh).resolve_right nc
      rcases List.mem_append.1 hx with hx | hx
      · exact h1.csv hh' x hx hxk
      · simp only [List.mem_cons, List.not_mem_nil, or_false] at hx; subst hx; rw [hg, h3 hh']

theorem ok_encoding {os : List Opt} {o : Opt} (hk : kindOf o = some .encoding) : OptsOK (os ++ [o]) ↔ OptsOK os ∧ optArg os .encoding = none := by
  have nc : ¬ ∃ k, kindOf o = some k ∧ isCsv k := by rw [hk]; rintro ⟨k, hk, h⟩; cases hk; revert h; decide
  rw [optArg_none]
  constructor
  · intro h
    exact ⟨ok_left h, ((nodup_snoc hk).1 h.once).2⟩
  · rintro ⟨h1, h2⟩
    refine ⟨?_, ?_, (nodup_snoc hk).2 ⟨h1.once, h2⟩, ?_⟩
    · intro x hx
      rcases List.mem_append.1 hx with hx | hx
      · exact h1.known x hx
      · simp only [List.mem_cons, List.not_mem_nil, or_false] at hx; subst hx; rw [hk]; simp
    · intro x hx hxk
      rcases List.mem_append.1 hx with hx | hx
      · exact h1.types x hx hxk
      · simp only [List.mem_cons, List.not_mem_nil, or_false] at hx; subst hx; rw [hk] at hxk; cases hxk
    · intro hh x hx hxk
      have hh' := (hasCsv_snoc.1 hh).resolve_right nc
      rcases List.mem_append.1 hx with hx | hx
      · exact h1.csv hh' x hx hxk
      · simp only [List.mem_cons, List.not_mem_nil, or_false] at hx; subst hx; rw [hk] at hxk; cases hxk

def csvKind : CsvKind → OptKind
  | .delimiter => .delimiter
  | .null => .null
  | .quote => .quote

theorem csvOpt_get {os : List Opt} (k : CsvKind) : ((csvOpt os).getD {}).get k = optArg os (csvKind k) := by
  unfold csvOpt
  split
  · cases k <;> rfl
  · rename_i h
    have hn : ¬ Has os (csvKind k) := by
      rintro ⟨o, ho, hk⟩
      exact h ⟨o, ho, _, hk, by cases k <;> decide⟩
    rw [optArg_none.2 hn]
    cases k <;> rfl

theorem ok_csv {os : List Opt} {o : Opt} {k : CsvKind} (hk : kindOf o = some (csvKind k)) : OptsOK (os ++ [o]) ↔
    OptsOK os ∧ (optFormat os = ImportType.kImportAuto ∨ optFormat os = ImportType.kImportCSV) ∧ ((csvOpt os).getD {}).get k = none := by
  have nc : ∃ k, kindOf o = some k ∧ isCsv k := ⟨_, hk, by cases k <;> decide⟩
  have nf : csvKind k ≠ .format := by cases k <;> decide
  rw [csvOpt_get, optArg_none]
  constructor
  · intro h
    refine ⟨ok_left h, (format_csv (ok_left h)).2 fun x hx => h.csv (hasCsv_snoc.2 (.inr nc)) x (by simp [hx]), ((nodup_snoc hk).1 h.once).2⟩
  · rintro ⟨h1, h2, h3⟩
    have h2 := (format_csv h1).1 h2
    refine ⟨?_, ?_, (nodup_snoc hk).2 ⟨h1.once, h3⟩, ?_⟩
    · intro x hx
      rcases List.mem_append.1 hx with hx | hx
      · exact h1.known x hx
      · simp only [List.mem_cons, List.not_mem_nil, or_false] at hx; subst hx; rw [hk]; simp
    · intro x hx hxk
      rcases List.mem_append.1 hx with hx | hx
      · exact h1.types x hx hxk
      · simp only [List.mem_cons, List.not_mem_nil, or_false] at hx; subst hx; rw [hk] at hxk; exact absurd (Option.some.inj hxk) nf
    · intro _ x hx hxk
      rcases List.mem_append.1 hx with hx | hx
      · exact h2 x hx hxk
      · simp only [List.mem_cons, List.not_mem_nil, or_false] at hx; subst hx; rw [hk] at hxk; exact absurd (Option.some.inj hxk) nf

theorem v_format {os : List Opt} {o : Opt} {g : Int} (hk : kindOf o = some .format) (hg : typeOf o = some g) (h : OptsOK (os ++ [o])) :
    optsV (os ++ [o]) = ieo g (optArg os .encoding) (csvOpt os) := by
  have hn := ((nodup_snoc hk).1 h.once).2
  have nc : HasCsv (os ++ [o]) ↔ HasCsv os := by
    rw [hasCsv_snoc]; exact or_iff_left (by rw [hk]; rintro ⟨k, hk, h⟩; cases hk; revert h; decide)
  rw [optsV_eq, optFormat_snoc_eq hk hn hg, optArg_snoc_ne (by rw [hk]; decide)]
  congr 1
  unfold csvOpt
  rw [optArg_snoc_ne (by rw [hk]; decide), optArg_snoc_ne (by rw [hk]; decide), optArg_snoc_ne (by rw [hk]; decide)]
  by_cases hc : HasCsv os
  · rw [if_pos hc, if_pos (nc.2 hc)]
  · rw [if_neg hc, if_neg (fun h => hc (nc.1 h))]

theorem v_encoding {os : List Opt} {o : Opt} (hk : kindOf o = some .encoding) (h : OptsOK (os ++ [o])) :
    optsV (os ++ [o]) = ieo (optFormat os) (some (argOf o)) (csvOpt os) := by
  have hn := ((nodup_snoc hk).1 h.once).2
  have nc : HasCsv (os ++ [o]) ↔ HasCsv os := by
    rw [hasCsv_snoc]; exact or_iff_left (by rw [hk]; rintro ⟨k, hk, h⟩; cases hk; revert h; decide)
  rw [optsV_eq, optFormat_snoc_ne (by rw [hk]; decide), optArg_snoc_eq hk hn]
  congr 1
  unfold csvOpt
  rw [optArg_snoc_ne (by rw [hk]; decide), optArg_snoc_ne (by rw [hk]; decide), optArg_snoc_ne (by rw [hk]; decide)]
  by_cases hc : HasCsv os
  · rw [if_pos hc, if_pos (nc.2 hc)]
  · rw [if_neg hc, if_neg (fun h => hc (nc.1 h))]

theorem v_csv {os : List Opt} {o : Opt} {k : CsvKind} (hk : kindOf o = some (csvKind k)) (h : OptsOK (os ++ [o])) :
    optsV (os ++ [o]) = ieo (optFormat os) (optArg os .encoding) (some (((csvOpt os).getD {}).put (argOf o) k)) := by
  have hn := ((nodup_snoc hk).1 h.once).2
  have nc : HasCsv (os ++ [o]) := hasCsv_snoc.2 (.inr ⟨_, hk, by cases k <;> decide⟩)
  rw [optsV_eq, optFormat_snoc_ne (by rw [hk]; cases k <;> decide), optArg_snoc_ne (by rw [hk]; cases k <;> decide)]
  congr 1
  have e := fun j => csvOpt_get (os := os) j
  generalize (csvOpt os).getD {} = c at e
  rw [csvOpt, if_pos nc]
  congr 1
  obtain ⟨d, u, q⟩ := c
  have e1 := e .delimiter
  have e2 := e .null
  have e3 := e .quote
  simp only [Csv.get, csvKind] at e1 e2 e3
  subst e1 e2 e3
  cases k <;> simp only [Csv.put, csvKind] at hk hn ⊢
  · rw [optArg_snoc_eq hk hn, optArg_snoc_ne (by rw [hk]; decide), optArg_snoc_ne (by rw [hk]; decide)]
  · rw [optArg_snoc_eq hk hn, optArg_snoc_ne (by rw [hk]; decide), optArg_snoc_ne (by rw [hk]; decide)]
  · rw [optArg_snoc_eq hk hn, optArg_snoc_ne (by rw [hk]; decide), optArg_snoc_ne (by rw [hk]; decide)]

theorem leaf_sval {m : Tok} (h : TokShape m) (hs : tsym m = T.IDENTIFIER ∨ tsym m = T.STRING) : ∃ b, m.val = .sval b := by
  unfold TokShape at h
  cases hv : m.val with
  | sval b => exact ⟨b, rfl⟩
  | none => rw [hv] at h; rcases hs with hs | hs <;> simp [hs] at h
  | ival n => rw [hv] at h; rcases hs with hs | hs <;> simp [hs] at h <;> exact absurd h (by decide)
  | fval b => rw [hv] at h; rcases hs with hs | hs <;> simp [hs] at h <;> exact absurd h (by decide)

theorem tree_file_type {t : Tree} (hw : t.WF) (hs : t.sym = N.file_type) (hm : ∀ m ∈ t.yield, TokShape m) :
    ∃ m b, t.yield = [m] ∧ m.val = .sval b ∧ ∀ a, den t a = (fileType b).map fun f => (.int f, a) := by
  obtain ⟨r, cs, rfl⟩ := node_of_sym (t := t) (by rw [hs]; decide)
  have hr := rule_in rules_ft hw hs
  simp only [List.mem_cons, List.not_mem_nil, or_false] at hr
  subst hr
  obtain ⟨_, _, h3, h4⟩ := hw
  have er : rhs 37 = [T.IDENTIFIER] := by decide +kernel
  rw [er] at h3
  obtain ⟨c, rfl, hc⟩ := map_one_of h3
  obtain ⟨m, rfl⟩ := leaf_of_sym h4.1 (by rw [hc]; decide)
  have hsh := hm m (by simp [Tree.yield, yieldL])
  obtain ⟨b, hb⟩ := leaf_sval hsh (.inl hc)
  refine ⟨m, b, by simp [Tree.yield, yieldL], hb, fun a => ?_⟩
  simp only [den, denL, hb]
  exact ev37 b a.n a.err

theorem tree_csv {t : Tree} (hw : t.WF) (hs : t.sym = N.csv_option) (hm : ∀ m ∈ t.yield, TokShape m) :
    ∃ k x, t.yield = [k, x] ∧ ((∃ j, kindOf (k, x) = some (csvKind j) ∧ ∀ a, den t a = some (csvPair j (argOf (k, x)), a)) ∨ (kindOf (k, x) = none ∧ ∀ a, den t a = none)) := by
  obtain ⟨r, cs, rfl⟩ := node_of_sym (t := t) (by rw [hs]; decide)
  have hr := rule_in rules_csv hw hs
  simp only [List.mem_cons, List.not_mem_nil, or_false] at hr
  obtain ⟨_, _, h3, h4⟩ := hw
  rcases hr with rfl | rfl
  · have er : rhs 48 = [T.IDENTIFIER, T.STRING] := by decide +kernel
    rw [er] at h3
    obtain ⟨c, cs', rfl, hc, h3⟩ := map_cons_of h3
    obtain ⟨d, rfl, hd⟩ := map_one_of h3
    obtain ⟨k, rfl⟩ := leaf_of_sym h4.1 (by rw [hc]; decide)
    obtain ⟨x, rfl⟩ := leaf_of_sym h4.2.1 (by rw [hd]; decide)
    obtain ⟨b, hb⟩ := leaf_sval (hm k (by simp [Tree.yield, yieldL])) (.inl hc)
    obtain ⟨b', hb'⟩ := leaf_sval (hm x (by simp [Tree.yield, yieldL])) (.inr hd)
    refine ⟨k, x, by simp [Tree.yield, yieldL], ?_⟩
    have hk : kindOf (k, x) = if eqNoCase b b!"DELIMITER" then some .delimiter else if eqNoCase b b!"QUOTE" then some .quote else none := by
      have hc : tsym k = T.IDENTIFIER := hc
      unfold kindOf
      rw [if_neg (by rw [hc]; decide), if_neg (by rw [hc]; decide), if_neg (by rw [hc]; decide)]
      simp only [hb]
    have ha : argOf (k, x) = b' := by simp only [argOf, hb']
    have hd : ∀ a, den (.node 48 [.leaf k, .leaf x]) a = if eqNoCase b b!"DELIMITER" then some (csvPair .delimiter b', a) else if eqNoCase b b!"QUOTE" then some (csvPair .quote b', a) else none := by
      intro a
      simp only [den, denL, hb, hb']
      exact ev48 b b' a.n a.err
    rw [hk, ha]
    by_cases h1 : eqNoCase b b!"DELIMITER" = true
    · left; refine ⟨.delimiter, by rw [if_pos h1]; rfl, fun a => by rw [hd, if_pos h1]⟩
    · by_cases h2 : eqNoCase b b!"QUOTE" = true
      · left; refine ⟨.quote, by rw [if_neg h1, if_pos h2]; rfl, fun a => by rw [hd, if_neg h1, if_pos h2]⟩
      · right; refine ⟨by rw [if_neg h1, if_neg h2], fun a => by rw [hd, if_neg h1, if_neg h2]⟩
  · have er : rhs 49 = [T.NULL, T.STRING] := by decide +kernel
    rw [er] at h3
    obtain ⟨c, cs', rfl, hc, h3⟩ := map_cons_of h3
    obtain ⟨d, rfl, hd⟩ := map_one_of h3
    obtain ⟨k, rfl⟩ := leaf_of_sym h4.1 (by rw [hc]; decide)
    obtain ⟨x, rfl⟩ := leaf_of_sym h4.2.1 (by rw [hd]; decide)
    obtain ⟨b', hb'⟩ := leaf_sval (hm x (by simp [Tree.yield, yieldL])) (.inr hd)
    refine ⟨k, x, by simp [Tree.yield, yieldL], .inl ⟨.null, ?_, fun a => ?_⟩⟩
    · have hc : tsym k = T.NULL := hc
      unfold kindOf
      rw [if_neg (by rw [hc]; decide), if_neg (by rw [hc]; decide), if_pos (by rw [hc])]; rfl
    · simp only [den, denL, hb', argOf]
      exact ev49 b' _ a.n a.err

theorem hasCsv_one {o : Opt} {k : OptKind} (hk : kindOf o = some k) : HasCsv [o] ↔ isCsv k := by
  simp [HasCsv, hk]

theorem ok_nil : OptsOK [] := ⟨by simp, by simp, by simp, by simp⟩

theorem optsV_nil : optFormat [] = ImportType.kImportAuto ∧ (∀ k, optArg [] k = none) ∧ csvOpt [] = none := by
  refine ⟨rfl, fun _ => rfl, ?_⟩
  unfold csvOpt
  rw [if_neg (by simp [HasCsv])]

open Classical in
theorem tree_opts_aux : ∀ (n : Nat) {t : Tree}, sizeOf t < n → t.WF → t.sym = N.import_export_options → (∀ m ∈ t.yield, TokShape m) →
    t.yield.length % 3 = 2 ∧ ∀ a, den t a = if OptsOK (optsOf t.yield) then some (optsV (optsOf t.yield), a) else none := by
  intro n
  induction n with
  | zero => intro t h; omega
  | succ n ih =>
  intro t hn hw hs hm
  obtain ⟨r, cs, rfl⟩ := node_of_sym (t := t) (by rw [hs]; decide)
  have hr := rule_in rules_ieo hw hs
  simp only [List.mem_cons, List.not_mem_nil, or_false] at hr
  obtain ⟨_, _, h3, h4⟩ := hw
  rcases hr with rfl | rfl | rfl | rfl | rfl | rfl
  · have er : rhs 42 = [N.import_export_options, T.COMMA, T.FORMAT, N.file_type] := by decide +kernel
    rw [er] at h3
    obtain ⟨l, cs', rfl, hl, h3⟩ := map_cons_of h3
    obtain ⟨c, cs', rfl, hc, h3⟩ := map_cons_of h3
    obtain ⟨k, cs', rfl, hk, h3⟩ := map_cons_of h3
    obtain ⟨f, rfl, hf⟩ := map_one_of h3
    obtain ⟨w1, w2, w3, w4, _⟩ := h4
    obtain ⟨c, rfl⟩ := leaf_of_sym w2 (by rw [hc]; decide)
    obtain ⟨k, rfl⟩ := leaf_of_sym w3 (by rw [hk]; decide)
    have hl1 : ∀ m ∈ l.yield, TokShape m := fun m h => hm m (by simp [Tree.yield, yieldL, h])
    obtain ⟨x, b, hy, hb, hd⟩ := tree_file_type w4 hf (fun m h => hm m (by simp [Tree.yield, yieldL, h]))
    obtain ⟨i1, i2⟩ := ih (by simp at hn; omega) w1 hl hl1
    have ey : (Tree.node 42 [l, .leaf c, .leaf k, f]).yield = l.yield ++ [c, k, x] := by simp [Tree.yield, yieldL, hy]
    rw [ey, optsOf_snoc c k x _ i1]
    refine ⟨by simp only [List.length_append, List.length_cons, List.length_nil]; omega, fun a => ?_⟩
    have kk : kindOf (k, x) = some .format := by
      have hk : tsym k = T.FORMAT := hk
      unfold kindOf; rw [if_pos hk]
    have kt : typeOf (k, x) = fileType b := by simp only [typeOf, argOf, hb]
    simp only [den, denL, i2]
    cases hft : fileType b with
    | none =>
      rw [if_neg (c := OptsOK (optsOf l.yield ++ [(k, x)])) (fun h => h.types (k, x) (by simp) kk (by rw [kt, hft]))]
      by_cases h1 : OptsOK (optsOf l.yield)
      · simp only [if_pos h1, hd, hft, Option.map_none]
      · rw [if_neg h1]
    | some g =>
      rw [hft] at kt
      by_cases h1 : OptsOK (optsOf l.yield)
      · rw [if_pos h1]
        simp only [hd, hft, Option.map_some]
        rw [optsV_eq, ev42 _ (fileType_ne hft)]
        by_cases h2 : optFormat (optsOf l.yield) = ImportType.kImportAuto ∧ ((csvOpt (optsOf l.yield)).isSome = true → g = ImportType.kImportCSV)
        · have := (ok_format (os := optsOf l.yield) kk kt).2 ⟨h1, h2⟩
          rw [if_pos h2, if_pos this, v_format kk kt this]
        · rw [if_neg h2, if_neg (fun h => h2 ((ok_format kk kt).1 h).2)]
      · rw [if_neg h1, if_neg (fun h => h1 (ok_left h))]
  · have er : rhs 43 = [T.FORMAT, N.file_type] := by decide +kernel
    rw [er] at h3
    obtain ⟨k, cs', rfl, hk, h3⟩ := map_cons_of h3
    obtain ⟨f, rfl, hf⟩ := map_one_of h3
    obtain ⟨w3, w4, _⟩ := h4
    obtain ⟨k, rfl⟩ := leaf_of_sym w3 (by rw [hk]; decide)
    obtain ⟨x, b, hy, hb, hd⟩ := tree_file_type w4 hf (fun m h => hm m (by simp [Tree.yield, yieldL, h]))
    have ey : (Tree.node 43 [.leaf k, f]).yield = [k, x] := by simp [Tree.yield, yieldL, hy]
    rw [ey]
    refine ⟨rfl, fun a => ?_⟩
    have eo : optsOf [k, x] = [] ++ [(k, x)] := rfl
    rw [eo]
    have kk : kindOf (k, x) = some .format := by
      have hk : tsym k = T.FORMAT := hk
      unfold kindOf; rw [if_pos hk]
    have kt : typeOf (k, x) = fileType b := by simp only [typeOf, argOf, hb]
    simp only [den, denL]
    cases hft : fileType b with
    | none =>
      rw [if_neg (fun h => h.types (k, x) (by simp) kk (by rw [kt, hft]))]
      simp only [hd, hft, Option.map_none]
    | some g =>
      rw [hft] at kt
      have := (ok_format (os := []) kk kt).2 ⟨ok_nil, optsV_nil.1, by rw [optsV_nil.2.2]; simp⟩
      rw [if_pos this, v_format kk kt this]
      simp only [hd, hft, Option.map_some, optsV_nil.2.1, optsV_nil.2.2]
      exact ev43 g _ a.n a.err
  · have er : rhs 44 = [N.import_export_options, T.COMMA, T.ENCODING, T.STRING] := by decide +kernel
    rw [er] at h3
    obtain ⟨l, cs', rfl, hl, h3⟩ := map_cons_of h3
    obtain ⟨c, cs', rfl, hc, h3⟩ := map_cons_of h3
    obtain ⟨k, cs', rfl, hk, h3⟩ := map_cons_of h3
    obtain ⟨f, rfl, hf⟩ := map_one_of h3
    obtain ⟨w1, w2, w3, w4, _⟩ := h4
    obtain ⟨c, rfl⟩ := leaf_of_sym w2 (by rw [hc]; decide)
    obtain ⟨k, rfl⟩ := leaf_of_sym w3 (by rw [hk]; decide)
    obtain ⟨x, rfl⟩ := leaf_of_sym w4 (by rw [hf]; decide)
    have hl1 : ∀ m ∈ l.yield, TokShape m := fun m h => hm m (by simp [Tree.yield, yieldL, h])
    obtain ⟨b, hb⟩ := leaf_sval (hm x (by simp [Tree.yield, yieldL])) (.inr hf)
    obtain ⟨i1, i2⟩ := ih (by simp at hn; omega) w1 hl hl1
    have ey : (Tree.node 44 [l, .leaf c, .leaf k, .leaf x]).yield = l.yield ++ [c, k, x] := by simp [Tree.yield, yieldL]
    rw [ey, optsOf_snoc c k x _ i1]
    refine ⟨by simp only [List.length_append, List.length_cons, List.length_nil]; omega, fun a => ?_⟩
    have kk : kindOf (k, x) = some .encoding := by
      have hk : tsym k = T.ENCODING := hk
      unfold kindOf; rw [if_neg (by rw [hk]; decide), if_pos hk]
    have ka : argOf (k, x) = b := by simp only [argOf, hb]
    simp only [den, denL, i2, hb]
    by_cases h1 : OptsOK (optsOf l.yield)
    · rw [if_pos h1]
      simp only []
      rw [optsV_eq]
      refine (ev44 _ b _ _ _ _ a.n a.err).trans ?_
      by_cases h2 : optArg (optsOf l.yield) .encoding = none
      · have := (ok_encoding kk).2 ⟨h1, h2⟩
        rw [if_pos h2, if_pos this, v_encoding kk this, ka]
      · rw [if_neg h2, if_neg (fun h => h2 ((ok_encoding kk).1 h).2)]
    · rw [if_neg h1, if_neg (fun h => h1 (ok_left h))]
  · have er : rhs 45 = [T.ENCODING, T.STRING] := by decide +kernel
    rw [er] at h3
    obtain ⟨k, cs', rfl, hk, h3⟩ := map_cons_of h3
    obtain ⟨f, rfl, hf⟩ := map_one_of h3
    obtain ⟨w3, w4, _⟩ := h4
    obtain ⟨k, rfl⟩ := leaf_of_sym w3 (by rw [hk]; decide)
    obtain ⟨x, rfl⟩ := leaf_of_sym w4 (by rw [hf]; decide)
    obtain ⟨b, hb⟩ := leaf_sval (hm x (by simp [Tree.yield, yieldL])) (.inr hf)
    have ey : (Tree.node 45 [.leaf k, .leaf x]).yield = [k, x] := by simp [Tree.yield, yieldL]
    rw [ey]
    refine ⟨rfl, fun a => ?_⟩
    have eo : optsOf [k, x] = [] ++ [(k, x)] := rfl
    rw [eo]
    have kk : kindOf (k, x) = some .encoding := by
      have hk : tsym k = T.ENCODING := hk
      unfold kindOf; rw [if_neg (by rw [hk]; decide), if_pos hk]
    have ka : argOf (k, x) = b := by simp only [argOf, hb]
    have := (ok_encoding (os := []) kk).2 ⟨ok_nil, rfl⟩
    rw [if_pos this, v_encoding kk this, ka, optsV_nil.1, optsV_nil.2.2]
    simp only [den, denL, hb]
    exact ev45 b _ a.n a.err
  · have er : rhs 46 = [N.import_export_options, T.COMMA, N.csv_option] := by decide +kernel
    rw [er] at h3
    obtain ⟨l, cs', rfl, hl, h3⟩ := map_cons_of h3
    obtain ⟨c, cs', rfl, hc, h3⟩ := map_cons_of h3
    obtain ⟨f, rfl, hf⟩ := map_one_of h3
    obtain ⟨w1, w2, w4, _⟩ := h4
    obtain ⟨c, rfl⟩ := leaf_of_sym w2 (by rw [hc]; decide)
    have hl1 : ∀ m ∈ l.yield, TokShape m := fun m h => hm m (by simp [Tree.yield, yieldL, h])
    obtain ⟨i1, i2⟩ := ih (by simp at hn; omega) w1 hl hl1
    obtain ⟨k, x, hy, hd⟩ := tree_csv w4 hf (fun m h => hm m (by simp [Tree.yield, yieldL, h]))
    have ey : (Tree.node 46 [l, .leaf c, f]).yield = l.yield ++ [c, k, x] := by simp [Tree.yield, yieldL, hy]
    rw [ey, optsOf_snoc c k x _ i1]
    refine ⟨by simp only [List.length_append, List.length_cons, List.length_nil]; omega, fun a => ?_⟩
    simp only [den, denL, i2]
    rcases hd with ⟨j, kk, hd⟩ | ⟨kk, hd⟩
    · by_cases h1 : OptsOK (optsOf l.yield)
      · rw [if_pos h1]
        simp only [hd]
        rw [optsV_eq]
        refine (ev46 _ _ _ _ j _ a.n a.err).trans ?_
        by_cases h2 : (optFormat (optsOf l.yield) = ImportType.kImportAuto ∨ optFormat (optsOf l.yield) = ImportType.kImportCSV) ∧ ((csvOpt (optsOf l.yield)).getD {}).get j = none
        · have := (ok_csv kk).2 ⟨h1, h2⟩
          rw [if_pos h2, if_pos this, v_csv kk this]
        · rw [if_neg h2, if_neg (fun h => h2 ((ok_csv kk).1 h).2)]
      · rw [if_neg h1, if_neg (fun h => h1 (ok_left h))]
    · rw [if_neg (c := OptsOK (optsOf l.yield ++ [(k, x)])) (fun h => h.known (k, x) (by simp) kk)]
      by_cases h1 : OptsOK (optsOf l.yield)
      · simp only [if_pos h1, hd]
      · rw [if_neg h1]
  · have er : rhs 47 = [N.csv_option] := by decide +kernel
    rw [er] at h3
    obtain ⟨f, rfl, hf⟩ := map_one_of h3
    obtain ⟨w4, _⟩ := h4
    obtain ⟨k, x, hy, hd⟩ := tree_csv w4 hf (fun m h => hm m (by simp [Tree.yield, yieldL, h]))
    have ey : (Tree.node 47 [f]).yield = [k, x] := by simp [Tree.yield, yieldL, hy]
    rw [ey]
    refine ⟨rfl, fun a => ?_⟩
    have eo : optsOf [k, x] = [] ++ [(k, x)] := rfl
    rw [eo]
    simp only [den, denL]
    rcases hd with ⟨j, kk, hd⟩ | ⟨kk, hd⟩
    · have := (ok_csv (os := []) kk).2 ⟨ok_nil, .inl rfl, by rw [optsV_nil.2.2]; cases j <;> rfl⟩
      rw [if_pos this, v_csv kk this, optsV_nil.1, optsV_nil.2.2, optsV_nil.2.1]
      simp only [hd]
      exact ev47 j _ a.n a.err
    · rw [if_neg (fun h => h.known (k, x) (by simp) kk)]
      simp only [hd]

open Classical in
/-- The value of a list of options. -/
theorem tree_opts {t : Tree} (hw : t.WF) (hs : t.sym = N.import_export_options) (hm : ∀ m ∈ t.yield, TokShape m) (a : PS) :
    den t a = if OptsOK (optsOf t.yield) then some (optsV (optsOf t.yield), a) else none := (tree_opts_aux _ (Nat.lt_succ_self _) hw hs hm).2 a

/-- Shapes of imports and exports. -/
def csvShape : P → Bool
  | .obj cl ps => !(cl == .ImportStatement || cl == .ExportStatement) ||
    (match (ps : List P)[(3 : Nat)]? with
     | some (P.ints l) => l.all fun n => n == ImportType.kImportCSV || n == ImportType.kImportAuto
     | _ => false) ||
    (match (ps : List P)[(9 : Nat)]? with
     | some P.null => true
     | _ => false)
  | _ => false

theorem csvShapes : (alts .stmt).all csvShape = true := by decide +kernel

theorem satL_get {ok : Bytes → Prop} {good : List V → Prop} : ∀ {ps : List P} {fs : List V}, SatL ok good ps fs → ∀ (i : Nat) {p : P}, ps[i]? = some p → ∃ v, fs[i]? = some v ∧ Sat ok good p v
  | _, _, .nil, i, p, h => by simp at h
  | _, _, .cons h1 h2, 0, p, h => by simp at h; subst h; exact ⟨_, rfl, h1⟩
  | _, _, .cons h1 h2, i + 1, p, h => by simp at h; simpa using satL_get h2 i h

/-! ## The theorems -/

section
variable {A : Alloc} (hA : Distinct A) {fpr : Int} (hf : FprOK fpr) (buf : Bytes) (sql : List UInt8) (l c : Int)
include hA hf

/-- C28. In an accepted text, every list of COPY options (a part `s` of the derivation of the text, with the symbol `import_export_options`; its tokens are
`s.yield`) is consistent: each option is known and given at most once, and CSV options occur only with the format CSV or without a format. -/
theorem C28_copy_options (o : ParseOut) (h : parse A fpr buf sql (newResult l c) = some o) (hv : o.res.isValid = true)
    (t : Tree) (ht : Derives (sentence (tokensOf fpr sql)) t) (s : Tree) (hs : PartOf s t) (hn : s.sym = N.import_export_options) :
    OptsOK (optsOf s.yield) := by
  have hd := parse_den hA hf buf sql l c o h hv ht
  obtain ⟨a, v, b, h1⟩ := hs.den hd
  have hsh : ∀ m ∈ s.yield, TokShape m := by
    intro m hm
    have := hs.toks m hm
    rw [ht.2.2.1] at this
    exact (tokensOf_shape hf sql).1 m ((List.takeWhile_prefix _).subset this)
  rw [tree_opts (hs.wf ht.1) hn hsh] at h1
  by_cases hno : OptsOK (optsOf s.yield)
  · exact hno
  · rw [if_neg hno] at h1
    cases h1

/-- Conversely, inconsistent options are reported as an error: the result is not valid, and has a message. -/
theorem C28_violations_reported (o : ParseOut) (h : parse A fpr buf sql (newResult l c) = some o)
    (t : Tree) (ht : Derives (sentence (tokensOf fpr sql)) t) (s : Tree) (hs : PartOf s t) (hn : s.sym = N.import_export_options)
    (hbad : ¬ OptsOK (optsOf s.yield)) : o.res.isValid = false ∧ message o.res ≠ none := by
  have hv : ¬ o.res.isValid = true := fun hv => hbad (C28_copy_options hA hf buf sql l c o h hv t ht s hs hn)
  refine ⟨by simpa using hv, fun hm => hv ((C16_valid_iff_no_error hA hf buf sql l c o h).1.2 hm)⟩

/-- In the statements of a valid result: an import or export with CSV options has the format CSV or (to be told from the file name) `kImportAuto`. -/
theorem C28_csv_options_only_for_csv (o : ParseOut) (h : parse A fpr buf sql (newResult l c) = some o) (hv : o.res.isValid = true)
    (a : Nat) (cl : Cls) (fs : List V) (hm : .obj a cl fs ∈ o.res.stmts) (hc : cl = .ImportStatement ∨ cl = .ExportStatement) (hn : fs[9]? ≠ some .null) :
    fs[3]? = some (.int ImportType.kImportCSV) ∨ fs[3]? = some (.int ImportType.kImportAuto) := by
  have hs := parse_good hA hf (good := fun _ => True) good66_true (fun _ _ _ _ => trivial) h hv _ hm
  generalize hq : P.ref .stmt = q at hs
  cases hs with
  | ref hp hs => 
    cases hq
    have hsh := List.all_eq_true.1 csvShapes _ hp
    cases hs with
    | obj _ hs _ =>
      rename_i ps
      simp only [csvShape, Bool.or_eq_true, Bool.not_eq_true'] at hsh
      rcases hsh with (hsh | hsh) | hsh
      · rcases hc with rfl | rfl <;> exact absurd hsh (by decide)
      · split at hsh
        · rename_i ns he
          obtain ⟨v, h1, h2⟩ := satL_get hs 3 he
          cases h2 with
          | ints hm =>
            have := List.all_eq_true.1 hsh _ hm
            simp only [Bool.or_eq_true, beq_iff_eq] at this
            rcases this with e | e <;> subst e
            · exact .inl h1
            · exact .inr h1
        · cases hsh
      · split at hsh
        · rename_i he
          obtain ⟨v, h1, h2⟩ := satL_get hs 9 he
          cases h2
          exact absurd h1 hn
        · cases hsh
    | ref _ _ => cases hsh
  | _ => cases hq

end
/-- The kinds of the options of a COPY statement at the end of a text. -/
def optView (o : ParseOut) : Bool × Option Bytes := (o.res.isValid, message o.res)

/-- A concrete case: three options, in any case, are accepted; -/
example : (run0 b!"COPY t FROM 'f' WITH (delimiter ';', FORMAT CSV, Quote '|')").map optView = some (true, none) :=
  parse_of_eval (f := 60) (q := Option.map optView) (by decide +kernel)

/-- an option given twice is not, -/
example : (run0 b!"COPY t FROM 'f' WITH (delimiter ';', FORMAT CSV, DELIMITER '|')").map optView =
    some (false, some b!"CSV options (DELIMITER, NULL, QUOTE) cannot be provided more than once.") :=
  parse_of_eval (f := 60) (q := Option.map optView) (by decide +kernel)

/-- nor are CSV options for another format. -/
example : (run0 b!"COPY t FROM 'f' WITH (NULL 'n', FORMAT tbl)").map optView =
    some (false, some b!"CSV options (DELIMITER, NULL, QUOTE) are only allowed for CSV files.") :=
  parse_of_eval (f := 60) (q := Option.map optView) (by decide +kernel)

end Verif.Props

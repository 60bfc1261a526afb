import Verif.Sql.Stmt
import Verif.Sql.Temporal
/-!
# What the messages blame

Specification: the complaints the parser makes about texts that are grammatical so far, and what they are about. `Cause m b ws`: the words `ws`, with the words `b` before them, deserve the message `m`.

The definitions model nothing; they say what the messages of src/parser/bison_parser.y mean.
-/
namespace Verif.Sql
open Verif.Lex Verif.LR Verif.Sem

/-- The kinds of options of `COPY`. -/
inductive OptKind where
  | format | encoding | delimiter | quote | null
deriving DecidableEq
def CopyOpt.kind : CopyOpt → OptKind
  | .format _ _ _ => .format
  | .encoding _ => .encoding
  | .delimiter _ _ _ => .delimiter
  | .quote _ _ _ => .quote
  | .null _ => .null
/-- The options for CSV files only. -/
def OptKind.csv : OptKind → Prop
  | .delimiter | .quote | .null => True
  | .format | .encoding => False
/-- `FORMAT` with a file type other than CSV. -/
def CopyOpt.notCsv : CopyOpt → Prop
  | .format w _ _ => eqNoCase w b!"csv" = false
  | _ => False
def CopyOpts.toList : CopyOpts → List CopyOpt
  | .one o => [o]
  | .snoc l o => l.toList ++ [o]
def Constraints.toList : Constraints → List Constraint
  | .one c => [c]
  | .snoc l c => l.toList ++ [c]
def ColCons.toList : ColCons → List Constraint
  | .none => []
  | .some l => l.toList

/-- The words `ws`, following the words of the second argument, deserve the message. Names are compared without regard to case. -/
inductive Cause : Bytes → List Word → List Word → Prop where
  /-- `DATE '...'` -/
  | date (s : Bytes) : ¬ DateText s → Cause b!"Found incorrect date format. Expected format: YYYY-MM-DD" [] [.kw T.DATE, .str s]
  /-- `INTERVAL '...' DAY` -/
  | number (s : Bytes) (f : Field) : (¬ ∃ n, NumberText none n s) → Cause b!"Found incorrect interval format. Expected format: INTEGER" [] [.kw T.INTERVAL, .str s, .kw f.kw]
  /-- `INTERVAL '...'` -/
  | numberAndUnit (s : Bytes) : (¬ ∃ n u, UnitText s n u) → Cause b!"Found incorrect interval format. Expected format: INTEGER INTERVAL_QUALIIFIER" [] [.kw T.INTERVAL, .str s]
  | unit (s : Bytes) (n : Int) (u : Bytes) : UnitText s n u → (∀ f : Field, eqNoCase u f.name = false ∧ eqNoCase u (f.name ++ b!"s") = false) → Cause b!"Interval qualifier is unknown." [] [.kw T.INTERVAL, .str s]
  /-- two names behind `ORDER BY` and an expression -/
  | nulls (x y : Name) : ¬ (eqNoCase x b!"nulls" = true ∧ (eqNoCase y b!"first" = true ∨ eqNoCase y b!"last" = true)) → Cause b!"Expected NULLS FIRST or NULLS LAST ordering." [] [.id x, .id y]
  /-- a parameter among the literals of `VALUES` and `EXECUTE` -/
  | parameter (j : Nat) : Cause b!"Parameter ? is not a valid literal." [] [.par j]
  /-- an option of `COPY` -/
  | option (x : Name) (b : Bytes) : eqNoCase x b!"DELIMITER" = false → eqNoCase x b!"QUOTE" = false → Cause b!"Unknown CSV option." [] [.id x, .str b]
  /-- the file type behind `FORMAT`, or behind `FROM` -/
  | fileType (x : Name) (w : Nat) : w = T.FORMAT ∨ w = T.FROM → (∀ t ∈ [b!"csv", b!"tbl", b!"binary", b!"bin"], eqNoCase x t = false) → Cause b!"File type is unknown." [.kw w] [.id x]
  /-- `CREATE TABLE ... FROM x FILE '...'` -/
  | tableFile (i : Bool) (t : TName) (x : Name) (p : Bytes) : eqNoCase x b!"tbl" = false →
      Cause b!"File type is unknown." [] (cat [kw T.CREATE, kw T.TABLE, ifNotExists i, t.words, kw T.FROM, nm x, kw T.FILE, [.str p]])
  /-- options of `COPY`: the last one does not go together with those before -/
  | formatTwice (l : CopyOpts) (o : CopyOpt) : o.kind = .format → (∃ p ∈ l.toList, p.kind = .format) → Cause b!"File type must only be provided once." [] (CopyOpts.snoc l o).words
  | encodingTwice (l : CopyOpts) (o : CopyOpt) : o.kind = .encoding → (∃ p ∈ l.toList, p.kind = .encoding) → Cause b!"Encoding type must only be provided once." [] (CopyOpts.snoc l o).words
  | csvTwice (l : CopyOpts) (o : CopyOpt) : o.kind.csv → (∃ p ∈ l.toList, p.kind = o.kind) → Cause b!"CSV options (DELIMITER, NULL, QUOTE) cannot be provided more than once." [] (CopyOpts.snoc l o).words
  | csvOnly (l : CopyOpts) (o : CopyOpt) : (o.kind.csv ∧ ∃ p ∈ l.toList, p.notCsv) ∨ (o.notCsv ∧ ∃ p ∈ l.toList, p.kind.csv) →
      Cause b!"CSV options (DELIMITER, NULL, QUOTE) are only allowed for CSV files." [] (CopyOpts.snoc l o).words
  /-- a column that may be and may not be null -/
  | nullability (x : Name) (t : ColType) (c : ColCons) : Constraint.null ∈ c.toList → Constraint.notNull ∈ c.toList ∨ Constraint.primaryKey ∈ c.toList →
      Cause (b!"Conflicting nullability constraints for " ++ x) [] (cat [nm x, t.words, c.words])

/-! ## Facts about options and constraints -/

theorem CopyV.add_format (v : CopyV) (o : CopyOpt) (h : o.kind ≠ .format) : (v.add o).format = v.format := by cases o <;> first | rfl | exact absurd rfl h
theorem CopyV.add_encoding (v : CopyV) (o : CopyOpt) (h : o.kind ≠ .encoding) : (v.add o).encoding = v.encoding := by cases o <;> first | rfl | exact absurd rfl h
theorem CopyV.add_csv (v : CopyV) (o : CopyOpt) (h : ¬ o.kind.csv) : (v.add o).csv = v.csv := by cases o <;> first | rfl | exact absurd trivial h

theorem CopyOpts.format_given : ∀ (l : CopyOpts), l.r.format ≠ ImportType.kImportAuto → ∃ w ok, CopyOpt.format w l.r.format ok ∈ l.toList
  | .one o, h => by
    cases o with
    | format w t ok => exact ⟨w, ok, by simp [CopyOpts.toList, CopyOpts.r, CopyV.add]⟩
    | _ => exact absurd rfl h
  | .snoc l o, h => by
    cases o with
    | format w t ok => exact ⟨w, ok, by simp [CopyOpts.toList, CopyOpts.r, CopyV.add]⟩
    | _ =>
      obtain ⟨w, ok, hm⟩ := CopyOpts.format_given l h
      exact ⟨w, ok, List.mem_append_left _ hm⟩

theorem CopyOpts.encoding_given : ∀ (l : CopyOpts), l.r.encoding ≠ none → ∃ p ∈ l.toList, p.kind = .encoding
  | .one o, h => by
    cases o with
    | encoding b => exact ⟨_, List.mem_singleton.2 rfl, rfl⟩
    | _ => exact absurd rfl h
  | .snoc l o, h => by
    cases o with
    | encoding b => exact ⟨_, List.mem_append_right _ (List.mem_singleton.2 rfl), rfl⟩
    | _ =>
      obtain ⟨p, hm, hp⟩ := CopyOpts.encoding_given l h
      exact ⟨p, List.mem_append_left _ hm, hp⟩

theorem CopyOpts.csv_given : ∀ (l : CopyOpts), l.r.csv ≠ none → ∃ p ∈ l.toList, p.kind.csv
  | .one o, h => by
    cases o with
    | format _ _ _ => exact absurd rfl h
    | encoding b => exact absurd rfl h
    | _ => exact ⟨_, List.mem_singleton.2 rfl, trivial⟩
  | .snoc l o, h => by
    by_cases hk : o.kind.csv
    · exact ⟨o, by simp [CopyOpts.toList], hk⟩
    · obtain ⟨p, hm, hp⟩ := CopyOpts.csv_given l (by rw [CopyOpts.r, CopyV.add_csv _ _ hk] at h; exact h)
      exact ⟨p, List.mem_append_left _ hm, hp⟩

def OptKind.get (c : Csv) : OptKind → Option Bytes
  | .delimiter => c.delimiter
  | .quote => c.quote
  | .null => c.null
  | _ => none

theorem CopyOpts.csv_kind (k : OptKind) : ∀ (l : CopyOpts), k.get (l.r.csv.getD {}) ≠ none → ∃ p ∈ l.toList, p.kind = k
  | .one o, h => by
    refine ⟨o, List.mem_singleton.2 rfl, ?_⟩
    cases o <;> cases k <;> first | rfl | exact absurd rfl h
  | .snoc l o, h => by
    by_cases hk : o.kind = k
    · exact ⟨o, by simp [CopyOpts.toList], hk⟩
    · have hl : k.get (l.r.csv.getD {}) ≠ none := by
        intro hn
        apply h
        cases o <;> cases k <;> first | exact absurd rfl hk | exact hn | rfl
      obtain ⟨p, hm, hp⟩ := CopyOpts.csv_kind k l hl
      exact ⟨p, List.mem_append_left _ hm, hp⟩

theorem notCsv_of {w : Name} {t : Int} (ok : fileType w = some t) (h : t ≠ ImportType.kImportCSV) : eqNoCase w b!"csv" = false := by
  cases hq : eqNoCase w b!"csv" with
  | false => rfl
  | true =>
    unfold fileType at ok
    rw [if_pos hq] at ok
    exact absurd (Option.some.inj ok).symm h

theorem Constraints.mem_kinds : ∀ (l : Constraints) (k : Int), k ∈ l.kinds → ∃ c ∈ l.toList, c.kind = k
  | .one c, k, h => ⟨c, List.mem_singleton.2 rfl, (List.mem_singleton.1 h).symm⟩
  | .snoc l c, k, h => by
    rw [Constraints.kinds, insertKind] at h
    by_cases hk : k ∈ l.kinds
    · obtain ⟨d, h1, h2⟩ := Constraints.mem_kinds l k hk
      exact ⟨d, List.mem_append_left _ h1, h2⟩
    · split at h
      · exact absurd h hk
      · simp only [List.mem_append, List.mem_singleton] at h
        exact ⟨c, by simp [Constraints.toList], (h.resolve_left hk).symm⟩
theorem ColCons.mem_kinds (l : ColCons) (k : Int) (h : k ∈ l.kinds) : ∃ c ∈ l.toList, c.kind = k := by
  cases l with
  | none => cases h
  | some l => exact Constraints.mem_kinds l k h
theorem ColCons.null_mem {l : ColCons} (h : l.kinds.contains ConstraintType.Null = true) : Constraint.null ∈ l.toList := by
  obtain ⟨c, h1, h2⟩ := ColCons.mem_kinds l _ (List.contains_iff_mem.1 h)
  cases c <;> first | exact h1 | (simp only [Constraint.kind] at h2; exact absurd h2 (by decide))
theorem ColCons.notNull_mem {l : ColCons} (h : l.kinds.contains ConstraintType.NotNull = true) : Constraint.notNull ∈ l.toList := by
  obtain ⟨c, h1, h2⟩ := ColCons.mem_kinds l _ (List.contains_iff_mem.1 h)
  cases c <;> first | exact h1 | (simp only [Constraint.kind] at h2; exact absurd h2 (by decide))
theorem ColCons.pk_mem {l : ColCons} (h : l.kinds.contains ConstraintType.PrimaryKey = true) : Constraint.primaryKey ∈ l.toList := by
  obtain ⟨c, h1, h2⟩ := ColCons.mem_kinds l _ (List.contains_iff_mem.1 h)
  cases c <;> first | exact h1 | (simp only [Constraint.kind] at h2; exact absurd h2 (by decide))

end Verif.Sql

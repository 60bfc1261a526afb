import Verif.Sql.Blame
import Verif.Sql.ReadAll
import Verif.Sem.Paths
import Verif.Sem.DenType
/-! Rule by rule: why actions fail. Proof-internal. -/
set_option linter.all false
set_option maxRecDepth 20000
namespace Verif.Sql
open Verif.Lex Verif.LR Verif.Sem

deriving instance DecidableEq for Path
deriving instance DecidableEq for Cond

/-- The conditions of a path hold. -/
def Hold (vs : List V) (p : List (Cond × Bool) × Option Bytes) : Prop := ∀ x ∈ p.1, evalCond x.1 (mkEnv vs) (st0 false) = some x.2

theorem b294 {cs : List Tree} {k : Nat} {vs : List V} (hi : IsL (rhs 294) cs k vs true) {p : List (Cond × Bool) × Option Bytes} (hp : p ∈ errPaths (act 294) [] [] none) (hh : Hold vs p) :
    ∃ m, p.2 = some m ∧ Cause m [] (wsL k cs) := by
  obtain ⟨c1, _, v1, _, rfl, rfl, i1, c2, _, v2, _, rfl, rfl, i2, rfl, rfl⟩ : IsL [T.DATE, T.STRING] cs k vs true := hi
  obtain ⟨w1, rfl⟩ : c1.ws _ = [.kw T.DATE] ∧ v1 = .undef := i1
  obtain ⟨x2, w2, rfl⟩ : ∃ x : Bytes, c2.ws _ = [.str x] ∧ v2 = .str 0 x := i2
  obtain rfl := List.mem_singleton.1 (show p ∈ [([(Cond.dateOk ⟨2, []⟩, false)], some b!"Found incorrect date format. Expected format: YYYY-MM-DD")] from hp)
  have h : some (dateOk x2) = some false := hh (.dateOk ⟨2, []⟩, false) (by simp)
  refine ⟨_, rfl, ?_⟩
  simp only [wsL, w1, w2]
  exact .date x2 fun hd => by rw [(dateOk_iff x2).2 hd] at h; cases h

theorem b296 {cs : List Tree} {k : Nat} {vs : List V} (hi : IsL (rhs 296) cs k vs true) {p : List (Cond × Bool) × Option Bytes} (hp : p ∈ errPaths (act 296) [] [] none) (hh : Hold vs p) :
    ∃ m, p.2 = some m ∧ Cause m [] (wsL k cs) := by
  obtain ⟨c1, _, v1, _, rfl, rfl, i1, c2, _, v2, _, rfl, rfl, i2, c3, _, v3, _, rfl, rfl, i3, rfl, rfl⟩ : IsL [T.INTERVAL, T.STRING, N.datetime_field] cs k vs true := hi
  obtain ⟨w1, rfl⟩ : c1.ws _ = [.kw T.INTERVAL] ∧ v1 = .undef := i1
  obtain ⟨x2, w2, rfl⟩ : ∃ x : Bytes, c2.ws _ = [.str x] ∧ v2 = .str 0 x := i2
  obtain ⟨x3, w3⟩ : ∃ (x : Field), c3.ws _ = Sql.kw x.kw := i3
  obtain rfl := List.mem_singleton.1 (show p ∈ [([(Cond.durOk ⟨2, []⟩, false)], some b!"Found incorrect interval format. Expected format: INTEGER")] from hp)
  have h : durOk x2 = some false := hh (.durOk ⟨2, []⟩, false) (by simp)
  refine ⟨_, rfl, ?_⟩
  simp only [wsL, w1, w2, w3]
  exact .number x2 x3 (durOk_false x2 h)

theorem ev297' {s : Bytes} {f : Field} (h : durUnitOk s = some true) (hu : ∃ w r, scanUnit s = some (w, r) ∧ (eqNoCase w f.name = true ∨ eqNoCase w (f.name ++ b!"s") = true)) (n : Nat) (e : Bool) :
    evRule 297 [.undef, .str 0 s] ⟨n, e⟩ = some (({ type := ExprType.kExprLiteralInterval, ival := .int (durVal s), datetimeField := f.v } : ExprV).v, ⟨n, e⟩) := by
  obtain ⟨r, hr⟩ := durUnitOk_val h
  obtain ⟨w, r', hw, hu⟩ := hu
  refine ev_of rfl ?_
  show pev intervalUnit _ _ = _
  rw [intervalUnit, pev_t (by exact h), pev_set (eval_dur rfl hr)]
  show pev (.set _ _ _) _ _ = _
  rw [pev_set (eval_unit rfl hw)]
  have hc : ∀ c, evalCond (.strIs ⟨11, []⟩ c) [.undef, .undef, .undef, .undef, .undef, .undef, .undef, .undef, .undef, .undef, .int (durVal s), .raw w] (st0 e) = some (eqNoCase w c) := fun _ => rfl
  show pev (.ite _ _ _) _ _ = _
  have key : ∀ z, eqNoCase w z = true → ∀ c b, eqNoCase z c = b → evalCond (.strIs ⟨11, []⟩ c) [.undef, .undef, .undef, .undef, .undef, .undef, .undef, .undef, .undef, .undef, .int (durVal s), .raw w] (st0 e) = some b := by
    intro z hz c b hb; rw [hc, eqNoCase_trans hz, hb]
  cases f <;> rcases hu with hu | hu <;>
    (repeat (first | rw [pev_t (by exact key _ hu _ true rfl)] | rw [pev_f (by exact key _ hu _ false rfl)])) <;> rfl

theorem b297 {cs : List Tree} {k : Nat} {vs : List V} {s : PS} (hi : IsL (rhs 297) cs k vs true) (hev : evRule 297 vs s = none) {p : List (Cond × Bool) × Option Bytes} (hp : p ∈ errPaths (act 297) [] [] none)
    (hh : Hold vs p) : ∃ m, p.2 = some m ∧ Cause m [] (wsL k cs) := by
  obtain ⟨c1, _, v1, _, rfl, rfl, i1, c2, _, v2, _, rfl, rfl, i2, rfl, rfl⟩ : IsL [T.INTERVAL, T.STRING] cs k vs true := hi
  obtain ⟨w1, rfl⟩ : c1.ws _ = [.kw T.INTERVAL] ∧ v1 = .undef := i1
  obtain ⟨x2, w2, rfl⟩ : ∃ x : Bytes, c2.ws _ = [.str x] ∧ v2 = .str 0 x := i2
  have hp : p ∈ [([(Cond.durUnitOk ⟨2, []⟩, true)], some b!"Interval qualifier is unknown."), ([(Cond.durUnitOk ⟨2, []⟩, false)], some b!"Found incorrect interval format. Expected format: INTEGER INTERVAL_QUALIIFIER")] := hp
  simp only [List.mem_cons, List.not_mem_nil, or_false] at hp
  rcases hp with rfl | rfl
  · have h : durUnitOk x2 = some true := hh (.durUnitOk ⟨2, []⟩, true) (by simp)
    refine ⟨_, rfl, ?_⟩
    simp only [wsL, w1, w2]
    obtain ⟨n, u, hu, _, hs⟩ := (durUnitOk_true x2).1 h
    refine .unit x2 n u hu fun f => ?_
    obtain ⟨a, e⟩ := s
    constructor
    · cases hq : eqNoCase u f.name with
      | false => rfl
      | true => rw [ev297' h ⟨u, [], hs, .inl hq⟩] at hev; cases hev
    · cases hq : eqNoCase u (f.name ++ b!"s") with
      | false => rfl
      | true => rw [ev297' h ⟨u, [], hs, .inr hq⟩] at hev; cases hev
  · have h : durUnitOk x2 = some false := hh (.durUnitOk ⟨2, []⟩, false) (by simp)
    refine ⟨_, rfl, ?_⟩
    simp only [wsL, w1, w2]
    exact .numberAndUnit x2 (durUnitOk_false x2 h)

theorem b162 {cs : List Tree} {k : Nat} {vs : List V} {s : PS} (hi : IsL (rhs 162) cs k vs true) (hev : evRule 162 vs s = none) {p : List (Cond × Bool) × Option Bytes} (hp : p ∈ errPaths (act 162) [] [] none) :
    ∃ m, p.2 = some m ∧ Cause m [] (wsL k cs) := by
  obtain ⟨c1, _, v1, _, rfl, rfl, i1, c2, _, v2, _, rfl, rfl, i2, rfl, rfl⟩ : IsL [T.IDENTIFIER, T.IDENTIFIER] cs k vs true := hi
  obtain ⟨x1, w1, rfl⟩ : ∃ x : Name, c1.ws _ = nm x ∧ v1 = .str 0 x := i1
  obtain ⟨x2, w2, rfl⟩ : ∃ x : Name, c2.ws _ = nm x ∧ v2 = .str 0 x := i2
  refine ⟨b!"Expected NULLS FIRST or NULLS LAST ordering.", ?_, ?_⟩
  · have : ∀ q ∈ errPaths (act 162) [] [] none, q.2 = some b!"Expected NULLS FIRST or NULLS LAST ordering." := by decide +kernel
    exact this p hp
  simp only [wsL, w1, w2]
  refine .nulls x1 x2 ?_
  rintro ⟨h1, h2⟩
  obtain ⟨n, e⟩ := s
  rw [ev162, if_pos h1] at hev
  by_cases h3 : eqNoCase x2 b!"first" = true
  · rw [if_pos h3] at hev; cases hev
  · rw [if_neg h3, if_pos (h2.resolve_left h3)] at hev; cases hev

theorem b48 {cs : List Tree} {k : Nat} {vs : List V} {s : PS} (hi : IsL (rhs 48) cs k vs true) (hev : evRule 48 vs s = none) {p : List (Cond × Bool) × Option Bytes} (hp : p ∈ errPaths (act 48) [] [] none) :
    ∃ m, p.2 = some m ∧ Cause m [] (wsL k cs) := by
  obtain ⟨c1, _, v1, _, rfl, rfl, i1, c2, _, v2, _, rfl, rfl, i2, rfl, rfl⟩ : IsL [T.IDENTIFIER, T.STRING] cs k vs true := hi
  obtain ⟨x1, w1, rfl⟩ : ∃ x : Name, c1.ws _ = nm x ∧ v1 = .str 0 x := i1
  obtain ⟨x2, w2, rfl⟩ : ∃ x : Bytes, c2.ws _ = [.str x] ∧ v2 = .str 0 x := i2
  refine ⟨b!"Unknown CSV option.", ?_, ?_⟩
  · have : ∀ q ∈ errPaths (act 48) [] [] none, q.2 = some b!"Unknown CSV option." := by decide +kernel
    exact this p hp
  simp only [wsL, w1, w2]
  obtain ⟨n, e⟩ := s
  rw [ev48] at hev
  by_cases h1 : eqNoCase x1 b!"DELIMITER" = true
  · rw [if_pos h1] at hev; cases hev
  · rw [if_neg h1] at hev
    by_cases h2 : eqNoCase x1 b!"QUOTE" = true
    · rw [if_pos h2] at hev; cases hev
    · exact .option x1 x2 (by simpa using h1) (by simpa using h2)

theorem b37 {cs : List Tree} {k : Nat} {vs : List V} {s : PS} (hi : IsL (rhs 37) cs k vs true) (hev : evRule 37 vs s = none) {p : List (Cond × Bool) × Option Bytes} (hp : p ∈ errPaths (act 37) [] [] none) :
    p.2 = some b!"File type is unknown." ∧ ∃ x, wsL k cs = [.id x] ∧ ∀ t ∈ [b!"csv", b!"tbl", b!"binary", b!"bin"], eqNoCase x t = false := by
  obtain ⟨c1, _, v1, _, rfl, rfl, i1, rfl, rfl⟩ : IsL [T.IDENTIFIER] cs k vs true := hi
  obtain ⟨x1, w1, rfl⟩ : ∃ x : Name, c1.ws _ = nm x ∧ v1 = .str 0 x := i1
  refine ⟨?_, x1, by simp only [wsL, w1], ?_⟩
  · have : ∀ q ∈ errPaths (act 37) [] [] none, q.2 = some b!"File type is unknown." := by decide +kernel
    exact this p hp
  obtain ⟨n, e⟩ := s
  rw [ev37] at hev
  have hf : fileType x1 = none := by
    cases h : fileType x1 with
    | none => rfl
    | some f => rw [h] at hev; cases hev
  unfold fileType at hf
  by_cases h1 : eqNoCase x1 b!"csv" = true
  · rw [if_pos h1] at hf; cases hf
  rw [if_neg h1] at hf
  by_cases h2 : eqNoCase x1 b!"tbl" = true
  · rw [if_pos h2] at hf; cases hf
  rw [if_neg h2] at hf
  by_cases h3 : eqNoCase x1 b!"binary" = true
  · rw [if_pos h3] at hf; cases hf
  rw [if_neg h3] at hf
  by_cases h4 : eqNoCase x1 b!"bin" = true
  · rw [if_pos h4] at hf; cases hf
  rw [Bool.not_eq_true] at h1 h2 h3 h4
  intro t ht
  simp only [List.mem_cons, List.not_mem_nil, or_false] at ht
  rcases ht with rfl | rfl | rfl | rfl <;> assumption

theorem b55 {cs : List Tree} {k : Nat} {vs : List V} (hi : IsL (rhs 55) cs k vs true) {p : List (Cond × Bool) × Option Bytes} (hp : p ∈ errPaths (act 55) [] [] none) (hh : Hold vs p) :
    ∃ m, p.2 = some m ∧ Cause m [] (wsL k cs) := by
  obtain ⟨c1, _, v1, _, rfl, rfl, i1, c2, _, v2, _, rfl, rfl, i2, c3, _, v3, _, rfl, rfl, i3, c4, _, v4, _, rfl, rfl, i4, c5, _, v5, _, rfl, rfl, i5, c6, _, v6, _, rfl, rfl, i6, c7, _, v7, _, rfl, rfl, i7, c8, _, v8, _, rfl, rfl, i8, rfl, rfl⟩ :
    IsL [T.CREATE, T.TABLE, N.opt_not_exists, N.table_name, T.FROM, T.IDENTIFIER, T.FILE, N.file_path] cs k vs true := hi
  obtain ⟨w1, rfl⟩ : c1.ws _ = [.kw T.CREATE] ∧ v1 = .undef := i1
  obtain ⟨w2, rfl⟩ : c2.ws _ = [.kw T.TABLE] ∧ v2 = .undef := i2
  obtain ⟨x3, w3, rfl⟩ : ∃ (x : Bool), c3.ws _ = ifNotExists x ∧ v3 = flag x := i3
  obtain ⟨x4, w4, rfl⟩ : ∃ (x : TName), c4.ws _ = x.words ∧ v4 = .tup [ostr x.schema, str x.name] := i4
  obtain ⟨w5, rfl⟩ : c5.ws _ = [.kw T.FROM] ∧ v5 = .undef := i5
  obtain ⟨x6, w6, rfl⟩ : ∃ x : Name, c6.ws _ = nm x ∧ v6 = .str 0 x := i6
  obtain ⟨w7, rfl⟩ : c7.ws _ = [.kw T.FILE] ∧ v7 = .undef := i7
  obtain ⟨x8, w8, rfl⟩ : ∃ (x : Bytes), c8.ws _ = [.str x] ∧ v8 = str x := i8
  obtain rfl := List.mem_singleton.1 (show p ∈ [([(Cond.strIs ⟨6, []⟩ b!"tbl", false)], some b!"File type is unknown.")] from hp)
  have h : some (eqNoCase x6 b!"tbl") = some false := hh (.strIs ⟨6, []⟩ b!"tbl", false) (by simp)
  refine ⟨_, rfl, ?_⟩
  simp only [wsL, w1, w2, w3, w4, w5, w6, w7, w8]
  exact .tableFile x3 x4 x6 x8 (Option.some.inj h)

theorem b44 {cs : List Tree} {k : Nat} {vs : List V} (hi : IsL (rhs 44) cs k vs true) {p : List (Cond × Bool) × Option Bytes} (hp : p ∈ errPaths (act 44) [] [] none) (hh : Hold vs p) :
    ∃ m, p.2 = some m ∧ Cause m [] (wsL k cs) := by
  obtain ⟨c1, _, v1, _, rfl, rfl, i1, c2, _, v2, _, rfl, rfl, i2, c3, _, v3, _, rfl, rfl, i3, c4, _, v4, _, rfl, rfl, i4, rfl, rfl⟩ : IsL [N.import_export_options, T.COMMA, T.ENCODING, T.STRING] cs k vs true := hi
  obtain ⟨x1, w1, h1, rfl⟩ : ∃ (x : CopyOpts), c1.ws _ = x.words ∧ x.OK ∧ v1 = x.r.o := i1
  obtain ⟨w2, rfl⟩ : c2.ws _ = [.kw T.COMMA] ∧ v2 = .undef := i2
  obtain ⟨w3, rfl⟩ : c3.ws _ = [.kw T.ENCODING] ∧ v3 = .undef := i3
  obtain ⟨x4, w4, rfl⟩ : ∃ x : Bytes, c4.ws _ = [.str x] ∧ v4 = .str 0 x := i4
  obtain rfl := List.mem_singleton.1 (show p ∈ [([(Cond.null ⟨1, [ImportExportOptions.encoding]⟩, false)], some b!"Encoding type must only be provided once.")] from hp)
  have h : evalCond (.null ⟨1, [ImportExportOptions.encoding]⟩) (mkEnv [x1.r.o, .undef, .undef, .str 0 x4]) (st0 false) = some false := hh (.null ⟨1, [ImportExportOptions.encoding]⟩, false) (by simp)
  refine ⟨_, rfl, ?_⟩
  simp only [wsL, w1, w2, w3, w4]
  refine .encodingTwice x1 (.encoding x4) rfl (x1.encoding_given ?_)
  intro hn
  rw [CopyV.o, hn] at h
  cases h

theorem b42 {cs : List Tree} {k : Nat} {vs : List V} (hi : IsL (rhs 42) cs k vs true) {p : List (Cond × Bool) × Option Bytes} (hp : p ∈ errPaths (act 42) [] [] none) (hh : Hold vs p) :
    ∃ m, p.2 = some m ∧ Cause m [] (wsL k cs) := by
  obtain ⟨c1, _, v1, _, rfl, rfl, i1, c2, _, v2, _, rfl, rfl, i2, c3, _, v3, _, rfl, rfl, i3, c4, _, v4, _, rfl, rfl, i4, rfl, rfl⟩ : IsL [N.import_export_options, T.COMMA, T.FORMAT, N.file_type] cs k vs true := hi
  obtain ⟨x1, w1, h1, rfl⟩ : ∃ (x : CopyOpts), c1.ws _ = x.words ∧ x.OK ∧ v1 = x.r.o := i1
  obtain ⟨w2, rfl⟩ : c2.ws _ = [.kw T.COMMA] ∧ v2 = .undef := i2
  obtain ⟨w3, rfl⟩ : c3.ws _ = [.kw T.FORMAT] ∧ v3 = .undef := i3
  obtain ⟨x4, f4, w4, h4, rfl⟩ : ∃ (x : Name) (f : Int), c4.ws _ = nm x ∧ fileType x = some f ∧ v4 = .int f := i4
  have hp : p ∈ [([(Cond.eq ⟨1, [ImportExportOptions.format]⟩ ImportType.kImportAuto, true), (Cond.null ⟨1, [ImportExportOptions.csv_options]⟩, false), (Cond.eq ⟨4, []⟩ ImportType.kImportCSV, false), (Cond.eq ⟨4, []⟩ ImportType.kImportAuto, false)],
      some b!"CSV options (DELIMITER, NULL, QUOTE) are only allowed for CSV files."), ([(Cond.eq ⟨1, [ImportExportOptions.format]⟩ ImportType.kImportAuto, false)], some b!"File type must only be provided once.")] := hp
  simp only [List.mem_cons, List.not_mem_nil, or_false] at hp
  rcases hp with rfl | rfl
  · have g1 : evalCond (.null ⟨1, [ImportExportOptions.csv_options]⟩) (mkEnv [x1.r.o, .undef, .undef, .int f4]) (st0 false) = some false := hh (.null ⟨1, [ImportExportOptions.csv_options]⟩, false) (by simp)
    have g2 : some (decide (f4 = ImportType.kImportCSV)) = some false := hh (.eq ⟨4, []⟩ ImportType.kImportCSV, false) (by simp)
    refine ⟨_, rfl, ?_⟩
    simp only [wsL, w1, w2, w3, w4]
    refine .csvOnly x1 (.format x4 f4 h4) (.inr ⟨notCsv_of h4 (of_decide_eq_false (Option.some.inj g2)), x1.csv_given ?_⟩)
    intro hn
    rw [CopyV.o, hn] at g1
    cases g1
  · have g : some (decide (x1.r.format = ImportType.kImportAuto)) = some false := hh (.eq ⟨1, [ImportExportOptions.format]⟩ ImportType.kImportAuto, false) (by simp)
    refine ⟨_, rfl, ?_⟩
    simp only [wsL, w1, w2, w3, w4]
    obtain ⟨w, ok, hm⟩ := x1.format_given (of_decide_eq_false (Option.some.inj g))
    exact .formatTwice x1 (.format x4 f4 h4) rfl ⟨_, hm, rfl⟩

theorem b46 {cs : List Tree} {k : Nat} {vs : List V} {s : PS} (hi : IsL (rhs 46) cs k vs true) (hev : evRule 46 vs s = none) {p : List (Cond × Bool) × Option Bytes} (hp : p ∈ errPaths (act 46) [] [] none)
    (hh : Hold vs p) : ∃ m, p.2 = some m ∧ Cause m [] (wsL k cs) := by
  obtain ⟨c1, _, v1, _, rfl, rfl, i1, c2, _, v2, _, rfl, rfl, i2, c3, _, v3, _, rfl, rfl, i3, rfl, rfl⟩ : IsL [N.import_export_options, T.COMMA, N.csv_option] cs k vs true := hi
  obtain ⟨x1, w1, h1, rfl⟩ : ∃ (x : CopyOpts), c1.ws _ = x.words ∧ x.OK ∧ v1 = x.r.o := i1
  obtain ⟨w2, rfl⟩ : c2.ws _ = [.kw T.COMMA] ∧ v2 = .undef := i2
  obtain ⟨x3, d3, y3, w3, h3, rfl⟩ : ∃ (x : CopyOpt) (d : CsvKind) (y : Bytes), c3.ws _ = x.words ∧ csvOf x = some (d, y) ∧ v3 = csvPair d y := i3
  have hk : x3.kind.csv := by cases x3 <;> cases h3 <;> trivial
  let a1 : Cond := .eq ⟨1, [ImportExportOptions.format]⟩ ImportType.kImportAuto
  let a2 : Cond := .eq ⟨1, [ImportExportOptions.format]⟩ ImportType.kImportCSV
  have hw : wsL k [c1, c2, c3] = (CopyOpts.snoc x1 x3).words := by simp only [wsL, w1, w2, w3]; rfl
  rw [hw]
  have hps : ∀ q ∈ errPaths (act 46) [] [] none, (q.2 = some b!"CSV options (DELIMITER, NULL, QUOTE) cannot be provided more than once." ∧ ((a1, true) ∈ q.1 ∨ (a2, true) ∈ q.1)) ∨
      (q.2 = some b!"CSV options (DELIMITER, NULL, QUOTE) are only allowed for CSV files." ∧ (a1, false) ∈ q.1 ∧ (a2, false) ∈ q.1) := by decide +kernel
  have e1 : ∀ st, evalCond a1 (mkEnv [x1.r.o, .undef, csvPair d3 y3]) st = some (decide (x1.r.format = ImportType.kImportAuto)) := fun _ => rfl
  have e2 : ∀ st, evalCond a2 (mkEnv [x1.r.o, .undef, csvPair d3 y3]) st = some (decide (x1.r.format = ImportType.kImportCSV)) := fun _ => rfl
  rcases hps p hp with ⟨hm, hc⟩ | ⟨hm, hc1, hc2⟩
  · refine ⟨_, hm, .csvTwice x1 x3 hk (x1.csv_kind x3.kind ?_)⟩
    intro hn
    obtain ⟨n, e⟩ := s
    rw [CopyV.o, ev46, if_pos] at hev
    · cases hev
    · constructor
      · rcases hc with hc | hc
        · have := hh _ hc
          rw [e1] at this
          exact .inl (of_decide_eq_true (Option.some.inj this))
        · have := hh _ hc
          rw [e2] at this
          exact .inr (of_decide_eq_true (Option.some.inj this))
      · cases x3 <;> cases h3 <;> exact hn
  · refine ⟨_, hm, .csvOnly x1 x3 (.inl ⟨hk, ?_⟩)⟩
    have g1 := hh _ hc1
    have g2 := hh _ hc2
    rw [e1] at g1
    rw [e2] at g2
    obtain ⟨w, ok, hmm⟩ := x1.format_given (of_decide_eq_false (Option.some.inj g1))
    exact ⟨_, hmm, notCsv_of ok (of_decide_eq_false (Option.some.inj g2))⟩

/-- The type of an expression. -/
theorem sat_type {ok : Bytes → Prop} {g : List V → Prop} {x : ExprP} {v : V} (h : Sat ok g x.p v) : ∃ a fs, v = .obj a .Expr (.int x.type :: fs) := by
  unfold ExprP.p at h
  cases h with
  | obj a hl _ =>
    cases hl with
    | cons h1 h2 =>
      cases h1 with
      | ints hm => exact ⟨a, _, by rw [List.mem_singleton.1 hm]⟩

theorem lit_rules : ∀ r, r < 358 → 2 ≤ r → lhs r = N.literal → r = 280 ∨ r = 281 ∨ r = 282 ∨ r = 283 ∨ r = 284 ∨ r = 285 ∨ r = 286 := by decide +kernel
theorem not_tok {X : Nat} (h : 199 ≤ X) {t : Tree} (hw : t.WF) (hs : t.sym = X) : ∃ r cs, t = .node r cs := by
  cases t with
  | leaf t => have := hw; have : tsym t < 199 := tsym_lt t; simp only [Tree.sym] at hs; omega
  | node r cs => exact ⟨r, cs, rfl⟩

theorem move_type {r : Nat} {v w : V} {s s' : PS} {a : Nat} {n : Int} {fs : List V} (hr : r = 280 ∨ r = 281 ∨ r = 282 ∨ r = 283 ∨ r = 284 ∨ r = 285) (hv : v = .obj a .Expr (.int n :: fs))
    (h : evRule r [v] s = some (w, s')) : w = v := by
  subst hv
  rcases hr with rfl | rfl | rfl | rfl | rfl | rfl <;> exact ev_inv rfl h rfl

theorem b179 {c : Tree} (hw : c.WF) (hs : c.sym = N.literal) (hf : ∀ m ∈ c.yield, Fits m) {k : Nat} {a b : PS} {v : V} (hd : den c a = some (v, b)) {bb : Nat} (hpr : c.PrecOK bb)
    {p : List (Cond × Bool) × Option Bytes} (hp : p ∈ errPaths (act 179) [] [] none) (hh : Hold [v] p) : ∃ m, p.2 = some m ∧ Cause m [] (wsL k [c]) := by
  obtain rfl := List.mem_singleton.1 (show p ∈ [([(Cond.eq ⟨1, [Expr.type]⟩ ExprType.kExprParameter, true)], some b!"Parameter ? is not a valid literal.")] from hp)
  have h : evalCond (.eq ⟨1, [Expr.type]⟩ ExprType.kExprParameter) (mkEnv [v]) (st0 false) = some true := hh (.eq ⟨1, [Expr.type]⟩ ExprType.kExprParameter, true) (by simp)
  refine ⟨_, rfl, ?_⟩
  obtain ⟨r, cs, rfl⟩ := not_tok (by decide) hw hs
  have hr2 : r < 358 := by have := hw.2.1; rwa [rules_len] at this
  have hrr := lit_rules r hr2 hw.1 hs
  obtain ⟨vs, s1, h1, h2⟩ := den_node hd
  have hsy := hw.2.2.1
  have hone : ∃ X, rhs r = [X] := by rcases hrr with rfl | rfl | rfl | rfl | rfl | rfl | rfl <;> exact ⟨_, rfl⟩
  obtain ⟨X, hX⟩ := hone
  rw [hX] at hsy
  obtain ⟨d, rfl, hdX⟩ : ∃ d, cs = [d] ∧ d.sym = X := by
    match cs, hsy with
    | [d], hsy => exact ⟨d, rfl, by simpa using hsy⟩
  have hwd : d.WF := hw.2.2.2.1
  have hfd : ∀ m ∈ d.yield, Fits m := fun m hm => hf m (by simp [Tree.yield, yieldL, hm])
  rw [denL] at h1
  cases hdd : den d a with
  | none => rw [hdd] at h1; cases h1
  | some y =>
    obtain ⟨vd, s2⟩ := y
    rw [hdd] at h1
    simp only [denL, Option.some.injEq, Prod.mk.injEq] at h1
    obtain ⟨rfl, rfl⟩ := h1
    have hpd : d.PrecOK bb := prec_unit hpr
    have hsat := den_sat (ok := fun _ => True) hwd (fun m hm => ⟨(hfd m hm).1, fun _ _ => trivial⟩) hdd
    have hty : ∀ {n : Int} {a : Nat} {fs : List V}, v = .obj a .Expr (.int n :: fs) → n ≠ ExprType.kExprParameter → False := by
      rintro n a fs rfl hn
      have h : some (decide (n = ExprType.kExprParameter)) = some true := h
      exact hn (of_decide_eq_true (Option.some.inj h))
    have fin : ∀ {x : ExprP}, (r = 280 ∨ r = 281 ∨ r = 282 ∨ r = 283 ∨ r = 284 ∨ r = 285) → Sat (fun _ => True) (fun _ => True) x.p vd → x.type ≠ ExprType.kExprParameter → False := by
      intro x hr hx hn
      obtain ⟨a, fs, hv⟩ := sat_type hx
      have := move_type hr hv h2
      exact hty (by rw [this, hv]) hn
    rcases hrr with rfl | rfl | rfl | rfl | rfl | rfl | rfl
    · cases hX; rw [hdX] at hsat; exact (fin (x := Kind.string) (by simp) hsat (by decide)).elim
    · cases hX; rw [hdX] at hsat; exact (fin (x := Kind.bool) (by simp) hsat (by decide)).elim
    · cases hX; rw [hdX] at hsat
      have hsat : Sat (fun _ => True) (fun _ => True) (.ref .numLit) vd := hsat
      cases hsat with
      | ref hm hq =>
        have hm : _ ∈ [Kind.float.p, Kind.int.p] := hm
        simp only [List.mem_cons, List.not_mem_nil, or_false] at hm
        rcases hm with rfl | rfl
        · exact (fin (x := Kind.float) (by simp) hq (by decide)).elim
        · exact (fin (x := Kind.int) (by simp) hq (by decide)).elim
    · cases hX; rw [hdX] at hsat; exact (fin (x := Kind.null) (by simp) hsat (by decide)).elim
    · cases hX; rw [hdX] at hsat; exact (fin (x := Kind.date) (by simp) hsat (by decide)).elim
    · cases hX; rw [hdX] at hsat; exact (fin (x := Kind.interval) (by simp) hsat (by decide)).elim
    · cases hX
      have hI := tree_is Verif.Sql.Read.u358 d hwd hfd k a hpd hdd (e := true) (fun _ => rfl)
      rw [hdX] at hI
      obtain ⟨j, hj, _⟩ : ∃ (x : Nat), d.ws k = [.par x] ∧ ∃ m, vd = paramV 0 (.pos 0) m := hI
      have : wsL k [Tree.node 286 [d]] = [.par j] := by
        show (Tree.node 286 [d]).ws k = _
        rw [ws_node]; exact hj
      rw [this]
      exact .parameter j

end Verif.Sql

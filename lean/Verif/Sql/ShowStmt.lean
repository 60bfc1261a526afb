import Verif.Sql.ShowAll
import Verif.Sem.Hom
/-! Printing: statements. Proof-internal. -/
namespace Verif.Sql
open Verif.Lex Verif.LR Verif.Sem Verif.Print

mutual
theorem e0_h : ∀ (v : V), e0 (v.h E0) = e0 v
  | .undef | .null | .int _ | .pos _ | .idx _ | .raw _ | .str _ _ => rfl
  | .vec _ vs => by rw [V.h, e0, e0, eL_h vs]
  | .obj _ _ vs => by rw [V.h, e0, e0, eL_h vs]
  | .tup vs => by rw [V.h, e0, e0, eL_h vs]
theorem eL_h : ∀ (vs : List V), eL (hL E0 vs) = eL vs
  | [] => rfl
  | v :: vs => by rw [hL, eL, eL, e0_h v, eL_h vs]
end

theorem Ext.prints (e : Ext) (n : Nat) (a : Alias) : Shows (fun k => printExpression k (gv (a.put e.r).v) n) (e.show n ++ a.show n) := by
  cases e with
  | lit l => exact l.prints a n
  | negNum x => exact shows_un (plainly fun a => x.prints a (n + 1)) a
  | negInterval x => exact shows_un (plainly fun a => x.prints a (n + 1)) a
theorem XLit.prints (x : XLit) (n : Nat) (a : Alias) : Shows (fun k => printExpression k (gv (a.put x.r).v) n) (x.show n ++ a.show n) := by
  cases x with
  | plain e => exact e.prints n a
  | cast e t =>
    refine shows_expr rfl rfl ?_
    refine ((((shows_say b!"CAST" n).app (shows_const (ln t.text (n + 1)))).app (plainly (e.prints (n + 1)))).to (by simp only [headed, List.append_assoc]; rfl)).congr fun k => ?_
    rw [← t.shown]; rfl
theorem XLits.prints (l : XLits) (n : Nat) : Shows (fun k => seqL (fun x => printExpression k x n) (gL l.vals)) (l.show n) := by
  induction l with
  | one x => exact shows_one (f := fun k x => printExpression k x n) (plainly (x.prints n))
  | snoc l x ih => exact shows_snoc (f := fun k x => printExpression k x n) ih (plainly (x.prints n))

theorem cols_prints (c : Option Names) (n : Nat) :
    ifPtr (gv (colsV c)) (say b!"Columns" n ++ forEach (gv (colsV c)) fun c => inprintStr c (n + 1)) = .ok (colsShow c n) := by
  cases c with
  | none => rfl
  | some l =>
    show say b!"Columns" n ++ seqL (fun c => inprintStr c (n + 1)) (gL l.vals) = _
    rw [Names.prints]; rfl

theorem Stmt.prints (s : Stmt) (h len : V) : Shows (fun k => printStatementInfo k (gv (s.r.v h len))) s.show := by
  cases s with
  | query q => exact (Query.prints q).show h len 0
  | createFile | createTable | createAs | createIndex | createView => exact ⟨0, fun _ _ => rfl⟩
  | insertValues t c l =>
    refine ((((shows_say b!"InsertStatement" 0).app (shows_say t.name 1)).app (shows_const (colsShow c 1))).app ((shows_say b!"Values" 1).app (XLits.prints l 2))).congr fun k => ?_
    rw [← cols_prints]; rfl
  | insertQuery t c s =>
    refine ((((shows_say b!"InsertStatement" 0).app (shows_say t.name 1)).app (shows_const (colsShow c 1))).app ((Sel.prints s).show .null .undef 1)).congr fun k => ?_
    rw [← cols_prints]; rfl
  | transaction c w => cases c <;> exact ⟨0, fun _ _ => rfl⟩
  | _ => exact ⟨0, fun _ _ => rfl⟩

theorem format_prints {w : Name} {t : Int} (h : fileType w = some t) (n : Nat) : printFormat (.int t) n = .ok (ln (formatText w) n) := by
  unfold fileType at h
  unfold formatText
  by_cases h1 : eqNoCase w b!"csv" = true
  · rw [if_pos h1] at h ⊢; cases h; rfl
  · rw [if_neg h1] at h ⊢
    by_cases h2 : eqNoCase w b!"tbl" = true
    · rw [if_pos h2] at h ⊢; cases h; rfl
    · rw [if_neg h2] at h ⊢
      by_cases h3 : eqNoCase w b!"binary" = true
      · rw [if_pos h3] at h; cases h; rfl
      · rw [if_neg h3] at h
        by_cases h4 : eqNoCase w b!"bin" = true
        · rw [if_pos h4] at h; cases h; rfl
        · rw [if_neg h4] at h; cases h
theorem CopyOpts.prints (l : CopyOpts) (n : Nat) : printFormat (.int l.r.format) n = .ok (ln l.formatText n) := by
  induction l with
  | one o =>
    cases o with
    | format w t ok => exact format_prints ok n
    | _ => rfl
  | snoc l o ih =>
    cases o with
    | format w t ok => exact format_prints ok n
    | _ => exact ih
theorem CopyWith.prints (l : CopyWith) (n : Nat) : printFormat (.int l.r.format) n = .ok (ln l.formatText n) := by
  cases l with
  | none => rfl
  | opts b l ok => exact l.prints n

theorem Item.prints (i : Item) (len : V) : Shows (fun k => printStatementInfo k (gv (i.v len))) i.show := by
  cases i with
  | stmt s h => exact s.prints h.v len
  | importFile w f ok p t =>
    refine (((((shows_say b!"ImportStatement" 0).app (shows_say p 1)).app (shows_const (ln (formatText w) 1))).app (shows_say t.name 1)).app shows_nil).to (List.append_nil _) |>.congr fun k => ?_
    rw [← format_prints ok]; rfl
  | copyFrom t p o w =>
    cases w with
    | none =>
      refine (((((shows_say b!"ImportStatement" 0).app (shows_say p 1)).app (shows_const (ln o.formatText 1))).app (shows_say t.name 1)).app shows_nil).to (List.append_nil _) |>.congr fun k => ?_
      rw [← CopyWith.prints, Item.v, OExpr.v]; rfl
    | some e =>
      refine (((((shows_say b!"ImportStatement" 0).app (shows_say p 1)).app (shows_const (ln o.formatText 1))).app (shows_say t.name 1)).app
        ((shows_say b!"WHERE:" 1).app (plainly (Expr.prints e 2)))).congr fun k => ?_
      rw [← CopyWith.prints, Item.v, OExpr.v]; rfl
  | copyTo t p o =>
    refine ((((shows_say b!"ExportStatement" 0).app (shows_say p 1)).app (shows_const (ln o.formatText 1))).app (shows_say t.name 1)).congr fun k => ?_
    rw [← CopyWith.prints]; rfl
  | copyQuery s p o =>
    refine ((((shows_say b!"ExportStatement" 0).app (shows_say p 1)).app (shows_const (ln o.formatText 1))).app ((PSel.prints s).show .null .undef 1)).congr fun k => ?_
    rw [← CopyWith.prints]; rfl
  | _ => exact ⟨0, fun _ _ => rfl⟩

/-- On the statement of a result. -/
theorem Item.prints_of {i : Item} {len v : V} (h : v.h E0 = (i.v len).fill) : Shows (fun k => printStatementInfo k v) i.show := by
  obtain ⟨K, hK⟩ := i.prints len
  refine ⟨K, fun k hk => Le.statement k v _ ?_⟩
  rw [← e0_h v, h]
  exact hK k hk

end Verif.Sql

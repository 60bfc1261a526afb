import Verif.Sql.BindVals
/-! Binding parameters commutes with taking the objects: statements. Proof-internal. -/
namespace Verif.Sql
open Verif.Lex Verif.LR Verif.Sem

variable {f : Nat → Lit}

theorem RE.ext (e : Ext) : RE f e.r e.r := by
  cases e with
  | lit l => exact R.lit l
  | negNum n => exact { expr := (R.lit (.num n)).v }
  | negInterval i => exact { expr := (R.lit (.interval i)).v }
theorem RE.xlit (e : XLit) : RE f e.r e.r := by
  cases e with
  | plain e => exact RE.ext e
  | cast e t => exact { columnType := R.colType t, expr := (RE.ext e).v }
theorem RL.xlits : ∀ l : XLits, RL f l.vals l.vals
  | .one x => .cons (RE.xlit x).v .nil
  | .snoc l x => (RL.xlits l).snoc (RE.xlit x).v
theorem R.xlits (l : Option XLits) : R f (xlitsV l) (xlitsV l) := by
  cases l with
  | none => rfl
  | some l => exact .vec (RL.xlits l)
theorem RE.hint (h : Hint) : RE f h.r h.r := by
  cases h with
  | name n => exact {}
  | args n l => exact { exprList := .vec (RL.xlits l) }
theorem RL.hints : ∀ l : HintList, RL f l.vals l.vals
  | .one x => .cons (RE.hint x).v .nil
  | .snoc l x => (RL.hints l).snoc (RE.hint x).v
theorem R.hints (l : Hints) : R f l.v l.v := by
  cases l with
  | none => rfl
  | some l => exact .vec (RL.hints l)
theorem R.obytes (o : Option Bytes) : R f (obytes o) (obytes o) := by cases o <;> rfl
theorem R.csv (v : CopyV) : R f v.csvV v.csvV := by
  obtain ⟨_, _, c⟩ := v
  cases c with
  | none => rfl
  | some c => exact .obj (.cons (R.obytes _) (.cons (R.obytes _) (.cons (R.obytes _) .nil)))
theorem R.cols (o : Option Names) : R f (colsV o) (colsV o) := by
  cases o with
  | none => rfl
  | some l => exact R.names l
theorem R.ref (t : TName) (c : Option Names) : R f (refV t c) (refV t c) := .obj (.cons (R.ostr _) (.cons rfl (.cons (R.cols c) .nil)))
theorem RL.crefs (c : Constraint) : RL f c.refs c.refs := by
  cases c with
  | references t c => exact .cons (R.ref t c) .nil
  | _ => rfl
theorem RL.csrefs : ∀ c : Constraints, RL f c.refs c.refs
  | .one c => RL.crefs c
  | .snoc l c => (RL.csrefs l).append (RL.crefs c)
theorem RL.colrefs (c : ColCons) : RL f c.refs c.refs := by
  cases c with
  | none => rfl
  | some l => exact RL.csrefs l
theorem RL.ints : ∀ l : List Int, RL f (l.map .int) (l.map .int)
  | [] => rfl
  | _ :: l => .cons rfl (RL.ints l)
theorem R.elem (e : TableElem) : R f e.v e.v := by
  cases e with
  | column n t c _ => exact .obj (.cons (.vec (RL.ints _)) (.cons rfl (.cons (R.colType t) (.cons rfl (.cons (.vec (RL.colrefs c)) .nil)))))
  | primaryKey l => exact .obj (.cons rfl (.cons (R.names l) .nil))
  | unique l => exact .obj (.cons rfl (.cons (R.names l) .nil))
  | foreignKey l t c => exact .obj (.cons rfl (.cons (R.names l) (.cons (R.ref t c) .nil)))
theorem RL.elems : ∀ l : List TableElem, RL f (l.map TableElem.v) (l.map TableElem.v)
  | [] => rfl
  | e :: l => .cons (R.elem e) (RL.elems l)
theorem RL.tname (t : TName) {vs vs' : List V} (h : RL f vs vs') : RL f (ostr t.schema :: str t.name :: vs) (ostr t.schema :: str t.name :: vs') := .cons (R.ostr _) (.cons rfl h)

/-- The fields of a CREATE statement. -/
theorem CreateV.bind {c c' : CreateV} (h1 : c'.type = c.type) (h2 : c'.ifNotExists = c.ifNotExists) (h3 : R f c.filePath c'.filePath := by rfl) (h4 : R f c.schema c'.schema := by rfl)
    (h5 : R f c.tableName c'.tableName := by rfl) (h6 : R f c.indexName c'.indexName := by rfl) (h7 : R f c.indexColumns c'.indexColumns := by rfl)
    (h8 : R f c.columns c'.columns := by rfl) (h9 : R f c.tableConstraints c'.tableConstraints := by rfl) (h10 : R f c.viewColumns c'.viewColumns := by rfl)
    (h11 : R f c.select c'.select := by rfl) : RL f c.stmt.fields c'.stmt.fields :=
  .cons rfl <| .cons (.int' h1) <| .cons (.flag h2) <| .cons h3 <| .cons h4 <| .cons h5 <| .cons h6 <| .cons h7 <| .cons h8 <| .cons h9 <| .cons h10 <| .cons h11 .nil

variable (f)
theorem Updates.bind_vals : ∀ l : Updates, RL f l.vals (l.bind f).vals
  | .one n e => .cons (.obj (.cons rfl (.cons (e.bind_put f .none) .nil))) .nil
  | .snoc l n e => l.bind_vals.snoc (.obj (.cons rfl (.cons (e.bind_put f .none) .nil)))

theorem Stmt.bind_r (s : Stmt) : (s.bind f).r.cls = s.r.cls ∧ s.r.cls ≠ .Expr ∧ RL f s.r.fields (s.bind f).r.fields := by
  cases s with
  | query q => exact ⟨rfl, nofun, (q.bind_r f).stmt.2⟩
  | createFile i t w ok p => exact ⟨rfl, nofun, CreateV.bind rfl rfl (h4 := R.ostr _)⟩
  | createTable i t l => exact ⟨rfl, nofun, CreateV.bind rfl rfl (h4 := R.ostr _) (h8 := .vec (RL.elems _)) (h9 := .vec (RL.elems _))⟩
  | createAs i t q => exact ⟨rfl, nofun, CreateV.bind rfl rfl (h4 := R.ostr _) (h11 := (q.bind_r f).v)⟩
  | createIndex i n t l => exact ⟨rfl, nofun, CreateV.bind rfl rfl (h6 := R.ostr _) (h7 := R.names l)⟩
  | createView i t c q => exact ⟨rfl, nofun, CreateV.bind rfl rfl (h4 := R.ostr _) (h10 := R.cols c) (h11 := (q.bind_r f).v)⟩
  | insertValues t c l => exact ⟨rfl, nofun, .cons rfl <| .cons rfl <| .tname t <| .cons (R.cols c) <| .cons (.vec (RL.xlits l)) <| .cons rfl .nil⟩
  | insertQuery t c s => exact ⟨rfl, nofun, .cons rfl <| .cons rfl <| .tname t <| .cons (R.cols c) <| .cons rfl <| .cons (s.bind_r f).v .nil⟩
  | delete t w => exact ⟨rfl, nofun, .cons rfl <| .tname t <| .cons (w.bind_v f) .nil⟩
  | truncate t => exact ⟨rfl, nofun, .cons rfl <| .tname t <| .cons rfl .nil⟩
  | update t l w => exact ⟨rfl, nofun, .cons rfl <| .cons (RT.v { schema := R.ostr _ }) <| .cons (.vec (l.bind_vals f)) <| .cons (w.bind_v f) .nil⟩
  | dropTable i t => exact ⟨rfl, nofun, .cons rfl <| .cons rfl <| .cons rfl <| .tname t <| .cons rfl .nil⟩
  | dropView i t => exact ⟨rfl, nofun, .cons rfl <| .cons rfl <| .cons rfl <| .tname t <| .cons rfl .nil⟩
  | deallocate n => exact ⟨rfl, nofun, rfl⟩
  | dropIndex i n => exact ⟨rfl, nofun, rfl⟩
  | alterDrop i t j c => exact ⟨rfl, nofun, .cons rfl <| .cons (R.ostr _) <| .cons rfl <| .cons rfl <| .cons rfl .nil⟩
  | execute n => exact ⟨rfl, nofun, rfl⟩
  | executeArgs n l => exact ⟨rfl, nofun, .cons rfl <| .cons rfl <| .cons (R.xlits l) .nil⟩
  | transaction c w => exact ⟨rfl, nofun, rfl⟩
  | prepare n q => exact ⟨rfl, nofun, rfl⟩

theorem Item.bind_v (i : Item) : R f (i.v (.pos 0)) ((i.bind f).v (.pos 0)) := by
  cases i with
  | stmt s h =>
    obtain ⟨e, n, hl⟩ := s.bind_r f
    have : R f (.obj 0 s.r.cls (.pos 0 :: h.v :: s.r.fields)) (.obj 0 s.r.cls (.pos 0 :: h.v :: (s.bind f).r.fields)) := .obj (.cons rfl (.cons (R.hints h) hl)) n
    rw [← e] at this
    simpa only [Item.v, Item.bind, StmtV.v, e] using this
  | showTables => rfl
  | showColumns t => exact .obj (.cons rfl <| .cons rfl <| .cons rfl <| .cons rfl <| .tname t .nil) nofun
  | describe t => exact .obj (.cons rfl <| .cons rfl <| .cons rfl <| .cons rfl <| .tname t .nil) nofun
  | importFile w k ok p t => exact .obj (.cons rfl <| .cons rfl <| .cons rfl <| .cons rfl <| .cons rfl <| .tname t <| .cons rfl <| .cons rfl <| .cons rfl .nil) nofun
  | copyFrom t p o w =>
    exact .obj (.cons rfl <| .cons rfl <| .cons rfl <| .cons rfl <| .cons rfl <| .tname t <| .cons (w.bind_v f) <| .cons (R.obytes _) <| .cons (R.csv _) .nil) nofun
  | copyTo t p o =>
    exact .obj (.cons rfl <| .cons rfl <| .cons rfl <| .cons rfl <| .cons rfl <| .tname t <| .cons rfl <| .cons (R.obytes _) <| .cons (R.csv _) .nil) nofun
  | copyQuery s p o =>
    exact .obj (.cons rfl <| .cons rfl <| .cons rfl <| .cons rfl <| .cons rfl <| .cons rfl <| .cons rfl <| .cons (s.bind_r f).v <| .cons (R.obytes _) <| .cons (R.csv _) .nil) nofun

theorem Script.bind_vals (s : Script) : ((s.bind f).items.map fun i => (i.v (.pos 0)).fill) = bindPL f (s.items.map fun i => (i.v (.pos 0)).fill) := by
  rw [Script.bind_items, bindPL_map, List.map_map, List.map_map]
  exact List.map_congr_left fun i _ => (i.bind_v f).symm

end Verif.Sql

import Verif.Sql.Stmt
import Verif.Sql.Render
/-! The keywords of scripts have texts. Generated from `Syntax.lean` and `Stmt.lean` by tools/genkn.py. Proof-internal. -/
namespace Verif.Sql
open Verif.Lex Verif.LR Verif.Sem

def K (ws : List Word) : Prop := ∀ a, Word.kw a ∈ ws → Known a
theorem K_nil : K [] := fun _ h => absurd h (by simp)
theorem K_kw {a : Nat} (h : (spellings.any fun e => e.1 == a) = true) : K [.kw a] := fun b hb => by
  cases List.mem_singleton.1 hb; exact h
theorem K_nm {b : Name} : K (nm b) := fun _ h => by cases List.mem_singleton.1 h
theorem K_int {n : Int} : K [.int n] := fun _ h => by cases List.mem_singleton.1 h
theorem K_str {b : Bytes} : K [.str b] := fun _ h => by cases List.mem_singleton.1 h
theorem K_flt {b : Bytes} : K [.flt b] := fun _ h => by cases List.mem_singleton.1 h
theorem K_par' {k : Nat} : K [.par k] := fun _ h => by cases List.mem_singleton.1 h
theorem K1 {x : List Word} (h : K x) : K (cat [x]) := h
theorem K2 {x y : List Word} {r : List (List Word)} (h : K x) (h2 : K (cat (y :: r))) : K (cat (x :: y :: r)) := fun a ha => (List.mem_append.1 ha).elim (h a) (h2 a)
theorem K_par {b : Bool} {x : List Word} (h : K x) : K (par b x) := by
  cases b
  · exact K2 (K_kw rfl) (K2 h (K1 (K_kw rfl)))
  · exact h

theorem Names.kn : ∀ x : Names, K x.words
  | .one n => K_nm
  | .snoc l n => (K2 l.kn (K2 (K_kw rfl) (K1 K_nm)))
theorem TName.kn : ∀ x : TName, K x.words
  | ⟨none, n⟩ => K_nm
  | ⟨some s, n⟩ => (K2 K_nm (K2 (K_kw rfl) (K1 K_nm)))
theorem Interval.kn : ∀ x : Interval, K x.words
  | .short n f false => (K2 K_int (K1 (by cases f <;> exact K_kw rfl)))
  | .short n f true => (K2 K_int (K1 (by cases f <;> exact K_kw rfl)))
  | .str s _ f _ => (K2 (K_kw rfl) (K2 K_str (K1 (by cases f <;> exact K_kw rfl))))
  | .strUnit s _ _ _ _ _ => (K2 (K_kw rfl) (K1 K_str))
theorem Num.kn : ∀ x : Num, K x.words
  | .int n => K_int
  | .float b => K_flt
theorem Lit.kn : ∀ x : Lit, K x.words
  | .str b => K_str
  | .bool true => (K_kw rfl)
  | .bool false => (K_kw rfl)
  | .num n => n.kn
  | .null => (K_kw rfl)
  | .date b _ => (K2 (K_kw rfl) (K1 K_str))
  | .interval i => i.kn
theorem ColType.kn : ∀ x : ColType, K x.words
  | .simple t => (by cases t <;> exact K_kw rfl)
  | .char n => (K2 (K_kw rfl) (K2 (K_kw rfl) (K2 K_int (K1 (K_kw rfl)))))
  | .varchar n => (K2 (K_kw rfl) (K2 (K_kw rfl) (K2 K_int (K1 (K_kw rfl)))))
  | .characterVarying n => (K2 (K_kw rfl) (K2 (K_kw rfl) (K2 K_int (K1 (K_kw rfl)))))
  | .decimal => (K_kw rfl)
  | .decimal1 p => (K2 (K_kw rfl) (K2 (K_kw rfl) (K2 K_int (K1 (K_kw rfl)))))
  | .decimal2 p s => (K2 (K_kw rfl) (K2 (K_kw rfl) (K2 K_int (K2 (K_kw rfl) (K2 K_int (K1 (K_kw rfl)))))))
  | .time => (K_kw rfl)
  | .time1 p => (K2 (K_kw rfl) (K2 (K_kw rfl) (K2 K_int (K1 (K_kw rfl)))))
theorem Alias.kn : ∀ x : Alias, K x.words
  | .none => K_nil
  | .as n => (K2 (K_kw rfl) (K1 K_nm))
  | .bare n => K_nm
theorem TAlias.kn : ∀ x : TAlias, K x.words
  | .plain a => a.kn
  | .cols n l => (K2 (K_kw rfl) (K2 K_nm (K2 (K_kw rfl) (K2 l.kn (K1 (K_kw rfl))))))
theorem Dir.kn : ∀ x : Dir, K x.words
  | .none => K_nil
  | .asc => (K_kw rfl)
  | .desc => (K_kw rfl)
theorem Nulls.kn : ∀ x : Nulls, K x.words
  | .none => K_nil
  | .first .. => (K2 K_nm (K1 K_nm))
  | .last .. => (K2 K_nm (K1 K_nm))
theorem Bound.kn : ∀ x : Bound, K x.words
  | .unboundedPreceding => (K2 (K_kw rfl) (K1 (K_kw rfl)))
  | .preceding n => (K2 K_int (K1 (K_kw rfl)))
  | .unboundedFollowing => (K2 (K_kw rfl) (K1 (K_kw rfl)))
  | .following n => (K2 K_int (K1 (K_kw rfl)))
  | .currentRow => (K_kw rfl)
theorem Frame.kn : ∀ x : Frame, K x.words
  | .none => K_nil
  | .start t b => (K2 (by cases t <;> exact K_kw rfl) (K1 b.kn))
  | .between t b e => (K2 (by cases t <;> exact K_kw rfl) (K2 (K_kw rfl) (K2 b.kn (K2 (K_kw rfl) (K1 e.kn)))))
theorem SetOp.kn : ∀ x : SetOp, K x.words
  | ⟨t, false⟩ => (by cases t <;> exact K_kw rfl)
  | ⟨t, true⟩ => (K2 (by cases t <;> exact K_kw rfl) (K1 (K_kw rfl)))
theorem LockMode.kn : ∀ x : LockMode, K x.words
  | .update => (K_kw rfl)
  | .noKeyUpdate => (K2 (K_kw rfl) (K2 (K_kw rfl) (K1 (K_kw rfl))))
  | .share => (K_kw rfl)
  | .keyShare => (K2 (K_kw rfl) (K1 (K_kw rfl)))
theorem LockWait.kn : ∀ x : LockWait, K x.words
  | .none => K_nil
  | .skipLocked => (K2 (K_kw rfl) (K1 (K_kw rfl)))
  | .nowait => (K_kw rfl)
theorem Lock.kn : ∀ x : Lock, K x.words
  | ⟨m, none, w⟩ => (K2 (K_kw rfl) (K2 m.kn (K1 w.kn)))
  | ⟨m, some l, w⟩ => (K2 (K_kw rfl) (K2 m.kn (K2 (K_kw rfl) (K2 l.kn (K1 w.kn)))))
theorem LockList.kn : ∀ x : LockList, K x.words
  | .one k => k.kn
  | .snoc l k => (K2 l.kn (K1 k.kn))
theorem Locks.kn : ∀ x : Locks, K x.words
  | .none => K_nil
  | .some l => l.kn
theorem JoinType.kn : ∀ x : JoinType, K x.words
  | .none => K_nil
  | .inner => (K_kw rfl)
  | .left false => (K_kw rfl)
  | .left true => (K2 (K_kw rfl) (K1 (K_kw rfl)))
  | .right false => (K_kw rfl)
  | .right true => (K2 (K_kw rfl) (K1 (K_kw rfl)))
  | .full false => (K_kw rfl)
  | .full true => (K2 (K_kw rfl) (K1 (K_kw rfl)))
  | .outer => (K_kw rfl)
  | .cross => (K_kw rfl)
theorem BinOp.kn : ∀ x : BinOp, K x.words
  | .minus => (K_kw rfl)
  | .plus => (K_kw rfl)
  | .slash => (K_kw rfl)
  | .star => (K_kw rfl)
  | .percent => (K_kw rfl)
  | .caret => (K_kw rfl)
  | .like => (K_kw rfl)
  | .notLike => (K2 (K_kw rfl) (K1 (K_kw rfl)))
  | .ilike => (K_kw rfl)
  | .concat => (K_kw rfl)
  | .eq => (K_kw rfl)
  | .eq2 => (K_kw rfl)
  | .ne => (K_kw rfl)
  | .lt => (K_kw rfl)
  | .gt => (K_kw rfl)
  | .le => (K_kw rfl)
  | .ge => (K_kw rfl)
theorem K_notKw : ∀ x : Bool, K (notKw x)
  | false => K_nil
  | true => (K_kw rfl)
theorem K_distinctKw : ∀ x : Bool, K (distinctKw x)
  | false => K_nil
  | true => (K_kw rfl)
theorem K_topWords : ∀ x : Option Int, K (topWords x)
  | none => K_nil
  | some n => (K2 (K_kw rfl) (K1 K_int))
mutual
theorem Expr.kn : ∀ x : Expr, K x.words
  | .lit l => l.kn
  | .param k => K_par'
  | .col none n => K_nm
  | .col (some t) n => (K2 K_nm (K2 (K_kw rfl) (K1 K_nm)))
  | .star none => (K_kw rfl)
  | .star (some t) => (K2 K_nm (K2 (K_kw rfl) (K1 (K_kw rfl))))
  | .paren e => (K2 (K_kw rfl) (K2 e.kn (K1 (K_kw rfl))))
  | .query s => (K2 (K_kw rfl) (K2 s.kn (K1 (K_kw rfl))))
  | .neg e => (K2 (K_kw rfl) (K1 (K_par e.kn)))
  | .not e => (K2 (K_kw rfl) (K1 (K_par e.kn)))
  | .isNull true e => (K2 (K_par e.kn) (K1 (K_kw rfl)))
  | .isNull false e => (K2 (K_par e.kn) (K2 (K_kw rfl) (K1 (K_kw rfl))))
  | .isNotNull e => (K2 (K_par e.kn) (K2 (K_kw rfl) (K2 (K_kw rfl) (K1 (K_kw rfl)))))
  | .bin o a b => (K2 (K_par a.kn) (K2 o.kn (K1 (K_par b.kn))))
  | .logic o a b => (K2 (K_par a.kn) (K2 (by cases o <;> exact K_kw rfl) (K1 (K_par b.kn))))
  | .inList false e l => (K2 (K_par e.kn) (K2 (K_kw rfl) (K2 (K_kw rfl) (K2 l.kn (K1 (K_kw rfl))))))
  | .inList true e l => (K2 (K_par e.kn) (K2 (K_kw rfl) (K2 (K_kw rfl) (K2 (K_kw rfl) (K2 l.kn (K1 (K_kw rfl)))))))
  | .inQuery false e s => (K2 (K_par e.kn) (K2 (K_kw rfl) (K2 (K_kw rfl) (K2 s.kn (K1 (K_kw rfl))))))
  | .inQuery true e s => (K2 (K_par e.kn) (K2 (K_kw rfl) (K2 (K_kw rfl) (K2 (K_kw rfl) (K2 s.kn (K1 (K_kw rfl)))))))
  | .between e lo hi => (K2 (K_par e.kn) (K2 (K_kw rfl) (K2 (K_par lo.kn) (K2 (K_kw rfl) (K1 (K_par hi.kn))))))
  | .exist false s => (K2 (K_kw rfl) (K2 (K_kw rfl) (K2 s.kn (K1 (K_kw rfl)))))
  | .exist true s => (K2 (K_kw rfl) (K2 (K_kw rfl) (K2 (K_kw rfl) (K2 s.kn (K1 (K_kw rfl))))))
  | .case x l .none => (K2 (K_kw rfl) (K2 x.kn (K2 l.kn (K1 (K_kw rfl)))))
  | .case x l (.some e) => (K2 (K_kw rfl) (K2 x.kn (K2 l.kn (K2 (K_kw rfl) (K2 e.kn (K1 (K_kw rfl)))))))
  | .call none f a w => (K2 K_nm (K2 (K_kw rfl) (K2 a.kn (K2 (K_kw rfl) (K1 w.kn)))))
  | .call (some s) f a w => (K2 K_nm (K2 (K_kw rfl) (K2 K_nm (K2 (K_kw rfl) (K2 a.kn (K2 (K_kw rfl) (K1 w.kn)))))))
  | .extract f e => (K2 (K_kw rfl) (K2 (K_kw rfl) (K2 (by cases f <;> exact K_kw rfl) (K2 (K_kw rfl) (K2 e.kn (K1 (K_kw rfl)))))))
  | .cast e t => (K2 (K_kw rfl) (K2 (K_kw rfl) (K2 e.kn (K2 (K_kw rfl) (K2 t.kn (K1 (K_kw rfl)))))))
  | .array l => (K2 (K_kw rfl) (K2 (K_kw rfl) (K2 l.kn (K1 (K_kw rfl)))))
  | .index e n => (K2 (K_par e.kn) (K2 (K_kw rfl) (K2 K_int (K1 (K_kw rfl)))))
theorem OExpr.kn : ∀ x : OExpr, K x.words
  | .none => K_nil
  | .some e => e.kn
theorem Items.kn : ∀ x : Items, K x.words
  | .one e a => (K2 e.kn (K1 a.kn))
  | .snoc l e a => (K2 l.kn (K2 (K_kw rfl) (K2 e.kn (K1 a.kn))))
theorem Whens.kn : ∀ x : Whens, K x.words
  | .one w t => (K2 (K_kw rfl) (K2 w.kn (K2 (K_kw rfl) (K1 t.kn))))
  | .snoc l w t => (K2 l.kn (K2 (K_kw rfl) (K2 w.kn (K2 (K_kw rfl) (K1 t.kn)))))
theorem Args.kn : ∀ x : Args, K x.words
  | .none => K_nil
  | .some d l => (K2 (K_distinctKw d) (K1 l.kn))
theorem Window.kn : ∀ x : Window, K x.words
  | .none => K_nil
  | .over p o f => (K2 (K_kw rfl) (K2 (K_kw rfl) (K2 p.kn (K2 o.kn (K2 f.kn (K1 (K_kw rfl)))))))
theorem Partition.kn : ∀ x : Partition, K x.words
  | .none => K_nil
  | .by l => (K2 (K_kw rfl) (K2 (K_kw rfl) (K1 l.kn)))
theorem Order.kn : ∀ x : Order, K x.words
  | .none => K_nil
  | .by l => (K2 (K_kw rfl) (K2 (K_kw rfl) (K1 l.kn)))
theorem Orders.kn : ∀ x : Orders, K x.words
  | .one e d n => (K2 e.kn (K2 d.kn (K1 n.kn)))
  | .snoc l e d n => (K2 l.kn (K2 (K_kw rfl) (K2 e.kn (K2 d.kn (K1 n.kn)))))
theorem Sel.kn : ∀ x : Sel, K x.words
  | .plain c o l k => (K2 c.kn (K2 o.kn (K2 l.kn (K1 k.kn))))
  | .set c op r o l k => (K2 c.kn (K2 op.kn (K2 r.kn (K2 o.kn (K2 l.kn (K1 k.kn))))))
theorem PSel.kn : ∀ x : PSel, K x.words
  | .one s => (K2 (K_kw rfl) (K2 s.kn (K1 (K_kw rfl))))
  | .more s => (K2 (K_kw rfl) (K2 s.kn (K1 (K_kw rfl))))
theorem Within.kn : ∀ x : Within, K x.words
  | .paren s => s.kn
  | .clause c => c.kn
  | .set c op r => (K2 c.kn (K2 op.kn (K1 r.kn)))
theorem Clause.kn : ∀ x : Clause, K x.words
  | .mk t d l f .none g => (K2 (K_kw rfl) (K2 (K_topWords t) (K2 (K_distinctKw d) (K2 l.kn (K2 f.kn (K2 K_nil (K1 g.kn)))))))
  | .mk t d l f (.some e) g => (K2 (K_kw rfl) (K2 (K_topWords t) (K2 (K_distinctKw d) (K2 l.kn (K2 f.kn (K2 (K2 (K_kw rfl) (K1 e.kn)) (K1 g.kn)))))))
theorem Group.kn : ∀ x : Group, K x.words
  | .none => K_nil
  | .by l .none => (K2 (K_kw rfl) (K2 (K_kw rfl) (K1 l.kn)))
  | .by l (.some e) => (K2 (K_kw rfl) (K2 (K_kw rfl) (K2 l.kn (K2 (K_kw rfl) (K1 e.kn)))))
theorem Limit.kn : ∀ x : Limit, K x.words
  | .none => K_nil
  | .limit e => (K2 (K_kw rfl) (K1 e.kn))
  | .offset e => (K2 (K_kw rfl) (K1 e.kn))
  | .both l o => (K2 (K_kw rfl) (K2 l.kn (K2 (K_kw rfl) (K1 o.kn))))
  | .all => (K2 (K_kw rfl) (K1 (K_kw rfl)))
  | .allOffset o => (K2 (K_kw rfl) (K2 (K_kw rfl) (K2 (K_kw rfl) (K1 o.kn))))
theorem From.kn : ∀ x : From, K x.words
  | .none => K_nil
  | .one t => (K2 (K_kw rfl) (K1 t.kn))
  | .many l t => (K2 (K_kw rfl) (K2 l.kn (K2 (K_kw rfl) (K1 t.kn))))
theorem Tables.kn : ∀ x : Tables, K x.words
  | .one t => t.kn
  | .snoc l t => (K2 l.kn (K2 (K_kw rfl) (K1 t.kn)))
theorem TableN.kn : ∀ x : TableN, K x.words
  | .name t a => (K2 t.kn (K1 a.kn))
  | .query s a => (K2 (K_kw rfl) (K2 s.kn (K2 (K_kw rfl) (K1 a.kn))))
theorem Table.kn : ∀ x : Table, K x.words
  | .base t => t.kn
  | .natural l r => (K2 l.kn (K2 (K_kw rfl) (K2 (K_kw rfl) (K1 r.kn))))
  | .on l j r c => (K2 l.kn (K2 j.kn (K2 (K_kw rfl) (K2 r.kn (K2 (K_kw rfl) (K1 c.kn))))))
  | .using l j r cols => (K2 l.kn (K2 j.kn (K2 (K_kw rfl) (K2 r.kn (K2 (K_kw rfl) (K2 (K_kw rfl) (K2 cols.kn (K1 (K_kw rfl)))))))))
theorem Query.kn : ∀ x : Query, K x.words
  | .paren w s => (K2 w.kn (K1 s.kn))
  | .plain w s => (K2 w.kn (K1 s.kn))
  | .set w s op r o l => (K2 w.kn (K2 s.kn (K2 op.kn (K2 r.kn (K2 o.kn (K1 l.kn))))))
theorem With.kn : ∀ x : With, K x.words
  | .none => K_nil
  | .some l => (K2 (K_kw rfl) (K1 l.kn))
theorem Withs.kn : ∀ x : Withs, K x.words
  | .one n s => (K2 K_nm (K2 (K_kw rfl) (K1 s.kn)))
  | .snoc l n s => (K2 l.kn (K2 (K_kw rfl) (K2 K_nm (K2 (K_kw rfl) (K1 s.kn)))))
end

theorem Ext.kn : ∀ x : Ext, K x.words
  | .lit l => l.kn
  | .negNum n => (K2 (K_kw rfl) (K1 n.kn))
  | .negInterval i => (K2 (K_kw rfl) (K1 i.kn))
theorem XLit.kn : ∀ x : XLit, K x.words
  | .plain e => e.kn
  | .cast e t => (K2 (K_kw rfl) (K2 (K_kw rfl) (K2 e.kn (K2 (K_kw rfl) (K2 t.kn (K1 (K_kw rfl)))))))
theorem XLits.kn : ∀ x : XLits, K x.words
  | .one x => x.kn
  | .snoc l x => (K2 l.kn (K2 (K_kw rfl) (K1 x.kn)))
theorem Hint.kn : ∀ x : Hint, K x.words
  | .name n => K_nm
  | .args n l => (K2 K_nm (K2 (K_kw rfl) (K2 l.kn (K1 (K_kw rfl)))))
theorem HintList.kn : ∀ x : HintList, K x.words
  | .one h => h.kn
  | .snoc l h => (K2 l.kn (K2 (K_kw rfl) (K1 h.kn)))
theorem Hints.kn : ∀ x : Hints, K x.words
  | .none => K_nil
  | .some l => (K2 (K_kw rfl) (K2 (K_kw rfl) (K2 (K_kw rfl) (K2 l.kn (K1 (K_kw rfl))))))
theorem CopyOpt.kn : ∀ x : CopyOpt, K x.words
  | .format w _ _ => (K2 (K_kw rfl) (K1 K_nm))
  | .encoding b => (K2 (K_kw rfl) (K1 K_str))
  | .delimiter w _ b => (K2 K_nm (K1 K_str))
  | .quote w _ b => (K2 K_nm (K1 K_str))
  | .null b => (K2 (K_kw rfl) (K1 K_str))
theorem CopyOpts.kn : ∀ x : CopyOpts, K x.words
  | .one o => o.kn
  | .snoc l o => (K2 l.kn (K2 (K_kw rfl) (K1 o.kn)))
theorem CopyWith.kn : ∀ x : CopyWith, K x.words
  | .none => K_nil
  | .opts true l _ => (K2 (K_kw rfl) (K2 (K_kw rfl) (K2 l.kn (K1 (K_kw rfl)))))
  | .opts false l _ => (K2 (K_kw rfl) (K2 l.kn (K1 (K_kw rfl))))
theorem K_colsWords : ∀ x : Option Names, K (colsWords x)
  | none => K_nil
  | some l => (K2 (K_kw rfl) (K2 l.kn (K1 (K_kw rfl))))
theorem Constraint.kn : ∀ x : Constraint, K x.words
  | .primaryKey => (K2 (K_kw rfl) (K1 (K_kw rfl)))
  | .unique => (K_kw rfl)
  | .null => (K_kw rfl)
  | .notNull => (K2 (K_kw rfl) (K1 (K_kw rfl)))
  | .references t cols => (K2 (K_kw rfl) (K2 t.kn (K1 (K_colsWords cols))))
theorem Constraints.kn : ∀ x : Constraints, K x.words
  | .one c => c.kn
  | .snoc l c => (K2 l.kn (K1 c.kn))
theorem ColCons.kn : ∀ x : ColCons, K x.words
  | .none => K_nil
  | .some l => l.kn
theorem TableElem.kn : ∀ x : TableElem, K x.words
  | .column n t c _ => (K2 K_nm (K2 t.kn (K1 c.kn)))
  | .primaryKey l => (K2 (K_kw rfl) (K2 (K_kw rfl) (K2 (K_kw rfl) (K2 l.kn (K1 (K_kw rfl))))))
  | .unique l => (K2 (K_kw rfl) (K2 (K_kw rfl) (K2 l.kn (K1 (K_kw rfl)))))
  | .foreignKey l t cols => (K2 (K_kw rfl) (K2 (K_kw rfl) (K2 (K_kw rfl) (K2 l.kn (K2 (K_kw rfl) (K2 (K_kw rfl) (K2 t.kn (K1 (K_colsWords cols)))))))))
theorem TableElems.kn : ∀ x : TableElems, K x.words
  | .one e => e.kn
  | .snoc l e => (K2 l.kn (K2 (K_kw rfl) (K1 e.kn)))
theorem Updates.kn : ∀ x : Updates, K x.words
  | .one n e => (K2 K_nm (K2 (K_kw rfl) (K1 e.kn)))
  | .snoc l n e => (K2 l.kn (K2 (K_kw rfl) (K2 K_nm (K2 (K_kw rfl) (K1 e.kn)))))
theorem K_ifNotExists : ∀ x : Bool, K (ifNotExists x)
  | false => K_nil
  | true => (K2 (K_kw rfl) (K2 (K_kw rfl) (K1 (K_kw rfl))))
theorem K_ifExists : ∀ x : Bool, K (ifExists x)
  | false => K_nil
  | true => (K2 (K_kw rfl) (K1 (K_kw rfl)))
theorem K_whereW : ∀ x : OExpr, K (whereW x)
  | .none => K_nil
  | .some e => (K2 (K_kw rfl) (K1 e.kn))
theorem K_nameW : ∀ x : Option Name, K (nameW x)
  | none => K_nil
  | some n => K_nm
theorem K_xlitsW : ∀ x : Option XLits, K (xlitsW x)
  | none => K_nil
  | some l => l.kn
theorem Stmt.kn : ∀ x : Stmt, K x.words
  | .query q => q.kn
  | .createFile i t w _ p => (K2 (K_kw rfl) (K2 (K_kw rfl) (K2 (K_ifNotExists i) (K2 t.kn (K2 (K_kw rfl) (K2 K_nm (K2 (K_kw rfl) (K1 K_str))))))))
  | .createTable i t l => (K2 (K_kw rfl) (K2 (K_kw rfl) (K2 (K_ifNotExists i) (K2 t.kn (K2 (K_kw rfl) (K2 l.kn (K1 (K_kw rfl))))))))
  | .createAs i t q => (K2 (K_kw rfl) (K2 (K_kw rfl) (K2 (K_ifNotExists i) (K2 t.kn (K2 (K_kw rfl) (K1 q.kn))))))
  | .createIndex i n t l => (K2 (K_kw rfl) (K2 (K_kw rfl) (K2 (K_ifNotExists i) (K2 (K_nameW n) (K2 (K_kw rfl) (K2 t.kn (K2 (K_kw rfl) (K2 l.kn (K1 (K_kw rfl))))))))))
  | .createView i t c q => (K2 (K_kw rfl) (K2 (K_kw rfl) (K2 (K_ifNotExists i) (K2 t.kn (K2 (K_colsWords c) (K2 (K_kw rfl) (K1 q.kn)))))))
  | .insertValues t c l => (K2 (K_kw rfl) (K2 (K_kw rfl) (K2 t.kn (K2 (K_colsWords c) (K2 (K_kw rfl) (K2 (K_kw rfl) (K2 l.kn (K1 (K_kw rfl)))))))))
  | .insertQuery t c s => (K2 (K_kw rfl) (K2 (K_kw rfl) (K2 t.kn (K2 (K_colsWords c) (K1 s.kn)))))
  | .delete t w => (K2 (K_kw rfl) (K2 (K_kw rfl) (K2 t.kn (K1 (K_whereW w)))))
  | .truncate t => (K2 (K_kw rfl) (K1 t.kn))
  | .update t l w => (K2 (K_kw rfl) (K2 t.kn (K2 (K_kw rfl) (K2 l.kn (K1 (K_whereW w))))))
  | .dropTable i t => (K2 (K_kw rfl) (K2 (K_kw rfl) (K2 (K_ifExists i) (K1 t.kn))))
  | .dropView i t => (K2 (K_kw rfl) (K2 (K_kw rfl) (K2 (K_ifExists i) (K1 t.kn))))
  | .deallocate n => (K2 (K_kw rfl) (K2 (K_kw rfl) (K1 K_nm)))
  | .dropIndex i n => (K2 (K_kw rfl) (K2 (K_kw rfl) (K2 (K_ifExists i) (K1 K_nm))))
  | .alterDrop i t j c => (K2 (K_kw rfl) (K2 (K_kw rfl) (K2 (K_ifExists i) (K2 t.kn (K2 (K_kw rfl) (K2 (K_kw rfl) (K2 (K_ifExists j) (K1 K_nm))))))))
  | .execute n => (K2 (K_kw rfl) (K1 K_nm))
  | .executeArgs n l => (K2 (K_kw rfl) (K2 K_nm (K2 (K_kw rfl) (K2 (K_xlitsW l) (K1 (K_kw rfl))))))
  | .transaction c false => (by cases c <;> exact K_kw rfl)
  | .transaction c true => (K2 (by cases c <;> exact K_kw rfl) (K1 (K_kw rfl)))
  | .prepare n q => (K2 (K_kw rfl) (K2 K_nm (K2 (K_kw rfl) (K1 K_str))))
theorem Item.kn : ∀ x : Item, K x.words
  | .stmt s h => (K2 s.kn (K1 h.kn))
  | .showTables => (K2 (K_kw rfl) (K1 (K_kw rfl)))
  | .showColumns t => (K2 (K_kw rfl) (K2 (K_kw rfl) (K1 t.kn)))
  | .describe t => (K2 (K_kw rfl) (K1 t.kn))
  | .importFile w _ _ p t => (K2 (K_kw rfl) (K2 (K_kw rfl) (K2 K_nm (K2 (K_kw rfl) (K2 K_str (K2 (K_kw rfl) (K1 t.kn)))))))
  | .copyFrom t p o w => (K2 (K_kw rfl) (K2 t.kn (K2 (K_kw rfl) (K2 K_str (K2 o.kn (K1 (K_whereW w)))))))
  | .copyTo t p o => (K2 (K_kw rfl) (K2 t.kn (K2 (K_kw rfl) (K2 K_str (K1 o.kn)))))
  | .copyQuery s p o => (K2 (K_kw rfl) (K2 s.kn (K2 (K_kw rfl) (K2 K_str (K1 o.kn)))))
theorem Script.kn : ∀ x : Script, K x.words
  | .one i => i.kn
  | .snoc l i => (K2 l.kn (K2 (K_kw rfl) (K1 i.kn)))
theorem Script.text_kn (s : Script) (b : Bool) : K (s.text b) := by
  cases b
  · exact s.kn
  · exact K2 s.kn (K1 (K_kw rfl))

end Verif.Sql

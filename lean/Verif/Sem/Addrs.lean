import Verif.Sem.Sat
import Verif.Sem.Parse
/-! Conservation of addresses by the actions. Proof-internal. -/
namespace Verif.Sem
open Verif.LR Verif.Lex

/-- How often `a` occurs. -/
def ac (a : Nat) (v : V) : Nat := v.addrs.count a
def acL (a : Nat) (vs : List V) : Nat := (addrsL vs).count a

theorem acL_cons (a : Nat) (v : V) (vs : List V) : acL a (v :: vs) = ac a v + acL a vs := by simp [acL, ac, addrsL]
theorem acL_append (a : Nat) (u v : List V) : acL a (u ++ v) = acL a u + acL a v := by simp [acL, addrsL_append]
theorem acL_set (a : Nat) : ∀ (vs : List V) (i : Nat) (w x : V), vs[i]? = some w → acL a (vs.set i x) + ac a w = acL a vs + ac a x
  | [], i, w, x, h => by simp at h
  | v :: vs, 0, w, x, h => by
    simp at h; subst h
    simp only [List.set_cons_zero, acL_cons]; omega
  | v :: vs, i + 1, w, x, h => by
    simp at h
    have := acL_set a vs i w x h
    simp only [List.set_cons_succ, acL_cons]; omega
theorem acL_last (a : Nat) {vs : List V} {w : V} (h : vs.getLast? = some w) (x : V) : acL a (vs.dropLast ++ [x]) + ac a w = acL a vs + ac a x := by
  rcases List.eq_nil_or_concat vs with rfl | ⟨l, y, rfl⟩
  · simp at h
  · rw [List.concat_eq_append] at h ⊢
    simp at h; subst h
    simp only [List.dropLast_concat, acL_append, acL_cons]; omega

/-- One. -/
def one (a b : Nat) : Nat := [b].count a
theorem ac_obj (a b : Nat) (c : Cls) (fs : List V) : ac a (.obj b c fs) = one a b + acL a fs := by
  simp only [ac, V.addrs, one, acL]
  rw [List.count_cons, List.count_cons]; simp; omega
theorem ac_vec (a b : Nat) (fs : List V) : ac a (.vec b fs) = one a b + acL a fs := by
  simp only [ac, V.addrs, one, acL]
  rw [List.count_cons, List.count_cons]; simp; omega
theorem cnt_v (a : Nat) (v : V) : List.count a v.addrs = ac a v := rfl
theorem cnt_L (a : Nat) (v : List V) : List.count a (addrsL v) = acL a v := rfl
theorem cnt_one (a b : Nat) : List.count a [b] = one a b := rfl
theorem acL_nil (a : Nat) : acL a [] = 0 := rfl
/-- `omega` after naming counts uniformly. -/
macro "aomega" : tactic => `(tactic| ((try simp only [cnt_v, cnt_L, cnt_one, acL_nil, List.count_append, List.count_nil, Nat.succ_eq_add_one] at *); omega))
theorem ac_tup (a : Nat) (fs : List V) : ac a (.tup fs) = acL a fs := rfl
theorem ac_undef (a : Nat) : ac a .undef = 0 := rfl
theorem ac_null (a : Nat) : ac a .null = 0 := rfl
theorem ac_int (a : Nat) (n : Int) : ac a (.int n) = 0 := rfl

theorem put_ac (a : Nat) : ∀ (p : List Sel) (v w x v' : V), v.get p = some w → v.put p x = some v' → ac a v' + ac a w = ac a v + ac a x
  | [], v, w, x, v', h, h' => by
    simp only [V.get, V.put] at h h'; cases h; cases h'; aomega
  | .fld i :: p, .obj b c fs, w, x, v', h, h' => by
    simp only [V.get, V.put] at h h'
    split at h
    · rename_i y hy
      rw [hy] at h'
      simp only at h'
      split at h'
      · rename_i y' hy'
        cases h'
        have h1 := put_ac a p y w x y' h hy'
        have h2 := acL_set a fs i y y' hy
        rw [ac_obj, ac_obj]; aomega
      · cases h'
    · cases h
  | .fld i :: p, .tup fs, w, x, v', h, h' => by
    simp only [V.get, V.put] at h h'
    split at h
    · rename_i y hy
      rw [hy] at h'
      simp only at h'
      split at h'
      · rename_i y' hy'
        cases h'
        have h1 := put_ac a p y w x y' h hy'
        have h2 := acL_set a fs i y y' hy
        rw [ac_tup, ac_tup]; aomega
      · cases h'
    · cases h
  | .back :: p, .vec b fs, w, x, v', h, h' => by
    simp only [V.get, V.put] at h h'
    split at h
    · rename_i y hy
      rw [hy] at h'
      simp only at h'
      split at h'
      · rename_i y' hy'
        cases h'
        have h1 := put_ac a p y w x y' h hy'
        have h2 := acL_last a hy y'
        rw [ac_vec, ac_vec]; aomega
      · cases h'
    · cases h
  | .fld _ :: _, .undef, _, _, _, h, _ => by simp [V.get] at h
  | .fld _ :: _, .null, _, _, _, h, _ => by simp [V.get] at h
  | .fld _ :: _, .int _, _, _, _, h, _ => by simp [V.get] at h
  | .fld _ :: _, .pos _, _, _, _, h, _ => by simp [V.get] at h
  | .fld _ :: _, .idx _, _, _, _, h, _ => by simp [V.get] at h
  | .fld _ :: _, .raw _, _, _, _, h, _ => by simp [V.get] at h
  | .fld _ :: _, .str _ _, _, _, _, h, _ => by simp [V.get] at h
  | .fld _ :: _, .vec _ _, _, _, _, h, _ => by simp [V.get] at h
  | .back :: _, .undef, _, _, _, h, _ => by simp [V.get] at h
  | .back :: _, .null, _, _, _, h, _ => by simp [V.get] at h
  | .back :: _, .int _, _, _, _, h, _ => by simp [V.get] at h
  | .back :: _, .pos _, _, _, _, h, _ => by simp [V.get] at h
  | .back :: _, .idx _, _, _, _, h, _ => by simp [V.get] at h
  | .back :: _, .raw _, _, _, _, h, _ => by simp [V.get] at h
  | .back :: _, .str _ _, _, _, _, h, _ => by simp [V.get] at h
  | .back :: _, .obj _ _ _, _, _, _, h, _ => by simp [V.get] at h
  | .back :: _, .tup _, _, _, _, h, _ => by simp [V.get] at h

theorem putP_ac (a : Nat) {env env' : List V} {p : Path} {w x : V} (h : getP env p = some w) (h' : putP env p x = some env') :
    acL a env' + ac a w = acL a env + ac a x := by
  unfold getP at h
  unfold putP at h'
  split at h
  · rename_i v hv
    rw [hv] at h'
    simp only at h'
    split at h'
    · rename_i v' hv'
      cases h'
      have h1 := put_ac a _ _ _ _ _ h hv'
      have h2 := acL_set a env p.var v v' hv
      aomega
    · cases h'
  · cases h

theorem evalAtom_ac (a : Nat) {e : Atom} {env env' : List V} {st : St} {v : V} (h : evalAtom e env st = some (v, env')) : ac a v + acL a env' = acL a env := by
  unfold evalAtom at h
  split at h
  case h_8 => -- cp
    split at h <;> first | (cases h; rw [ac_int]; aomega) | (cases h; show 0 + _ = _; aomega) | cases h
  case h_9 => -- mv
    split at h
    · rename_i w hw
      split at h
      · cases h
      · split at h
        · rename_i env2 hp
          cases h
          have := putP_ac a hw hp
          rw [ac_undef] at this; aomega
        · cases h
    · cases h
  case h_10 =>
    split at h
    · split at h
      · cases h; rw [ac_int]; aomega
      · cases h
    · cases h
  case h_11 =>
    split at h
    · split at h
      · cases h; show 0 + _ = _; aomega
      · cases h
    · cases h
  all_goals (cases h; show 0 + _ = _; aomega)

theorem evalAtoms_ac (a : Nat) : ∀ (es : List Atom) {env env' : List V} {st : St} {vs : List V}, evalAtoms es env st = some (vs, env') → acL a vs + acL a env' = acL a env
  | [], env, env', st, vs, h => by simp only [evalAtoms] at h; cases h; show 0 + _ = _; aomega
  | e :: es, env, env', st, vs, h => by
    simp only [evalAtoms] at h
    split at h
    · rename_i v env1 he
      split at h
      · rename_i vs1 env2 hes
        cases h
        have h1 := evalAtom_ac a he
        have h2 := evalAtoms_ac a es hes
        rw [acL_cons]; aomega
      · cases h
    · cases h

/-- How often `a` is returned by the allocations from `n` to `m`. -/
def allocs (A : Alloc) (a n m : Nat) : Nat := ((List.range' n (m - n)).map A.new).count a

theorem allocs_refl (A : Alloc) (a n : Nat) : allocs A a n n = 0 := by simp [allocs]
theorem allocs_trans (A : Alloc) (a : Nat) {n m k : Nat} (h : n ≤ m) (h' : m ≤ k) : allocs A a n m + allocs A a m k = allocs A a n k := by
  unfold allocs
  have e : k - n = (m - n) + (k - m) := by aomega
  rw [e, ← List.range'_append, List.map_append, List.count_append]
  have e2 : n + 1 * (m - n) = m := by aomega
  rw [e2]
theorem allocs_one (A : Alloc) (a n : Nat) : allocs A a n (n + 1) = one a (A.new n) := by
  simp [allocs, one]

theorem evalRv_ac (A : Alloc) (a : Nat) {e : Rv} {env env' : List V} {st st' : St} {v : V} (h : evalRv A e env st = some (v, env', st')) :
    ac a v + acL a env' = acL a env + allocs A a st.nalloc st'.nalloc ∧ (st' = st ∨ st' = st.bump) := by
  unfold evalRv at h
  split at h
  · split at h
    · rename_i he; cases h; rw [allocs_refl]; exact ⟨evalAtom_ac a he, .inl rfl⟩
    · cases h
  · split at h
    · rename_i he
      cases h
      have := evalAtoms_ac a _ he
      refine ⟨?_, .inr rfl⟩
      show _ = _ + allocs A a st.nalloc (st.nalloc + 1)
      rw [allocs_one, ac_obj]; aomega
    · cases h
  · split at h
    · rename_i he
      cases h
      have := evalAtoms_ac a _ he
      refine ⟨?_, .inr rfl⟩
      show _ = _ + allocs A a st.nalloc (st.nalloc + 1)
      rw [allocs_one, ac_vec]; aomega
    · cases h
  · split at h
    · rename_i he; cases h; rw [allocs_refl]; exact ⟨evalAtoms_ac a _ he, .inl rfl⟩
    · cases h

/-- Destructors account for every address. -/
theorem cat2_some {x y : Option (List Nat × List Nat)} {f l : List Nat} (h : cat2 x y = some (f, l)) :
    ∃ f1 l1 f2 l2, x = some (f1, l1) ∧ y = some (f2, l2) ∧ f = f1 ++ f2 ∧ l = l1 ++ l2 := by
  unfold cat2 at h
  split at h
  · cases h; exact ⟨_, _, _, _, rfl, rfl, rfl, rfl⟩
  · cases h

mutual
theorem treat_ac (a : Nat) : ∀ (h : How) (v : V) (f l : List Nat), treat h v = some (f, l) → f.count a + l.count a = ac a v
  | .keep, v, f, l, e => by simp only [treat] at e; cases e; show 0 + _ = _; aomega
  | .str, .null, f, l, e => by simp only [treat] at e; cases e; rfl
  | .str, .str _ _, f, l, e => by simp only [treat] at e; cases e; rfl
  | .del, .null, f, l, e => by simp only [treat] at e; cases e; rfl
  | .del, .obj b c fs, f, l, e => by
    simp only [treat] at e
    obtain ⟨f1, l1, f2, l2, e1, e2, rfl, rfl⟩ := cat2_some e
    cases e1
    have := treatFs_ac a (dtor c) fs f2 l2 e2
    rw [List.count_append, List.nil_append, ac_obj]; show one a b + _ + _ = _; aomega
  | .del, .vec b vs, f, l, e => by
    simp only [treat] at e; cases e; rw [ac_vec]; rfl
  | .vec _, .null, f, l, e => by simp only [treat] at e; cases e; rfl
  | .vec h, .vec b vs, f, l, e => by
    simp only [treat] at e
    obtain ⟨f1, l1, f2, l2, e1, e2, rfl, rfl⟩ := cat2_some e
    cases e1
    have := treatEl_ac a h vs f2 l2 e2
    rw [List.count_append, List.nil_append, ac_vec]; show one a b + _ + _ = _; aomega
  | .vecNN h, .vec b vs, f, l, e => by
    simp only [treat] at e
    obtain ⟨f1, l1, f2, l2, e1, e2, rfl, rfl⟩ := cat2_some e
    cases e1
    have := treatEl_ac a h vs f2 l2 e2
    rw [List.count_append, List.nil_append, ac_vec]; show one a b + _ + _ = _; aomega
  | .fields hs, .obj b c fs, f, l, e => by
    simp only [treat] at e
    obtain ⟨f1, l1, f2, l2, e1, e2, rfl, rfl⟩ := cat2_some e
    cases e1
    have := treatFs_ac a hs fs f2 l2 e2
    rw [List.count_append, List.nil_append, ac_obj]; show one a b + _ + _ = _; aomega
  | .tup hs, .tup fs, f, l, e => by
    simp only [treat] at e
    rw [ac_tup]
    exact treatFs_ac a hs fs f l e
  | .str, .undef, _, _, e => by simp [treat] at e
  | .str, .int _, _, _, e => by simp [treat] at e
  | .str, .pos _, _, _, e => by simp [treat] at e
  | .str, .idx _, _, _, e => by simp [treat] at e
  | .str, .raw _, _, _, e => by simp [treat] at e
  | .str, .vec _ _, _, _, e => by simp [treat] at e
  | .str, .obj _ _ _, _, _, e => by simp [treat] at e
  | .str, .tup _, _, _, e => by simp [treat] at e
  | .del, .undef, _, _, e => by simp [treat] at e
  | .del, .int _, _, _, e => by simp [treat] at e
  | .del, .pos _, _, _, e => by simp [treat] at e
  | .del, .idx _, _, _, e => by simp [treat] at e
  | .del, .raw _, _, _, e => by simp [treat] at e
  | .del, .str _ _, _, _, e => by simp [treat] at e
  | .del, .tup _, _, _, e => by simp [treat] at e
  | .vec _, .undef, _, _, e => by simp [treat] at e
  | .vec _, .int _, _, _, e => by simp [treat] at e
  | .vec _, .pos _, _, _, e => by simp [treat] at e
  | .vec _, .idx _, _, _, e => by simp [treat] at e
  | .vec _, .raw _, _, _, e => by simp [treat] at e
  | .vec _, .str _ _, _, _, e => by simp [treat] at e
  | .vec _, .obj _ _ _, _, _, e => by simp [treat] at e
  | .vec _, .tup _, _, _, e => by simp [treat] at e
  | .vecNN _, .null, _, _, e => by simp [treat] at e
  | .vecNN _, .undef, _, _, e => by simp [treat] at e
  | .vecNN _, .int _, _, _, e => by simp [treat] at e
  | .vecNN _, .pos _, _, _, e => by simp [treat] at e
  | .vecNN _, .idx _, _, _, e => by simp [treat] at e
  | .vecNN _, .raw _, _, _, e => by simp [treat] at e
  | .vecNN _, .str _ _, _, _, e => by simp [treat] at e
  | .vecNN _, .obj _ _ _, _, _, e => by simp [treat] at e
  | .vecNN _, .tup _, _, _, e => by simp [treat] at e
  | .fields _, .null, _, _, e => by simp [treat] at e
  | .fields _, .undef, _, _, e => by simp [treat] at e
  | .fields _, .int _, _, _, e => by simp [treat] at e
  | .fields _, .pos _, _, _, e => by simp [treat] at e
  | .fields _, .idx _, _, _, e => by simp [treat] at e
  | .fields _, .raw _, _, _, e => by simp [treat] at e
  | .fields _, .str _ _, _, _, e => by simp [treat] at e
  | .fields _, .vec _ _, _, _, e => by simp [treat] at e
  | .fields _, .tup _, _, _, e => by simp [treat] at e
  | .tup _, .null, _, _, e => by simp [treat] at e
  | .tup _, .undef, _, _, e => by simp [treat] at e
  | .tup _, .int _, _, _, e => by simp [treat] at e
  | .tup _, .pos _, _, _, e => by simp [treat] at e
  | .tup _, .idx _, _, _, e => by simp [treat] at e
  | .tup _, .raw _, _, _, e => by simp [treat] at e
  | .tup _, .str _ _, _, _, e => by simp [treat] at e
  | .tup _, .vec _ _, _, _, e => by simp [treat] at e
  | .tup _, .obj _ _ _, _, _, e => by simp [treat] at e
theorem treatFs_ac (a : Nat) : ∀ (hs : List How) (vs : List V) (f l : List Nat), treatFs hs vs = some (f, l) → f.count a + l.count a = acL a vs
  | [], [], f, l, e => by simp only [treatFs] at e; cases e; rfl
  | h :: hs, v :: vs, f, l, e => by
    simp only [treatFs] at e
    obtain ⟨f1, l1, f2, l2, e1, e2, rfl, rfl⟩ := cat2_some e
    have h1 := treat_ac a h v f1 l1 e1
    have h2 := treatFs_ac a hs vs f2 l2 e2
    rw [List.count_append, List.count_append, acL_cons]; aomega
  | [], _ :: _, _, _, e => by simp [treatFs] at e
  | _ :: _, [], _, _, e => by simp [treatFs] at e
theorem treatEl_ac (a : Nat) : ∀ (h : How) (vs : List V) (f l : List Nat), treatEl h vs = some (f, l) → f.count a + l.count a = acL a vs
  | _, [], f, l, e => by simp only [treatEl] at e; cases e; rfl
  | h, v :: vs, f, l, e => by
    simp only [treatEl] at e
    obtain ⟨f1, l1, f2, l2, e1, e2, rfl, rfl⟩ := cat2_some e
    have h1 := treat_ac a h v f1 l1 e1
    have h2 := treatEl_ac a h vs f2 l2 e2
    rw [List.count_append, List.count_append, acL_cons]; aomega
end

mutual
theorem setIval_addrs (b : Nat) (n : Int) : ∀ (v : V), (v.setIval b n).addrs = v.addrs
  | .obj x c fs => by
    simp only [V.setIval]
    split
    · simp only [V.addrs, newIval]
      congr 1
      split
      · rename_i w hw
        split
        · rename_i hn
          have : w.addrs = [] := by cases w <;> simp [V.isNum] at hn <;> rfl
          exact set_addrs fs 10 w (.int n) hw (by rw [this]; rfl)
        · rfl
      · rfl
    · simp only [V.addrs, setIvalL_addrs b n fs]
  | .vec x vs => by simp only [V.setIval, V.addrs, setIvalL_addrs b n vs]
  | .tup fs => by simp only [V.setIval, V.addrs, setIvalL_addrs b n fs]
  | .undef => rfl
  | .null => rfl
  | .int _ => rfl
  | .pos _ => rfl
  | .idx _ => rfl
  | .raw _ => rfl
  | .str _ _ => rfl
theorem setIvalL_addrs (b : Nat) (n : Int) : ∀ (vs : List V), addrsL (setIvalL b n vs) = addrsL vs
  | [] => rfl
  | v :: vs => by simp only [setIvalL, addrsL, setIval_addrs b n v, setIvalL_addrs b n vs]
theorem set_addrs : ∀ (vs : List V) (i : Nat) (w x : V), vs[i]? = some w → x.addrs = w.addrs → addrsL (vs.set i x) = addrsL vs
  | [], _, _, _, h, _ => by simp at h
  | v :: vs, 0, w, x, h, hx => by simp at h; subst h; simp [addrsL, hx]
  | v :: vs, i + 1, w, x, h, hx => by
    simp at h
    simp only [List.set_cons_succ, addrsL, set_addrs vs i w x h hx]
end

theorem addParameter_frame {r r' : Res} {a : Nat} (h : r.addParameter a = some r') : r'.stmts = r.stmts ∧ r'.isValid = r.isValid ∧ r'.errMsg = r.errMsg ∧ r'.errLine = r.errLine ∧ r'.errCol = r.errCol := by
  unfold Res.addParameter at h
  split at h
  · cases h; exact ⟨rfl, rfl, rfl, rfl, rfl⟩
  · cases h

theorem addParams_frame : ∀ (l : List Nat) (n : Nat) (r r' : Res), addParams l n r = some r' →
    addrsL r'.stmts = addrsL r.stmts ∧ r'.errMsg = r.errMsg ∧ r'.isValid = r.isValid ∧ r'.stmts.length = r.stmts.length
  | [], _, r, r', h => by simp only [addParams] at h; cases h; exact ⟨rfl, rfl, rfl, rfl⟩
  | a :: l, n, r, r', h => by
    simp only [addParams] at h
    split at h
    · cases h
    · split at h
      · split at h
        · rename_i r1 h1
          obtain ⟨e1, e2, e3, _⟩ := addParameter_frame h1
          obtain ⟨f1, f2, f3, f4⟩ := addParams_frame l (n + 1) r1 r' h
          have e1' : r1.stmts = setIvalL a n r.stmts := e1
          refine ⟨?_, by rw [f2, e3], by rw [f3, e2], ?_⟩
          · rw [f1, e1', setIvalL_addrs]
          · rw [f4, e1']
            generalize r.stmts = l
            induction l with
            | nil => rfl
            | cons x l ih => simp [setIvalL, ih]
        · cases h
      · cases h

/-- Everything a state accounts for. -/
def St.tot (a : Nat) (st : St) : Nat := st.freed.count a + st.leaked.count a + st.res.errAddr.count a + acL a st.res.stmts

theorem tot_log (a : Nat) (st : St) (f l : List Nat) : (st.log f l).tot a = st.tot a + f.count a + l.count a := by
  simp only [St.tot, St.log, List.count_append]; aomega
theorem tot_bump (a : Nat) (st : St) : st.bump.tot a = st.tot a := rfl
theorem tot_yyerror (A : Alloc) (a : Nat) (st : St) (m : Bytes) (l c : Int) : (st.yyerror A m l c).tot a = st.tot a + one a (A.new st.nalloc) := by
  simp only [St.tot, St.yyerror, List.count_append, Res.errAddr]
  cases st.res.errMsg <;> simp <;> aomega

theorem partition_ac (a : Nat) (vs : List V) : acL a (vs.filter isColumnDef) + acL a (vs.filter isConstraint) + acL a (vs.filter fun v => !isColumnDef v && !isConstraint v) = acL a vs := by
  induction vs with
  | nil => rfl
  | cons v vs ih =>
    have hd : ¬ (isColumnDef v = true ∧ isConstraint v = true) := by
      rintro ⟨h1, h2⟩
      cases v <;> simp [isColumnDef] at h1
      rename_i x c fs
      cases c <;> simp [isColumnDef] at h1 <;> simp [isConstraint] at h2
    cases h1 : isColumnDef v <;> cases h2 : isConstraint v
    · simp only [List.filter_cons, h1, h2]
      simp only [Bool.false_eq_true, if_false, Bool.not_false, Bool.and_self, if_true, acL_cons]; aomega
    · simp only [List.filter_cons, h1, h2]
      simp only [Bool.false_eq_true, if_false, Bool.not_false, Bool.not_true, Bool.and_false, if_true, acL_cons]; aomega
    · simp only [List.filter_cons, h1, h2]
      simp only [Bool.false_eq_true, if_false, Bool.not_false, Bool.not_true, Bool.false_and, if_true, acL_cons]; aomega
    · exact absurd ⟨h1, h2⟩ hd

/-- What is left after an action. -/
def Out.tot (a : Nat) : Out → Nat
  | .ok v st => ac a v + st.tot a
  | .error st => st.tot a
  | .ub => 0
def Out.nalloc : Out → Nat
  | .ok _ st => st.nalloc
  | .error st => st.nalloc
  | .ub => 0
def Out.isUb : Out → Bool
  | .ub => true
  | _ => false

/-- Every address is accounted for by an action. -/
theorem run_ac (A : Alloc) (loc : Loc) (a : Nat) : ∀ (k : Prog) (env : List V) (st : St), (run A loc k env st).isUb = false →
    st.nalloc ≤ (run A loc k env st).nalloc ∧ (run A loc k env st).tot a = acL a env + st.tot a + allocs A a st.nalloc (run A loc k env st).nalloc
  | .ret, env, st, h => by
    cases env with
    | nil => simp [run, Out.isUb] at h
    | cons v rest =>
      refine ⟨Nat.le_refl _, ?_⟩
      simp only [run, Out.tot, Out.nalloc, tot_log, acL_cons]
      rw [show (st.log [] (addrsL rest)).nalloc = st.nalloc from rfl, allocs_refl]; simp; aomega
  | .fail, env, st, h => by
    refine ⟨Nat.le_refl _, ?_⟩
    simp only [run, Out.tot, Out.nalloc, tot_log]
    rw [show (st.log [] (addrsL env)).nalloc = st.nalloc from rfl, allocs_refl]; simp; aomega
  | .set p e k, env, st, h => by
    unfold run at h ⊢
    cases h1 : evalRv A e env st with
    | none => rw [h1] at h; simp [Out.isUb] at h
    | some x =>
      obtain ⟨v, env', st'⟩ := x
      rw [h1] at h
      simp only at h ⊢
      cases h2 : getP env' p with
      | none => rw [h2] at h; simp [Out.isUb] at h
      | some old =>
        rw [h2] at h
        simp only at h ⊢
        cases h3 : putP env' p v with
        | none => rw [h3] at h; simp [Out.isUb] at h
        | some env'' =>
          rw [h3] at h
          simp only at h ⊢
          obtain ⟨i1, i2⟩ := run_ac A loc a k env'' (st'.log [] old.addrs) h
          obtain ⟨j1, j2⟩ := evalRv_ac A a h1
          have j3 := putP_ac a h2 h3
          rw [i2, tot_log]
          have hn : (st'.log [] old.addrs).nalloc = st'.nalloc := rfl
          rw [hn] at i1 ⊢
          have hle : st.nalloc ≤ st'.nalloc := by
            rcases j2 with rfl | rfl
            · exact Nat.le_refl _
            · exact Nat.le_succ _
          have ht : st'.tot a = st.tot a := by rcases j2 with rfl | rfl <;> rfl
          refine ⟨Nat.le_trans hle i1, ?_⟩
          have := allocs_trans A a hle i1
          simp only [List.count_nil]
          aomega
  | .push p e k, env, st, h => by
    unfold run at h ⊢
    cases h1 : evalAtom e env st with
    | none => rw [h1] at h; simp [Out.isUb] at h
    | some x =>
      obtain ⟨v, env'⟩ := x
      rw [h1] at h
      simp only at h ⊢
      split at h
      · rename_i b vs h2
        cases h3 : putP env' p (.vec b (vs ++ [v])) with
        | none => rw [h3] at h; simp [Out.isUb] at h
        | some env'' =>
          rw [h3] at h
          simp only at h ⊢
          obtain ⟨i1, i2⟩ := run_ac A loc a k env'' st h
          have j1 := evalAtom_ac a h1
          have j3 := putP_ac a h2 h3
          rw [ac_vec, ac_vec, acL_append, acL_cons] at j3
          rw [i2]
          exact ⟨i1, by aomega⟩
      · simp [Out.isUb] at h
  | .insert p e k, env, st, h => by
    unfold run at h ⊢
    split at h
    · rename_i n env' h1
      split at h
      · rename_i b vs h2
        cases h3 : putP env' p (.vec b (if hasInt n vs then vs else vs ++ [.int n])) with
        | none => rw [h3] at h; simp [Out.isUb] at h
        | some env'' =>
          rw [h3] at h
          simp only at h ⊢
          obtain ⟨i1, i2⟩ := run_ac A loc a k env'' st h
          have j1 := evalAtom_ac a h1
          have j3 := putP_ac a h2 h3
          rw [ac_vec, ac_vec] at j3
          have j4 : acL a (if hasInt n vs then vs else vs ++ [.int n]) = acL a vs := by
            split
            · rfl
            · rw [acL_append, acL_cons, ac_int]; rfl
          rw [j4] at j3
          rw [ac_int] at j1
          rw [i2]
          exact ⟨i1, by aomega⟩
      · simp [Out.isUb] at h
    · simp [Out.isUb] at h
  | .del p k, env, st, h => by
    unfold run at h ⊢
    cases h1 : getP env p with
    | none => rw [h1] at h; simp [Out.isUb] at h
    | some v =>
      rw [h1] at h
      simp only at h ⊢
      cases h2 : treat .del v with
      | none => rw [h2] at h; simp [Out.isUb] at h
      | some x =>
        obtain ⟨f, l⟩ := x
        rw [h2] at h
        simp only at h ⊢
        cases h3 : putP env p .undef with
        | none => rw [h3] at h; simp [Out.isUb] at h
        | some env' =>
          rw [h3] at h
          simp only at h ⊢
          obtain ⟨i1, i2⟩ := run_ac A loc a k env' (st.log f l) h
          have j3 := putP_ac a h1 h3
          have j4 := treat_ac a _ _ _ _ h2
          rw [ac_undef] at j3
          rw [i2, tot_log]
          refine ⟨i1, ?_⟩
          rw [show (st.log f l).nalloc = st.nalloc from rfl]
          aomega
  | .free p k, env, st, h => by
    unfold run at h ⊢
    cases h1 : getP env p with
    | none => rw [h1] at h; simp [Out.isUb] at h
    | some v =>
      rw [h1] at h
      simp only at h ⊢
      cases h2 : treat .str v with
      | none => rw [h2] at h; simp [Out.isUb] at h
      | some x =>
        obtain ⟨f, l⟩ := x
        rw [h2] at h
        simp only at h ⊢
        cases h3 : putP env p .undef with
        | none => rw [h3] at h; simp [Out.isUb] at h
        | some env' =>
          rw [h3] at h
          simp only at h ⊢
          obtain ⟨i1, i2⟩ := run_ac A loc a k env' (st.log f l) h
          have j3 := putP_ac a h1 h3
          have j4 := treat_ac a _ _ _ _ h2
          rw [ac_undef] at j3
          rw [i2, tot_log]
          refine ⟨i1, ?_⟩
          rw [show (st.log f l).nalloc = st.nalloc from rfl]
          aomega
  | .ite c t e, env, st, h => by
    unfold run at h ⊢
    cases h1 : evalCond c env st with
    | none => rw [h1] at h; simp [Out.isUb] at h
    | some b =>
      rw [h1] at h
      cases b with
      | true => exact run_ac A loc a t env st h
      | false => exact run_ac A loc a e env st h
  | .err m k, env, st, h => by
    unfold run at h ⊢
    obtain ⟨i1, i2⟩ := run_ac A loc a k env (st.yyerror A m loc.fl loc.fc) h
    have hn : (st.yyerror A m loc.fl loc.fc).nalloc = st.nalloc + 1 := rfl
    rw [hn] at i1
    have := allocs_trans A a (Nat.le_succ st.nalloc) i1
    have h2 := allocs_one A a st.nalloc
    rw [i2, tot_yyerror, hn]
    exact ⟨by aomega, by aomega⟩
  | .errName m p k, env, st, h => by
    unfold run at h ⊢
    cases h1 : strAt env p with
    | none => rw [h1] at h; simp [Out.isUb] at h
    | some b =>
      rw [h1] at h
      simp only at h ⊢
      obtain ⟨i1, i2⟩ := run_ac A loc a k env (st.yyerror A (m ++ b) loc.fl loc.fc) h
      have hn : (st.yyerror A (m ++ b) loc.fl loc.fc).nalloc = st.nalloc + 1 := rfl
      rw [hn] at i1
      have := allocs_trans A a (Nat.le_succ st.nalloc) i1
      have h2 := allocs_one A a st.nalloc
      rw [i2, tot_yyerror, hn]
      exact ⟨by aomega, by aomega⟩
  | .zeroLen k, env, st, h => by
    unfold run at h ⊢
    exact run_ac A loc a k env _ h
  | .regParam p k, env, st, h => by
    unfold run at h ⊢
    cases h1 : getP env p with
    | none => rw [h1] at h; simp [Out.isUb] at h
    | some v =>
      rw [h1] at h
      simp only at h ⊢
      cases h2 : v.addr? with
      | none => rw [h2] at h; simp [Out.isUb] at h
      | some x =>
        rw [h2] at h
        simp only at h ⊢
        exact run_ac A loc a k env { st with plist := st.plist ++ [x] } h
  | .split p q k, env, st, h => by
    unfold run at h ⊢
    split at h
    · rename_i b vs h1
      cases h2 : putP env q (.vec b []) with
      | none => rw [h2] at h; simp [Out.isUb] at h
      | some env1 =>
        rw [h2] at h
        simp only at h ⊢
        cases h3 : getP env1 ⟨p.var, p.sels ++ [.fld 10]⟩ with
        | none => rw [h3] at h; simp [Out.isUb] at h
        | some o1 =>
          rw [h3] at h
          cases h4 : getP env1 ⟨p.var, p.sels ++ [.fld 11]⟩ with
          | none => rw [h4] at h; simp [Out.isUb] at h
          | some o2 =>
            rw [h4] at h
            simp only at h ⊢
            cases h5 : putP env1 ⟨p.var, p.sels ++ [.fld 10]⟩ (.vec (A.new st.nalloc) (vs.filter isColumnDef)) with
            | none => rw [h5] at h; simp [Out.isUb] at h
            | some env2 =>
              rw [h5] at h
              simp only at h ⊢
              cases h6 : putP env2 ⟨p.var, p.sels ++ [.fld 11]⟩ (.vec (A.new (st.nalloc + 1)) (vs.filter isConstraint)) with
              | none => rw [h6] at h; simp [Out.isUb] at h
              | some env3 =>
                rw [h6] at h
                simp only at h ⊢
                obtain ⟨i1, i2⟩ := run_ac A loc a k env3 _ h
                have j1 := putP_ac a h1 h2
                have j2 := putP_ac a h3 h5
                have h4' : getP env2 ⟨p.var, p.sels ++ [.fld 11]⟩ = some o2 := by
                  exact get_other h4 h3 h5
                have j3 := putP_ac a h4' h6
                have j4 := partition_ac a vs
                rw [ac_vec] at j1 j2 j3
                rw [ac_vec] at j1
                have hn : (st.bump.bump.log [] (o1.addrs ++ o2.addrs ++ addrsL (vs.filter fun v => !isColumnDef v && !isConstraint v))).nalloc = st.nalloc + 1 + 1 := rfl
                rw [hn] at i1
                have k1 := allocs_trans A a (Nat.le_succ st.nalloc) (Nat.le_trans (Nat.le_succ _) i1)
                have k2 := allocs_trans A a (Nat.le_succ (st.nalloc + 1)) i1
                have k3 := allocs_one A a st.nalloc
                have k4 := allocs_one A a (st.nalloc + 1)
                rw [i2, tot_log, hn]
                refine ⟨by aomega, ?_⟩
                rw [tot_bump, tot_bump]
                simp only [List.count_append, List.count_nil]
                simp only [Nat.succ_eq_add_one] at k1 k2
                aomega
    · simp [Out.isUb] at h
  | .finish, env, st, h => by
    unfold run at h ⊢
    split at h
    · rename_i b vs h1
      cases h2 : putP env ⟨1, []⟩ .undef with
      | none => rw [h2] at h; simp [Out.isUb] at h
      | some env' =>
        rw [h2] at h
        simp only at h ⊢
        cases h3 : addParams st.plist 0 { st.res with stmts := st.res.stmts ++ vs } with
        | none => rw [h3] at h; simp [Out.isUb] at h
        | some r =>
          rw [h3] at h
          simp only at h ⊢
          refine ⟨Nat.le_refl _, ?_⟩
          obtain ⟨e1, e2, _⟩ := addParams_frame _ _ _ _ h3
          have j1 := putP_ac a h1 h2
          rw [ac_vec, ac_undef] at j1
          simp only [Out.tot, Out.nalloc, allocs_refl, St.tot, List.count_append, ac_undef]
          have e3 : r.errAddr = st.res.errAddr := by simp only [Res.errAddr, e2]
          have e4 : acL a r.stmts = acL a st.res.stmts + acL a vs := by
            show (addrsL r.stmts).count a = _
            rw [e1]; exact acL_append a _ _
          rw [e3, e4]
          show _ = _
          have : one a b = List.count a [b] := rfl
          aomega
    · simp [Out.isUb] at h
where
  get_other {env1 env2 : List V} {p : Path} {o1 o2 x : V} (h4 : getP env1 ⟨p.var, p.sels ++ [.fld 11]⟩ = some o2)
      (h3 : getP env1 ⟨p.var, p.sels ++ [.fld 10]⟩ = some o1) (h5 : putP env1 ⟨p.var, p.sels ++ [.fld 10]⟩ x = some env2) :
      getP env2 ⟨p.var, p.sels ++ [.fld 11]⟩ = some o2 := by
    unfold getP at h4 h3
    unfold putP at h5
    simp only at h3 h4 h5
    cases hv : env1[p.var]? with
    | none => rw [hv] at h3; cases h3
    | some v =>
      rw [hv] at h3 h4 h5
      simp only at h3 h4 h5
      cases hv' : v.put (p.sels ++ [.fld 10]) x with
      | none => rw [hv'] at h5; cases h5
      | some v' =>
        rw [hv'] at h5
        cases h5
        have hlt : p.var < env1.length := by
          rcases Nat.lt_or_ge p.var env1.length with h | h
          · exact h
          · rw [List.getElem?_eq_none h] at hv; cases hv
        unfold getP
        simp only [List.getElem?_set_self hlt]
        exact get_put_other p.sels v v' o1 o2 x h4 h3 hv'
  get_put_other : ∀ (ss : List Sel) (v v' o1 o2 x : V), v.get (ss ++ [.fld 11]) = some o2 → v.get (ss ++ [.fld 10]) = some o1 →
      v.put (ss ++ [.fld 10]) x = some v' → v'.get (ss ++ [.fld 11]) = some o2
    | [], v, v', o1, o2, x, h1, h2, h3 => by
      cases v <;> simp [V.get] at h1
      · rename_i b c fs
        simp only [List.nil_append, V.put] at h3
        split at h3
        · cases h3
          simp only [List.nil_append, V.get]
          rw [List.getElem?_set_ne (by decide)]
          exact h1
        · cases h3
      · rename_i fs
        simp only [List.nil_append, V.put] at h3
        split at h3
        · cases h3
          simp only [List.nil_append, V.get]
          rw [List.getElem?_set_ne (by decide)]
          exact h1
        · cases h3
    | .fld i :: ss, v, v', o1, o2, x, h1, h2, h3 => by
      cases v <;> simp [V.get] at h1
      · rename_i b c fs
        simp only [List.cons_append, V.put, V.get] at h2 h3
        cases hf : fs[i]? with
        | none => rw [hf] at h2; cases h2
        | some w =>
          rw [hf] at h1 h2 h3
          simp only at h1 h2 h3
          cases hw : w.put (ss ++ [.fld 10]) x with
          | none => rw [hw] at h3; cases h3
          | some w' =>
            rw [hw] at h3
            cases h3
            have hlt : i < fs.length := by
              rcases Nat.lt_or_ge i fs.length with h | h
              · exact h
              · rw [List.getElem?_eq_none h] at hf; cases hf
            simp only [List.cons_append, V.get, List.getElem?_set_self hlt]
            exact get_put_other ss w w' o1 o2 x h1 h2 hw
      · rename_i fs
        simp only [List.cons_append, V.put, V.get] at h2 h3
        cases hf : fs[i]? with
        | none => rw [hf] at h2; cases h2
        | some w =>
          rw [hf] at h1 h2 h3
          simp only at h1 h2 h3
          cases hw : w.put (ss ++ [.fld 10]) x with
          | none => rw [hw] at h3; cases h3
          | some w' =>
            rw [hw] at h3
            cases h3
            have hlt : i < fs.length := by
              rcases Nat.lt_or_ge i fs.length with h | h
              · exact h
              · rw [List.getElem?_eq_none h] at hf; cases hf
            simp only [List.cons_append, V.get, List.getElem?_set_self hlt]
            exact get_put_other ss w w' o1 o2 x h1 h2 hw
    | .back :: ss, v, v', o1, o2, x, h1, h2, h3 => by
      cases v <;> simp [V.get] at h1
      rename_i b fs
      simp only [List.cons_append, V.put, V.get] at h2 h3
      cases hf : fs.getLast? with
      | none => rw [hf] at h2; cases h2
      | some w =>
        rw [hf] at h1 h2 h3
        simp only at h1 h2 h3
        cases hw : w.put (ss ++ [.fld 10]) x with
        | none => rw [hw] at h3; cases h3
        | some w' =>
          rw [hw] at h3
          cases h3
          simp only [List.cons_append, V.get, List.getLast?_append, List.getLast?_singleton, Option.some_or]
          exact get_put_other ss w w' o1 o2 x h1 h2 hw

end Verif.Sem

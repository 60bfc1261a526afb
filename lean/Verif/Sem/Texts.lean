import Verif.Sem.Denote
/-! The texts in a value: no action makes one up or doubles one. Proof-internal. -/
namespace Verif.Sem
open Verif.LR Verif.Lex

mutual
/-- The strings in a value. -/
def V.texts : V → List Bytes
  | .str _ b => [b]
  | .obj _ _ fs => textsL fs
  | .vec _ vs => textsL vs
  | .tup fs => textsL fs
  | _ => []
def textsL : List V → List Bytes
  | [] => []
  | v :: vs => v.texts ++ textsL vs
end

/-- How often `a` occurs. -/
def tc (a : Bytes) (v : V) : Nat := v.texts.count a
def tcL (a : Bytes) (vs : List V) : Nat := (textsL vs).count a

theorem textsL_append (u v : List V) : textsL (u ++ v) = textsL u ++ textsL v := by
  induction u with
  | nil => rfl
  | cons x u ih => simp [textsL, ih]
theorem tcL_nil (a : Bytes) : tcL a [] = 0 := rfl
theorem tcL_cons (a : Bytes) (v : V) (vs : List V) : tcL a (v :: vs) = tc a v + tcL a vs := by simp [tcL, tc, textsL]
theorem tcL_append (a : Bytes) (u v : List V) : tcL a (u ++ v) = tcL a u + tcL a v := by simp [tcL, textsL_append]
theorem tc_obj (a : Bytes) (b : Nat) (c : Cls) (fs : List V) : tc a (.obj b c fs) = tcL a fs := rfl
theorem tc_vec (a : Bytes) (b : Nat) (fs : List V) : tc a (.vec b fs) = tcL a fs := rfl
theorem tc_tup (a : Bytes) (fs : List V) : tc a (.tup fs) = tcL a fs := rfl
theorem tc_undef (a : Bytes) : tc a .undef = 0 := rfl
theorem tc_int (a : Bytes) (n : Int) : tc a (.int n) = 0 := rfl
theorem tcL_set (a : Bytes) : ∀ (vs : List V) (i : Nat) (w x : V), vs[i]? = some w → tcL a (vs.set i x) + tc a w = tcL a vs + tc a x
  | [], i, w, x, h => by simp at h
  | v :: vs, 0, w, x, h => by
    simp at h; subst h
    simp only [List.set_cons_zero, tcL_cons]; omega
  | v :: vs, i + 1, w, x, h => by
    simp at h
    have := tcL_set a vs i w x h
    simp only [List.set_cons_succ, tcL_cons]; omega
theorem tcL_last (a : Bytes) {vs : List V} {w : V} (h : vs.getLast? = some w) (x : V) : tcL a (vs.dropLast ++ [x]) + tc a w = tcL a vs + tc a x := by
  rcases List.eq_nil_or_concat vs with rfl | ⟨l, y, rfl⟩
  · simp at h
  · rw [List.concat_eq_append] at h ⊢
    simp at h; subst h
    simp only [List.dropLast_concat, tcL_append, tcL_cons]; omega
theorem tcL_filter2 (a : Bytes) {p q : V → Bool} (hd : ∀ v, p v = true → q v = false) : ∀ vs : List V, tcL a (vs.filter p) + tcL a (vs.filter q) ≤ tcL a vs
  | [] => by simp [tcL_nil]
  | v :: vs => by
    have := tcL_filter2 a hd vs
    rw [List.filter_cons, List.filter_cons, tcL_cons]
    cases hp : p v
    · cases hq : q v <;> simp only [Bool.false_eq_true, if_true, if_false, tcL_cons] <;> omega
    · rw [hd v hp]; simp only [Bool.false_eq_true, if_true, if_false, tcL_cons]; omega

theorem put_tc (a : Bytes) : ∀ (p : List Sel) (v w x v' : V), v.get p = some w → v.put p x = some v' → tc a v' + tc a w = tc a v + tc a x
  | [], v, w, x, v', h, h' => by
    simp only [V.get, V.put] at h h'; cases h; cases h'; omega
  | .fld i :: p, .obj b c fs, w, x, v', h, h' => by
    simp only [V.get, V.put] at h h'
    split at h
    · rename_i y hy
      rw [hy] at h'
      simp only at h'
      split at h'
      · rename_i y' hy'
        cases h'
        have h1 := put_tc a p y w x y' h hy'
        have h2 := tcL_set a fs i y y' hy
        rw [tc_obj, tc_obj]; omega
      · cases h'
    · cases h
  | .fld i :: p, .tup fs, w, x, v', h, h' => by
    simp only [V.get, V.put] at h h'
    split at h
    · rename_i y hy
      rw [hy] at h'
      simp only at h'
      split at h'
      · rename_i y' hy'
        cases h'
        have h1 := put_tc a p y w x y' h hy'
        have h2 := tcL_set a fs i y y' hy
        rw [tc_tup, tc_tup]; omega
      · cases h'
    · cases h
  | .back :: p, .vec b fs, w, x, v', h, h' => by
    simp only [V.get, V.put] at h h'
    split at h
    · rename_i y hy
      rw [hy] at h'
      simp only at h'
      split at h'
      · rename_i y' hy'
        cases h'
        have h1 := put_tc a p y w x y' h hy'
        have h2 := tcL_last a hy y'
        rw [tc_vec, tc_vec]; omega
      · cases h'
    · cases h
  | .fld _ :: _, .undef, _, _, _, h, _ => by simp [V.get] at h
  | .fld _ :: _, .null, _, _, _, h, _ => by simp [V.get] at h
  | .fld _ :: _, .int _, _, _, _, h, _ => by simp [V.get] at h
  | .fld _ :: _, .pos _, _, _, _, h, _ => by simp [V.get] at h
  | .fld _ :: _, .idx _, _, _, _, h, _ => by simp [V.get] at h
  | .fld _ :: _, .raw _, _, _, _, h, _ => by simp [V.get] at h
  | .fld _ :: _, .str _ _, _, _, _, h, _ => by simp [V.get] at h
  | .fld _ :: _, .vec _ _, _, _, _, h, _ => by simp [V.get] at h
  | .back :: _, .undef, _, _, _, h, _ => by simp [V.get] at h
  | .back :: _, .null, _, _, _, h, _ => by simp [V.get] at h
  | .back :: _, .int _, _, _, _, h, _ => by simp [V.get] at h
  | .back :: _, .pos _, _, _, _, h, _ => by simp [V.get] at h
  | .back :: _, .idx _, _, _, _, h, _ => by simp [V.get] at h
  | .back :: _, .raw _, _, _, _, h, _ => by simp [V.get] at h
  | .back :: _, .str _ _, _, _, _, h, _ => by simp [V.get] at h
  | .back :: _, .obj _ _ _, _, _, _, h, _ => by simp [V.get] at h
  | .back :: _, .tup _, _, _, _, h, _ => by simp [V.get] at h

theorem putP_tc (a : Bytes) {env env' : List V} {p : Path} {w x : V} (h : getP env p = some w) (h' : putP env p x = some env') :
    tcL a env' + tc a w = tcL a env + tc a x := by
  unfold getP at h
  unfold putP at h'
  split at h
  · rename_i v hv
    rw [hv] at h'
    simp only at h'
    split at h'
    · rename_i v' hv'
      cases h'
      have h1 := put_tc a _ _ _ _ _ h hv'
      have h2 := tcL_set a env p.var v v' hv
      omega
    · cases h'
  · cases h

theorem evalAtom_tc (a : Bytes) {e : Atom} {env env' : List V} {st : St} {v : V} (h : evalAtom e env st = some (v, env')) : tc a v + tcL a env' = tcL a env := by
  unfold evalAtom at h
  split at h
  case h_8 => -- cp
    split at h <;> first | (cases h; rw [tc_int]; omega) | (cases h; show 0 + _ = _; omega) | cases h
  case h_9 => -- mv
    split at h
    · rename_i w hw
      split at h
      · cases h
      · split at h
        · rename_i env2 hp
          cases h
          have := putP_tc a hw hp
          rw [tc_undef] at this; omega
        · cases h
    · cases h
  case h_10 =>
    split at h
    · split at h
      · cases h; rw [tc_int]; omega
      · cases h
    · cases h
  case h_11 =>
    split at h
    · split at h
      · cases h; show 0 + _ = _; omega
      · cases h
    · cases h
  all_goals (cases h; show 0 + _ = _; omega)

theorem evalAtoms_tc (a : Bytes) : ∀ (es : List Atom) {env env' : List V} {st : St} {vs : List V}, evalAtoms es env st = some (vs, env') → tcL a vs + tcL a env' = tcL a env
  | [], env, env', st, vs, h => by simp only [evalAtoms] at h; cases h; show 0 + _ = _; omega
  | e :: es, env, env', st, vs, h => by
    simp only [evalAtoms] at h
    split at h
    · rename_i v env1 he
      split at h
      · rename_i vs1 env2 hes
        cases h
        have h1 := evalAtom_tc a he
        have h2 := evalAtoms_tc a es hes
        rw [tcL_cons]; omega
      · cases h
    · cases h

theorem put_get : ∀ (p : List Sel) (v x v' : V), v.put p x = some v' → ∃ w, v.get p = some w
  | [], v, x, v', _ => ⟨v, by simp [V.get]⟩
  | s :: p, v, x, v', h => by
    cases s <;> cases v <;> simp only [V.put] at h <;> first | (cases h; done) | skip
    all_goals
      split at h
      · rename_i w hw
        split at h
        · rename_i w' hw'
          obtain ⟨y, hy⟩ := put_get p w x w' hw'
          exact ⟨y, by simp only [V.get, hw]; exact hy⟩
        · cases h
      · cases h
theorem getP_of_putP {env env' : List V} {p : Path} {x : V} (h : putP env p x = some env') : ∃ w, getP env p = some w := by
  unfold putP at h
  split at h
  · rename_i v hv
    split at h
    · rename_i v' hv'
      obtain ⟨w, hw⟩ := put_get _ _ _ _ hv'
      exact ⟨w, by unfold getP; rw [hv]; exact hw⟩
    · cases h
  · cases h

theorem evalRv_tc (A : Alloc) (a : Bytes) {e : Rv} {env env' : List V} {st st' : St} {v : V} (h : evalRv A e env st = some (v, env', st')) :
    tc a v + tcL a env' = tcL a env := by
  unfold evalRv at h
  split at h
  · split at h
    · rename_i he; cases h; exact evalAtom_tc a he
    · cases h
  · split at h
    · rename_i he; cases h; rw [tc_obj]; exact evalAtoms_tc a _ he
    · cases h
  · split at h
    · rename_i he; cases h; rw [tc_vec]; exact evalAtoms_tc a _ he
    · cases h
  · split at h
    · rename_i he; cases h; rw [tc_tup]; exact evalAtoms_tc a _ he
    · cases h

theorem run_tc (A : Alloc) (a : Bytes) (loc : Loc) : ∀ (k : Prog) (env : List V) (st st' : St) (v : V), run A loc k env st = .ok v st' → tc a v ≤ tcL a env
  | .ret, env, st, st', v, h => by
    simp only [run] at h
    split at h
    · cases h
    · cases h; rw [tcL_cons]; omega
  | .fail, env, st, st', v, h => by simp [run] at h
  | .set p e k, env, st, st', v, h => by
    simp only [run] at h
    split at h
    · rename_i w env1 st1 he
      split at h
      · rename_i old ho
        split at h
        · rename_i env2 hp
          have h1 := evalRv_tc A a he
          have h2 := putP_tc a ho hp
          have h3 := run_tc A a loc k _ _ _ _ h
          omega
        · cases h
      · cases h
    · cases h
  | .push p e k, env, st, st', v, h => by
    simp only [run] at h
    split at h
    · rename_i w env1 he
      split at h
      · rename_i b vs ho
        split at h
        · rename_i env2 hp
          have h1 := evalAtom_tc a he
          have h2 := putP_tc a ho hp
          have h3 := run_tc A a loc k _ _ _ _ h
          rw [tc_vec, tc_vec, tcL_append, tcL_cons, tcL_nil] at h2
          omega
        · cases h
      · cases h
    · cases h
  | .insert p e k, env, st, st', v, h => by
    simp only [run] at h
    split at h
    · rename_i n env1 he
      split at h
      · rename_i b vs ho
        split at h
        · rename_i env2 hp
          have h1 := evalAtom_tc a he
          have h2 := putP_tc a ho hp
          have h3 := run_tc A a loc k _ _ _ _ h
          rw [tc_vec, tc_vec] at h2
          have h4 : tcL a (if hasInt n vs then vs else vs ++ [.int n]) = tcL a vs := by
            split
            · rfl
            · rw [tcL_append, tcL_cons, tcL_nil, tc_int]; omega
          rw [h4] at h2
          omega
        · cases h
      · cases h
    · cases h
  | .del p k, env, st, st', v, h => by
    simp only [run] at h
    split at h
    · rename_i w ho
      split at h
      · split at h
        · rename_i env2 hp
          have h2 := putP_tc a ho hp
          have h3 := run_tc A a loc k _ _ _ _ h
          rw [tc_undef] at h2
          omega
        · cases h
      · cases h
    · cases h
  | .free p k, env, st, st', v, h => by
    simp only [run] at h
    split at h
    · rename_i w ho
      split at h
      · split at h
        · rename_i env2 hp
          have h2 := putP_tc a ho hp
          have h3 := run_tc A a loc k _ _ _ _ h
          rw [tc_undef] at h2
          omega
        · cases h
      · cases h
    · cases h
  | .ite c t e, env, st, st', v, h => by
    simp only [run] at h
    split at h
    · exact run_tc A a loc t _ _ _ _ h
    · exact run_tc A a loc e _ _ _ _ h
    · cases h
  | .err msg k, env, st, st', v, h => by
    simp only [run] at h
    exact run_tc A a loc k _ _ _ _ h
  | .errName msg p k, env, st, st', v, h => by
    simp only [run] at h
    split at h
    · exact run_tc A a loc k _ _ _ _ h
    · cases h
  | .zeroLen k, env, st, st', v, h => by
    simp only [run] at h
    exact run_tc A a loc k _ _ _ _ h
  | .regParam p k, env, st, st', v, h => by
    simp only [run] at h
    split at h
    · split at h
      · exact run_tc A a loc k _ _ _ _ h
      · cases h
    · cases h
  | .split p q k, env, st, st', v, h => by
    simp only [run] at h
    split at h
    · rename_i b vs hq
      split at h
      · rename_i env1 h1
        split at h
        · rename_i o1 o2 ho1 ho2
          split at h
          · rename_i env2 h2
            split at h
            · rename_i env3 h3
              have e1 := putP_tc a hq h1
              have e2 := putP_tc a ho1 h2
              have h4 := run_tc A a loc k _ _ _ _ h
              obtain ⟨w, hw⟩ : ∃ w, getP env2 ⟨p.var, p.sels ++ [.fld 11]⟩ = some w := getP_of_putP h3
              have e3 := putP_tc a hw h3
              have e4 := tcL_filter2 a (p := isColumnDef) (q := isConstraint) (fun v hv => by
                unfold isColumnDef at hv
                split at hv
                · rfl
                · cases hv) vs
              rw [tc_vec, tc_vec, tcL_nil] at e1
              rw [tc_vec] at e2 e3
              omega
            · cases h
          · cases h
        · cases h
      · cases h
    · cases h
  | .finish, env, st, st', v, h => by
    simp only [run] at h
    split at h
    · split at h
      · split at h
        · cases h; rw [tc_undef]; omega
        · cases h
      · cases h
    · cases h

theorem mkEnv_tc (a : Bytes) (vs : List V) : tcL a (mkEnv vs) = tcL a vs := by
  unfold mkEnv
  have : ∀ n, tcL a (List.replicate n .undef) = 0 := fun n => by
    induction n with
    | zero => rfl
    | succ n ih => rw [List.replicate_succ, tcL_cons, ih, tc_undef]
  rw [List.cons_append, tcL_cons, tcL_append, this, tc_undef]; omega

theorem evRule_tc (a : Bytes) {r : Nat} {vs : List V} {s s' : PS} {v : V} (h : evRule r vs s = some (v, s')) : tc a v ≤ tcL a vs := by
  unfold evRule at h
  split at h
  · cases h; rw [tc_undef]; omega
  · split at h
    · cases h
    · split at h
      · rename_i hr
        cases h
        have := run_tc Z a _ _ _ _ _ _ hr
        rwa [mkEnv_tc] at this
      · cases h

/-- The string a token carries. -/
def svals (ts : List Tok) : List Bytes := ts.filterMap fun t => match t.val with
  | .sval b => some b
  | _ => none

mutual
theorem den_tc (a : Bytes) : ∀ (t : Tree) {s s' : PS} {v : V}, den t s = some (v, s') → tc a v ≤ (svals t.yield).count a
  | .leaf t, s, s', v, h => by
    simp only [den] at h
    cases h
    cases hv : t.val <;> simp [tokValue, tc, V.texts, Tree.yield, svals, hv]
  | .node r cs, s, s', v, h => by
    simp only [den] at h
    split at h
    · rename_i vs s1 hc
      have h1 := denL_tc a cs hc
      have h2 := evRule_tc a h
      simp only [Tree.yield]
      omega
    · cases h
theorem denL_tc (a : Bytes) : ∀ (cs : List Tree) {s s' : PS} {vs : List V}, denL cs s = some (vs, s') → tcL a vs ≤ (svals (yieldL cs)).count a
  | [], s, s', vs, h => by simp only [denL] at h; cases h; rw [tcL_nil]; omega
  | c :: cs, s, s', vs, h => by
    simp only [denL] at h
    split at h
    · rename_i v s1 hc
      split at h
      · rename_i vs1 s2 hcs
        cases h
        have h1 := den_tc a c hc
        have h2 := denL_tc a cs hcs
        rw [tcL_cons, yieldL, svals, List.filterMap_append, List.count_append]
        exact Nat.add_le_add h1 h2
      · cases h
    · cases h
end

theorem tcL_newIval (a : Bytes) (n : Int) (fs : List V) : tcL a (newIval n fs) = tcL a fs := by
  unfold newIval
  split
  · rename_i w hw
    split
    · rename_i hn
      have := tcL_set a fs 10 w (.int n) hw
      have : tc a w = 0 := by cases w <;> first | rfl | simp [V.isNum] at hn
      rw [tc_int] at *; omega
    · rfl
  · rfl
mutual
theorem fill_tc (a : Bytes) : ∀ v : V, tc a v.fill = tc a v
  | .obj _ c fs => by
    rw [V.fill, tc_obj, tc_obj]
    split
    · rw [tcL_newIval]; exact fillL_tc a fs
    · exact fillL_tc a fs
  | .vec _ vs => by rw [V.fill, tc_vec, tc_vec]; exact fillL_tc a vs
  | .tup vs => by rw [V.fill, tc_tup, tc_tup]; exact fillL_tc a vs
  | .undef => by simp [V.fill]
  | .null => by simp [V.fill]
  | .int _ => by simp [V.fill]
  | .pos _ => by simp [V.fill]
  | .idx _ => by simp [V.fill]
  | .raw _ => by simp [V.fill]
  | .str _ _ => by simp [V.fill]
theorem fillL_tc (a : Bytes) : ∀ vs : List V, tcL a (fillL vs) = tcL a vs
  | [] => rfl
  | v :: vs => by rw [fillL, tcL_cons, tcL_cons, fill_tc a v, fillL_tc a vs]
end

/-- No string more often in the statements than in the tokens. -/
theorem denInput_tc (a : Bytes) {t : Tree} {vs : List V} (h : denInput t = some vs) : tcL a vs ≤ (svals t.yield).count a := by
  cases t with
  | leaf t => simp [denInput] at h
  | node r cs =>
    simp only [denInput] at h
    split at h
    · rename_i b ws rest s hc
      cases h
      have := denL_tc a cs hc
      rw [tcL_cons, tc_vec] at this
      rw [fillL_tc]
      simp only [Tree.yield]
      omega
    · cases h

end Verif.Sem

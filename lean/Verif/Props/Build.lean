import Verif.Api.BuildInv
/-!
# C60: trees built by the client

The rules are in `Api/BuildRules` (`Follows`), what each function returns in `Api/BuildSpec` (`Make.made`), the
client's operations and their effects in `Api/Build` (`execAll`).
-/
namespace Verif.Props
open Verif.Sem Verif.Build

/-- The blocks that the first `n` allocations returned. -/
def blocksOf (n : Nat) : List Nat := (List.range n).map heap.new

theorem blocksOf_nodup (n : Nat) : (blocksOf n).Nodup := by
  unfold blocksOf
  rw [List.nodup_iff_pairwise_ne, List.pairwise_map]
  refine List.Pairwise.imp ?_ (List.nodup_iff_pairwise_ne.1 List.nodup_range)
  intro a b h e
  exact h (by simp only [heap] at e; omega)

/-- A client that follows the rules never runs into undefined behaviour; nothing is lost; every block that was
allocated has been freed or is owned by one of its variables, exactly once. -/
theorem C60_safe {n : Nat} {os : List Op} {Γ : Ctx} (h : Follows n os Γ) :
    ∃ c, execAll os (Client.fresh n) = some c ∧ c.lost = [] ∧ (c.freed ++ addrsL c.vars).Perm (blocksOf c.next) := by
  obtain ⟨c, e, i⟩ := execAll_ok (inv_fresh n) h
  refine ⟨c, e, i.lost, ?_⟩
  rw [List.perm_iff_count]
  intro a
  rw [List.count_append, cnt_L, i.acc a]
  unfold allocs blocksOf
  rw [List.range_eq_range', Nat.sub_zero]

/-- No block is freed twice, and none that a variable still owns is freed. -/
theorem C60_never_twice {n : Nat} {os : List Op} {Γ : Ctx} (h : Follows n os Γ) :
    ∃ c, execAll os (Client.fresh n) = some c ∧ c.freed.Nodup ∧ ∀ a ∈ addrsL c.vars, a ∉ c.freed := by
  obtain ⟨c, e, _, hp⟩ := C60_safe h
  have hn := hp.nodup_iff.2 (blocksOf_nodup _)
  rw [List.nodup_append] at hn
  exact ⟨c, e, hn.1, fun a ha hf => hn.2.2 a hf a ha rfl⟩

theorem holds_none : ∀ {Γ : Ctx} {vs : List V}, HoldsAll Γ vs → (∀ k ∈ Γ, k = none) → addrsL vs = []
  | _, _, .nil, _ => rfl
  | _, _, .cons h1 h2, hk => by
    have := hk _ List.mem_cons_self
    subst this
    cases h1
    show [] ++ _ = _
    rw [holds_none h2 fun k hk' => hk k (List.mem_cons_of_mem _ hk')]
    rfl

/-- When no variable owns anything any more, every block has been freed, exactly once. -/
theorem C60_all_freed {n : Nat} {os : List Op} {Γ : Ctx} (h : Follows n os Γ) (hΓ : ∀ k ∈ Γ, k = none) :
    ∃ c, execAll os (Client.fresh n) = some c ∧ c.lost = [] ∧ c.freed.Perm (blocksOf c.next) := by
  obtain ⟨c, e, i⟩ := execAll_ok (inv_fresh n) h
  obtain ⟨c', e', hl, hp⟩ := C60_safe h
  rw [e] at e'
  cases e'
  rw [holds_none i.vars hΓ, List.append_nil] at hp
  exact ⟨c, e, hl, hp⟩

/-- Dispose of everything that is still owned, from variable `i` on. -/
def cleanup : Nat → Ctx → List Op
  | _, [] => []
  | i, none :: Γ => cleanup (i + 1) Γ
  | i, some k :: Γ => .dispose i k.disp :: cleanup (i + 1) Γ

theorem checkAll_append : ∀ (os ps : List Op) (Γ : Ctx), checkAll (os ++ ps) Γ = (checkAll os Γ).bind (checkAll ps)
  | [], ps, Γ => rfl
  | o :: os, ps, Γ => by
    show (match check o Γ with | some Γ => checkAll (os ++ ps) Γ | none => none) = _
    rw [checkAll]
    cases check o Γ with
    | none => rfl
    | some Γ1 => exact checkAll_append os ps Γ1

theorem cleanup_ok : ∀ (Γ : Ctx) (n : Nat), checkAll (cleanup n Γ) (Ctx.fresh n ++ Γ) = some (Ctx.fresh (n + Γ.length))
  | [], n => by simp [cleanup, checkAll]
  | none :: Γ, n => by
    have e : Ctx.fresh n ++ none :: Γ = Ctx.fresh (n + 1) ++ Γ := by simp [Ctx.fresh, List.replicate_succ']
    rw [cleanup, e, cleanup_ok Γ (n + 1)]
    simp only [List.length_cons]
    congr 2
    omega
  | some k :: Γ, n => by
    have hl : (Ctx.fresh n).length = n := by simp [Ctx.fresh]
    have e1 : (Ctx.fresh n ++ some k :: Γ)[n]? = some (some k) := by rw [List.getElem?_append_right (by omega), hl]; simp
    have e2 : (Ctx.fresh n ++ some k :: Γ).set n none = Ctx.fresh (n + 1) ++ Γ := by
      rw [List.set_append_right _ _ (by omega), hl, Nat.sub_self]
      simp [Ctx.fresh, List.replicate_succ']
    have e : check (.dispose n k.disp) (Ctx.fresh n ++ some k :: Γ) = some (Ctx.fresh (n + 1) ++ Γ) := by
      simp only [check, Ctx.take, e1, e2]
      rw [if_pos (by simp)]
    rw [cleanup, checkAll, e]
    simp only []
    rw [cleanup_ok Γ (n + 1)]
    simp only [List.length_cons]
    congr 2
    omega

/-- Whatever the client has built so far, disposing of what its variables own, each once, frees every block. -/
theorem C60_cleanup {n : Nat} {os : List Op} {Γ : Ctx} (h : Follows n os Γ) :
    ∃ c, execAll (os ++ cleanup 0 Γ) (Client.fresh n) = some c ∧ c.lost = [] ∧ c.freed.Perm (blocksOf c.next) := by
  have hf : Follows n (os ++ cleanup 0 Γ) (Ctx.fresh Γ.length) := by
    unfold Follows at *
    rw [checkAll_append, h]
    have := cleanup_ok Γ 0
    rw [Nat.zero_add] at this
    exact this
  exact C60_all_freed hf fun k hk => (List.mem_replicate.1 hk).2

/-- Disposing of a variable frees exactly the blocks of what it owns. -/
theorem C60_dispose {n : Nat} {os : List Op} {Γ : Ctx} {x : Nat} {k : Kind} (h : Follows n os Γ) (hx : Γ[x]? = some (some k)) :
    ∃ c v f, execAll os (Client.fresh n) = some c ∧ c.vars[x]? = some v ∧ f.Perm v.addrs ∧
      exec (.dispose x k.disp) c = some { c with vars := c.vars.set x .undef, freed := c.freed ++ f } := by
  obtain ⟨c, e, i⟩ := execAll_ok (inv_fresh n) h
  obtain ⟨v, hv, ho⟩ := i.vars.get hx
  obtain ⟨f, hf⟩ := Own.frees ho
  refine ⟨c, v, f, e, hv, ?_, ?_⟩
  · rw [List.perm_iff_count]
    intro a
    have := treat_ac a _ _ _ _ hf
    simpa [ac] using this
  · simp only [exec, takeVar, hv]
    rw [if_neg (by rw [Own.defined ho]; decide)]
    simp only [hf, List.append_nil]

/-- A call returns what the function is specified to return: the arguments where they belong, defaults elsewhere. -/
theorem C60_made {n : Nat} {os : List Op} {Γ Γ' : Ctx} {x : Nat} {m : Make} (h : Follows n os Γ) (hc : check (.call x m) Γ = some Γ') :
    ∃ c vs vars c', execAll os (Client.fresh n) = some c ∧ takeAll m.args c.vars = some (vs, vars) ∧ exec (.call x m) c = some c' ∧
      c'.vars[x]? = some (m.made (heap.new c.next) (heap.new (c.next + 1)) vs) := by
  obtain ⟨c, e, i⟩ := execAll_ok (inv_fresh n) h
  simp only [check] at hc
  split at hc
  · rename_i Γ1 h1
    obtain ⟨ws, vs', e1, o1, h1, c1⟩ := args_ok i.vars h1
    obtain ⟨v, st', e2, l2, r2, ev2, o2⟩ := make_ok m o1 c.st
    unfold Ctx.give at hc
    split at hc
    · rename_i hx
      obtain ⟨w, hw, _⟩ := h1.get hx
      refine ⟨c, ws, vs', { vars := vs'.set x v, next := st'.nalloc, freed := st'.freed, lost := st'.leaked ++ w.addrs }, e, e1, ?_, ?_⟩
      · simp only [exec, e1, e2, assign, hw]
      · simp only []
        rw [List.getElem?_set, if_pos rfl, if_pos (List.getElem?_eq_some_iff.1 hw).1, ev2]
        rfl
    · cases hc
  · cases hc

/-! Examples: `CASE WHEN a THEN 1 WHEN b.c THEN 'x' ELSE ? END AS k`, put into the list of a SELECT from `t`. -/
def exampleOps : List Op := [
  .strdup 0 b!"a", .call 0 (.columnRef (.var 0)), .call 1 (.literalInt 1), .call 0 (.caseListElement (.var 0) (.var 1)), .call 0 (.caseList (.var 0)),
  .strdup 1 b!"b", .strdup 2 b!"c", .call 1 (.columnRefTable (.var 1) (.var 2)), .strdup 2 b!"x", .call 2 (.literalString (.var 2)),
  .call 1 (.caseListElement (.var 1) (.var 2)), .pushIn 0 3 (.var 1), .call 1 (.parameter 0), .call 0 (.case .nil 0 (.var 1)),
  .strdup 1 b!"k", .setPtr 0 8 1, .newVec 1 .obj, .push 1 (.var 0), .call 0 .selectStatement, .setPtr 0 5 1,
  .call 1 (.tableRef TableRefType.kTableName), .strdup 2 b!"t", .setPtr 1 2 2, .setPtr 0 3 1, .setNum 0 4 1]

example : Follows 3 exampleOps [some (.obj .SelectStatement [1, 6, 7, 8, 9, 10, 11, 12] [(5, .obj)]), none, none] := by unfold Follows; decide +kernel
example : cleanup 0 [some (.obj .SelectStatement [1, 6, 7, 8, 9, 10, 11, 12] [(5, .obj)]), none, none] = [.dispose 0 (.one .obj)] := by decide +kernel
/-- Every block is freed; the temporary case list was freed by `makeCase`. -/
example : (execAll [.call 0 .star, .call 0 (.caseListElement (.var 0) .nil), .call 0 (.caseList (.var 0)), .call 1 .nullLiteral, .pushIn 0 3 (.var 1),
    .call 0 (.case .nil 0 .nil), .dispose 0 (.one .obj)] (Client.fresh 2)).map (fun c => (c.next, c.freed.length, c.lost)) = some (6, 6, []) := by decide +kernel
/-- UPDATE clauses and locking clauses have no destructor, their owners free the members. -/
example : (execAll [.call 0 .updateStatement, .newVec 1 .update, .call 2 .updateClause, .strdup 3 b!"c", .setPtr 2 0 3, .call 3 .nullLiteral, .setPtr 2 1 3,
    .push 1 (.var 2), .setPtr 0 4 1, .dispose 0 (.one .obj)] (Client.fresh 4)).map (fun c => (c.next, c.freed.length, c.lost)) = some (5, 5, []) := by decide +kernel

/-! The rules are needed. Giving a pointer away twice: -/
example : checkAll [.call 0 .star, .call 1 (.opBinary (.var 0) OperatorType.kOpAnd (.var 0))] (Ctx.fresh 2) = none := by decide +kernel
example : (execAll [.call 0 .star, .call 1 (.opBinary (.var 0) OperatorType.kOpAnd (.var 0))] (Client.fresh 2)).isNone = true := by decide +kernel
/-- Overwriting a member that owns something loses it: -/
example : (execAll [.strdup 0 b!"a", .call 0 (.columnRef (.var 0)), .strdup 1 b!"b", .setPtr 0 5 1] (Client.fresh 2)).map (fun c => c.lost.length) = some 1 := by decide +kernel
/-- `delete` alone on a vector of expressions loses the expressions: -/
example : (execAll [.newVec 0 .obj, .call 1 .star, .push 0 (.var 1), .dispose 0 (.one .obj)] (Client.fresh 2)).map (fun c => c.lost.length) = some 1 := by decide +kernel

end Verif.Props

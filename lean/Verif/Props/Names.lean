import Verif.Sem.Rename
import Verif.Props.ResultEx
/-!
# Addresses are only names

The outcome of a parse does not depend on where the blocks of the heap are: neither comparing nor hashing nor printing of addresses takes place.
-/
namespace Verif.Props
open Verif.Lex Verif.LR Verif.Sem Verif.Api

/-- The function taking the addresses of `heap` to those of `A`. -/
def names (A : Alloc) (n : Nat) : Nat := if n % 2 = 0 then A.tok (n / 2) else A.new (n / 2)

theorem names_inj {A : Alloc} (hA : Distinct A) : ∀ i j, names A i = names A j → i = j := by
  intro i j h
  unfold names at h
  split at h <;> split at h
  · have := hA.tok _ _ h; omega
  · exact absurd h (hA.ne _ _)
  · exact absurd h.symm (hA.ne _ _)
  · have := hA.new _ _ h; omega

theorem heap_names (A : Alloc) : heap.ren (names A) = A := by
  obtain ⟨t, n⟩ := A
  show Alloc.mk _ _ = Alloc.mk _ _
  refine congr (congrArg Alloc.mk ?_) ?_
  · funext k
    show (if (2 * k) % 2 = 0 then t (2 * k / 2) else n (2 * k / 2)) = t k
    rw [if_pos (by omega), show 2 * k / 2 = k by omega]
  · funext k
    show (if (2 * k + 1) % 2 = 0 then t ((2 * k + 1) / 2) else n ((2 * k + 1) / 2)) = n k
    rw [if_neg (by omega), show (2 * k + 1) / 2 = k by omega]

/-- What is seen of an outcome when addresses are not looked at: all of them are replaced by 0. -/
def ParseOut.seen (o : ParseOut) : ParseOut := o.ren fun _ => 0

mutual
theorem V.ren_ren (f g : Nat → Nat) : ∀ v : V, (v.ren g).ren f = v.ren fun n => f (g n)
  | .undef => rfl
  | .null => rfl
  | .int _ => rfl
  | .pos _ => rfl
  | .idx _ => rfl
  | .raw _ => rfl
  | .str _ _ => rfl
  | .vec _ vs => by simp only [V.ren, V.renL_renL f g vs]
  | .tup vs => by simp only [V.ren, V.renL_renL f g vs]
  | .obj _ _ fs => by simp only [V.ren, V.renL_renL f g fs]
theorem V.renL_renL (f g : Nat → Nat) : ∀ vs : List V, renL f (renL g vs) = renL (fun n => f (g n)) vs
  | [] => rfl
  | v :: vs => by simp only [renL, V.ren_ren f g v, V.renL_renL f g vs]
end

theorem ParseOut.ren_ren (f g : Nat → Nat) (o : ParseOut) : (o.ren g).ren f = o.ren fun n => f (g n) := by
  obtain ⟨r, fr, lk⟩ := o
  obtain ⟨a, b, c, d, e, p⟩ := r
  simp only [ParseOut.ren, Res.ren, List.map_map]
  congr 1
  congr 1
  · congr 1
    funext v
    exact V.ren_ren f g v
  · cases c <;> rfl

/-- C49. Whatever two allocators do, as long as they do not return an address twice, the outcomes of `parse` on a new result differ in the addresses only:
there is a third outcome of which both are copies, with the addresses renamed one to one. In particular they are equal when addresses are not looked at. -/
theorem C49_addresses_are_names {A A' : Alloc} (hA : Distinct A) (hA' : Distinct A') :
    ∃ g g' : Nat → Nat, (∀ i j, g i = g j → i = j) ∧ (∀ i j, g' i = g' j → i = j) ∧
      ∀ (fpr : Int) (buf : Bytes) (sql : List UInt8) (l c : Int), ∃ o : Option ParseOut,
        parse A fpr buf sql (newResult l c) = o.map (ParseOut.ren g) ∧
        parse A' fpr buf sql (newResult l c) = o.map (ParseOut.ren g') ∧
        (parse A fpr buf sql (newResult l c)).map ParseOut.seen = (parse A' fpr buf sql (newResult l c)).map ParseOut.seen := by
  refine ⟨names A, names A', names_inj hA, names_inj hA', fun fpr buf sql l c => ⟨parse heap fpr buf sql (newResult l c), ?_⟩⟩
  have e : parse A fpr buf sql (newResult l c) = (parse heap fpr buf sql (newResult l c)).map (ParseOut.ren (names A)) := by
    rw [← parse_ren (names_inj hA), heap_names]; rfl
  have e' : parse A' fpr buf sql (newResult l c) = (parse heap fpr buf sql (newResult l c)).map (ParseOut.ren (names A')) := by
    rw [← parse_ren (names_inj hA'), heap_names]; rfl
  refine ⟨e, e', ?_⟩
  rw [e, e', Option.map_map, Option.map_map]
  congr 1
  funext o
  simp only [Function.comp, ParseOut.seen, ParseOut.ren_ren]

/-- What the accessors of the result tell is the same. -/
theorem C49_same_report {A A' : Alloc} (hA : Distinct A) (hA' : Distinct A') (fpr : Int) (buf : Bytes) (sql : List UInt8) (l c : Int) (o : ParseOut)
    (h : parse A fpr buf sql (newResult l c) = some o) :
    ∃ o', parse A' fpr buf sql (newResult l c) = some o' ∧
      o'.res.isValid = o.res.isValid ∧ message o'.res = message o.res ∧ o'.res.errLine = o.res.errLine ∧ o'.res.errCol = o.res.errCol ∧
      o'.res.stmts.length = o.res.stmts.length ∧ o'.res.params.length = o.res.params.length ∧
      o'.freed.length = o.freed.length ∧ o'.leaked.length = o.leaked.length := by
  obtain ⟨g, g', _, _, H⟩ := C49_addresses_are_names hA hA'
  obtain ⟨o0, e, e', _⟩ := H fpr buf sql l c
  rw [h] at e
  cases o0 with
  | none => cases e
  | some o0 =>
    simp only [Option.map_some, Option.some.injEq] at e
    subst e
    refine ⟨_, e', rfl, ?_, rfl, rfl, ?_, ?_, ?_, ?_⟩
    · simp only [message, ParseOut.ren, Res.ren]
      cases o0.res.errMsg <;> rfl
    all_goals simp [ParseOut.ren, Res.ren]

/-- Two different allocators. -/
example : Distinct heap ∧ Distinct ⟨fun k => 2 * k + 1001, fun k => 3000 + 2 * k⟩ :=
  ⟨heap_distinct, fun i j h => by simp only at h; omega, fun i j h => by simp only at h; omega, fun i j h => by simp only at h; omega⟩

/-! ## Addresses may be used again -/

/-- The blocks in use while the parser is running: those of the values on its stack, of the lookahead, of the result, and the parameters found so far. -/
def inUse (c : Cfg Sem.St SV) : List Nat :=
  addrsL (c.stk.map fun e => e.2.1) ++ (match c.la with | some x => x.2.1.addrs | none => []) ++ addrsL c.st.res.stmts ++ c.st.res.errAddr ++ c.st.plist ++ c.st.res.params

/-- `g` places the blocks, which `heap` numbers in the order of their allocation, such that different blocks in use at the same time are at different addresses; the address of
a block that has been freed may be used again. -/
def Places (g : Nat → Nat) (fpr : Int) (buf : Bytes) (sql : List UInt8) (l c : Int) : Prop :=
  ∀ toks st, lexAll fpr (lexInit buf (cText sql)) = some (toks, st) → ∀ k cfg, after (sem heap) stackSize k (initCfg toks (startSt (newResult l c))) = some cfg →
    ∀ i ∈ inUse cfg, ∀ j ∈ inUse cfg, g i = g j → i = j

/-- C52. The same as C49 for an allocator that returns addresses of freed blocks again: the outcome is the one with an address of its own for every block, but for the addresses. -/
theorem C52_addresses_used_again (g : Nat → Nat) (fpr : Int) (buf : Bytes) (sql : List UInt8) (l c : Int) (h : Places g fpr buf sql l c) :
    parse ⟨fun k => g (heap.tok k), fun k => g (heap.new k)⟩ fpr buf sql (newResult l c) = (parse heap fpr buf sql (newResult l c)).map (ParseOut.ren g) ∧
    (parse ⟨fun k => g (heap.tok k), fun k => g (heap.new k)⟩ fpr buf sql (newResult l c)).map ParseOut.seen = (parse heap fpr buf sql (newResult l c)).map ParseOut.seen := by
  have e : parse (heap.ren g) fpr buf sql ((newResult l c).ren g) = (parse heap fpr buf sql (newResult l c)).map (ParseOut.ren g) := by
    refine parse_ren' heap fpr buf sql (newResult l c) fun toks st hl k cfg hk b hb x hx hgx => ?_
    refine h toks st hl k cfg hk x ?_ b ?_ hgx
    · simp only [inUse, List.mem_append] at hx ⊢
      rcases hx with hx | hx
      · simp [hx]
      · simp [hx]
    · simp only [inUse, List.mem_append] at hb ⊢
      rcases hb with hb | hb
      · simp [hb]
      · simp [hb]
  refine ⟨e, ?_⟩
  show (parse (heap.ren g) fpr buf sql ((newResult l c).ren g)).map ParseOut.seen = _
  rw [e, Option.map_map]
  congr 1
  funext o
  simp only [Function.comp, ParseOut.seen, ParseOut.ren_ren]

/-- All configurations of a run satisfy `Places`. For the example. -/
def placesRun (g : Nat → Nat) : Nat → Cfg Sem.St SV → Bool
  | 0, _ => false
  | n + 1, c => (inUse c).all (fun i => (inUse c).all fun j => decide (g i = g j → i = j)) &&
    match step (sem heap) stackSize c with
    | .run c' => placesRun g n c'
    | _ => true

theorem placesRun_spec {g : Nat → Nat} : ∀ {n : Nat} {c : Cfg Sem.St SV}, placesRun g n c = true → ∀ k cfg, after (sem heap) stackSize k c = some cfg →
    ∀ i ∈ inUse cfg, ∀ j ∈ inUse cfg, g i = g j → i = j
  | 0, _, h => by cases h
  | n + 1, c, h => by
    intro k cfg hk i hi j hj
    simp only [placesRun, Bool.and_eq_true] at h
    cases k with
    | zero =>
      simp only [after, Option.some.injEq] at hk
      subst hk
      have := List.all_eq_true.1 (List.all_eq_true.1 h.1 i hi) j hj
      exact of_decide_eq_true this
    | succ k =>
      simp only [after] at hk
      revert hk h
      cases step (sem heap) stackSize c with
      | run c' => intro h hk; exact placesRun_spec h.2 k cfg hk i hi j hj
      | done o c' => intro h hk; cases hk
      | ub => intro h hk; cases hk

/-- `CREATE TABLE t (a INT); CREATE TABLE u (b INT)`, where the 10th block the actions allocate is placed where the first one was, which has been freed. -/
example : Places (fun n => if n = 19 then 1 else n) 64 [] (txt b!"CREATE TABLE t (a INT); CREATE TABLE u (b INT)") 0 0 := by
  intro toks st hl
  have h : (lexE 64 60 (lexInit [] (cText (txt b!"CREATE TABLE t (a INT); CREATE TABLE u (b INT)"))) []).map
      (fun x => placesRun (fun n => if n = 19 then 1 else n) 200 (initCfg x.1 (startSt (newResult 0 0)))) = some true := by decide +kernel
  cases hl' : lexE 64 60 (lexInit [] (cText (txt b!"CREATE TABLE t (a INT); CREATE TABLE u (b INT)"))) [] with
  | none => rw [hl'] at h; cases h
  | some y =>
    rw [hl'] at h
    have := lexAll_of_lexE (st := lexInit [] (cText (txt b!"CREATE TABLE t (a INT); CREATE TABLE u (b INT)"))) (cText_clean _) hl'
    rw [this] at hl
    simp only [Option.some.injEq] at hl
    obtain rfl : y.1 = toks := by rw [hl]
    simp only [Option.map_some, Option.some.injEq] at h
    exact placesRun_spec h

end Verif.Props

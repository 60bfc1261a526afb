d=open('/tmp/nest.data').read().split('\n')
src='''import Verif.LR.Height
import Verif.Sql.Load
/-!
# The height of the stack is bounded by the load of the statement. Proof-internal.

The tables are computed by a script; what is used about them is checked below: `lphi`, a potential of the states (seven bits each); `gO`, 64 plus a lower bound of the weight of a symbol (seven bits each);
`calm`: states in front of which no prefix operator is open in the innermost level; `clear`: the same for all weights, a bracket being open; `keeps`: nonterminals that do not end the term they stand in.
-/
set_option linter.all false
namespace Verif.LR
open Verif.Lex Verif.Sem Verif.Sql

def lphiT : Nat := %s
def gT : Nat := %s
def calmT : Nat := %s
def clearT : Nat := %s
def keepT : Nat := %s
def lphi (s : Nat) : Nat := Nat.mod (Nat.shiftRight lphiT (Nat.mul 7 s)) 128
def gO (X : Nat) : Nat := Nat.mod (Nat.shiftRight gT (Nat.mul 7 X)) 128
def bitOf (T s : Nat) : Bool := Nat.beq (Nat.mod (Nat.shiftRight T s) 2) 1
def calm (s : Nat) : Bool := bitOf calmT s
def clear (s : Nat) : Bool := bitOf clearT s
def keeps (X : Nat) : Bool := bitOf keepT X

/-! ## Checking all edges -/

theorem edges_of (f : Nat → Nat → Nat → Bool)
    (hR : allN 656 (fun s => bor (Nat.beq s 69) ((stF s).rows.all fun c _ => bor (bnot (isShift c)) (f s (shTgt c) (Nat.sub (yystosT.get (shTgt c)) 1000)))) = true)
    (hP : allN 656 (fun s => bor (Nat.beq s 69) ((stF s).pred.all fun A _ => f s (gotoF s A) A)) = true)
    {s t X : Nat} (hs : s < 656) (h69 : s ≠ 69) (h : Edge s t X) : f s t X = true := by
  have hst := stos_edge hs h69 h
  have ht := (edge_spec hs h69 h).1
  rcases h with ⟨hX, h⟩ | ⟨h, rfl⟩
  · obtain ⟨h1, _⟩ := row_of_act hs h69 hX h
    have h2 := allN_spec hR s hs
    rw [bor_iff, beq_iff] at h2
    have h2 := RL.all_spec (h2.resolve_left h69) (encAct (.shift t)) (by intro h0; rw [h0] at h1; simp at h1)
    rw [bor_iff, bnot_iff] at h2
    have hsh : isShift (encAct (.shift t)) = true := by
      rw [← (act_iff hs _).1 h]; exact (isShift_iff hs).2 ⟨t, h⟩
    have h2 := h2.resolve_left (by rw [hsh]; simp)
    rw [shTgt_enc] at h2
    have hg := yystos_get t ht
    rw [List.getD_eq_getElem?_getD, hg] at hst
    simp only [Option.getD_some] at hst
    have e : Nat.sub (yystosT.get t) 1000 = X := by show yystosT.get t - 1000 = X; omega
    rw [e] at h2
    exact h2
  · have h2 := allN_spec hP s hs
    rw [bor_iff, beq_iff] at h2
    exact PL.all_spec (h2.resolve_left h69) X h
''' % tuple(d)
src+=r'''
/-! ## What is checked -/

def memN (X : Nat) (l : List Nat) : Bool := l.any fun y => Nat.beq X y
theorem memN_eq (X : Nat) (l : List Nat) : memN X l = l.contains X := by
  induction l with
  | nil => rfl
  | cons y l ih =>
    have e : (X == y) = Nat.beq X y := by
      rw [Bool.eq_iff_iff]; simp [Nat.beq_eq]
    simp only [memN, List.any_cons, List.contains_cons] at ih ⊢
    rw [ih, e]

noncomputable def edgeOK (s t X : Nat) : Bool :=
  Nat.ble (Nat.add (lphi s) 65) (Nat.add (lphi t) (gO X)) &&
  (calm s || !(memN X enders || (Nat.ble 199 X && !keeps X && !memN X topSyms))) &&
  (clear s || !memN X closers) &&
  (!calm t || memN X openers || memN X topSyms || (!(Nat.beq X T.NOT) && !(Nat.beq X T.HYPHEN) && !memN X closers && calm s)) &&
  (!clear t || memN X openers || (Nat.beq (gO X) 64 && !memN X topSyms && clear s)) &&
  (memN X topSyms || Nat.beq t 69 || !memN (Nat.sub (yystosT.get s) 1000) [N.input, N.statement_list, N.opt_semicolon])

theorem edgeRows : allN 656 (fun s => bor (Nat.beq s 69) ((stF s).rows.all fun c _ => bor (bnot (isShift c)) (edgeOK s (shTgt c) (Nat.sub (yystosT.get (shTgt c)) 1000)))) = true := by decide +kernel
theorem edgePred : allN 656 (fun s => bor (Nat.beq s 69) ((stF s).pred.all fun A _ => edgeOK s (gotoF s A) A)) = true := by decide +kernel
theorem lphiMax : allN 656 (fun s => Nat.ble (lphi s) 111) = true := by decide +kernel
theorem lphi_zero : lphi 0 = 57 := by decide +kernel

/-- The weight of a symbol, or a lower bound of it. -/
def gain (X : Nat) : Int := (gO X : Int) - 64
/-- The weight of a token. -/
def tokGain (a : Nat) : Int := if openers.contains a then 34 else if closers.contains a then -34 else if enders.contains a then 0 else chainW a + prefixW a

theorem tokGains : (List.range 199).all (fun a => decide (gain a = tokGain a)) = true := by decide +kernel
theorem topGains : topSyms.all (fun a => decide (gain a = 0)) = true := by decide +kernel
theorem zeroToks : (List.range 199).all (fun a => decide (tokGain a = 0 → openers.contains a = false ∧ closers.contains a = false ∧ chainW a = 0 ∧ prefixW a = 0)) = true := by decide +kernel

/-! ## Scanning a right-hand side -/

/-- Brackets opened since the beginning; the least weight of the outermost level; is the term the same? -/
structure Abs where
  k : Nat
  du : Int
  keep : Bool

def absStep (b : Abs) (X : Nat) : Option Abs :=
  if X < 199 then
    if openers.contains X then some { b with k := b.k + 1 }
    else if closers.contains X then (if b.k = 0 then none else some { b with k := b.k - 1 })
    else if b.k = 0 then (if enders.contains X then some { b with keep := false } else some { b with du := b.du + chainW X })
    else some b
  else if b.k = 0 then some ⟨0, b.du + gain X, b.keep && keeps X⟩ else some b
def absRun : Abs → List Nat → Option Abs
  | b, [] => some b
  | b, X :: Xs => match absStep b X with
    | some b' => absRun b' Xs
    | none => none
def ruleLoad (r : Nat) : Bool := topSyms.contains (lhs r) || match absRun ⟨0, 0, true⟩ (rhs r) with
  | some ⟨0, du, keep⟩ => decide (gain (lhs r) ≤ du) && (!keeps (lhs r) || keep)
  | _ => false
theorem ruleLoads : (List.range 358).all (fun r => Nat.blt r 2 || ruleLoad r) = true := by decide +kernel

end Verif.LR
'''
open('/verif/lean/Verif/LR/Load.lean','w').write(src)

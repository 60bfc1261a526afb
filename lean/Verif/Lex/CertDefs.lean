import Verif.Lex.Tries
import Verif.Lex.Masks
/-! Boolean checks evaluated by the kernel on the scanner tables (proof-internal). -/
namespace Verif.Lex

/-- Table move on the packed tables; 0 on any out-of-bounds access. -/
noncomputable def fastNext (fuel : Nat) : Nat → Nat → Nat :=
  Nat.rec (motive := fun _ => Nat → Nat → Nat) (fun _ _ => 0)
    (fun _ ih s c =>
      (fun k =>
        Bool.rec 0
          (Bool.rec 
            (Bool.rec (ih (yy_defT.get s) c) (ih (yy_defT.get s) (yy_metaT.get c)) (Nat.ble 1368 (yy_defT.get s)))
            (yy_nxtT.get k) (Nat.beq (yy_chkT.get k) s))
          (Bool.rec false (Bool.rec false (Nat.blt s 1375) (Nat.blt c 77)) (Nat.blt k 9032)))
        (Nat.add (yy_baseT.get s) c)) fuel

/-- `eps (((D ∧ B ∧ ¬S) <<< 1) ∨ (D ∧ B ∧ S))`. -/
noncomputable def epsM (x : Nat) : Nat := Nat.lor x (Nat.shiftLeft (Nat.land x starMask) 1)
noncomputable def stepM (d b : Nat) : Nat :=
  epsM (Nat.lor (Nat.shiftLeft (Nat.xor (Nat.land d b) (Nat.land (Nat.land d b) starMask)) 1)
    (Nat.land (Nat.land d b) starMask))

/-- States that occur: not 0, 2, 4, 6, 7. -/
noncomputable def okState (s : Nat) : Bool :=
  Bool.rec (Bool.rec false (Nat.beq (Nat.land s 1) 1) (Nat.blt s 6)) true (Nat.blt 7 s)

noncomputable def cellOk (s c : Nat) : Bool :=
  (fun t => Bool.rec false
    (Bool.rec false (Nat.beq (stateMasks.get t) (stepM (stateMasks.get s) (classPos.get c))) (Nat.ble t 1367))
    (Nat.blt 7 t)) (fastNext 8 s c)

noncomputable def accOk (s : Nat) : Bool :=
  (fun r x => Bool.rec
     (Bool.rec false
        (Bool.rec false (Nat.beq (Nat.mod x (Nat.pow 2 (accPosT.get r))) 0)
          (Nat.beq (Nat.land (Nat.shiftRight x (accPosT.get r)) 1) 1))
        (Nat.ble r 188))
     (Nat.beq x 0) (Nat.beq r 0))
   (yy_acceptT.get s) (Nat.land (stateMasks.get s) accMask)

noncomputable def rowOk (s : Nat) : Bool :=
  Bool.rec true
    (Bool.rec false
      (Bool.rec false (allFrom 1 76 (cellOk s)) (Nat.beq (fastNext 8 s 0) 7))
      (accOk s))
    (okState s)

end Verif.Lex

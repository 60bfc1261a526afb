import Verif.LR.CertData
import Verif.LR.Driver
/-! The certificate checks, evaluated by the kernel. Proof-internal. -/
set_option maxRecDepth 100000
namespace Verif.LR

noncomputable def rhsF (r : Nat) : List Nat := Prod.rec (motive := fun _ => List Nat) (fun _ b => b) (ruT.get (0, []) r)
noncomputable def lhsF (r : Nat) : Nat := Prod.rec (motive := fun _ => Nat) (fun a _ => a) (ruT.get (0, []) r)
noncomputable def bylF (A : Nat) : List Nat := bylT.get [] A
noncomputable def firstF (X : Nat) : Nat := firstT.get 0 X
noncomputable def frF (r : Nat) : Nat := frT.get 0 r
noncomputable def fsF (r : Nat) : Nat := fsT.get 0 r
noncomputable def stF (s : Nat) : St := stT.get (.mk .nil .nil .nil) s
noncomputable def isT (X : Nat) : Bool := Nat.ble X 198

/-- Encoded default action. -/
noncomputable def dfltF (s : Nat) : Nat :=
  (fun d => ite_ (Nat.beq d 1000) 0 (Nat.add (Nat.mul (Nat.sub d 1000) 2) 1)) (yydefactT.get s)

noncomputable def actF2 (s a n : Nat) : Nat :=
  ite_ (band (Nat.ble 1000 n) (Nat.ble n 1856))
    (ite_ (Nat.beq (yycheckT.get (Nat.sub n 1000)) (Nat.add a 1000))
      ((fun v => ite_ (Nat.ble v 1000)
          (ite_ (Nat.beq v 645) 0 (Nat.add (Nat.mul (Nat.sub 1000 v) 2) 1))
          (Nat.add (Nat.mul (Nat.sub v 1000) 2) 2)) (yytableT.get (Nat.sub n 1000)))
      (dfltF s))
    (dfltF s)

/-- Encoded action: 0 error, `2r+1` reduce, `2s+2` shift. -/
noncomputable def actF (s a : Nat) : Nat :=
  (fun p => ite_ (Nat.beq p 471) (dfltF s) (actF2 s a (Nat.add p a))) (yypactT.get s)

noncomputable def gotoF (s A : Nat) : Nat :=
  (fun n => ite_ (band (band (Nat.ble 1000 n) (Nat.ble n 1856)) (Nat.beq (yycheckT.get (Nat.sub n 1000)) (Nat.add s 1000)))
      (Nat.sub (yytableT.get (Nat.sub n 1000)) 1000) (Nat.sub (yydefgotoT.get (Nat.sub A 199)) 1000))
    (Nat.add (yypgotoT.get (Nat.sub A 199)) s)

/-- FIRST of a symbol string followed by `L`. -/
noncomputable def fseq (l : List Nat) (L : Nat) : Nat :=
  List.rec (motive := fun _ => Nat) L (fun X _ ih => Nat.lor (firstF X) (ite_ (tb nullM X) ih 0)) l

noncomputable def isShift (c : Nat) : Bool := band (Nat.ble 1 c) (Nat.beq (Nat.land c 1) 0)
noncomputable def shTgt (c : Nat) : Nat := Nat.div (Nat.sub c 2) 2

noncomputable def headIsN (l : List Nat) : Bool := List.rec (motive := fun _ => Bool) false (fun X _ _ => bnot (isT X)) l

/-- Completeness check of item `(r, k)` with lookaheads `L` in state `s`. -/
noncomputable def itemOk (s : Nat) (st : St) (r k L : Nat) : Bool :=
  List.rec (motive := fun _ => Bool)
    (bor (Nat.beq r 1) (sub L (Nat.lor (st.rows.find (Nat.add (Nat.mul r 2) 1)) (frF r))))
    (fun X β _ => ite_ (isT X)
      ((fun c => ite_ (isShift c)
          (band (Nat.ble (shTgt c) 655) (sub L ((stF (shTgt c)).kern.find r (Nat.succ k))))
          (band (Nat.beq k 1) (headIsN (rhsF r)))) (actF s X))
      (band (Nat.ble (gotoF s X) 655) (band (sub L ((stF (gotoF s X)).kern.find r (Nat.succ k)))
        (band (bnot (Nat.beq (st.pred.find X) 0)) (sub (fseq β L) (st.pred.find X))))))
    (NL.drop (rhsF r) k)

/-- Soundness check of an edge from `s` to `t` labelled `X`. -/
noncomputable def edgeOk (st : St) (t X : Nat) : Bool :=
  (stF t).kern.all fun r k _ => band (Nat.ble 1 k) (band (Nat.beq (NL.nth (rhsF r) (Nat.pred k)) X)
    (bor (bnot (Nat.beq (st.kern.find r (Nat.pred k)) 0)) (band (Nat.beq k 1) (bnot (Nat.beq (st.pred.find (lhsF r)) 0)))))

noncomputable def rowOk (st : St) (c m : Nat) : Bool :=
  ite_ (Nat.beq c 0) true
   (ite_ (isShift c)
    ((fun t => band (Nat.ble t 655) (band (Nat.ble 1 t) (band (Nat.beq m (Nat.shiftLeft 1 (Nat.sub (yystosT.get t) 1000)))
       (edgeOk st t (Nat.sub (yystosT.get t) 1000))))) (shTgt c))
    ((fun r => band (Nat.ble 2 r) (band (Nat.ble r 357) (band (Nat.beq (Nat.land m (frF r)) 0)
       (ite_ (Nat.beq (NL.len (rhsF r)) 0) (bnot (Nat.beq (st.pred.find (lhsF r)) 0))
         (bnot (Nat.beq (st.kern.find r (NL.len (rhsF r))) 0)))))) (Nat.div c 2)))

/-- Predicted rules `X a ...` whose `a` is not shifted after `X`: only below operator rules with precedence. -/
noncomputable def fscompOk (s : Nat) (st : St) (m : Nat) : Bool :=
  List.rec (motive := fun _ => Bool) true
    (fun X tl _ => List.rec (motive := fun _ => Bool) true
      (fun a _ _ => ite_ (isT X) true (ite_ (isT a) (ite_ (isShift (actF (gotoF s X) a)) true
          (st.kern.all fun r k _ => band (Nat.beq (Nat.succ k) (NL.len (rhsF r)))
            (band (Nat.beq (NL.nth (rhsF r) k) X) (tb (fsF r) a)))) true)) tl)
    (rhsF m)

noncomputable def fssoundOk (s : Nat) (r k : Nat) : Bool :=
  ite_ (Nat.beq (Nat.succ k) (NL.len (rhsF r)))
    ((fun X => ite_ (isT X) true (ite_ (Nat.beq (fsF r) 0) true
      (allN 199 fun a => bor (bnot (tb (fsF r) a)) (bnot (isShift (actF (gotoF s X) a)))))) (NL.nth (rhsF r) k))
    true

noncomputable def stOk (s : Nat) (st : St) : Bool :=
  band (allN 199 fun a => tb (st.rows.find (actF s a)) a)
  (band (st.rows.disj 0)
  (band (st.kern.all fun r k L => band (itemOk s st r k L) (band (fssoundOk s r k) (band (Nat.ble r 357) (Nat.ble 1 r))))
  (band (st.pred.all fun A L => band (Nat.ble 200 A) (band (Nat.ble A 334) (band (Nat.ble 1 (gotoF s A)) (band (Nat.ble (gotoF s A) 655) (band (edgeOk st (gotoF s A) A)
      (NL.all (bylF A) fun r => band (itemOk s st r 0 L) (fscompOk s st r)))))))
  (st.rows.all fun c m => rowOk st c m))))

noncomputable def stOkAt (s : Nat) : Bool := bor (Nat.beq s 69) (stOk s (stF s))

end Verif.LR

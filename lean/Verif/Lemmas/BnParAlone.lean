import Verif.Model.CcsPar
import Verif.Lemmas.BnParAttr

/-!
# The functions of `Verif.Inter` run without interruption are those of `Model/BnHeap.lean`
-/

namespace Verif

theorem BProg.run_bind {α β : Type} (p : BProg α) (f : α → BProg β) (mem : Cell → Int) (next : Nat) :
    (p.bind f).run mem next = p.run mem next >>= fun r => (f r.1).run r.2.1 r.2.2 := by
  induction p generalizing mem next with
  | ret a => rfl
  | panic => rfl
  | new k ih => exact ih _ _ _
  | read c k ih => exact ih _ _ _
  | write c v k ih => exact ih _ _

namespace BigP

variable {α β : Type}

theorem alone_bind (m : BigP α) (f : α → BigP β) : (m >>= f).alone = m.alone >>= fun a => (f a).alone := by
  funext s
  change ((m s.pool).bind _).run _ _ >>= _ = ((m s.pool).run _ _ >>= _) >>= _
  rw [BProg.run_bind]
  cases (m s.pool).run s.mem s.next <;> rfl

theorem alone_pure (a : α) : (pure a : BigP α).alone = pure a := rfl

theorem alone_ite (c : Prop) [Decidable c] (m m' : BigP α) : (if c then m else m').alone = if c then m.alone else m'.alone := by
  split <;> rfl

theorem alone_new : new.alone = BigM.new := rfl

theorem alone_get : get.alone = BigM.get := by
  funext s
  obtain ⟨mem, next, pool⟩ := s
  cases pool with
  | none => rfl
  | some bns =>
    unfold alone get BigM.get
    dsimp only
    cases bns.getLast? <;> rfl

theorem alone_put (c : Cell) : (put c).alone = BigM.put c := by
  funext s
  obtain ⟨mem, next, pool⟩ := s
  cases pool <;> rfl

theorem alone_read (c : Cell) : (read c).alone = BigM.read c := rfl

theorem alone_write (c : Cell) (v : Int) : (write c v).alone = BigM.write c v := rfl

theorem alone_panic : (panic : BigP α).alone = BigM.panic := rfl

theorem alone_withPool (q : Option (List Cell)) (m : BigP α) : (withPool q m).alone = BigM.withPool q m.alone := by
  funext s
  change ((m q).bind _).run _ _ >>= _ = ((m q).run _ _ >>= _) >>= _
  rw [BProg.run_bind]
  cases (m q).run s.mem s.next <;> rfl

theorem alone_ofRes (r : Res α) : (ofRes r).alone = BigM.ofRes r := by
  cases r <;> rfl

attribute [inter_alone] alone_bind alone_pure alone_ite alone_new alone_get alone_put alone_read alone_write alone_panic alone_withPool
  alone_ofRes

@[inter_alone] theorem alone_add (d a b : Cell) : (add d a b).alone = BigM.add d a b := by
  simp only [inter_alone, add, BigM.add]
@[inter_alone] theorem alone_sub (d a b : Cell) : (sub d a b).alone = BigM.sub d a b := by
  simp only [inter_alone, sub, BigM.sub]
@[inter_alone] theorem alone_mul (d a b : Cell) : (mul d a b).alone = BigM.mul d a b := by
  simp only [inter_alone, mul, BigM.mul]
@[inter_alone] theorem alone_mod (d a : Cell) : (mod d a).alone = BigM.mod d a := by simp only [inter_alone, mod, BigM.mod]
@[inter_alone] theorem alone_neg (d a : Cell) : (neg d a).alone = BigM.neg d a := by simp only [inter_alone, neg, BigM.neg]
@[inter_alone] theorem alone_set (d a : Cell) : (set d a).alone = BigM.set d a := by simp only [inter_alone, set, BigM.set]
@[inter_alone] theorem alone_setInt (d : Cell) (n : Int) : (setInt d n).alone = BigM.setInt d n := rfl
@[inter_alone] theorem alone_lsh1 (d a : Cell) : (lsh1 d a).alone = BigM.lsh1 d a := by simp only [inter_alone, lsh1, BigM.lsh1]
@[inter_alone] theorem alone_lsh3 (d a : Cell) : (lsh3 d a).alone = BigM.lsh3 d a := by simp only [inter_alone, lsh3, BigM.lsh3]
@[inter_alone] theorem alone_modInv (d a : Cell) : (modInv d a).alone = BigM.modInv d a := by
  simp only [inter_alone, modInv, BigM.modInv]
  congr 1
  funext v
  cases modInverse v bnP <;> simp only [inter_alone]
@[inter_alone] theorem alone_reduce (e : Cell) : (reduce e).alone = BigM.reduce e := by
  simp only [inter_alone, reduce, BigM.reduce]

end BigP

namespace Inter

open BigP

@[inter_alone] theorem Gf2.new_alone : (Inter.Gf2.new).alone = Verif.Gf2.new  := by
  unfold Inter.Gf2.new Verif.Gf2.new
  simp only [inter_alone]

@[inter_alone] theorem Gf2.put_alone (e : Gf2) : (Inter.Gf2.put e).alone = Verif.Gf2.put e := by
  unfold Inter.Gf2.put Verif.Gf2.put
  simp only [inter_alone]

@[inter_alone] theorem Gf2.set_alone (e a : Gf2) : (Inter.Gf2.set e a).alone = Verif.Gf2.set e a := by
  unfold Inter.Gf2.set Verif.Gf2.set
  simp only [inter_alone]

@[inter_alone] theorem Gf2.setZero_alone (e : Gf2) : (Inter.Gf2.setZero e).alone = Verif.Gf2.setZero e := by
  unfold Inter.Gf2.setZero Verif.Gf2.setZero
  simp only [inter_alone]

@[inter_alone] theorem Gf2.setOne_alone (e : Gf2) : (Inter.Gf2.setOne e).alone = Verif.Gf2.setOne e := by
  unfold Inter.Gf2.setOne Verif.Gf2.setOne
  simp only [inter_alone]

@[inter_alone] theorem Gf2.minimal_alone (e : Gf2) : (Inter.Gf2.minimal e).alone = Verif.Gf2.minimal e := by
  unfold Inter.Gf2.minimal Verif.Gf2.minimal
  simp only [inter_alone]

@[inter_alone] theorem Gf2.isZero_alone (e : Gf2) : (Inter.Gf2.isZero e).alone = Verif.Gf2.isZero e := by
  unfold Inter.Gf2.isZero Verif.Gf2.isZero
  simp only [inter_alone]

@[inter_alone] theorem Gf2.isOne_alone (e : Gf2) : (Inter.Gf2.isOne e).alone = Verif.Gf2.isOne e := by
  unfold Inter.Gf2.isOne Verif.Gf2.isOne
  simp only [inter_alone]

@[inter_alone] theorem Gf2.conj_alone (e a : Gf2) : (Inter.Gf2.conj e a).alone = Verif.Gf2.conj e a := by
  unfold Inter.Gf2.conj Verif.Gf2.conj
  simp only [inter_alone]

@[inter_alone] theorem Gf2.neg_alone (e a : Gf2) : (Inter.Gf2.neg e a).alone = Verif.Gf2.neg e a := by
  unfold Inter.Gf2.neg Verif.Gf2.neg
  simp only [inter_alone]

@[inter_alone] theorem Gf2.add_alone (e a b : Gf2) : (Inter.Gf2.add e a b).alone = Verif.Gf2.add e a b := by
  unfold Inter.Gf2.add Verif.Gf2.add
  simp only [inter_alone]

@[inter_alone] theorem Gf2.sub_alone (e a b : Gf2) : (Inter.Gf2.sub e a b).alone = Verif.Gf2.sub e a b := by
  unfold Inter.Gf2.sub Verif.Gf2.sub
  simp only [inter_alone]

@[inter_alone] theorem Gf2.double_alone (e a : Gf2) : (Inter.Gf2.double e a).alone = Verif.Gf2.double e a := by
  unfold Inter.Gf2.double Verif.Gf2.double
  simp only [inter_alone]

@[inter_alone] theorem Gf2.mul_alone (e a b : Gf2) : (Inter.Gf2.mul e a b).alone = Verif.Gf2.mul e a b := by
  unfold Inter.Gf2.mul Verif.Gf2.mul
  simp only [inter_alone]

@[inter_alone] theorem Gf2.mulScalar_alone (e a : Gf2) (b : Cell) :
    (Inter.Gf2.mulScalar e a b).alone = Verif.Gf2.mulScalar e a b := by
  unfold Inter.Gf2.mulScalar Verif.Gf2.mulScalar
  simp only [inter_alone]

@[inter_alone] theorem Gf2.mulXi_alone (e a : Gf2) : (Inter.Gf2.mulXi e a).alone = Verif.Gf2.mulXi e a := by
  unfold Inter.Gf2.mulXi Verif.Gf2.mulXi
  simp only [inter_alone]

@[inter_alone] theorem Gf2.square_alone (e a : Gf2) : (Inter.Gf2.square e a).alone = Verif.Gf2.square e a := by
  unfold Inter.Gf2.square Verif.Gf2.square
  simp only [inter_alone]

@[inter_alone] theorem Gf2.invert_alone (e a : Gf2) : (Inter.Gf2.invert e a).alone = Verif.Gf2.invert e a := by
  unfold Inter.Gf2.invert Verif.Gf2.invert
  simp only [inter_alone]

@[inter_alone] theorem Gf2.expLoop_alone (sum t a : Gf2) (power : Int) :
    ∀ x0, (Inter.Gf2.expLoop sum t a power x0).alone = Verif.Gf2.expLoop sum t a power x0
  | 0 => by
    unfold Inter.Gf2.expLoop Verif.Gf2.expLoop
    simp only [inter_alone]
  | n + 1 => by
    unfold Inter.Gf2.expLoop Verif.Gf2.expLoop
    simp only [inter_alone, Gf2.expLoop_alone _ _ _ _ n]

@[inter_alone] theorem Gf2.exp_alone (c a : Gf2) (power : Int) : (Inter.Gf2.exp c a power).alone = Verif.Gf2.exp c a power := by
  unfold Inter.Gf2.exp Verif.Gf2.exp
  simp only [inter_alone]

@[inter_alone] theorem Gf6.new_alone : (Inter.Gf6.new).alone = Verif.Gf6.new  := by
  unfold Inter.Gf6.new Verif.Gf6.new
  simp only [inter_alone]

@[inter_alone] theorem Gf6.put_alone (e : Gf6) : (Inter.Gf6.put e).alone = Verif.Gf6.put e := by
  unfold Inter.Gf6.put Verif.Gf6.put
  simp only [inter_alone]

@[inter_alone] theorem Gf6.set_alone (e a : Gf6) : (Inter.Gf6.set e a).alone = Verif.Gf6.set e a := by
  unfold Inter.Gf6.set Verif.Gf6.set
  simp only [inter_alone]

@[inter_alone] theorem Gf6.setZero_alone (e : Gf6) : (Inter.Gf6.setZero e).alone = Verif.Gf6.setZero e := by
  unfold Inter.Gf6.setZero Verif.Gf6.setZero
  simp only [inter_alone]

@[inter_alone] theorem Gf6.setOne_alone (e : Gf6) : (Inter.Gf6.setOne e).alone = Verif.Gf6.setOne e := by
  unfold Inter.Gf6.setOne Verif.Gf6.setOne
  simp only [inter_alone]

@[inter_alone] theorem Gf6.minimal_alone (e : Gf6) : (Inter.Gf6.minimal e).alone = Verif.Gf6.minimal e := by
  unfold Inter.Gf6.minimal Verif.Gf6.minimal
  simp only [inter_alone]

@[inter_alone] theorem Gf6.isZero_alone (e : Gf6) : (Inter.Gf6.isZero e).alone = Verif.Gf6.isZero e := by
  unfold Inter.Gf6.isZero Verif.Gf6.isZero
  simp only [inter_alone]

@[inter_alone] theorem Gf6.isOne_alone (e : Gf6) : (Inter.Gf6.isOne e).alone = Verif.Gf6.isOne e := by
  unfold Inter.Gf6.isOne Verif.Gf6.isOne
  simp only [inter_alone]

@[inter_alone] theorem Gf6.neg_alone (e a : Gf6) : (Inter.Gf6.neg e a).alone = Verif.Gf6.neg e a := by
  unfold Inter.Gf6.neg Verif.Gf6.neg
  simp only [inter_alone]

@[inter_alone] theorem Gf6.frobenius_alone (e a : Gf6) (g : BnGlobals) :
    (Inter.Gf6.frobenius e a g).alone = Verif.Gf6.frobenius e a g := by
  unfold Inter.Gf6.frobenius Verif.Gf6.frobenius
  simp only [inter_alone]

@[inter_alone] theorem Gf6.frobeniusP2_alone (e a : Gf6) (g : BnGlobals) :
    (Inter.Gf6.frobeniusP2 e a g).alone = Verif.Gf6.frobeniusP2 e a g := by
  unfold Inter.Gf6.frobeniusP2 Verif.Gf6.frobeniusP2
  simp only [inter_alone]

@[inter_alone] theorem Gf6.add_alone (e a b : Gf6) : (Inter.Gf6.add e a b).alone = Verif.Gf6.add e a b := by
  unfold Inter.Gf6.add Verif.Gf6.add
  simp only [inter_alone]

@[inter_alone] theorem Gf6.sub_alone (e a b : Gf6) : (Inter.Gf6.sub e a b).alone = Verif.Gf6.sub e a b := by
  unfold Inter.Gf6.sub Verif.Gf6.sub
  simp only [inter_alone]

@[inter_alone] theorem Gf6.double_alone (e a : Gf6) : (Inter.Gf6.double e a).alone = Verif.Gf6.double e a := by
  unfold Inter.Gf6.double Verif.Gf6.double
  simp only [inter_alone]

@[inter_alone] theorem Gf6.mul_alone (e a b : Gf6) : (Inter.Gf6.mul e a b).alone = Verif.Gf6.mul e a b := by
  unfold Inter.Gf6.mul Verif.Gf6.mul
  simp only [inter_alone]

@[inter_alone] theorem Gf6.mulScalar_alone (e a : Gf6) (b : Gf2) :
    (Inter.Gf6.mulScalar e a b).alone = Verif.Gf6.mulScalar e a b := by
  unfold Inter.Gf6.mulScalar Verif.Gf6.mulScalar
  simp only [inter_alone]

@[inter_alone] theorem Gf6.mulGFP_alone (e a : Gf6) (b : Cell) : (Inter.Gf6.mulGFP e a b).alone = Verif.Gf6.mulGFP e a b := by
  unfold Inter.Gf6.mulGFP Verif.Gf6.mulGFP
  simp only [inter_alone]

@[inter_alone] theorem Gf6.mulTau_alone (e a : Gf6) : (Inter.Gf6.mulTau e a).alone = Verif.Gf6.mulTau e a := by
  unfold Inter.Gf6.mulTau Verif.Gf6.mulTau
  simp only [inter_alone]

@[inter_alone] theorem Gf6.square_alone (e a : Gf6) : (Inter.Gf6.square e a).alone = Verif.Gf6.square e a := by
  unfold Inter.Gf6.square Verif.Gf6.square
  simp only [inter_alone]

@[inter_alone] theorem Gf6.invert_alone (e a : Gf6) : (Inter.Gf6.invert e a).alone = Verif.Gf6.invert e a := by
  unfold Inter.Gf6.invert Verif.Gf6.invert
  simp only [inter_alone]

@[inter_alone] theorem Gf12.new_alone : (Inter.Gf12.new).alone = Verif.Gf12.new  := by
  unfold Inter.Gf12.new Verif.Gf12.new
  simp only [inter_alone]

@[inter_alone] theorem Gf12.put_alone (e : Gf12) : (Inter.Gf12.put e).alone = Verif.Gf12.put e := by
  unfold Inter.Gf12.put Verif.Gf12.put
  simp only [inter_alone]

@[inter_alone] theorem Gf12.set_alone (e a : Gf12) : (Inter.Gf12.set e a).alone = Verif.Gf12.set e a := by
  unfold Inter.Gf12.set Verif.Gf12.set
  simp only [inter_alone]

@[inter_alone] theorem Gf12.setZero_alone (e : Gf12) : (Inter.Gf12.setZero e).alone = Verif.Gf12.setZero e := by
  unfold Inter.Gf12.setZero Verif.Gf12.setZero
  simp only [inter_alone]

@[inter_alone] theorem Gf12.setOne_alone (e : Gf12) : (Inter.Gf12.setOne e).alone = Verif.Gf12.setOne e := by
  unfold Inter.Gf12.setOne Verif.Gf12.setOne
  simp only [inter_alone]

@[inter_alone] theorem Gf12.minimal_alone (e : Gf12) : (Inter.Gf12.minimal e).alone = Verif.Gf12.minimal e := by
  unfold Inter.Gf12.minimal Verif.Gf12.minimal
  simp only [inter_alone]

@[inter_alone] theorem Gf12.isZero_alone (e : Gf12) : (Inter.Gf12.isZero e).alone = Verif.Gf12.isZero e := by
  unfold Inter.Gf12.isZero Verif.Gf12.isZero
  simp only [inter_alone]

@[inter_alone] theorem Gf12.isOne_alone (e : Gf12) : (Inter.Gf12.isOne e).alone = Verif.Gf12.isOne e := by
  unfold Inter.Gf12.isOne Verif.Gf12.isOne
  simp only [inter_alone]

@[inter_alone] theorem Gf12.conj_alone (e a : Gf12) : (Inter.Gf12.conj e a).alone = Verif.Gf12.conj e a := by
  unfold Inter.Gf12.conj Verif.Gf12.conj
  simp only [inter_alone]

@[inter_alone] theorem Gf12.neg_alone (e a : Gf12) : (Inter.Gf12.neg e a).alone = Verif.Gf12.neg e a := by
  unfold Inter.Gf12.neg Verif.Gf12.neg
  simp only [inter_alone]

@[inter_alone] theorem Gf12.frobenius_alone (e a : Gf12) (g : BnGlobals) :
    (Inter.Gf12.frobenius e a g).alone = Verif.Gf12.frobenius e a g := by
  unfold Inter.Gf12.frobenius Verif.Gf12.frobenius
  simp only [inter_alone]

@[inter_alone] theorem Gf12.frobeniusP2_alone (e a : Gf12) (g : BnGlobals) :
    (Inter.Gf12.frobeniusP2 e a g).alone = Verif.Gf12.frobeniusP2 e a g := by
  unfold Inter.Gf12.frobeniusP2 Verif.Gf12.frobeniusP2
  simp only [inter_alone]

@[inter_alone] theorem Gf12.add_alone (e a b : Gf12) : (Inter.Gf12.add e a b).alone = Verif.Gf12.add e a b := by
  unfold Inter.Gf12.add Verif.Gf12.add
  simp only [inter_alone]

@[inter_alone] theorem Gf12.sub_alone (e a b : Gf12) : (Inter.Gf12.sub e a b).alone = Verif.Gf12.sub e a b := by
  unfold Inter.Gf12.sub Verif.Gf12.sub
  simp only [inter_alone]

@[inter_alone] theorem Gf12.mul_alone (e a b : Gf12) : (Inter.Gf12.mul e a b).alone = Verif.Gf12.mul e a b := by
  unfold Inter.Gf12.mul Verif.Gf12.mul
  simp only [inter_alone]

@[inter_alone] theorem Gf12.mulScalar_alone (e _a : Gf12) (b : Gf6) :
    (Inter.Gf12.mulScalar e _a b).alone = Verif.Gf12.mulScalar e _a b := by
  unfold Inter.Gf12.mulScalar Verif.Gf12.mulScalar
  simp only [inter_alone]

@[inter_alone] theorem Gf12.square_alone (e a : Gf12) : (Inter.Gf12.square e a).alone = Verif.Gf12.square e a := by
  unfold Inter.Gf12.square Verif.Gf12.square
  simp only [inter_alone]

@[inter_alone] theorem Gf12.expLoop_alone (sum t a : Gf12) (power : Int) :
    ∀ x0, (Inter.Gf12.expLoop sum t a power x0).alone = Verif.Gf12.expLoop sum t a power x0
  | 0 => by
    unfold Inter.Gf12.expLoop Verif.Gf12.expLoop
    simp only [inter_alone]
  | n + 1 => by
    unfold Inter.Gf12.expLoop Verif.Gf12.expLoop
    simp only [inter_alone, Gf12.expLoop_alone _ _ _ _ n]

@[inter_alone] theorem Gf12.exp_alone (c a : Gf12) (power : Int) :
    (Inter.Gf12.exp c a power).alone = Verif.Gf12.exp c a power := by
  unfold Inter.Gf12.exp Verif.Gf12.exp
  simp only [inter_alone]

@[inter_alone] theorem Gf12.invert_alone (e a : Gf12) : (Inter.Gf12.invert e a).alone = Verif.Gf12.invert e a := by
  unfold Inter.Gf12.invert Verif.Gf12.invert
  simp only [inter_alone]

@[inter_alone] theorem CurveP.new_alone : (Inter.CurveP.new).alone = Verif.CurveP.new  := by
  unfold Inter.CurveP.new Verif.CurveP.new
  simp only [inter_alone]

@[inter_alone] theorem CurveP.put_alone (c : CurveP) : (Inter.CurveP.put c).alone = Verif.CurveP.put c := by
  unfold Inter.CurveP.put Verif.CurveP.put
  simp only [inter_alone]

@[inter_alone] theorem CurveP.set_alone (c a : CurveP) : (Inter.CurveP.set c a).alone = Verif.CurveP.set c a := by
  unfold Inter.CurveP.set Verif.CurveP.set
  simp only [inter_alone]

@[inter_alone] theorem CurveP.isOnCurve_alone (c : CurveP) : (Inter.CurveP.isOnCurve c).alone = Verif.CurveP.isOnCurve c := by
  unfold Inter.CurveP.isOnCurve Verif.CurveP.isOnCurve
  simp only [inter_alone]

@[inter_alone] theorem CurveP.setInfinity_alone (c : CurveP) :
    (Inter.CurveP.setInfinity c).alone = Verif.CurveP.setInfinity c := by
  unfold Inter.CurveP.setInfinity Verif.CurveP.setInfinity
  simp only [inter_alone]

@[inter_alone] theorem CurveP.isInfinity_alone (c : CurveP) : (Inter.CurveP.isInfinity c).alone = Verif.CurveP.isInfinity c := by
  unfold Inter.CurveP.isInfinity Verif.CurveP.isInfinity
  simp only [inter_alone]

@[inter_alone] theorem CurveP.double_alone (c a : CurveP) : (Inter.CurveP.double c a).alone = Verif.CurveP.double c a := by
  unfold Inter.CurveP.double Verif.CurveP.double
  simp only [inter_alone]

@[inter_alone] theorem CurveP.addTail_alone (c a b : CurveP) (z1z1 z2z2 u1 u2 t s1 s2 h i j : Cell) :
    (Inter.CurveP.addTail c a b z1z1 z2z2 u1 u2 t s1 s2 h i j).alone = Verif.CurveP.addTail c a b z1z1 z2z2 u1 u2 t s1 s2 h i j := by
  unfold Inter.CurveP.addTail Verif.CurveP.addTail
  simp only [inter_alone]

@[inter_alone] theorem CurveP.addGeneral_alone (c a b : CurveP) :
    (Inter.CurveP.addGeneral c a b).alone = Verif.CurveP.addGeneral c a b := by
  unfold Inter.CurveP.addGeneral Verif.CurveP.addGeneral
  simp only [inter_alone]

@[inter_alone] theorem CurveP.add_alone (c a b : CurveP) : (Inter.CurveP.add c a b).alone = Verif.CurveP.add c a b := by
  unfold Inter.CurveP.add Verif.CurveP.add
  simp only [inter_alone]

@[inter_alone] theorem CurveP.mulLoop_alone (sum t a : CurveP) (k : Int) :
    ∀ x0, (Inter.CurveP.mulLoop sum t a k x0).alone = Verif.CurveP.mulLoop sum t a k x0
  | 0 => by
    unfold Inter.CurveP.mulLoop Verif.CurveP.mulLoop
    simp only [inter_alone]
  | n + 1 => by
    unfold Inter.CurveP.mulLoop Verif.CurveP.mulLoop
    simp only [inter_alone, CurveP.mulLoop_alone _ _ _ _ n]

@[inter_alone] theorem CurveP.mul_alone (c a : CurveP) (k : Int) : (Inter.CurveP.mul c a k).alone = Verif.CurveP.mul c a k := by
  unfold Inter.CurveP.mul Verif.CurveP.mul
  simp only [inter_alone]

@[inter_alone] theorem CurveP.makeAffineTail_alone (c : CurveP) :
    (Inter.CurveP.makeAffineTail c).alone = Verif.CurveP.makeAffineTail c := by
  unfold Inter.CurveP.makeAffineTail Verif.CurveP.makeAffineTail
  simp only [inter_alone]

@[inter_alone] theorem CurveP.makeAffine_alone (c : CurveP) : (Inter.CurveP.makeAffine c).alone = Verif.CurveP.makeAffine c := by
  unfold Inter.CurveP.makeAffine Verif.CurveP.makeAffine
  simp only [inter_alone]

@[inter_alone] theorem CurveP.neg_alone (c a : CurveP) : (Inter.CurveP.neg c a).alone = Verif.CurveP.neg c a := by
  unfold Inter.CurveP.neg Verif.CurveP.neg
  simp only [inter_alone]

@[inter_alone] theorem TwistP.new_alone : (Inter.TwistP.new).alone = Verif.TwistP.new  := by
  unfold Inter.TwistP.new Verif.TwistP.new
  simp only [inter_alone]

@[inter_alone] theorem TwistP.put_alone (c : TwistP) : (Inter.TwistP.put c).alone = Verif.TwistP.put c := by
  unfold Inter.TwistP.put Verif.TwistP.put
  simp only [inter_alone]

@[inter_alone] theorem TwistP.set_alone (c a : TwistP) : (Inter.TwistP.set c a).alone = Verif.TwistP.set c a := by
  unfold Inter.TwistP.set Verif.TwistP.set
  simp only [inter_alone]

@[inter_alone] theorem TwistP.isOnCurve_alone (c : TwistP) (twistB : Gf2) :
    (Inter.TwistP.isOnCurve c twistB).alone = Verif.TwistP.isOnCurve c twistB := by
  unfold Inter.TwistP.isOnCurve Verif.TwistP.isOnCurve
  simp only [inter_alone]

@[inter_alone] theorem TwistP.setInfinity_alone (c : TwistP) :
    (Inter.TwistP.setInfinity c).alone = Verif.TwistP.setInfinity c := by
  unfold Inter.TwistP.setInfinity Verif.TwistP.setInfinity
  simp only [inter_alone]

@[inter_alone] theorem TwistP.isInfinity_alone (c : TwistP) : (Inter.TwistP.isInfinity c).alone = Verif.TwistP.isInfinity c := by
  unfold Inter.TwistP.isInfinity Verif.TwistP.isInfinity
  simp only [inter_alone]

@[inter_alone] theorem TwistP.double_alone (c a : TwistP) : (Inter.TwistP.double c a).alone = Verif.TwistP.double c a := by
  unfold Inter.TwistP.double Verif.TwistP.double
  simp only [inter_alone]

@[inter_alone] theorem TwistP.addTail_alone (c a b : TwistP) (z1z1 z2z2 u1 u2 t s1 s2 h i j : Gf2) :
    (Inter.TwistP.addTail c a b z1z1 z2z2 u1 u2 t s1 s2 h i j).alone = Verif.TwistP.addTail c a b z1z1 z2z2 u1 u2 t s1 s2 h i j := by
  unfold Inter.TwistP.addTail Verif.TwistP.addTail
  simp only [inter_alone]

@[inter_alone] theorem TwistP.addGeneral_alone (c a b : TwistP) :
    (Inter.TwistP.addGeneral c a b).alone = Verif.TwistP.addGeneral c a b := by
  unfold Inter.TwistP.addGeneral Verif.TwistP.addGeneral
  simp only [inter_alone]

@[inter_alone] theorem TwistP.add_alone (c a b : TwistP) : (Inter.TwistP.add c a b).alone = Verif.TwistP.add c a b := by
  unfold Inter.TwistP.add Verif.TwistP.add
  simp only [inter_alone]

@[inter_alone] theorem TwistP.mulLoop_alone (sum t a : TwistP) (k : Int) :
    ∀ x0, (Inter.TwistP.mulLoop sum t a k x0).alone = Verif.TwistP.mulLoop sum t a k x0
  | 0 => by
    unfold Inter.TwistP.mulLoop Verif.TwistP.mulLoop
    simp only [inter_alone]
  | n + 1 => by
    unfold Inter.TwistP.mulLoop Verif.TwistP.mulLoop
    simp only [inter_alone, TwistP.mulLoop_alone _ _ _ _ n]

@[inter_alone] theorem TwistP.mul_alone (c a : TwistP) (k : Int) : (Inter.TwistP.mul c a k).alone = Verif.TwistP.mul c a k := by
  unfold Inter.TwistP.mul Verif.TwistP.mul
  simp only [inter_alone]

@[inter_alone] theorem TwistP.makeAffineTail_alone (c : TwistP) :
    (Inter.TwistP.makeAffineTail c).alone = Verif.TwistP.makeAffineTail c := by
  unfold Inter.TwistP.makeAffineTail Verif.TwistP.makeAffineTail
  simp only [inter_alone]

@[inter_alone] theorem TwistP.makeAffine_alone (c : TwistP) : (Inter.TwistP.makeAffine c).alone = Verif.TwistP.makeAffine c := by
  unfold Inter.TwistP.makeAffine Verif.TwistP.makeAffine
  simp only [inter_alone]

@[inter_alone] theorem TwistP.neg_alone (c a : TwistP) : (Inter.TwistP.neg c a).alone = Verif.TwistP.neg c a := by
  unfold Inter.TwistP.neg Verif.TwistP.neg
  simp only [inter_alone]

@[inter_alone] theorem lineAddH_alone (r p : TwistP) (q : CurveP) (r2 : Gf2) :
    (Inter.lineAddH r p q r2).alone = Verif.lineAddH r p q r2 := by
  unfold Inter.lineAddH Verif.lineAddH
  simp only [inter_alone]

@[inter_alone] theorem lineDoubleH_alone (r : TwistP) (q : CurveP) : (Inter.lineDoubleH r q).alone = Verif.lineDoubleH r q := by
  unfold Inter.lineDoubleH Verif.lineDoubleH
  simp only [inter_alone]

@[inter_alone] theorem mulLineH_alone (ret : Gf12) (a b c : Gf2) :
    (Inter.mulLineH ret a b c).alone = Verif.mulLineH ret a b c := by
  unfold Inter.mulLineH Verif.mulLineH
  simp only [inter_alone]

@[inter_alone] theorem lineUse_alone (ret : Gf12) (r : TwistP) (l : Gf2 × Gf2 × Gf2 × TwistP) :
    (Inter.lineUse ret r l).alone = Verif.lineUse ret r l := by
  unfold Inter.lineUse Verif.lineUse
  simp only [inter_alone]

@[inter_alone] theorem millerStepH_alone (ret : Gf12) (aAffine minusA : TwistP) (bAffine : CurveP) (r2 : Gf2) (first : Bool) (digit : Int) (r : TwistP) :
    (Inter.millerStepH ret aAffine minusA bAffine r2 first digit r).alone = Verif.millerStepH ret aAffine minusA bAffine r2 first digit r := by
  unfold Inter.millerStepH Verif.millerStepH
  simp only [inter_alone]

@[inter_alone] theorem millerLoopH_alone (ret : Gf12) (aAffine minusA : TwistP) (bAffine : CurveP) (r2 : Gf2) :
    ∀ x0 x1 x2, (Inter.millerLoopH ret aAffine minusA bAffine r2 x0 x1 x2).alone = Verif.millerLoopH ret aAffine minusA bAffine r2 x0 x1 x2
  | _, [], r => rfl
  | first, d :: ds, r => by
    unfold Inter.millerLoopH Verif.millerLoopH
    simp only [inter_alone, millerLoopH_alone _ _ _ _ _ _ ds]

@[inter_alone] theorem millerTail_alone (g : BnGlobals) (ret : Gf12) (aAffine minusA : TwistP) (bAffine : CurveP) (r2 : Gf2) (r : TwistP) :
    (Inter.millerTail g ret aAffine minusA bAffine r2 r).alone = Verif.millerTail g ret aAffine minusA bAffine r2 r := by
  unfold Inter.millerTail Verif.millerTail
  simp only [inter_alone]

@[inter_alone] theorem millerH_alone (g : BnGlobals) (q : TwistP) (p : CurveP) :
    (Inter.millerH g q p).alone = Verif.millerH g q p := by
  unfold Inter.millerH Verif.millerH
  simp only [inter_alone]

@[inter_alone] theorem finalExponentiationH_alone (g : BnGlobals) (inp : Gf12) :
    (Inter.finalExponentiationH g inp).alone = Verif.finalExponentiationH g inp := by
  unfold Inter.finalExponentiationH Verif.finalExponentiationH
  simp only [inter_alone]

@[inter_alone] theorem optimalAteH_alone (g : BnGlobals) (a : TwistP) (b : CurveP) :
    (Inter.optimalAteH g a b).alone = Verif.optimalAteH g a b := by
  unfold Inter.optimalAteH Verif.optimalAteH
  simp only [inter_alone]

@[inter_alone] theorem pairH_alone (g : BnGlobals) (g1 : CurveP) (g2 : TwistP) :
    (Inter.pairH g g1 g2).alone = Verif.pairH g g1 g2 := by
  unfold Inter.pairH Verif.pairH
  simp only [inter_alone]

@[inter_alone] theorem pairingCheckLoopH_alone (g : BnGlobals) (acc : Gf12) :
    ∀ x0 x1, (Inter.pairingCheckLoopH g acc x0 x1).alone = Verif.pairingCheckLoopH g acc x0 x1
  | [], _ => by unfold Inter.pairingCheckLoopH Verif.pairingCheckLoopH; simp only [inter_alone]
  | p :: a, [] => by
    unfold Inter.pairingCheckLoopH Verif.pairingCheckLoopH
    simp only [inter_alone, pairingCheckLoopH_alone _ _ a]
  | p :: a, q :: b => by
    unfold Inter.pairingCheckLoopH Verif.pairingCheckLoopH
    simp only [inter_alone, pairingCheckLoopH_alone _ _ a]

@[inter_alone] theorem pairingCheckH_alone (g : BnGlobals) (a : List CurveP) (b : List TwistP) :
    (Inter.pairingCheckH g a b).alone = Verif.pairingCheckH g a b := by
  unfold Inter.pairingCheckH Verif.pairingCheckH
  simp only [inter_alone]

@[inter_alone] theorem modNew_alone (c : Cell) : (Inter.modNew c).alone = Verif.modNew c := by
  unfold Inter.modNew Verif.modNew
  simp only [inter_alone]

@[inter_alone] theorem setBytesH_alone (c : Cell) (bs : List UInt8) : (Inter.setBytesH c bs).alone = Verif.setBytesH c bs := by
  unfold Inter.setBytesH Verif.setBytesH
  simp only [inter_alone]

@[inter_alone] theorem G1H.fill_alone : ∀ x0, (Inter.G1H.fill x0).alone = Verif.G1H.fill x0
  | some p => rfl
  | none => by unfold Inter.G1H.fill Verif.G1H.fill; simp only [inter_alone]

@[inter_alone] theorem G1H.setInfinity_alone : (Inter.G1H.setInfinity).alone = Verif.G1H.setInfinity  := by
  unfold Inter.G1H.setInfinity Verif.G1H.setInfinity
  simp only [inter_alone]

@[inter_alone] theorem G1H.scalarMult_alone (e : Option CurveP) (a : CurveP) (k : Int) :
    (Inter.G1H.scalarMult e a k).alone = Verif.G1H.scalarMult e a k := by
  unfold Inter.G1H.scalarMult Verif.G1H.scalarMult
  simp only [inter_alone]

@[inter_alone] theorem G1H.scalarBaseMult_alone (gen : CurveP) (e : Option CurveP) (k : Int) :
    (Inter.G1H.scalarBaseMult gen e k).alone = Verif.G1H.scalarBaseMult gen e k := by
  unfold Inter.G1H.scalarBaseMult Verif.G1H.scalarBaseMult
  simp only [inter_alone]

@[inter_alone] theorem G1H.add_alone (e : Option CurveP) (a b : CurveP) : (Inter.G1H.add e a b).alone = Verif.G1H.add e a b := by
  unfold Inter.G1H.add Verif.G1H.add
  simp only [inter_alone]

@[inter_alone] theorem G1H.neg_alone (e : Option CurveP) (a : CurveP) : (Inter.G1H.neg e a).alone = Verif.G1H.neg e a := by
  unfold Inter.G1H.neg Verif.G1H.neg
  simp only [inter_alone]

@[inter_alone] theorem G1H.setZero_alone (e : CurveP) : (Inter.G1H.setZero e).alone = Verif.G1H.setZero e := by
  unfold Inter.G1H.setZero Verif.G1H.setZero
  simp only [inter_alone]

@[inter_alone] theorem G1H.isZero_alone (e : CurveP) : (Inter.G1H.isZero e).alone = Verif.G1H.isZero e := by
  unfold Inter.G1H.isZero Verif.G1H.isZero
  simp only [inter_alone]

@[inter_alone] theorem G1H.marshal_alone (n : CurveP) : (Inter.G1H.marshal n).alone = Verif.G1H.marshal n := by
  unfold Inter.G1H.marshal Verif.G1H.marshal
  simp only [inter_alone]

@[inter_alone] theorem G1H.unmarshalTail_alone (p : CurveP) : (Inter.G1H.unmarshalTail p).alone = Verif.G1H.unmarshalTail p := by
  unfold Inter.G1H.unmarshalTail Verif.G1H.unmarshalTail
  simp only [inter_alone]

@[inter_alone] theorem G1H.unmarshal_alone (e : Option CurveP) (m : List UInt8) :
    (Inter.G1H.unmarshal e m).alone = Verif.G1H.unmarshal e m := by
  unfold Inter.G1H.unmarshal Verif.G1H.unmarshal
  simp only [inter_alone]

@[inter_alone] theorem G2H.fill_alone : ∀ x0, (Inter.G2H.fill x0).alone = Verif.G2H.fill x0
  | some p => rfl
  | none => by unfold Inter.G2H.fill Verif.G2H.fill; simp only [inter_alone]

@[inter_alone] theorem G2H.setInfinity_alone : (Inter.G2H.setInfinity).alone = Verif.G2H.setInfinity  := by
  unfold Inter.G2H.setInfinity Verif.G2H.setInfinity
  simp only [inter_alone]

@[inter_alone] theorem G2H.scalarMult_alone (e : Option TwistP) (a : TwistP) (k : Int) :
    (Inter.G2H.scalarMult e a k).alone = Verif.G2H.scalarMult e a k := by
  unfold Inter.G2H.scalarMult Verif.G2H.scalarMult
  simp only [inter_alone]

@[inter_alone] theorem G2H.scalarBaseMult_alone (gen : TwistP) (e : Option TwistP) (k : Int) :
    (Inter.G2H.scalarBaseMult gen e k).alone = Verif.G2H.scalarBaseMult gen e k := by
  unfold Inter.G2H.scalarBaseMult Verif.G2H.scalarBaseMult
  simp only [inter_alone]

@[inter_alone] theorem G2H.add_alone (e : Option TwistP) (a b : TwistP) : (Inter.G2H.add e a b).alone = Verif.G2H.add e a b := by
  unfold Inter.G2H.add Verif.G2H.add
  simp only [inter_alone]

@[inter_alone] theorem G2H.neg_alone (e : Option TwistP) (a : TwistP) : (Inter.G2H.neg e a).alone = Verif.G2H.neg e a := by
  unfold Inter.G2H.neg Verif.G2H.neg
  simp only [inter_alone]

@[inter_alone] theorem G2H.isZero_alone (e : TwistP) : (Inter.G2H.isZero e).alone = Verif.G2H.isZero e := by
  unfold Inter.G2H.isZero Verif.G2H.isZero
  simp only [inter_alone]

@[inter_alone] theorem G2H.marshal_alone (n : TwistP) : (Inter.G2H.marshal n).alone = Verif.G2H.marshal n := by
  unfold Inter.G2H.marshal Verif.G2H.marshal
  simp only [inter_alone]

@[inter_alone] theorem G2H.unmarshalTail_alone (twistB : Gf2) (p : TwistP) :
    (Inter.G2H.unmarshalTail twistB p).alone = Verif.G2H.unmarshalTail twistB p := by
  unfold Inter.G2H.unmarshalTail Verif.G2H.unmarshalTail
  simp only [inter_alone]

@[inter_alone] theorem G2H.unmarshal_alone (twistB : Gf2) (e : Option TwistP) (m : List UInt8) :
    (Inter.G2H.unmarshal twistB e m).alone = Verif.G2H.unmarshal twistB e m := by
  unfold Inter.G2H.unmarshal Verif.G2H.unmarshal
  simp only [inter_alone]

@[inter_alone] theorem GTH.fill_alone : ∀ x0, (Inter.GTH.fill x0).alone = Verif.GTH.fill x0
  | some p => rfl
  | none => by unfold Inter.GTH.fill Verif.GTH.fill; simp only [inter_alone]

@[inter_alone] theorem GTH.scalarMult_alone (e : Option Gf12) (a : Gf12) (k : Int) :
    (Inter.GTH.scalarMult e a k).alone = Verif.GTH.scalarMult e a k := by
  unfold Inter.GTH.scalarMult Verif.GTH.scalarMult
  simp only [inter_alone]

@[inter_alone] theorem GTH.invert_alone (e : Option Gf12) (a : Gf12) : (Inter.GTH.invert e a).alone = Verif.GTH.invert e a := by
  unfold Inter.GTH.invert Verif.GTH.invert
  simp only [inter_alone]

@[inter_alone] theorem GTH.exp_alone (_e : Option Gf12) (a : Gf12) (k : Int) :
    (Inter.GTH.exp _e a k).alone = Verif.GTH.exp _e a k := by
  unfold Inter.GTH.exp Verif.GTH.exp
  simp only [inter_alone]

@[inter_alone] theorem GTH.add_alone (e : Option Gf12) (a b : Gf12) : (Inter.GTH.add e a b).alone = Verif.GTH.add e a b := by
  unfold Inter.GTH.add Verif.GTH.add
  simp only [inter_alone]

@[inter_alone] theorem GTH.neg_alone (e : Option Gf12) (a : Gf12) : (Inter.GTH.neg e a).alone = Verif.GTH.neg e a := by
  unfold Inter.GTH.neg Verif.GTH.neg
  simp only [inter_alone]

@[inter_alone] theorem GTH.isZero_alone (e : Gf12) : (Inter.GTH.isZero e).alone = Verif.GTH.isZero e := by
  unfold Inter.GTH.isZero Verif.GTH.isZero
  simp only [inter_alone]

@[inter_alone] theorem GTH.isOne_alone (e : Gf12) : (Inter.GTH.isOne e).alone = Verif.GTH.isOne e := by
  unfold Inter.GTH.isOne Verif.GTH.isOne
  simp only [inter_alone]

@[inter_alone] theorem GTH.marshal_alone (n : Gf12) : (Inter.GTH.marshal n).alone = Verif.GTH.marshal n := by
  unfold Inter.GTH.marshal Verif.GTH.marshal
  simp only [inter_alone]

@[inter_alone] theorem GTH.unmarshal_alone (e : Option Gf12) (m : List UInt8) :
    (Inter.GTH.unmarshal e m).alone = Verif.GTH.unmarshal e m := by
  unfold Inter.GTH.unmarshal Verif.GTH.unmarshal
  simp only [inter_alone]

@[inter_alone] theorem Gf2.string_alone (e : Gf2) : (Inter.Gf2.string e).alone = Verif.Gf2.string e := by
  unfold Inter.Gf2.string Verif.Gf2.string
  simp only [inter_alone]

@[inter_alone] theorem Gf6.string_alone (e : Gf6) : (Inter.Gf6.string e).alone = Verif.Gf6.string e := by
  unfold Inter.Gf6.string Verif.Gf6.string
  simp only [inter_alone]

@[inter_alone] theorem GTH.string_alone (e : Gf12) : (Inter.GTH.string e).alone = Verif.GTH.string e := by
  unfold Inter.GTH.string Verif.GTH.string
  simp only [inter_alone]

@[inter_alone] theorem G2H.string_alone (c : TwistP) : (Inter.G2H.string c).alone = Verif.G2H.string c := by
  unfold Inter.G2H.string Verif.G2H.string
  simp only [inter_alone]

@[inter_alone] theorem commitH_alone (g : CcsGlobals) (x r : Int) (h : TwistP) :
    (Inter.commitH g x r h).alone = Verif.commitH g x r h := by
  unfold Inter.commitH Verif.commitH
  simp only [inter_alone]

@[inter_alone] theorem hashSetH_alone (sha : List UInt8 → List UInt8) (a : Gf12) (D : TwistP) :
    (Inter.hashSetH sha a D).alone = Verif.hashSetH sha a D := by
  unfold Inter.hashSetH Verif.hashSetH
  simp only [inter_alone]

@[inter_alone] theorem stringsH_alone : ∀ x0, (Inter.stringsH x0).alone = Verif.stringsH x0
  | [] => rfl
  | a :: as => by
    unfold Inter.stringsH Verif.stringsH
    simp only [inter_alone, stringsH_alone as]

@[inter_alone] theorem hashULH_alone (sha : List UInt8 → List UInt8) (a : List Gf12) (D : TwistP) :
    (Inter.hashULH sha a D).alone = Verif.hashULH sha a D := by
  unfold Inter.hashULH Verif.hashULH
  simp only [inter_alone]

@[inter_alone] theorem keygenH_alone (g : CcsGlobals) : ∀ x0, (Inter.keygenH g x0).alone = Verif.keygenH g x0
  | none => rfl
  | some k => by unfold Inter.keygenH Verif.keygenH; simp only [inter_alone]

@[inter_alone] theorem bbSignH_alone (g : CcsGlobals) (m privk : Int) :
    (Inter.bbSignH g m privk).alone = Verif.bbSignH g m privk := by
  unfold Inter.bbSignH Verif.bbSignH
  simp only [inter_alone]

@[inter_alone] theorem bbVerifyH_alone (g : CcsGlobals) (signature : TwistP) (m : Int) (pubk : CurveP) :
    (Inter.bbVerifyH g signature m pubk).alone = Verif.bbVerifyH g signature m pubk := by
  unfold Inter.bbVerifyH Verif.bbVerifyH
  simp only [inter_alone]

@[inter_alone] theorem signLoopH_alone (g : CcsGlobals) (privk : Option Int) :
    ∀ x0 x1, (Inter.signLoopH g privk x0 x1).alone = Verif.signLoopH g privk x0 x1
  | [], acc => rfl
  | m :: ms, acc => by
    unfold Inter.signLoopH Verif.signLoopH
    simp only [inter_alone, signLoopH_alone _ _ ms]

@[inter_alone] theorem setupSetH_alone (g : CcsGlobals) (s : List Int) (rnd : Option Int) :
    (Inter.setupSetH g s rnd).alone = Verif.setupSetH g s rnd := by
  unfold Inter.setupSetH Verif.setupSetH
  simp only [inter_alone]

@[inter_alone] theorem setupULH_alone (g : CcsGlobals) (u l : Int) (rnd : Option Int) :
    (Inter.setupULH g u l rnd).alone = Verif.setupULH g u l rnd := by
  unfold Inter.setupULH Verif.setupULH
  simp only [inter_alone]

@[inter_alone] theorem ccsAH_alone (g : CcsGlobals) (V : TwistP) (s t : Int) :
    (Inter.ccsAH g V s t).alone = Verif.ccsAH g V s t := by
  unfold Inter.ccsAH Verif.ccsAH
  simp only [inter_alone]

@[inter_alone] theorem proveSetH_alone (g : CcsGlobals) (sha : List UInt8 → List UInt8) (x r : Int) (p : ParamsSetH) (m v s t : Int) :
    (Inter.proveSetH g sha x r p m v s t).alone = Verif.proveSetH g sha x r p m v s t := by
  unfold Inter.proveSetH Verif.proveSetH
  simp only [inter_alone]
  congr 1
  funext D0
  cases p.signatures.lookup x <;> simp only [inter_alone]

@[inter_alone] theorem ccsRhsH_alone (g : CcsGlobals) (pubk : CurveP) (V : TwistP) (c zsig zv : Int) :
    (Inter.ccsRhsH g pubk V c zsig zv).alone = Verif.ccsRhsH g pubk V c zsig zv := by
  unfold Inter.ccsRhsH Verif.ccsRhsH
  simp only [inter_alone]

@[inter_alone] theorem verifySetH_alone (g : CcsGlobals) (pr : ProofSetH) (p : ParamsSetH) :
    (Inter.verifySetH g pr p).alone = Verif.verifySetH g pr p := by
  unfold Inter.verifySetH Verif.verifySetH
  simp only [inter_alone]

@[inter_alone] theorem proveULLoopH_alone (g : CcsGlobals) (p : ParamsULH) (v s t : Nat → Int) (D : TwistP) :
    ∀ x0 x1, (Inter.proveULLoopH g p v s t D x0 x1).alone = Verif.proveULLoopH g p v s t D x0 x1
  | i, [] => by unfold Inter.proveULLoopH Verif.proveULLoopH; simp only [inter_alone]
  | i, d :: ds => by
    unfold Inter.proveULLoopH Verif.proveULLoopH
    cases p.signatures.lookup d with
    | none => rfl
    | some A =>
      simp only [inter_alone, proveULLoopH_alone _ _ _ _ _ _ _ ds]
      congr! with A V a aux rest
      cases rest <;> rfl

@[inter_alone] theorem proveULH_alone (g : CcsGlobals) (sha : List UInt8 → List UInt8) (x r : Int) (p : ParamsULH) (m : Int) (v s t : Nat → Int) :
    (Inter.proveULH g sha x r p m v s t).alone = Verif.proveULH g sha x r p m v s t := by
  unfold Inter.proveULH Verif.proveULH
  simp only [inter_alone]
  congr! with decx D0 D res
  cases res <;> simp only [inter_alone]

@[inter_alone] theorem verifyULDH_alone (g : CcsGlobals) (u : Int) (zsig : List Int) (D : TwistP) :
    ∀ x0 x1, (Inter.verifyULDH g u zsig D x0 x1).alone = Verif.verifyULDH g u zsig D x0 x1
  | 0, i => rfl
  | n + 1, i => by
    unfold Inter.verifyULDH Verif.verifyULDH
    simp only [inter_alone, verifyULDH_alone _ _ _ _ n]

@[inter_alone] theorem verifyULAH_alone (g : CcsGlobals) (pubk : Option CurveP) (pr : ProofULH) :
    ∀ x0 x1 x2, (Inter.verifyULAH g pubk pr x0 x1 x2).alone = Verif.verifyULAH g pubk pr x0 x1 x2
  | 0, i, r2 => rfl
  | n + 1, i, r2 => by
    unfold Inter.verifyULAH Verif.verifyULAH
    simp only [inter_alone, verifyULAH_alone _ _ _ n]

@[inter_alone] theorem verifyULH_alone (g : CcsGlobals) (pr : ProofULH) (p : ParamsULH) :
    (Inter.verifyULH g pr p).alone = Verif.verifyULH g pr p := by
  unfold Inter.verifyULH Verif.verifyULH
  simp only [inter_alone]

@[inter_alone] theorem ccsSetupH_alone (g : CcsGlobals) (a b : Int) (rnd : Option Int) :
    (Inter.ccsSetupH g a b rnd).alone = Verif.ccsSetupH g a b rnd := by
  unfold Inter.ccsSetupH Verif.ccsSetupH
  simp only [inter_alone]

@[inter_alone] theorem ccsProveH_alone (g : CcsGlobals) (sha : List UInt8 → List UInt8) (p : Option CcsParamsH) (x r : Int) (w1 w2 : ULRandom) :
    (Inter.ccsProveH g sha p x r w1 w2).alone = Verif.ccsProveH g sha p x r w1 w2 := by
  unfold Inter.ccsProveH Verif.ccsProveH
  simp only [inter_alone]

@[inter_alone] theorem ccsVerifyH_alone (g : CcsGlobals) (pr : CcsProofH) (p : Option CcsParamsH) :
    (Inter.ccsVerifyH g pr p).alone = Verif.ccsVerifyH g pr p := by
  unfold Inter.ccsVerifyH Verif.ccsVerifyH
  simp only [inter_alone]

end Inter

end Verif

import Verif.Model.CcsHeap

/-!
# `VerifySet` and `VerifyUL` interrupted

`Marshal` makes the element it encodes affine, so `VerifySet` writes to the proof.  Here `VerifySet` is cut in two in the middle of
that: after `MakeAffine` has computed the inverse of `z` and before it uses it.  A second goroutine may run between the two parts.
The same is done for `VerifyUL`.
-/

namespace Verif

open BigM

/-- The beginning of `MakeAffine`, twist.go:237-242: nothing if `z` is 1, otherwise the inverse of `z`. -/
def TwistP.makeAffineHead (c : TwistP) : BigM (Option Gf2) := do
  if (← c.z.isOne) then pure none else do
    let zInv ← Gf2.new
    zInv.invert c.z
    pure (some zInv)

/-- The rest of `MakeAffine`, twist.go:243-256. -/
def TwistP.makeAffineRest (c : TwistP) : Option Gf2 → BigM Unit
  | none => pure ()
  | some zInv => do
    let t ← Gf2.new
    t.mul c.y zInv
    let zInv2 ← Gf2.new
    zInv2.square zInv
    c.y.mul t zInv2
    t.mul c.x zInv2
    c.x.set t
    c.z.setOne
    c.t.setOne
    zInv.put
    t.put
    zInv2.put

/-- `Marshal`, bn256.go:285-286, up to the middle of `MakeAffine`. -/
def G2H.marshalHead (n : TwistP) : BigM (Option Gf2) := withPool none n.makeAffineHead

/-- `Marshal`, bn256.go:286-303, from the middle of `MakeAffine`. -/
def G2H.marshalRest (n : TwistP) (z : Option Gf2) : BigM (List UInt8) := withPool none do
  n.makeAffineRest z
  let xx ← modNew n.x.x
  let xy ← modNew n.x.y
  let yx ← modNew n.y.x
  let yy ← modNew n.y.y
  pure (G1.be32 xx ++ G1.be32 xy ++ G1.be32 yx ++ G1.be32 yy)

/-- `VerifySet`, ccs08/ccs08.go:263-276: up to the middle of `proof_out.D.Marshal()`. -/
def verifySetHead (g : CcsGlobals) (pr : ProofSetH) (p : ParamsSetH) : BigM (List UInt8 × Option Gf2) := do
  let D ← G2H.scalarMult none pr.C pr.c
  let t ← G2H.scalarMult none p.H pr.zr
  let _ ← G2H.add (some D) D t
  let aux ← G2H.scalarBaseMult g.twistGen none pr.zsig
  let _ ← G2H.add (some D) D aux
  let DBytes ← G2H.marshal D
  let z ← G2H.marshalHead pr.D
  pure (DBytes, z)

/-- `VerifySet`, ccs08/ccs08.go:276-293: from there. -/
def verifySetRest (g : CcsGlobals) (pr : ProofSetH) (p : ParamsSetH) (h : List UInt8 × Option Gf2) : BigM Bool := do
  let pDBytes ← G2H.marshalRest pr.D h.2
  let r1 := h.1 == pDBytes
  let pubk ← ofRes (Res.ofOption p.kp.pubk)
  let p1 ← ccsRhsH g pubk pr.V pr.c pr.zsig pr.zv
  let pBytes ← GTH.marshal p1
  let aBytes ← GTH.marshal pr.a
  let r2 := pBytes == aBytes
  pure (r1 && r2)

/-- Two goroutines verify the same proof: the first is interrupted there, the second runs, and the first goes on. -/
def verifySetRace (g : CcsGlobals) (pr : ProofSetH) (p : ParamsSetH) : BigM (Bool × Bool) := do
  let h ← verifySetHead g pr p
  let second ← verifySetH g pr p
  let first ← verifySetRest g pr p h
  pure (first, second)

/-! ## `VerifyUL` -/

/-- `VerifyUL`, ccs08/ccs08.go:306-317: up to the middle of `proof_out.D.Marshal()`. -/
def verifyULHead (g : CcsGlobals) (pr : ProofULH) (p : ParamsULH) : BigM (List UInt8 × Option Gf2) := do
  let D ← G2H.scalarMult none pr.C pr.c
  let t ← G2H.scalarMult none p.H pr.zr
  let _ ← G2H.add (some D) D t
  verifyULDH g p.u pr.zsig D p.l.toNat 0
  let DBytes ← G2H.marshal D
  let z ← G2H.marshalHead pr.D
  pure (DBytes, z)

/-- `VerifyUL`, ccs08/ccs08.go:317-335: from there. -/
def verifyULRest (g : CcsGlobals) (pr : ProofULH) (p : ParamsULH) (h : List UInt8 × Option Gf2) : BigM Bool := do
  let pDBytes ← G2H.marshalRest pr.D h.2
  let r1 := h.1 == pDBytes
  let r2 ← verifyULAH g p.kp.pubk pr p.l.toNat 0 true
  pure (r1 && r2)

/-- Two goroutines verify the same proof for an interval: the first is interrupted there, the second runs, and the first goes on. -/
def verifyULRace (g : CcsGlobals) (pr : ProofULH) (p : ParamsULH) : BigM (Bool × Bool) := do
  let h ← verifyULHead g pr p
  let second ← verifyULH g pr p
  let first ← verifyULRest g pr p h
  pure (first, second)

/-! ## `Verify` -/

/-- Two goroutines call `Verify`, ccs08/ccs08.go:423-427, on the same range proof: on the first half as above, and then one after the
other on the second half. -/
def ccsVerifyRace (g : CcsGlobals) (pr : CcsProofH) (p : Option CcsParamsH) : BigM (Bool × Bool) := do
  let p ← ofRes (Res.ofOption p)
  let p1 ← ofRes (Res.ofOption pr.p1)
  let r ← verifyULRace g p1 p.p
  let p2 ← ofRes (Res.ofOption pr.p2)
  let second ← verifyULH g p2 p.p
  let first ← verifyULH g p2 p.p
  pure (r.1 && first, r.2 && second)

end Verif

import Verif.Model.Bp

/-!
# `Verify` with four repairs

This is not the code, but the code with the smallest changes under which the range proof is sound (C76):

* the challenges `x`, `y`, `z` and the exponent `e` of the inner-product argument are chosen by the verifier, `y` and `z`
  independently (the code takes `y = z`, and the prover's `U`);
* the parameters and the generator `u` are the verifier's (the code uses those in the proof);
* the inner-product proof is checked against the generators, `Commit` and `Tprime` of the range proof (the code uses the
  `Gg`, `Hh`, `P` and `U` in the inner-product proof);
* `Multiply` in place of `Add` in `CommitG1` and in the equation (67).
-/

namespace Verif.Spec
open Verif

/-- The verifier's challenges. -/
structure Challenges where
  x : Int
  y : Int
  z : Int
  e : Int

/-- `BulletProof.Verify`, bulletproofs/bp.go:244-334, with the repairs above. -/
def verifyFixed (E : Ext) (params : BPParams) (u : P256) (ch : Challenges) (proof : BPProof) : Res Bool := do
  let x := ch.x
  let y := ch.y
  let z := ch.z
  let hprime ← updateGenerators E params.Hh y params.N
  let lhs := (P256.scalarBaseMult E proof.Tprime).multiply E (params.H.scalarMult E proof.Taux)
  let z2 := (z * z) % ORDER
  let x2 := (x * x) % ORDER
  let rhs := proof.V.scalarMult E z2
  let delta ← Verif.delta params.N y z
  let gdelta := P256.scalarBaseMult E delta
  let rhs := rhs.multiply E gdelta
  let T1x := proof.T1.scalarMult E x
  let T2x2 := proof.T2.scalarMult E x2
  let rhs := rhs.multiply E T1x
  let rhs := rhs.multiply E T2x2
  let lhs := P256.neg E lhs lhs
  let rhs := rhs.multiply E lhs
  let c65 := rhs.isZero
  let Sx := proof.S.scalarMult E x
  let ASx := proof.A.multiply E Sx
  let mz := ORDER - z
  let vmz ← vectorCopy mz params.N
  let gpmz ← Res.ofOption (vectorExp E params.Gg vmz)
  let vz ← vectorCopy z params.N
  let vy ← powerOf y params.N
  let zyn := (vectorMul vy vz).getD []
  let p2n ← powerOf 2 params.N
  let zsquared := z * z
  let z22n := vectorScalarMul p2n zsquared
  let zynz22n := (vectorAdd zyn z22n).getD []
  let lP := ASx.multiply E gpmz
  let hprimeexp ← Res.ofOption (vectorExp E hprime zynz22n)
  let lP := lP.multiply E hprimeexp
  let rP := params.H.scalarMult E proof.Mu
  let rP := rP.multiply E proof.Commit
  let lP := P256.neg E lP lP
  let rP := rP.multiply E lP
  let c67 := rP.isZero
  let U := u.scalarMult E ch.e
  let P := proof.Commit.multiply E (U.scalarMult E proof.Tprime)
  let (ok, _) ← ipVerify E { proof.IP with
    U := U, Params := { proof.IP.Params with Gg := params.Gg, Hh := hprime, P := P } }
  .ok (c65 && c67 && ok)

end Verif.Spec

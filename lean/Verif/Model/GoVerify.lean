import Verif.Model.Json

/-!
# Model of `Verify` on proof objects with nil pointers

`Model/Bp.lean` and `Model/Bip.lean` model `Verify` on proofs without nil pointers.  A proof decoded from JSON may have
any pointer or slice nil (`GoBPProof`).  Here every pointer is dereferenced where the code does it: a nil `*P256` panics
in `IsZero`, `X` or `Y`; a nil `*big.Int` panics in any method, but is not noticed where `ScalarMult` returns early
because the point is infinite.  A nil slice is the empty list.  The order of evaluation of two operations that both
may panic is not modelled (a panic has no value).
-/

namespace Verif

/-- `ScalarMult`, crypto/p256/p256.go:107-121, for possibly nil arguments. -/
def goScalarMult (E : Ext) (a : Option P256) (n : Option Int) : Res P256 := do
  let a ← Res.ofOption a
  if a.isZero then .ok P256.infinity
  else do
    let n ← Res.ofOption n
    .ok (a.scalarMult E n)

/-- `ScalarBaseMult`, crypto/p256/p256.go:126-137, for a possibly nil argument. -/
def goScalarBaseMult (E : Ext) (n : Option Int) : Res P256 := do
  let n ← Res.ofOption n
  .ok (P256.scalarBaseMult E n)

/-- `Multiply`, crypto/p256/p256.go:145-165, for possibly nil arguments (both are dereferenced on every path). -/
def goMultiply (E : Ext) (a b : Option P256) : Res P256 := do
  let a ← Res.ofOption a
  let b ← Res.ofOption b
  .ok (a.multiply E b)

/-- `Add`, crypto/p256/p256.go:74-89, for possibly nil arguments (both are dereferenced on every path). -/
def goAdd (a b : Option P256) : Res P256 := do
  let a ← Res.ofOption a
  let b ← Res.ofOption b
  .ok (a.add b)

/-- `HashBP`, bulletproofs/util.go:54-80, for possibly nil arguments. -/
def goHashBP (E : Ext) (a s : Option P256) : Res (Int × Int) := do
  let a ← Res.ofOption a
  let s ← Res.ofOption s
  .ok (hashBP E a s)

/-- `CommitG1`, util/util.go:70-75, for possibly nil arguments. -/
def goCommitG1 (E : Ext) (x r : Option Int) (h : Option P256) : Res P256 := do
  let C ← goScalarBaseMult E x
  let Hr ← goScalarMult E h r
  .ok (C.add Hr)

/-- Loop of `VectorExp`, bulletproofs/util.go:97-100. -/
def goVectorExpLoop (E : Ext) : List (Option P256) → List Int → P256 → Res P256
  | p :: a, n :: b, result => do
    let q ← goScalarMult E p (some n)
    goVectorExpLoop E a b (result.multiply E q)
  | _, _, result => .ok result

/-- `VectorExp`, bulletproofs/util.go:85-102; different lengths give nil. -/
def goVectorExp (E : Ext) (a : List (Option P256)) (b : List Int) : Res (Option P256) :=
  if a.length ≠ b.length then .ok none
  else do
    let r ← goVectorExpLoop E a b P256.infinity
    .ok (some r)

/-- `vectorScalarExp`, bulletproofs/bip.go:305-316. -/
def goVectorScalarExp (E : Ext) (b : Option Int) : List (Option P256) → Res (List (Option P256))
  | [] => .ok []
  | p :: a => do
    let q ← goScalarMult E p b
    let r ← goVectorScalarExp E b a
    .ok (some q :: r)

/-- Loop of `VectorECAdd`, bulletproofs/vector.go:165-168. -/
def goVectorECAddLoop (E : Ext) : List (Option P256) → List (Option P256) → Res (List (Option P256))
  | p :: a, q :: b => do
    let s ← goMultiply E p q
    let r ← goVectorECAddLoop E a b
    .ok (some s :: r)
  | _, _ => .ok []

/-- `VectorECAdd`, bulletproofs/vector.go:153-170; different lengths give a nil slice. -/
def goVectorECAdd (E : Ext) (a b : List (Option P256)) : Res (List (Option P256)) :=
  if a.length ≠ b.length then .ok [] else goVectorECAddLoop E a b

/-- Loop of `updateGenerators`, bulletproofs/bp.go:365-369: `fuel` iterations from index `i`; `bn.Multiply` of a nil
pointer panics. -/
def goUpdateGeneratorsLoop (E : Ext) (Hh : List (Option P256)) (yinv : Option Int) :
    Nat → Nat → Option Int → Res (List (Option P256))
  | 0, _, _ => .ok []
  | fuel + 1, i, expy => do
    let hi ← idx Hh i
    let q ← goScalarMult E hi expy
    let e ← Res.ofOption expy
    let yi ← Res.ofOption yinv
    let r ← goUpdateGeneratorsLoop E Hh yinv fuel (i + 1) (some (e * yi))
    .ok (some q :: r)

/-- `updateGenerators`, bulletproofs/bp.go:354-371. -/
def goUpdateGenerators (E : Ext) (Hh : List (Option P256)) (y : Int) (n : Int) : Res (List (Option P256)) :=
  if n ≤ 0 then .panic
  else do
    let h0 ← idx Hh 0
    let r ← goUpdateGeneratorsLoop E Hh (modInverse y ORDER) (n.toNat - 1) 1 (modInverse y ORDER)
    .ok (h0 :: r)

/-- Loop of `InnerProductProof.Verify`, bulletproofs/bip.go:232-251. -/
def goIpVerifyLoop (E : Ext) : List (Option P256) → List (Option P256) → List (Option P256) → List (Option P256) →
    Option P256 → Int → Res (List (Option P256) × List (Option P256) × Option P256)
  | [], _, g, h, P, _ => .ok (g, h, P)
  | _ :: _, [], _, _, _, _ => .panic
  | L :: Ls, R :: Rs, g, h, P, n => do
    let n' := n.tdiv 2
    let (x, _) ← goHashBP E L R
    let xinv := modInverse x ORDER
    let gL ← sliceTo g n'
    let gR ← sliceFrom g n'
    let g1 ← goVectorScalarExp E xinv gL
    let g2 ← goVectorScalarExp E (some x) gR
    let g' ← goVectorECAdd E g1 g2
    let hL ← sliceTo h n'
    let hR ← sliceFrom h n'
    let h1 ← goVectorScalarExp E (some x) hL
    let h2 ← goVectorScalarExp E xinv hR
    let h' ← goVectorECAdd E h1 h2
    let x2 := (x * x) % ORDER
    let x2inv := modInverse x2 ORDER
    let Lx ← goScalarMult E L (some x2)
    let P ← goMultiply E P (some Lx)
    let Rx ← goScalarMult E R x2inv
    let P ← goMultiply E (some P) (some Rx)
    goIpVerifyLoop E Ls Rs g' h' (some P) n'

/-- `InnerProductProof.Verify`, bulletproofs/bip.go:220-266: the verdict and the value of `*proof.Params.P`
afterwards. -/
def goIpVerify (E : Ext) (proof : GoIPProof) : Res (Bool × P256) := do
  let (g, h, P) ← goIpVerifyLoop E (proof.Ls.getD []) (proof.Rs.getD []) (proof.Params.Gg.getD [])
    (proof.Params.Hh.getD []) proof.Params.P proof.N
  let A ← Res.ofOption proof.A
  let B ← Res.ofOption proof.B
  let ab := (A * B) % ORDER
  let g0 ← idx g 0
  let h0 ← idx h 0
  let rhs ← goScalarMult E g0 (some A)
  let hb ← goScalarMult E h0 (some B)
  let rhs := rhs.multiply E hb
  let Uab ← goScalarMult E proof.U (some ab)
  let rhs := rhs.multiply E Uab
  let P ← Res.ofOption P
  let nP := P256.neg E P P
  let nP := nP.multiply E rhs
  .ok (nP.isZero, nP)

/-- `BulletProof.Verify`, bulletproofs/bp.go:244-334, for a proof object with nil pointers. -/
def goVerify (E : Ext) (proof : GoBPProof) : Res (Bool × P256) := do
  let params := proof.Params
  let (x, _) ← goHashBP E proof.T1 proof.T2
  let (y, z) ← goHashBP E proof.A proof.S
  let hprime ← goUpdateGenerators E (params.Hh.getD []) y params.N
  let lhs ← goCommitG1 E proof.Tprime proof.Taux params.H
  let z2 := (z * z) % ORDER
  let x2 := (x * x) % ORDER
  let rhs ← goScalarMult E proof.V (some z2)
  let delta ← delta params.N y z
  let gdelta := P256.scalarBaseMult E delta
  let rhs := rhs.multiply E gdelta
  let T1x ← goScalarMult E proof.T1 (some x)
  let T2x2 ← goScalarMult E proof.T2 (some x2)
  let rhs := rhs.multiply E T1x
  let rhs := rhs.multiply E T2x2
  let lhs := P256.neg E lhs lhs
  let rhs := rhs.multiply E lhs
  let c65 := rhs.isZero
  let Sx ← goScalarMult E proof.S (some x)
  let ASx ← goAdd proof.A (some Sx)
  let mz := ORDER - z
  let vmz ← vectorCopy mz params.N
  let gpmz ← goVectorExp E (params.Gg.getD []) vmz
  let vz ← vectorCopy z params.N
  let vy ← powerOf y params.N
  let zyn := (vectorMul vy vz).getD []
  let p2n ← powerOf 2 params.N
  let zsquared := z * z
  let z22n := vectorScalarMul p2n zsquared
  let zynz22n := (vectorAdd zyn z22n).getD []
  let lP ← goAdd (some ASx) gpmz
  let hprimeexp ← goVectorExp E hprime zynz22n
  let lP ← goAdd (some lP) hprimeexp
  let rP ← goScalarMult E params.H proof.Mu
  let rP ← goMultiply E (some rP) proof.Commit
  let lP := P256.neg E lP lP
  let rP := rP.add lP
  let c67 := rP.isZero
  let (ok, P) ← goIpVerify E proof.InnerProductProof
  .ok (c65 && c67 && ok, P)

/-- `ProofBPRP.Verify`, bulletproofs/bprp.go:96-107, for a proof object with nil pointers: the verdict. -/
def goVerifyGeneric (E : Ext) (proof : GoBPRPProof) : Res Bool := do
  let (ok1, _) ← goVerify E proof.P1
  if !ok1 then .ok false
  else do
    let (ok2, _) ← goVerify E proof.P2
    .ok ok2

end Verif

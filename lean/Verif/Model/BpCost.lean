import Verif.Model.Bp

/-!
# The curve operations and allocations of `bulletproofs`

The functions of `bulletproofs` once more, this time with a log of what they ask of the libraries below them: calls of the curve and
slices made with `make`. The log is kept when the call panics. Everything else (arithmetic on big integers, hashing) is not logged.
`Lemmas/BpCost.lean` proves that the results are those of `Model/Bp.lean` and `Model/Bip.lean`. Where those models panic a little earlier
than the code (nil inverses and nil scalar products), the log ends a little earlier, too.
-/

namespace Verif

/-- What is logged. -/
inductive Ev where
  /-- `CURVE.ScalarMult(x, y, k)`, crypto/p256/p256.go:117, with the length of the byte slice `k`. -/
  | mult (bytes : Nat)
  /-- `CURVE.ScalarBaseMult(k)`, crypto/p256/p256.go:133, with the length of the byte slice `k`. -/
  | base (bytes : Nat)
  /-- `CURVE.Add`, crypto/p256/p256.go:85 and 161. -/
  | add
  /-- `CURVE.Double`, crypto/p256/p256.go:156. -/
  | double
  /-- `make([]T, n)`. -/
  | make (n : Nat)
  deriving DecidableEq, Repr

/-- A computation with its log. -/
structure Cost (α : Type) where
  log : List Ev
  res : Res α

namespace Cost

/-- Sequencing: the logs are concatenated; a panic aborts. -/
def bind {α β : Type} (m : Cost α) (f : α → Cost β) : Cost β :=
  match m.res with
  | .ok a => ⟨m.log ++ (f a).log, (f a).res⟩
  | .panic => ⟨m.log, .panic⟩

instance : Monad Cost where
  pure a := ⟨[], .ok a⟩
  bind := bind

/-- A computation that logs nothing. -/
def lift {α : Type} (r : Res α) : Cost α := ⟨[], r⟩

/-- Log one event. -/
def emit (e : Ev) : Cost Unit := ⟨[e], .ok ()⟩

/-- `make([]T, n)`: panics for `n < 0`. (For lengths beyond the address space Go panics as well, and where there is not enough memory the
process dies; both are left to the reader of the log.) -/
def make (n : Int) : Cost Unit := if n < 0 then lift .panic else emit (.make n.toNat)

end Cost

/-- Length of `n.Bytes()` for `n ≥ 0`. -/
def byteLen (n : Nat) : Nat := (Nat.digits 256 n).length

namespace P256

/-- `Add`, crypto/p256/p256.go:74-89. -/
def addC (a b : P256) : Cost P256 :=
  if a.isZero then pure b
  else if b.isZero then pure b
  else do
    .emit .add
    pure (ofPair (curveAdd a.x a.y b.x b.y))

/-- `ScalarMult`, crypto/p256/p256.go:107-121. -/
def scalarMultC (E : Ext) (a : P256) (n : Int) : Cost P256 :=
  if a.isZero then pure infinity
  else if n = 0 then pure infinity
  else do
    let n := (n % ORDER).toNat
    .emit (.mult (byteLen n))
    pure (E.scalarMult a.x a.y n)

/-- `ScalarBaseMult`, crypto/p256/p256.go:126-137. -/
def scalarBaseMultC (E : Ext) (n : Int) : Cost P256 :=
  if n = 0 then pure infinity
  else do
    let n := (n % ORDER).toNat
    .emit (.base (byteLen n))
    pure (E.scalarMult secpGx secpGy n)

/-- `Neg`, crypto/p256/p256.go:60-69. -/
def negC (E : Ext) (p a : P256) : Cost P256 :=
  if a.isZero then pure infinity else scalarMultC E p (ORDER - 1)

/-- `Multiply`, crypto/p256/p256.go:145-165. -/
def multiplyC (E : Ext) (a b : P256) : Cost P256 :=
  if a.isZero then pure b
  else if b.isZero then pure a
  else if a.x = b.x ∧ a.y = b.y then do
    .emit .double
    pure (E.double a.x a.y)
  else do
    .emit .add
    pure (ofPair (curveAdd a.x a.y b.x b.y))

end P256

/-- `CommitG1`, util/util.go:70-75. -/
def commitG1C (E : Ext) (x r : Int) (h : P256) : Cost P256 := do
  let C ← P256.scalarBaseMultC E x
  let Hr ← h.scalarMultC E r
  C.addC Hr

/-- `Decompose`, util/util.go:41-54. -/
def decomposeC (x u l : Int) : Cost (List Int) := do
  .make l
  .lift (decomposeLoop u l.toNat x)

/-- `computeAR`, bulletproofs/bp.go:376-388 (the slice is made before the loop, the error leaves nil). -/
def computeARC (x : List Int) : Cost (List Int) := do
  .make x.length
  pure ((computeAR x).getD [])

/-- `sampleRandomVector`, bulletproofs/bp.go:339-345, with the drawn vector given. -/
def sampleRandomVectorC (s : List Int) (n : Int) : Cost (List Int) := do
  .make n
  pure s

/-- `VectorCopy`, bulletproofs/vector.go:31-43. -/
def vectorCopyC (a n : Int) : Cost (List Int) := do
  .make n
  pure (List.replicate n.toNat a)

/-- `VectorConvertToBig`, bulletproofs/vector.go:48-60. -/
def vectorConvertToBigC (a : List Int) (n : Int) : Cost (List Int) := do
  .make n
  if (a.length : Int) < n then .lift .panic else pure (a.take n.toNat)

/-- `VectorAdd`, `VectorSub` and `VectorMul`, bulletproofs/vector.go:65-83, 88-106 and 130-148: nil for different lengths, with the
operation on the components as argument. -/
def vectorOpC (op : Int → Int → Int) (a b : List Int) : Cost (List Int) :=
  if a.length ≠ b.length then pure []
  else do
    .make a.length
    pure (List.zipWith (fun x y => op x y % ORDER) a b)

/-- `VectorScalarMul`, bulletproofs/vector.go:111-125. -/
def vectorScalarMulC (a : List Int) (b : Int) : Cost (List Int) := do
  .make a.length
  pure (a.map fun x => (x * b) % ORDER)

/-- `powerOf`, bulletproofs/util.go:34-49. -/
def powerOfC (x n : Int) : Cost (List Int) := do
  .make n
  pure (powerOfLoop x n.toNat 1)

/-- `delta`, bulletproofs/bp.go:418-445. -/
def deltaC (n y z : Int) : Cost Int := do
  let z2 := (z * z) % ORDER
  let z3 := (z2 * z) % ORDER
  let v1 ← vectorCopyC 1 n
  let vy ← powerOfC y n
  let sp1y ← Cost.lift (Res.ofOption (scalarProduct v1 vy))
  let p2n ← powerOfC 2 n
  let sp12 ← Cost.lift (Res.ofOption (scalarProduct v1 p2n))
  let r := (z - z2) % ORDER
  let r := (r * sp1y) % ORDER
  pure ((r - z3 * sp12) % ORDER)

/-- Loop of `VectorExp`, bulletproofs/util.go:97-100. -/
def vectorExpLoopC (E : Ext) : List P256 → List Int → P256 → Cost P256
  | p :: a, n :: b, result => do
    let q ← p.scalarMultC E n
    let result ← result.multiplyC E q
    vectorExpLoopC E a b result
  | _, _, result => pure result

/-- `VectorExp`, bulletproofs/util.go:85-102; the result is nil for different lengths. -/
def vectorExpC (E : Ext) (a : List P256) (b : List Int) : Cost (Option P256) :=
  if a.length ≠ b.length then pure none
  else do
    let r ← vectorExpLoopC E a b P256.infinity
    pure (some r)

/-- Use of a pointer that may be nil. -/
def Cost.deref {α : Type} (o : Option α) : Cost α := .lift (Res.ofOption o)

/-- Loop of `VectorECAdd`, bulletproofs/vector.go:165-168. -/
def vectorECAddLoopC (E : Ext) : List P256 → List P256 → Cost (List P256)
  | p :: a, q :: b => do
    let r ← p.multiplyC E q
    let rs ← vectorECAddLoopC E a b
    pure (r :: rs)
  | _, _ => pure []

/-- `VectorECAdd`, bulletproofs/vector.go:153-170. -/
def vectorECAddC (E : Ext) (a b : List P256) : Cost (List P256) :=
  if a.length ≠ b.length then pure []
  else do
    .make a.length
    vectorECAddLoopC E a b

/-- Loop of `vectorScalarExp`, bulletproofs/bip.go:312-314. -/
def vectorScalarExpLoopC (E : Ext) (b : Int) : List P256 → Cost (List P256)
  | [] => pure []
  | p :: a => do
    let r ← p.scalarMultC E b
    let rs ← vectorScalarExpLoopC E b a
    pure (r :: rs)

/-- `vectorScalarExp`, bulletproofs/bip.go:305-316. -/
def vectorScalarExpC (E : Ext) (a : List P256) (b : Int) : Cost (List P256) := do
  .make a.length
  vectorScalarExpLoopC E b a

/-- Loop of `commitVector`, bulletproofs/bp.go:406-411: both multiplications come before both additions. -/
def commitVectorLoopC (E : Ext) (aL aR : List Int) (g h : List P256) : Nat → Nat → P256 → Cost P256
  | 0, _, R => pure R
  | fuel + 1, i, R => do
    let gi ← Cost.lift (idx g i)
    let ai ← Cost.lift (idx aL i)
    let gaL ← gi.scalarMultC E ai
    let hi ← Cost.lift (idx h i)
    let bi ← Cost.lift (idx aR i)
    let haR ← hi.scalarMultC E bi
    let R ← R.multiplyC E gaL
    let R ← R.multiplyC E haR
    commitVectorLoopC E aL aR g h fuel (i + 1) R

/-- `commitVector`, bulletproofs/bp.go:403-413. -/
def commitVectorC (E : Ext) (aL aR : List Int) (alpha : Int) (H : P256) (g h : List P256) (n : Int) : Cost P256 := do
  let R ← H.scalarMultC E alpha
  commitVectorLoopC E aL aR g h n.toNat 0 R

/-- Loop of `commitVectorBig`, bulletproofs/bp.go:393-396. -/
def commitVectorBigLoopC (E : Ext) (aL aR : List Int) (g h : List P256) : Nat → Nat → P256 → Cost P256
  | 0, _, R => pure R
  | fuel + 1, i, R => do
    let gi ← Cost.lift (idx g i)
    let ai ← Cost.lift (idx aL i)
    let gaL ← gi.scalarMultC E ai
    let R ← R.multiplyC E gaL
    let hi ← Cost.lift (idx h i)
    let bi ← Cost.lift (idx aR i)
    let haR ← hi.scalarMultC E bi
    let R ← R.multiplyC E haR
    commitVectorBigLoopC E aL aR g h fuel (i + 1) R

/-- `commitVectorBig`, bulletproofs/bp.go:390-398. -/
def commitVectorBigC (E : Ext) (aL aR : List Int) (alpha : Int) (H : P256) (g h : List P256) (n : Int) : Cost P256 := do
  let R ← H.scalarMultC E alpha
  commitVectorBigLoopC E aL aR g h n.toNat 0 R

/-- Loop of `updateGenerators`, bulletproofs/bp.go:365-369. -/
def updateGeneratorsLoopC (E : Ext) (Hh : List P256) (yinv : Int) : Nat → Nat → Int → Cost (List P256)
  | 0, _, _ => pure []
  | fuel + 1, i, expy => do
    let hi ← Cost.lift (idx Hh i)
    let p ← hi.scalarMultC E expy
    let r ← updateGeneratorsLoopC E Hh yinv fuel (i + 1) (expy * yinv)
    pure (p :: r)

/-- `updateGenerators`, bulletproofs/bp.go:354-371: the slice is made first. -/
def updateGeneratorsC (E : Ext) (Hh : List P256) (y n : Int) : Cost (List P256) := do
  .make n
  if n = 0 then .lift .panic
  else do
    let h0 ← Cost.lift (idx Hh 0)
    if n = 1 then pure [h0]
    else do
      let yinv ← Cost.lift (Res.ofOption (modInverse y ORDER))
      let r ← updateGeneratorsLoopC E Hh yinv (n.toNat - 1) 1 yinv
      pure (h0 :: r)

/-- `commitInnerProduct`, bulletproofs/bip.go:291-300. -/
def commitInnerProductC (E : Ext) (g h : List P256) (a b : List Int) : Cost P256 := do
  let ga ← vectorExpC E g a
  let hb ← vectorExpC E h b
  let ga ← Cost.deref ga
  let hb ← Cost.deref hb
  ga.multiplyC E hb

/-- `computeBipRecursive`, bulletproofs/bip.go:137-215 (see `computeBip` for `fuel` and for nil values). -/
def computeBipC (E : Ext) (params : IPParams) : Nat → List Int → List Int → List P256 → List P256 → P256 → P256 →
    Nat → List P256 → List P256 → Cost IPProof
  | 0, _, _, _, _, _, _, _, _, _ => .lift .panic
  | fuel + 1, a, b, g, h, u, P, n, Ls, Rs =>
    if n = 1 then do
      let a0 ← Cost.lift (idx a 0)
      let b0 ← Cost.lift (idx b 0)
      let g0 ← Cost.lift (idx g 0)
      let h0 ← Cost.lift (idx h 0)
      pure { N := n, Ls := Ls, Rs := Rs, U := u, P := P, Gg := g0, Hh := h0, A := a0, B := b0, Params := params }
    else do
      let n' := n / 2
      let aL ← Cost.lift (sliceTo a n')
      let aR ← Cost.lift (sliceFrom a n')
      let bL ← Cost.lift (sliceTo b n')
      let bR ← Cost.lift (sliceFrom b n')
      let gL ← Cost.lift (sliceTo g n')
      let gR ← Cost.lift (sliceFrom g n')
      let hL ← Cost.lift (sliceTo h n')
      let hR ← Cost.lift (sliceFrom h n')
      let cL ← Cost.lift (Res.ofOption (scalarProduct aL bR))
      let cR ← Cost.lift (Res.ofOption (scalarProduct aR bL))
      let L ← vectorExpC E gR aL
      let Lh ← vectorExpC E hL bR
      let L ← Cost.deref L
      let Lh ← Cost.deref Lh
      let L ← L.multiplyC E Lh
      let uL ← u.scalarMultC E cL
      let L ← L.multiplyC E uL
      let R ← vectorExpC E gL aR
      let Rh ← vectorExpC E hR bL
      let R ← Cost.deref R
      let Rh ← Cost.deref Rh
      let R ← R.multiplyC E Rh
      let uR ← u.scalarMultC E cR
      let R ← R.multiplyC E uR
      let x := (hashBP E L R).1
      let xinv ← Cost.lift (Res.ofOption (modInverse x ORDER))
      let g1 ← vectorScalarExpC E gL xinv
      let g2 ← vectorScalarExpC E gR x
      let g' ← vectorECAddC E g1 g2
      let h1 ← vectorScalarExpC E hL x
      let h2 ← vectorScalarExpC E hR xinv
      let h' ← vectorECAddC E h1 h2
      let x2 := (x * x) % ORDER
      let x2inv ← Cost.lift (Res.ofOption (modInverse x2 ORDER))
      let P' ← L.scalarMultC E x2
      let P' ← P'.multiplyC E P
      let Rx ← R.scalarMultC E x2inv
      let P' ← P'.multiplyC E Rx
      let a1 ← vectorScalarMulC aL x
      let a2 ← vectorScalarMulC aR xinv
      let a' ← vectorOpC (· + ·) a1 a2
      let b1 ← vectorScalarMulC bL xinv
      let b2 ← vectorScalarMulC bR x
      let b' ← vectorOpC (· + ·) b1 b2
      let proof ← computeBipC E params fuel a' b' g' h' u P' n' (Ls ++ [L]) (Rs ++ [R])
      pure { proof with N := n }

/-- `proveInnerProduct`, bulletproofs/bip.go:105-132, for vectors of one length. -/
def proveInnerProductC (E : Ext) (a b : List Int) (P : P256) (params : IPParams) : Cost (Option IPProof) :=
  if a.length ≠ b.length then pure none
  else do
    let x ← Cost.lift (hashIP E params.Gg params.Hh P params.Cc params.N)
    let x ← Cost.lift (Res.ofOption x)
    let ux ← params.Uu.scalarMultC E x
    let uxc ← ux.scalarMultC E params.Cc
    let PP ← P.multiplyC E uxc
    let proof ← computeBipC E { params with P := PP } a.length a b params.Gg params.Hh ux PP a.length [] []
    pure (some proof)

/-- `Prove`, bulletproofs/bp.go:104-239. -/
def proveC (E : Ext) (rnd : BPRand) (secret : Int) (params : BPParams) : Cost (Option BPProof) := do
  let V ← commitG1C E secret rnd.gamma params.H
  let aL ← decomposeC secret 2 params.N
  let aR ← computeARC aL
  let A ← commitVectorC E aL aR rnd.alpha params.H params.Gg params.Hh params.N
  let sL ← sampleRandomVectorC rnd.sL params.N
  let sR ← sampleRandomVectorC rnd.sR params.N
  let S ← commitVectorBigC E sL sR rnd.rho params.H params.Gg params.Hh params.N
  let (y, z) := hashBP E A S
  let vz ← vectorCopyC z params.N
  let vy ← powerOfC y params.N
  let naL ← vectorConvertToBigC aL params.N
  let aLmvz ← vectorOpC (· - ·) naL vz
  let ynsR ← vectorOpC (· * ·) vy sR
  let sp1 ← Cost.lift (Res.ofOption (scalarProduct aLmvz ynsR))
  let naR ← vectorConvertToBigC aR params.N
  let aRzn ← vectorOpC (· + ·) naR vz
  let ynaRzn ← vectorOpC (· * ·) vy aRzn
  let p2n ← powerOfC 2 params.N
  let zsquared := z * z
  let z22n ← vectorScalarMulC p2n zsquared
  let ynaRzn ← vectorOpC (· + ·) ynaRzn z22n
  let sp2 ← Cost.lift (Res.ofOption (scalarProduct sL ynaRzn))
  let t1 := (sp1 + sp2) % ORDER
  let t2 ← Cost.lift (Res.ofOption (scalarProduct sL ynsR))
  let t2 := t2 % ORDER
  let T1 ← commitG1C E t1 rnd.tau1 params.H
  let T2 ← commitG1C E t2 rnd.tau2 params.H
  let x := (hashBP E T1 T2).1
  let sLx ← vectorScalarMulC sL x
  let bl ← vectorOpC (· + ·) aLmvz sLx
  let sRx ← vectorScalarMulC sR x
  let aRzn ← vectorOpC (· + ·) aRzn sRx
  let ynaRzn ← vectorOpC (· * ·) vy aRzn
  let br ← vectorOpC (· + ·) ynaRzn z22n
  let tprime ← Cost.lift (Res.ofOption (scalarProduct bl br))
  let taux := rnd.tau2 * (x * x)
  let taux := taux + rnd.tau1 * x
  let taux := taux + z * z * rnd.gamma
  let taux := taux % ORDER
  let mu := rnd.rho * x
  let mu := mu + rnd.alpha
  let mu := mu % ORDER
  let hprime ← updateGeneratorsC E params.Hh y params.N
  let ipp ← Cost.lift (setupInnerProduct E params.H params.Gg hprime tprime params.N)
  match ipp with
  | none => pure none
  | some ipp => do
    let commit ← commitInnerProductC E params.Gg hprime bl br
    let proofip ← proveInnerProductC E bl br commit ipp
    let proofip ← Cost.lift (Res.ofOption proofip)
    pure (some { V := V, A := A, S := S, T1 := T1, T2 := T2, Taux := taux, Mu := mu,
                 Tprime := tprime, IP := proofip, Commit := commit, Params := params, ParamsIP := ipp })

/-- Loop of `InnerProductProof.Verify`, bulletproofs/bip.go:232-251. -/
def ipVerifyLoopC (E : Ext) : List P256 → List P256 → List P256 → List P256 → P256 → Int → Cost (List P256 × List P256 × P256)
  | [], _, g, h, P, _ => pure (g, h, P)
  | _ :: _, [], _, _, _, _ => .lift .panic
  | L :: Ls, R :: Rs, g, h, P, n => do
    let n' := n.tdiv 2
    let x := (hashBP E L R).1
    let xinv ← Cost.lift (Res.ofOption (modInverse x ORDER))
    let gL ← Cost.lift (sliceTo g n')
    let g1 ← vectorScalarExpC E gL xinv
    let gR ← Cost.lift (sliceFrom g n')
    let g2 ← vectorScalarExpC E gR x
    let g' ← vectorECAddC E g1 g2
    let hL ← Cost.lift (sliceTo h n')
    let h1 ← vectorScalarExpC E hL x
    let hR ← Cost.lift (sliceFrom h n')
    let h2 ← vectorScalarExpC E hR xinv
    let h' ← vectorECAddC E h1 h2
    let x2 := (x * x) % ORDER
    let x2inv ← Cost.lift (Res.ofOption (modInverse x2 ORDER))
    let Lx ← L.scalarMultC E x2
    let P ← P.multiplyC E Lx
    let Rx ← R.scalarMultC E x2inv
    let P ← P.multiplyC E Rx
    ipVerifyLoopC E Ls Rs g' h' P n'

/-- `InnerProductProof.Verify`, bulletproofs/bip.go:220-266. -/
def ipVerifyC (E : Ext) (proof : IPProof) : Cost (Bool × P256) := do
  let (g, h, P) ← ipVerifyLoopC E proof.Ls proof.Rs proof.Params.Gg proof.Params.Hh proof.Params.P proof.N
  let ab := (proof.A * proof.B) % ORDER
  let g0 ← Cost.lift (idx g 0)
  let rhs ← g0.scalarMultC E proof.A
  let h0 ← Cost.lift (idx h 0)
  let hb ← h0.scalarMultC E proof.B
  let rhs ← rhs.multiplyC E hb
  let uab ← proof.U.scalarMultC E ab
  let rhs ← rhs.multiplyC E uab
  let nP ← P256.negC E P P
  let nP ← nP.multiplyC E rhs
  pure (nP.isZero, nP)

/-- `BulletProof.Verify`, bulletproofs/bp.go:244-334. -/
def bpVerifyC (E : Ext) (proof : BPProof) : Cost (Bool × P256) := do
  let params := proof.Params
  let x := (hashBP E proof.T1 proof.T2).1
  let (y, z) := hashBP E proof.A proof.S
  let hprime ← updateGeneratorsC E params.Hh y params.N
  let lhs ← commitG1C E proof.Tprime proof.Taux params.H
  let z2 := (z * z) % ORDER
  let x2 := (x * x) % ORDER
  let rhs ← proof.V.scalarMultC E z2
  let delta ← deltaC params.N y z
  let gdelta ← P256.scalarBaseMultC E delta
  let rhs ← rhs.multiplyC E gdelta
  let T1x ← proof.T1.scalarMultC E x
  let T2x2 ← proof.T2.scalarMultC E x2
  let rhs ← rhs.multiplyC E T1x
  let rhs ← rhs.multiplyC E T2x2
  let lhs ← P256.negC E lhs lhs
  let rhs ← rhs.multiplyC E lhs
  let c65 := rhs.isZero
  let Sx ← proof.S.scalarMultC E x
  let ASx ← proof.A.addC Sx
  let mz := ORDER - z
  let vmz ← vectorCopyC mz params.N
  let gpmz ← vectorExpC E params.Gg vmz
  let vz ← vectorCopyC z params.N
  let vy ← powerOfC y params.N
  let zyn ← vectorOpC (· * ·) vy vz
  let p2n ← powerOfC 2 params.N
  let zsquared := z * z
  let z22n ← vectorScalarMulC p2n zsquared
  let zynz22n ← vectorOpC (· + ·) zyn z22n
  let gpmz ← Cost.deref gpmz
  let lP ← ASx.addC gpmz
  let hprimeexp ← vectorExpC E hprime zynz22n
  let hprimeexp ← Cost.deref hprimeexp
  let lP ← lP.addC hprimeexp
  let rP ← params.H.scalarMultC E proof.Mu
  let rP ← rP.multiplyC E proof.Commit
  let lP ← P256.negC E lP lP
  let rP ← rP.addC lP
  let c67 := rP.isZero
  let (ok, P) ← ipVerifyC E proof.IP
  pure (c65 && c67 && ok, P)

/-- `ProveGeneric`, bulletproofs/bprp.go:69-91. -/
def proveGenericC (E : Ext) (r1 r2 : BPRand) (secret : Int) (params : BPRP) : Cost (Option BPRPProof) := do
  let xb := secret - params.B
  let xb := xb + MAX_RANGE_END
  let p1 ← proveC E r1 xb params.BP1
  match p1 with
  | none => pure none
  | some p1 => do
    let xa := secret - params.A
    let p2 ← proveC E r2 xa params.BP2
    match p2 with
    | none => pure none
    | some p2 => pure (some ⟨p1, p2⟩)

/-- `ProofBPRP.Verify`, bulletproofs/bprp.go:96-107. -/
def bprpVerifyC (E : Ext) (proof : BPRPProof) : Cost (Bool × BPRPProof) := do
  let (ok1, P1) ← bpVerifyC E proof.P1
  if !ok1 then pure (false, ⟨proof.P1.afterVerify P1, proof.P2⟩)
  else do
    let (ok2, P2) ← bpVerifyC E proof.P2
    pure (ok2, ⟨proof.P1.afterVerify P1, proof.P2.afterVerify P2⟩)

end Verif

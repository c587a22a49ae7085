import Verif.Model.GoVerify
import Verif.Model.Ccs

/-!
# Model of the provers on a randomness source that can fail

`Prove` of `bulletproofs/bp.go` and `ProveSet`, `ProveUL`, `Prove` of `ccs08/ccs08.go` draw random numbers with
`v, _ := rand.Int(rand.Reader, order)`: when the source fails, `rand.Int` returns a nil pointer and an error, and the
error is dropped.  Here the source is the sequence of the results of the successive calls of `rand.Int` of one run
(`none`: nil), and every nil pointer is dereferenced where the code does it.  A method of `*big.Int` panics on a nil
receiver or argument.  `ScalarMult` of `p256` does not look at the scalar if the point is infinite; the methods of
`bn256` always do (`BitLen`).  The order of evaluation of two operations that both may panic is not modelled.
-/

namespace Verif

/-- Results of the successive calls of `rand.Int`. -/
abbrev Draws := Nat → Option Int

/-- The source from its `k`-th call on. -/
def Draws.from (rd : Draws) (k : Nat) : Draws := fun i => rd (k + i)

/-- Dereferences all entries of a slice, as a loop over it does. -/
def derefInts (a : List (Option Int)) : Res (List Int) := Res.ofOption (a.mapM id)

/-! ## `bulletproofs` -/

/-- `sampleRandomVector`, bulletproofs/bp.go:339-345, starting with the `k`-th call of `rand.Int`. -/
def goSampleRandomVector (rd : Draws) (k : Nat) (n : Int) : Res (List (Option Int)) :=
  if n < 0 then .panic else .ok ((List.range n.toNat).map (fun i => rd (k + i)))

/-- Loop of `commitVectorBig`, bulletproofs/bp.go:406-411: `fuel` iterations from index `i`. -/
def goCommitVectorLoop (E : Ext) (aL aR : List (Option Int)) (g h : List P256) : Nat → Nat → P256 → Res P256
  | 0, _, R => .ok R
  | fuel + 1, i, R => do
    let gi ← idx g i
    let ai ← idx aL i
    let hi ← idx h i
    let bi ← idx aR i
    let ga ← goScalarMult E (some gi) ai
    let R := R.multiply E ga
    let hb ← goScalarMult E (some hi) bi
    let R := R.multiply E hb
    goCommitVectorLoop E aL aR g h fuel (i + 1) R

/-- `commitVector` and `commitVectorBig`, bulletproofs/bp.go:390-413. -/
def goCommitVector (E : Ext) (aL aR : List (Option Int)) (alpha : Option Int) (H : P256) (g h : List P256) (n : Int) :
    Res P256 := do
  let R ← goScalarMult E (some H) alpha
  goCommitVectorLoop E aL aR g h n.toNat 0 R

/-- `VectorMul`, bulletproofs/vector.go:130-148, whose second argument may have nil entries (`ok none`: error). -/
def goVectorMul (a : List Int) (b : List (Option Int)) : Res (Option (List Int)) :=
  if a.length ≠ b.length then .ok none
  else do
    let b ← derefInts b
    .ok (vectorMul a b)

/-- `ScalarProduct`, bulletproofs/util.go:107-126, whose first argument may have nil entries (`ok none`: error). -/
def goScalarProduct (a : List (Option Int)) (b : List Int) : Res (Option Int) :=
  if a.length ≠ b.length then .ok none
  else do
    let a ← derefInts a
    .ok (scalarProduct a b)

/-- `VectorScalarMul`, bulletproofs/vector.go:111-125, whose first argument may have nil entries. -/
def goVectorScalarMul (a : List (Option Int)) (b : Int) : Res (List Int) := do
  let a ← derefInts a
  .ok (vectorScalarMul a b)

/-- `Prove`, bulletproofs/bp.go:104-239, with the random numbers drawn from `rd`. -/
def goProve (E : Ext) (rd : Draws) (secret : Int) (params : BPParams) : Res (Option BPProof) := do
  let gamma := rd 0
  let V ← goCommitG1 E (some secret) gamma (some params.H)
  let aL ← decompose secret 2 params.N
  let aR := (computeAR aL).getD []
  let alpha := rd 1
  let A ← goCommitVector E (aL.map some) (aR.map some) alpha params.H params.Gg params.Hh params.N
  let sL ← goSampleRandomVector rd 2 params.N
  let sR ← goSampleRandomVector rd (2 + params.N.toNat) params.N
  let rho := rd (2 + 2 * params.N.toNat)
  let S ← goCommitVector E sL sR rho params.H params.Gg params.Hh params.N
  let (y, z) := hashBP E A S
  let tau1 := rd (3 + 2 * params.N.toNat)
  let tau2 := rd (4 + 2 * params.N.toNat)
  let vz ← vectorCopy z params.N
  let vy ← powerOf y params.N
  let naL ← vectorConvertToBig aL params.N
  let aLmvz := (vectorSub naL vz).getD []
  let ynsR ← goVectorMul vy sR
  let ynsR := ynsR.getD []
  let sp1 ← Res.ofOption (scalarProduct aLmvz ynsR)
  let naR ← vectorConvertToBig aR params.N
  let aRzn := (vectorAdd naR vz).getD []
  let ynaRzn := (vectorMul vy aRzn).getD []
  let p2n ← powerOf 2 params.N
  let zsquared := z * z
  let z22n := vectorScalarMul p2n zsquared
  let ynaRzn := (vectorAdd ynaRzn z22n).getD []
  let sp2 ← goScalarProduct sL ynaRzn
  let sp2 ← Res.ofOption sp2
  let t1 := (sp1 + sp2) % ORDER
  let t2 ← goScalarProduct sL ynsR
  let t2 ← Res.ofOption t2
  let t2 := t2 % ORDER
  let T1 ← goCommitG1 E (some t1) tau1 (some params.H)
  let T2 ← goCommitG1 E (some t2) tau2 (some params.H)
  let x := (hashBP E T1 T2).1
  let sLx ← goVectorScalarMul sL x
  let bl := (vectorAdd aLmvz sLx).getD []
  let sRx ← goVectorScalarMul sR x
  let aRzn := (vectorAdd aRzn sRx).getD []
  let ynaRzn := (vectorMul vy aRzn).getD []
  let br := (vectorAdd ynaRzn z22n).getD []
  let tprime ← Res.ofOption (scalarProduct bl br)
  let tau2 ← Res.ofOption tau2
  let taux := tau2 * (x * x)
  let tau1 ← Res.ofOption tau1
  let taux := taux + tau1 * x
  let gamma ← Res.ofOption gamma
  let taux := taux + z * z * gamma
  let taux := taux % ORDER
  let rho ← Res.ofOption rho
  let mu := rho * x
  let alpha ← Res.ofOption alpha
  let mu := mu + alpha
  let mu := mu % ORDER
  let hprime ← updateGenerators E params.Hh y params.N
  let ipp ← setupInnerProduct E params.H params.Gg hprime tprime params.N
  match ipp with
  | none => .ok none
  | some ipp => do
    let commit ← commitInnerProduct E params.Gg hprime bl br
    let proofip ← proveInnerProduct E bl br commit ipp
    let proofip ← Res.ofOption proofip
    .ok (some { V := V, A := A, S := S, T1 := T1, T2 := T2, Taux := taux, Mu := mu,
                Tprime := tprime, IP := proofip, Commit := commit, Params := params,
                ParamsIP := ipp })

/-- `ProveGeneric`, bulletproofs/bprp.go:69-91; the second `Prove` draws after the first. -/
def goProveGeneric (E : Ext) (rd : Draws) (secret : Int) (params : BPRP) : Res (Option BPRPProof) := do
  let xb := secret - params.B
  let xb := xb + MAX_RANGE_END
  let p1 ← goProve E rd xb params.BP1
  match p1 with
  | none => .ok none
  | some p1 => do
    let xa := secret - params.A
    let p2 ← goProve E (rd.from (5 + 2 * params.BP1.N.toNat)) xa params.BP2
    match p2 with
    | none => .ok none
    | some p2 => .ok (some ⟨p1, p2⟩)

/-! ## `ccs08` -/

/-- `ScalarMult` and `ScalarBaseMult` of `G2` (crypto/bn256/bn256.go:224-238), and `ScalarMult` of `GT`
(bn256.go:355-361), need the scalar in any case: the call `f k` with a possibly nil `k`. -/
def goScalar {α : Type} (f : Int → α) (k : Option Int) : Res α := do
  let k ← Res.ofOption k
  .ok (f k)

/-- `a` of ccs08.go:172-175 and 226-229 with possibly nil `s` and `t`. -/
def goCcsA (V : TwistPoint) (s t : Option Int) : Res GfP12 := do
  let a := pair utilG1 V
  let a ← goScalar (GT.scalarMult a) s
  let a := a.invert
  let et ← goScalar (GT.scalarMult utilE) t
  .ok (a.mul et)

/-- `ProveSet`, ccs08/ccs08.go:146-192 (`ok none`: error return). -/
def goProveSet (sha : List UInt8 → List UInt8) (rd : Draws) (x r : Int) (p : ParamsSet) : Res (Option ProofSet) :=
  let m := rd 0
  let v := rd 1
  match p.signatures.lookup x with
  | none => .ok none
  | some A => do
    let D ← goScalar (G2.scalarMult p.H) m
    let s := rd 2
    let aux ← goScalar G2.scalarBaseMult s
    let D := D.addSelf aux
    let A ← Res.ofOption A
    let V ← goScalar (G2.scalarMult A) v
    let t := rd 3
    let a ← goCcsA V s t
    let D := (TwistPoint.new.setInfinity).addSelf D
    let C := commit x r p.H
    let c ← hashSet sha a D
    let c ← Res.ofOption c
    let c := c % bnOrder
    let m ← Res.ofOption m
    let zr := (m - r * c) % bnOrder
    let s ← Res.ofOption s
    let zsig := (s - x * c) % bnOrder
    let t ← Res.ofOption t
    let v ← Res.ofOption v
    let zv := (t - v * c) % bnOrder
    .ok (some ⟨V, D, C, a, s, t, zsig, zv, c, m, zr⟩)

/-- Loop of `ProveUL`, ccs08.go:219-239, for the digits still to be processed; `i` is the loop variable.  Iteration `i`
draws `v[i]`, `s[i]`, `t[i]`. -/
def goProveULLoop (p : ParamsUL) (rd : Draws) : Nat → List Int → TwistPoint →
    Res (Option (TwistPoint × List TwistPoint × List GfP12))
  | _, [], D => .ok (some (D, [], []))
  | i, d :: ds, D =>
    let v := rd (1 + 3 * i)
    match p.signatures.lookup d with
    | none => .ok none
    | some A => do
      let A ← Res.ofOption A
      let V ← goScalar (G2.scalarMult A) v
      let s := rd (2 + 3 * i)
      let t := rd (3 + 3 * i)
      let a ← goCcsA V s t
      let ui := p.u ^ i
      let s ← Res.ofOption s
      let muisi := (s * ui) % bnOrder
      let aux := G2.scalarBaseMult muisi
      let rest ← goProveULLoop p rd (i + 1) ds (D.addSelf aux)
      match rest with
      | none => .ok none
      | some (D, Vs, as) => .ok (some (D, V :: Vs, a :: as))

/-- `ProveUL`, ccs08/ccs08.go:197-258 (`ok none`: error return). -/
def goProveUL (sha : List UInt8 → List UInt8) (rd : Draws) (x r : Int) (p : ParamsUL) : Res (Option ProofUL) := do
  let decx ← decompose x p.u p.l
  let m := rd 0
  let D ← goScalar (G2.scalarMult p.H) m
  let res ← goProveULLoop p rd 0 decx D
  match res with
  | none => .ok none
  | some (D, V, a) => do
    let D := (TwistPoint.new.setInfinity).addSelf D
    let C := commit x r p.H
    let c ← hashUL sha a D
    let c ← Res.ofOption c
    let c := c % bnOrder
    let m ← Res.ofOption m
    let zr := (m - r * c) % bnOrder
    let n := decx.length
    let v ← derefInts ((List.range n).map (fun i => rd (1 + 3 * i)))
    let s ← derefInts ((List.range n).map (fun i => rd (2 + 3 * i)))
    let t ← derefInts ((List.range n).map (fun i => rd (3 + 3 * i)))
    let zsig := List.zipWith (fun si d => (si - d * c) % bnOrder) s decx
    let zv := List.zipWith (fun ti vi => (ti - vi * c) % bnOrder) t v
    .ok (some ⟨V, D, C, a, s, t, zsig, zv, c, m, zr⟩)

end Verif

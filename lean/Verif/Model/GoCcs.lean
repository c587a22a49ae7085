import Verif.Model.Ccs
import Verif.Model.Json

/-!
# Model of the ccs08 verifiers on objects with nil pointers

`Model/Ccs.lean` models `VerifySet`, `VerifyUL` and `Verify` on proofs in which every pointer is set.  Here every pointer is
dereferenced where the code does it.  A `*bn256.G2` can be nil, or point to a struct whose field `p` is nil (`new(bn256.G2)`).  A
nil `*big.Int` panics in every method.  The order of two operations that both may panic is not modelled (a panic has no value).
-/

namespace Verif

/-- A `*bn256.G1`: `none` is nil, `some none` points to a struct whose `p` is nil. -/
abbrev GoG1 := Option (Option CurvePoint)
/-- A `*bn256.G2`. -/
abbrev GoG2 := Option (Option TwistPoint)
/-- A `*bn256.GT`. -/
abbrev GoGT := Option (Option GfP12)

/-- Loop of `Mul`, crypto/bn256/twist.go:222-229, bits `n-1 … 0` left: the point is read when a bit is set. -/
def goTwistMulLoop (a : Option TwistPoint) (k : Int) : Nat → TwistPoint → TwistPoint → Res TwistPoint
  | 0, sum, _ => .ok sum
  | n + 1, sum, t => do
    let t := TwistPoint.double t sum
    if intBit k n then do
      let a ← Res.ofOption a
      goTwistMulLoop (some a) k n (TwistPoint.add sum t a) t
    else goTwistMulLoop a k n t t

/-- `Mul`, crypto/bn256/twist.go:217-235. -/
def goTwistMul (a : Option TwistPoint) (k : Int) : Res TwistPoint :=
  goTwistMulLoop a k (bitLen k + 1) (TwistPoint.new.setInfinity) TwistPoint.new

namespace GoG2

/-- `ScalarMult`, crypto/bn256/bn256.go:253-263, into a new element. -/
def scalarMult (a : GoG2) (k : Option Int) : Res TwistPoint := do
  let k ← Res.ofOption k
  let a ← Res.ofOption a
  if k ≥ 0 then goTwistMul a k
  else do
    let r ← goTwistMul a k.natAbs
    .ok r.negSelf

/-- `ScalarBaseMult`, crypto/bn256/bn256.go:239-249. -/
def scalarBaseMult (k : Option Int) : Res TwistPoint := do
  let k ← Res.ofOption k
  .ok (G2.scalarBaseMult k)

/-- `Marshal`, crypto/bn256/bn256.go:285-303. -/
def marshal (n : GoG2) : Res (List UInt8 × TwistPoint) := do
  let n ← Res.ofOption n
  let p ← Res.ofOption n
  .ok (G2.marshal p)

end GoG2

/-- `ScalarMult`, crypto/bn256/bn256.go:355-361, for an element that is set. -/
def goGTScalarMult (a : GfP12) (k : Option Int) : Res GfP12 := do
  let k ← Res.ofOption k
  .ok (GT.scalarMult a k)

/-- `Marshal`, crypto/bn256/bn256.go:425-459. -/
def GoGT.marshal (n : GoGT) : Res (List UInt8 × GfP12) := do
  let n ← Res.ofOption n
  let p ← Res.ofOption n
  .ok (GT.marshal p)

/-- `Pair`, crypto/bn256/bn256.go:492-494; `miller` reads both points. -/
def goPair (g1 : GoG1) (g2 : GoG2) : Res GfP12 := do
  let g2 ← Res.ofOption g2
  let g1 ← Res.ofOption g1
  let q ← Res.ofOption g2
  let p ← Res.ofOption g1
  .ok (pair p q)

/-- ccs08.go:281-287 and 323-329: the right-hand side for `a`. -/
def goCcsRhs (pubk : GoG1) (V : GoG2) (c zsig zv : Option Int) : Res GfP12 := do
  let p1 ← goPair pubk V
  let p1 ← goGTScalarMult p1 c
  let p2 ← goPair (some (some utilG1)) V
  let p2 ← goGTScalarMult p2 zsig
  let p2 := p2.invert
  let p1 := p1.mul p2
  let e ← goGTScalarMult utilE zv
  .ok (p1.mul e)

/-- `bbsignatures.Keypair`, crypto/bbsignatures/bb.go:33-36. -/
structure GoKeypair where
  Pubk : GoG1
  Privk : Option Int
  deriving DecidableEq

/-- The zero value. -/
def GoKeypair.zero : GoKeypair := ⟨none, none⟩

/-! ### Set membership -/

/-- `paramsSet`, ccs08/ccs08.go:46-56, without the signatures. -/
structure GoParamsSet where
  H : GoG2
  kp : GoKeypair

/-- `proofSet`, ccs08/ccs08.go:78-84. -/
structure GoProofSet where
  V : GoG2
  D : GoG2
  C : GoG2
  a : GoGT
  s : Option Int
  t : Option Int
  zsig : Option Int
  zv : Option Int
  c : Option Int
  m : Option Int
  zr : Option Int
  deriving DecidableEq

/-- The zero value. -/
def GoProofSet.zero : GoProofSet := ⟨none, none, none, none, none, none, none, none, none, none, none⟩

/-- `VerifySet`, ccs08/ccs08.go:263-293, both arguments possibly nil. -/
def goVerifySet (pr : Option GoProofSet) (p : Option GoParamsSet) : Res (Bool × GoProofSet) := do
  let pr ← Res.ofOption pr
  let D ← pr.C.scalarMult pr.c
  let p ← Res.ofOption p
  let hz ← p.H.scalarMult pr.zr
  let D := D.addSelf hz
  let aux ← GoG2.scalarBaseMult pr.zsig
  let D := D.addSelf aux
  let DBytes := (G2.marshal D).1
  let pD ← pr.D.marshal
  let r1 := DBytes == pD.1
  let p1 ← goCcsRhs p.kp.Pubk pr.V pr.c pr.zsig pr.zv
  let pBytes := (GT.marshal p1).1
  let aM ← pr.a.marshal
  let r2 := pBytes == aM.1
  .ok (r1 && r2, { pr with D := some (some pD.2), a := some (some aM.2) })

/-- `ProveSet`, ccs08/ccs08.go:146-192, with the proof that is returned together with an error: `D` and `m` are set there. -/
def goProveSetOut (sha : List UInt8 → List UInt8) (x r : Int) (p : ParamsSet) (m v s t : Int) : Res (GoProofSet × Bool) := do
  let res ← proveSet sha x r p m v s t
  match res with
  | none => .ok ({ GoProofSet.zero with D := some (some (TwistPoint.new.setInfinity)), m := some m }, true)
  | some q => .ok (⟨some (some q.V), some (some q.D), some (some q.C), some (some q.a), some q.s, some q.t, some q.zsig, some q.zv,
      some q.c, some q.m, some q.zr⟩, false)

/-! ### The interval `[0, u^l)` -/

/-- `paramsUL`, ccs08/ccs08.go:62-73, without the signatures. -/
structure GoParamsUL where
  H : GoG2
  kp : GoKeypair
  u : Int
  l : Int

/-- `proofUL`, ccs08/ccs08.go:89-95; a nil slice is the empty list. -/
structure GoProofUL where
  V : List GoG2
  D : GoG2
  C : GoG2
  a : List GoGT
  s : List (Option Int)
  t : List (Option Int)
  zsig : List (Option Int)
  zv : List (Option Int)
  c : Option Int
  m : Option Int
  zr : Option Int
  deriving DecidableEq

/-- The zero value. -/
def GoProofUL.zero : GoProofUL := ⟨[], none, none, [], [], [], [], [], none, none, none⟩

/-- First loop of `VerifyUL`, ccs08.go:308-314, `n` iterations left. -/
def goVerifyULD (u : Int) (zsig : List (Option Int)) : Nat → Nat → TwistPoint → Res TwistPoint
  | 0, _, D => .ok D
  | n + 1, i, D => do
    let z ← idx zsig i
    let z ← Res.ofOption z
    let ui := u ^ i
    let muizsigi := (z * ui) % bnOrder
    let aux := G2.scalarBaseMult muizsigi
    goVerifyULD u zsig n (i + 1) (D.addSelf aux)

/-- Second loop of `VerifyUL`, ccs08.go:321-334, `n` iterations left: the verdict `r2` and the rewritten `a[i]`. -/
def goVerifyULA (pubk : GoG1) (pr : GoProofUL) : Nat → Nat → Bool → Res (Bool × List GoGT)
  | 0, _, r2 => .ok (r2, [])
  | n + 1, i, r2 => do
    let V ← idx pr.V i
    let zsig ← idx pr.zsig i
    let zv ← idx pr.zv i
    let p1 ← goCcsRhs pubk V pr.c zsig zv
    let a ← idx pr.a i
    let aM ← a.marshal
    let r2 := r2 && (GT.marshal p1).1 == aM.1
    let rest ← goVerifyULA pubk pr n (i + 1) r2
    .ok (rest.1, some (some aM.2) :: rest.2)

/-- `VerifyUL`, ccs08/ccs08.go:298-336, both arguments possibly nil. -/
def goVerifyUL (pr : Option GoProofUL) (p : Option GoParamsUL) : Res (Bool × GoProofUL) := do
  let pr ← Res.ofOption pr
  let D ← pr.C.scalarMult pr.c
  let p ← Res.ofOption p
  let hz ← p.H.scalarMult pr.zr
  let D := D.addSelf hz
  let D ← goVerifyULD p.u pr.zsig p.l.toNat 0 D
  let DBytes := (G2.marshal D).1
  let pD ← pr.D.marshal
  let r1 := DBytes == pD.1
  let res ← goVerifyULA p.kp.Pubk pr p.l.toNat 0 true
  .ok (r1 && res.1, { pr with D := some (some pD.2), a := res.2 ++ pr.a.drop p.l.toNat })

/-! ### The range `[a, b)` -/

/-- `params`, ccs08/ccs08.go:349-352. -/
structure GoCcsParams where
  p : Option GoParamsUL
  a : Int
  b : Int

/-- The fields `p` and `proof_out` of `ccs08`, ccs08/ccs08.go:354-358 and 341-343. -/
structure GoCcs where
  p : Option GoCcsParams
  p1 : GoProofUL
  p2 : GoProofUL

/-- The zero value. -/
def GoCcs.zero : GoCcs := ⟨none, .zero, .zero⟩

/-- `Verify`, ccs08/ccs08.go:423-427. -/
def goCcsVerify (z : Option GoCcs) : Res (Bool × GoCcs) := do
  let z ← Res.ofOption z
  let p ← Res.ofOption z.p
  let first ← goVerifyUL (some z.p1) p.p
  let second ← goVerifyUL (some z.p2) p.p
  .ok (first.1 && second.1, { z with p1 := first.2, p2 := second.2 })

/-! ### JSON

`bn256.G1`, `G2` and `GT` have no exported field, `proofSet` and `proofUL` have the exported fields `V`, `D` and `C`; `encoding/json`
writes and reads exported fields only (no type has methods or tags for it). -/

/-- A pointer to a struct without exported fields. -/
def encOpaque {T : Type} : Option (Option T) → Json := encPtr fun _ => .obj .nil
/-- A pointer to a struct without exported fields: a nil pointer becomes one to the zero value, a target keeps its value. -/
def decOpaque {T : Type} : Json → Option (Option T) → Option (Option (Option T)) := decPtr none (decStruct [])

/-- `proofSet` as JSON. -/
def encProofSet (q : GoProofSet) : Json :=
  .obj (encObj [(ascii "V", encOpaque q.V), (ascii "D", encOpaque q.D), (ascii "C", encOpaque q.C)])

/-- `proofSet` from JSON. -/
def decProofSet : Json → GoProofSet → Option GoProofSet := decStruct
  [(ascii "V", fieldOf GoProofSet.V (fun a t => { t with V := a }) decOpaque),
   (ascii "D", fieldOf GoProofSet.D (fun a t => { t with D := a }) decOpaque),
   (ascii "C", fieldOf GoProofSet.C (fun a t => { t with C := a }) decOpaque)]

/-- `proofUL` as JSON, for a slice `V` that was made (`ProveUL` makes it; a nil slice would be null). -/
def encProofUL (q : GoProofUL) : Json :=
  .obj (encObj [(ascii "V", encSlice encOpaque (some q.V)), (ascii "D", encOpaque q.D), (ascii "C", encOpaque q.C)])

/-- `proofUL` from JSON, for a zero value (elements of a slice are decoded into new memory). -/
def decProofUL : Json → GoProofUL → Option GoProofUL := decStruct
  [(ascii "V", fieldOf (fun q => some q.V) (fun a t => { t with V := a.getD [] }) (decSlice fun j => decOpaque j none)),
   (ascii "D", fieldOf GoProofUL.D (fun a t => { t with D := a }) decOpaque),
   (ascii "C", fieldOf GoProofUL.C (fun a t => { t with C := a }) decOpaque)]

/-- `bbsignatures.Keypair` as JSON. -/
def encKeypair (k : GoKeypair) : Json :=
  .obj (encObj [(ascii "Pubk", encOpaque k.Pubk), (ascii "Privk", encPtr encInt k.Privk)])

/-- `bbsignatures.Keypair` from JSON. -/
def decKeypair : Json → GoKeypair → Option GoKeypair := decStruct
  [(ascii "Pubk", fieldOf GoKeypair.Pubk (fun a t => { t with Pubk := a }) decOpaque),
   (ascii "Privk", fieldOf GoKeypair.Privk (fun a t => { t with Privk := a }) decBig)]

/-- `json.Marshal(q)` of a `proofSet`. -/
def marshalProofSet (q : GoProofSet) : List UInt8 := (encProofSet q).print
/-- `json.Unmarshal(text, &q)` of a `proofSet` with the value `old`. -/
def unmarshalProofSet (s : List UInt8) (old : GoProofSet) : Option GoProofSet := do
  let j ← parseJson s
  decProofSet j old

/-- `json.Marshal(q)` of a `proofUL`. -/
def marshalProofUL (q : GoProofUL) : List UInt8 := (encProofUL q).print
/-- `json.Unmarshal(text, &q)` of a zero `proofUL`. -/
def unmarshalProofUL (s : List UInt8) : Option GoProofUL := do
  let j ← parseJson s
  decProofUL j .zero

/-- `json.Marshal(k)` of a `Keypair`. -/
def marshalKeypair (k : GoKeypair) : List UInt8 := (encKeypair k).print
/-- `json.Unmarshal(text, &k)` of a `Keypair` with the value `old`. -/
def unmarshalKeypair (s : List UInt8) (old : GoKeypair) : Option GoKeypair := do
  let j ← parseJson s
  decKeypair j old

end Verif

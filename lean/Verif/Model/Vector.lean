import Verif.Model.Bn

/-!
# Model of the scalar parts of `bulletproofs/vector.go` and `bulletproofs/util.go`
-/

namespace Verif

/-- `theCurve.N`, crypto/p256/mycurve.go:123; also `ORDER`, bulletproofs/bulletproofs.go:31. -/
def ORDER : Int := 0xFFFFFFFFFFFFFFFFFFFFFFFFFFFFFFFEBAAEDCE6AF48A03BBFD25E8CD0364141

/-- `VectorCopy`, bulletproofs/vector.go:31-43 (`make` panics for `n < 0`). -/
def vectorCopy (a : Int) (n : Int) : Res (List Int) :=
  if n < 0 then .panic else .ok (List.replicate n.toNat a)

/-- `VectorConvertToBig`, bulletproofs/vector.go:48-60: copies the first `n` entries; panics if
there are fewer. -/
def vectorConvertToBig (a : List Int) (n : Int) : Res (List Int) :=
  if n < 0 ∨ (a.length : Int) < n then .panic else .ok (a.take n.toNat)

/-- `VectorAdd`, bulletproofs/vector.go:65-83. -/
def vectorAdd (a b : List Int) : Option (List Int) :=
  if a.length ≠ b.length then none else some (List.zipWith (fun x y => (x + y) % ORDER) a b)

/-- `VectorSub`, bulletproofs/vector.go:88-106. -/
def vectorSub (a b : List Int) : Option (List Int) :=
  if a.length ≠ b.length then none else some (List.zipWith (fun x y => (x - y) % ORDER) a b)

/-- `VectorScalarMul`, bulletproofs/vector.go:111-125 (never returns an error). -/
def vectorScalarMul (a : List Int) (b : Int) : List Int := a.map (fun x => (x * b) % ORDER)

/-- `VectorMul`, bulletproofs/vector.go:130-148. -/
def vectorMul (a b : List Int) : Option (List Int) :=
  if a.length ≠ b.length then none else some (List.zipWith (fun x y => (x * y) % ORDER) a b)

/-- Loop of `ScalarProduct`, bulletproofs/util.go:119-124. -/
def scalarProductLoop : List Int → List Int → Int → Int
  | x :: a, y :: b, result => scalarProductLoop a b ((result + x * y) % ORDER)
  | _, _, result => result

/-- `ScalarProduct`, bulletproofs/util.go:107-126. -/
def scalarProduct (a b : List Int) : Option Int :=
  if a.length ≠ b.length then none else some (scalarProductLoop a b 0)

/-- Loop of `powerOf`, bulletproofs/util.go:42-47. -/
def powerOfLoop (x : Int) : Nat → Int → List Int
  | 0, _ => []
  | n + 1, current => current :: powerOfLoop x n ((current * x) % ORDER)

/-- `powerOf`, bulletproofs/util.go:34-49 (`make` panics for `n < 0`). -/
def powerOf (x : Int) (n : Int) : Res (List Int) :=
  if n < 0 then .panic else .ok (powerOfLoop x n.toNat 1)

/-- `IsPowerOfTwo`, bulletproofs/util.go:132-134, on int64 bit patterns. -/
def isPowerOfTwo (x : BitVec 64) : Bool := x != 0 && (x &&& (x - 1)) == 0

/-- `computeAR`, bulletproofs/bp.go:376-388. -/
def computeAR (x : List Int) : Option (List Int) :=
  x.mapM (fun v => if v = 0 then some (-1) else if v = 1 then some 0 else none)

/-- `delta`, bulletproofs/bp.go:418-445; `n` is `params.N`.  The two `ScalarProduct` calls get
vectors of equal length, so their error result is never used; it would be a nil pointer. -/
def delta (n : Int) (y z : Int) : Res Int := do
  let z2 := (z * z) % ORDER
  let z3 := (z2 * z) % ORDER
  let v1 ← vectorCopy 1 n
  let vy ← powerOf y n
  let sp1y ← Res.ofOption (scalarProduct v1 vy)
  let p2n ← powerOf 2 n
  let sp12 ← Res.ofOption (scalarProduct v1 p2n)
  let r := (z - z2) % ORDER
  let r := (r * sp1y) % ORDER
  .ok ((r - z3 * sp12) % ORDER)

end Verif

import Verif.Model.BnText
import Verif.Model.GoCcs

/-!
# Model of programs which call the methods of `crypto/bn256` on variables

A variable is a pointer to a `G1`, `G2` or `GT` (crypto/bn256/bn256.go:47-49, 197-199, 346-348) whose field `p` is nil at first
(`new(bn256.G1)`), and different variables have different fields `p`.  The methods are the functions on values of the other models:
C74 shows that objects in memory behave like this, also when receiver and arguments are the same variable.  A method which returns
its receiver leaves the result in the receiver.  `exec` is the effect on the variables,
`out` what `Marshal`, `String`, `Unmarshal`, the tests and `PairingCheck` return.
-/

namespace Verif

/-- The fields `p` of the variables, `none` is nil. -/
structure BnVars where
  g1 : Nat → Option CurvePoint
  g2 : Nat → Option TwistPoint
  gt : Nat → Option GfP12

/-- Every variable as `new` makes it. -/
def BnVars.zero : BnVars := ⟨fun _ => none, fun _ => none, fun _ => none⟩

/-- `e.p = v`. -/
def BnVars.put1 (σ : BnVars) (e : Nat) (v : CurvePoint) : BnVars := { σ with g1 := fun i => if i = e then some v else σ.g1 i }
/-- `e.p = v`. -/
def BnVars.put2 (σ : BnVars) (e : Nat) (v : TwistPoint) : BnVars := { σ with g2 := fun i => if i = e then some v else σ.g2 i }
/-- `e.p = v`. -/
def BnVars.putT (σ : BnVars) (e : Nat) (v : GfP12) : BnVars := { σ with gt := fun i => if i = e then some v else σ.gt i }

/-- `if e.p == nil { e.p = newCurvePoint(nil) }`, bn256.go:89-91, 108-110, 127-129, 136-138, 170-172. -/
def BnVars.fill1 (σ : BnVars) (e : Nat) : BnVars := σ.put1 e ((σ.g1 e).getD .new)
/-- `if e.p == nil { e.p = newTwistPoint(nil) }`, bn256.go:240-242, 254-256, 268-270, 277-279, 315-317. -/
def BnVars.fill2 (σ : BnVars) (e : Nat) : BnVars := σ.put2 e ((σ.g2 e).getD .new)
/-- `if e.p == nil { e.p = newGFp12(nil) }`, bn256.go:356-358, 374-376, 408-410, 417-419, 471-473. -/
def BnVars.fillT (σ : BnVars) (e : Nat) : BnVars := σ.putT e ((σ.gt e).getD .zero)

/-- Loop of `Mul`, crypto/bn256/curve.go:246-253, bits `n-1 … 0` left: the point is read when a bit is set. -/
def goCurveMulLoop (a : Option CurvePoint) (k : Int) : Nat → CurvePoint → CurvePoint → Res CurvePoint
  | 0, sum, _ => .ok sum
  | n + 1, sum, t => do
    let t := CurvePoint.double t sum
    if intBit k n then do
      let a ← Res.ofOption a
      goCurveMulLoop (some a) k n (CurvePoint.add sum t a) t
    else goCurveMulLoop a k n t t

/-- `Mul`, crypto/bn256/curve.go:241-259. -/
def goCurveMul (a : Option CurvePoint) (k : Int) : Res CurvePoint :=
  goCurveMulLoop a k (bitLen k + 1) (CurvePoint.new.setInfinity) CurvePoint.new

/-- Loop of `Exp`, crypto/bn256/gfp12.go:151-158, bits `n-1 … 0` left: the base is read when a bit is set. -/
def goGtExpLoop (a : Option GfP12) (power : Int) : Nat → GfP12 → Res GfP12
  | 0, sum => .ok sum
  | n + 1, sum => do
    let t := sum.square
    if intBit power n then do
      let a ← Res.ofOption a
      goGtExpLoop (some a) power n (t.mul a)
    else goGtExpLoop a power n t

/-- `Exp`, crypto/bn256/gfp12.go:146-166. -/
def goGtExp (a : Option GfP12) (power : Int) : Res GfP12 := goGtExpLoop a power (bitLen power) .one

/-- `MakeAffine`, crypto/bn256/curve.go:261-292: `ModInverse` returns nil if `z` has no inverse, and the next multiplication panics. -/
def goMakeAffine (c : CurvePoint) : Res CurvePoint :=
  if c.z.natAbs = 1 ∨ c.isInfinity = true ∨ (modInverse c.z bnP).isSome = true then .ok c.makeAffine else .panic

/-- Loop of `PairingCheck`, crypto/bn256/bn256.go:503-508: `b[i]` is read only if `a[i]` is finite. -/
def goPairingCheckLoop (σ : BnVars) : List Nat → List Nat → GfP12 → Res GfP12
  | [], _, acc => .ok acc
  | i :: a, b, acc => do
    let p ← Res.ofOption (σ.g1 i)
    if p.isInfinity then goPairingCheckLoop σ a b.tail acc
    else match b with
      | [] => .panic
      | j :: b => do
        let q ← Res.ofOption (σ.g2 j)
        if q.isInfinity then goPairingCheckLoop σ a b acc
        else do
          let _ ← goMakeAffine p
          goPairingCheckLoop σ a b (acc.mul (miller q p))

/-- A call of an exported method; the first number is the receiver. -/
inductive BnStmt
  | g1Add (e a b : Nat)
  | g1Neg (e a : Nat)
  | g1ScalarMult (e a : Nat) (k : Int)
  | g1ScalarBaseMult (e : Nat) (k : Int)
  | g1SetInfinity (e : Nat)
  | g1SetZero (e : Nat)
  | g1IsZero (e : Nat)
  | g1CurvePoints (e : Nat)
  | g1String (e : Nat)
  | g1Marshal (e : Nat)
  | g1Unmarshal (e : Nat) (m : List UInt8)
  | g2Add (e a b : Nat)
  | g2Neg (e a : Nat)
  | g2ScalarMult (e a : Nat) (k : Int)
  | g2ScalarBaseMult (e : Nat) (k : Int)
  | g2SetInfinity (e : Nat)
  | g2IsZero (e : Nat)
  | g2CurvePoints (e : Nat)
  | g2String (e : Nat)
  | g2Marshal (e : Nat)
  | g2Unmarshal (e : Nat) (m : List UInt8)
  | gtAdd (e a b : Nat)
  | gtNeg (e a : Nat)
  | gtInvert (e a : Nat)
  | gtScalarMult (e a : Nat) (k : Int)
  | gtExp (e a : Nat) (k : Int)
  | gtIsZero (e : Nat)
  | gtIsOne (e : Nat)
  | gtString (e : Nat)
  | gtMarshal (e : Nat)
  | gtUnmarshal (e : Nat) (m : List UInt8)
  /-- `e = Pair(p, q)` -/
  | pair (e p q : Nat)
  | pairingCheck (a b : List Nat)

/-- The call, bn256.go by lines:
`G1` 126-132, 135-141, 107-122, 88-103, 79-83, 382-384, 387-389, 74-76, 69-71, 144-158, 162-193;
`G2` 267-273, 276-282, 253-263, 239-249, 231-235, 392-394, 226-228, 220-222, 285-303, 307-342;
`GT` 407-413, 416-422, 373-379, 355-361, 363-371, 397-399, 402-404, 350-352, 425-459, 463-489;
`Pair` 492-494, `PairingCheck` 497-513. -/
def BnStmt.exec : BnStmt → BnVars → Res BnVars
  | .g1Add e a b, σ => do
    let σ := σ.fill1 e
    let c ← Res.ofOption (σ.g1 e)
    let pa ← Res.ofOption (σ.g1 a)
    let pb ← Res.ofOption (σ.g1 b)
    .ok (σ.put1 e (if e = a then pa.addSelf pb else CurvePoint.add c pa pb))
  | .g1Neg e a, σ => do
    let σ := σ.fill1 e
    let pa ← Res.ofOption (σ.g1 a)
    .ok (σ.put1 e pa.neg)
  | .g1ScalarMult e a k, σ => do
    let σ := σ.fill1 e
    let c ← Res.ofOption (σ.g1 e)
    if k = 0 then .ok (σ.put1 e c.setInfinity)
    else if k > 0 then do
      let r ← goCurveMul (σ.g1 a) k
      .ok (σ.put1 e r)
    else do
      let r ← goCurveMul (σ.g1 a) k.natAbs
      .ok (σ.put1 e r.neg)
  | .g1ScalarBaseMult e k, σ => do
    let σ := σ.fill1 e
    let c ← Res.ofOption (σ.g1 e)
    .ok (σ.put1 e (G1.scalarBaseMult c k))
  | .g1SetInfinity e, σ => .ok (σ.put1 e CurvePoint.new.setInfinity)
  | .g1SetZero e, σ => do
    let p ← Res.ofOption (σ.g1 e)
    .ok (σ.put1 e p.setInfinity)
  | .g1IsZero e, σ => do
    let _ ← Res.ofOption (σ.g1 e)
    .ok σ
  | .g1CurvePoints e, σ => do
    let _ ← Res.ofOption (σ.g1 e)
    .ok σ
  | .g1String e, σ => do
    let p ← Res.ofOption (σ.g1 e)
    let p ← goMakeAffine p
    .ok (σ.put1 e p)
  | .g1Marshal e, σ => do
    let p ← Res.ofOption (σ.g1 e)
    let p ← goMakeAffine p
    .ok (σ.put1 e p)
  | .g1Unmarshal e m, σ =>
    if m.length ≠ 64 then .ok σ
    else .ok (σ.put1 e ((G1.unmarshal m).getD ⟨setBytes (m.take 32), setBytes (m.drop 32), 1, 1⟩))
  | .g2Add e a b, σ => do
    let σ := σ.fill2 e
    let c ← Res.ofOption (σ.g2 e)
    let pa ← Res.ofOption (σ.g2 a)
    let pb ← Res.ofOption (σ.g2 b)
    .ok (σ.put2 e (if e = a then pa.addSelf pb else TwistPoint.add c pa pb))
  | .g2Neg e a, σ => do
    let σ := σ.fill2 e
    let pa ← Res.ofOption (σ.g2 a)
    .ok (σ.put2 e (if e = a then pa.negSelf else pa.neg))
  | .g2ScalarMult e a k, σ => do
    let σ := σ.fill2 e
    if k ≥ 0 then do
      let r ← goTwistMul (σ.g2 a) k
      .ok (σ.put2 e r)
    else do
      let r ← goTwistMul (σ.g2 a) k.natAbs
      .ok (σ.put2 e r.negSelf)
  | .g2ScalarBaseMult e k, σ => .ok (σ.put2 e (G2.scalarBaseMult k))
  | .g2SetInfinity e, σ => .ok (σ.put2 e TwistPoint.new.setInfinity)
  | .g2IsZero e, σ => do
    let _ ← Res.ofOption (σ.g2 e)
    .ok σ
  | .g2CurvePoints e, σ => do
    let _ ← Res.ofOption (σ.g2 e)
    .ok σ
  | .g2String e, σ => do
    let _ ← Res.ofOption (σ.g2 e)
    .ok σ
  | .g2Marshal e, σ => do
    let p ← Res.ofOption (σ.g2 e)
    .ok (σ.put2 e p.makeAffine)
  | .g2Unmarshal e m, σ =>
    if m.length ≠ 128 then .ok σ
    else .ok (σ.put2 e ((G2.unmarshal m).getD ⟨⟨setBytes (m.take 32), setBytes ((m.drop 32).take 32)⟩,
      ⟨setBytes ((m.drop 64).take 32), setBytes (m.drop 96)⟩, .one, .one⟩))
  | .gtAdd e a b, σ => do
    let σ := σ.fillT e
    let pa ← Res.ofOption (σ.gt a)
    let pb ← Res.ofOption (σ.gt b)
    .ok (σ.putT e (GT.add pa pb))
  | .gtNeg e a, σ => do
    let σ := σ.fillT e
    let pa ← Res.ofOption (σ.gt a)
    .ok (σ.putT e (GT.neg pa))
  | .gtInvert e a, σ => do
    let σ := σ.fillT e
    let pa ← Res.ofOption (σ.gt a)
    .ok (σ.putT e (GT.invert pa))
  | .gtScalarMult e a k, σ => do
    let σ := σ.fillT e
    let r ← goGtExp (σ.gt a) k
    .ok (σ.putT e r)
  | .gtExp _ a k, σ => do
    let σ := σ.fillT a
    if k ≥ 0 then do
      let r ← goGtExp (σ.gt a) k
      .ok (σ.putT a r)
    else do
      let r ← goGtExp (σ.gt a) k.natAbs
      .ok (σ.putT a (GT.invert r))
  | .gtIsZero e, σ => do
    let p ← Res.ofOption (σ.gt e)
    .ok (σ.putT e (GT.isZero p).2)
  | .gtIsOne e, σ => do
    let p ← Res.ofOption (σ.gt e)
    .ok (σ.putT e (GT.isOne p).2)
  | .gtString e, σ => do
    let _ ← Res.ofOption (σ.gt e)
    .ok σ
  | .gtMarshal e, σ => do
    let p ← Res.ofOption (σ.gt e)
    .ok (σ.putT e (GT.marshal p).2)
  | .gtUnmarshal e m, σ =>
    match GT.unmarshal m with
    | none => .ok σ
    | some v => .ok (σ.putT e v)
  | .pair e i j, σ => do
    let q ← Res.ofOption (σ.g2 j)
    let p ← Res.ofOption (σ.g1 i)
    let _ ← goMakeAffine p
    .ok (σ.putT e (Verif.pair p q))
  | .pairingCheck a b, σ => do
    let _ ← goPairingCheckLoop σ a b .one
    .ok σ

/-- A program: one call after the other. -/
def bnRun : List BnStmt → BnVars → Res BnVars
  | [], σ => .ok σ
  | s :: prog, σ => do
    let σ ← s.exec σ
    bnRun prog σ

/-- What a call returns beside its receiver. -/
inductive BnOut
  | nothing
  | bool (b : Bool)
  | bytes (m : List UInt8)
  deriving DecidableEq

/-- The returned value; the bytes of `String` are those of `fmt`, and `CurvePoints` returns pointers to the coordinates, which are not
modelled here.  Lines as for `exec`. -/
def BnStmt.out : BnStmt → BnVars → Res BnOut
  | .g1IsZero e, σ => do
    let p ← Res.ofOption (σ.g1 e)
    .ok (.bool p.isInfinity)
  | .g1String e, σ => do
    let p ← Res.ofOption (σ.g1 e)
    let _ ← goMakeAffine p
    .ok (.bytes (G1.string p).1)
  | .g1Marshal e, σ => do
    let p ← Res.ofOption (σ.g1 e)
    let _ ← goMakeAffine p
    .ok (.bytes (G1.marshal p).1)
  | .g1Unmarshal _ m, _ => .ok (.bool (G1.unmarshal m).isSome)
  | .g2IsZero e, σ => do
    let p ← Res.ofOption (σ.g2 e)
    .ok (.bool p.isInfinity)
  | .g2String e, σ => do
    let p ← Res.ofOption (σ.g2 e)
    .ok (.bytes (G2.string p))
  | .g2Marshal e, σ => do
    let p ← Res.ofOption (σ.g2 e)
    .ok (.bytes (G2.marshal p).1)
  | .g2Unmarshal _ m, _ => .ok (.bool (G2.unmarshal m).isSome)
  | .gtIsZero e, σ => do
    let p ← Res.ofOption (σ.gt e)
    .ok (.bool (GT.isZero p).1)
  | .gtIsOne e, σ => do
    let p ← Res.ofOption (σ.gt e)
    .ok (.bool (GT.isOne p).1)
  | .gtString e, σ => do
    let p ← Res.ofOption (σ.gt e)
    .ok (.bytes (GT.string p))
  | .gtMarshal e, σ => do
    let p ← Res.ofOption (σ.gt e)
    .ok (.bytes (GT.marshal p).1)
  | .gtUnmarshal _ m, _ => .ok (.bool (GT.unmarshal m).isSome)
  | .pairingCheck a b, σ => do
    let acc ← goPairingCheckLoop σ a b .one
    .ok (.bool (finalExponentiation acc).isOne)
  | _, _ => .ok .nothing

/-- A program and the values returned by its calls. -/
def bnRunOut : List BnStmt → BnVars → Res (List BnOut × BnVars)
  | [], σ => .ok ([], σ)
  | s :: prog, σ => do
    let o ← s.out σ
    let σ ← s.exec σ
    let (os, σ) ← bnRunOut prog σ
    .ok (o :: os, σ)

end Verif

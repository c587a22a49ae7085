import Verif.Model.Gfp

/-!
# Model of `crypto/bn256/curve.go` and `twist.go`

A method that writes into a receiver `c` takes the old value of the receiver as its first
argument, because `Add` and `Double` leave the cached coordinate `t` of the receiver as it was.
`Double` and `Add` read `a.y` after having written `c.y`, so the case that the receiver is the
same object as `a` is modelled separately (`doubleSelf`, `addSelf`).
-/

namespace Verif

/-- `curvePoint`, crypto/bn256/curve.go:27-29. -/
structure CurvePoint where
  x : Int
  y : Int
  z : Int
  t : Int
  deriving DecidableEq, Repr

namespace CurvePoint

/-- `newCurvePoint` on an empty pool, curve.go:41-48. -/
def new : CurvePoint := ⟨0, 0, 0, 0⟩

/-- `curveGen`, curve.go:34-39. -/
def gen : CurvePoint := ⟨1, -2, 1, 1⟩

/-- `IsOnCurve`, curve.go:70-80. -/
def isOnCurve (c : CurvePoint) : Bool :=
  let yy := c.y * c.y
  let xxx := c.x * c.x
  let xxx := xxx * c.x
  let yy := yy - xxx
  let yy := yy - 3
  let yy := if yy < 0 ∨ yy ≥ bnP then yy % bnP else yy
  yy == 0

/-- `SetInfinity`, curve.go:82-84: only `z` is written. -/
def setInfinity (c : CurvePoint) : CurvePoint := { c with z := 0 }

/-- `IsInfinity`, curve.go:86-88. -/
def isInfinity (c : CurvePoint) : Bool := c.z == 0

/-- The values `x`, `y` of `Double`, curve.go:196-225, before `z` is computed. -/
def doubleXY (a : CurvePoint) : Int × Int :=
  let A := (a.x * a.x) % bnP
  let B := (a.y * a.y) % bnP
  let C_ := (B * B) % bnP
  let t := a.x + B
  let t2 := (t * t) % bnP
  let t := t2 - A
  let t2 := t - C_
  let d := t2 + t2
  let t := A + A
  let e := t + A
  let f := (e * e) % bnP
  let t := d + d
  let cx := f - t
  let t := C_ + C_
  let t2 := t + t
  let t := t2 + t2
  let cy := d - cx
  let t2 := (e * cy) % bnP
  let cy := t2 - t
  (cx, cy)

/-- `Double`, curve.go:196-239, receiver `c` different from `a`. -/
def double (c a : CurvePoint) : CurvePoint :=
  let (cx, cy) := doubleXY a
  let t := (a.y * a.z) % bnP
  ⟨cx, cy, t + t, c.t⟩

/-- `Double`, curve.go:196-239, with `c == a`: line 227 reads the `y` written in line 225. -/
def doubleSelf (a : CurvePoint) : CurvePoint :=
  let (cx, cy) := doubleXY a
  let t := (cy * a.z) % bnP
  ⟨cx, cy, t + t, a.t⟩

/-- The general case of `Add`, curve.go:100-178 (`none`: the operands are equal and
`c.Double(a)` is called, line 142). -/
def addXYZ (a b : CurvePoint) : Option (Int × Int × Int) :=
  let z1z1 := (a.z * a.z) % bnP
  let z2z2 := (b.z * b.z) % bnP
  let u1 := (a.x * z2z2) % bnP
  let u2 := (b.x * z1z1) % bnP
  let t := (b.z * z2z2) % bnP
  let s1 := (a.y * t) % bnP
  let t := (a.z * z1z1) % bnP
  let s2 := (b.y * t) % bnP
  let h := u2 - u1
  let xEqual := h == 0
  let t := h + h
  let i := (t * t) % bnP
  let j := (h * i) % bnP
  let t := s2 - s1
  let yEqual := t == 0
  if xEqual && yEqual then none
  else
    let r := t + t
    let v := (u1 * i) % bnP
    let t4 := (r * r) % bnP
    let t := v + v
    let t6 := t4 - j
    let cx := t6 - t
    let t := v - cx
    let t4 := (s1 * j) % bnP
    let t6 := t4 + t4
    let t4 := (r * t) % bnP
    let cy := t4 - t6
    let t := a.z + b.z
    let t4 := (t * t) % bnP
    let t := t4 - z1z1
    let t4 := t - z2z2
    let cz := (t4 * h) % bnP
    some (cx, cy, cz)

/-- `Add`, curve.go:90-194, receiver `c` different from `a` (it may be `b`). -/
def add (c a b : CurvePoint) : CurvePoint :=
  if a.isInfinity then b
  else if b.isInfinity then a
  else match addXYZ a b with
    | none => double c a
    | some (x, y, z) => ⟨x, y, z, c.t⟩

/-- `Add`, curve.go:90-194, with `c == a`. -/
def addSelf (a b : CurvePoint) : CurvePoint :=
  if a.isInfinity then b
  else if b.isInfinity then a
  else match addXYZ a b with
    | none => doubleSelf a
    | some (x, y, z) => ⟨x, y, z, a.t⟩

/-- Loop of `Mul`, curve.go:246-253, bits `n-1 … 0` left; `sum` and `t` are the two local points. -/
def mulLoop (a : CurvePoint) (k : Int) : Nat → CurvePoint → CurvePoint → CurvePoint
  | 0, sum, _ => sum
  | n + 1, sum, t =>
    let t := double t sum
    let sum := if intBit k n then add sum t a else t
    mulLoop a k n sum t

/-- `Mul`, curve.go:241-259 with a new pool; the loop starts at bit `BitLen()`. -/
def mul (a : CurvePoint) (k : Int) : CurvePoint :=
  mulLoop a k (bitLen k + 1) (new.setInfinity) new

/-- `MakeAffine`, curve.go:261-292.  `ModInverse` of a `z` that is a non-zero multiple of `P`
returns nil, and the code panics (C74); no operation produces such a `z`, and the value here is arbitrary. -/
def makeAffine (c : CurvePoint) : CurvePoint :=
  if c.z.natAbs = 1 then c
  else if c.isInfinity then ⟨0, 1, 0, 0⟩
  else
    let zInv := (modInverse c.z bnP).getD 0
    let t := (c.y * zInv) % bnP
    let zInv2 := (zInv * zInv) % bnP
    let cy := (t * zInv2) % bnP
    let t := (c.x * zInv2) % bnP
    ⟨t, cy, 1, 1⟩

/-- `Negative`, curve.go:294-299. -/
def neg (a : CurvePoint) : CurvePoint := ⟨a.x, -a.y, a.z, 0⟩

end CurvePoint

/-- `twistPoint`, crypto/bn256/twist.go:29-31. -/
structure TwistPoint where
  x : GfP2
  y : GfP2
  z : GfP2
  t : GfP2
  deriving DecidableEq, Repr

/-- `twistB`, twist.go:33-36. -/
def twistB : GfP2 :=
  ⟨266929791119991161246907387137283842545076965332900288569378510910307636690,
   19485874751759354771024239261021720505790618469301721065564631296452457478373⟩

namespace TwistPoint

/-- `newTwistPoint` on an empty pool, twist.go:58-65. -/
def new : TwistPoint := ⟨.zero, .zero, .zero, .zero⟩

/-- `twistGen`, twist.go:39-56. -/
def gen : TwistPoint :=
  ⟨⟨11559732032986387107991004021392285783925812861821192530917403151452391805634,
    10857046999023057135944570762232829481370756359578518086990519993285655852781⟩,
   ⟨4082367875863433681332203403145435568316851327593401208105741076214120093531,
    8495653923123431417604973247489272438418190587263600148770280649306958101930⟩,
   ⟨0, 1⟩, ⟨0, 1⟩⟩

/-- `IsOnCurve`, twist.go:86-95. -/
def isOnCurve (c : TwistPoint) : Bool :=
  let yy := c.y.square
  let xxx := c.x.square
  let xxx := xxx.mul c.x
  let yy := yy.sub xxx
  let yy := yy.sub twistB
  let yy := yy.minimal
  yy.x == 0 && yy.y == 0

/-- `SetInfinity`, twist.go:97-99. -/
def setInfinity (c : TwistPoint) : TwistPoint := { c with z := .zero }

/-- `IsInfinity`, twist.go:101-103. -/
def isInfinity (c : TwistPoint) : Bool := c.z.isZero

/-- The values `x`, `y` of `Double`, twist.go:181-202, before `z` is computed. -/
def doubleXY (a : TwistPoint) : GfP2 × GfP2 :=
  let A := a.x.square
  let B := a.y.square
  let C_ := B.square
  let t := a.x.add B
  let t2 := t.square
  let t := t2.sub A
  let t2 := t.sub C_
  let d := t2.add t2
  let t := A.add A
  let e := t.add A
  let f := e.square
  let t := d.add d
  let cx := f.sub t
  let t := C_.add C_
  let t2 := t.add t
  let t := t2.add t2
  let cy := d.sub cx
  let t2 := e.mul cy
  let cy := t2.sub t
  (cx, cy)

/-- `Double`, twist.go:179-215, receiver `c` different from `a`. -/
def double (c a : TwistPoint) : TwistPoint :=
  let (cx, cy) := doubleXY a
  let t := a.y.mul a.z
  ⟨cx, cy, t.add t, c.t⟩

/-- `Double`, twist.go:179-215, with `c == a`: line 204 reads the `y` written in line 202. -/
def doubleSelf (a : TwistPoint) : TwistPoint :=
  let (cx, cy) := doubleXY a
  let t := cy.mul a.z
  ⟨cx, cy, t.add t, a.t⟩

/-- The general case of `Add`, twist.go:118-161 (`none`: the operands are equal and
`c.Double(a)` is called, line 140). -/
def addXYZ (a b : TwistPoint) : Option (GfP2 × GfP2 × GfP2) :=
  let z1z1 := a.z.square
  let z2z2 := b.z.square
  let u1 := a.x.mul z2z2
  let u2 := b.x.mul z1z1
  let t := b.z.mul z2z2
  let s1 := a.y.mul t
  let t := a.z.mul z1z1
  let s2 := b.y.mul t
  let h := u2.sub u1
  let xEqual := h.isZero
  let t := h.add h
  let i := t.square
  let j := h.mul i
  let t := s2.sub s1
  let yEqual := t.isZero
  if xEqual && yEqual then none
  else
    let r := t.add t
    let v := u1.mul i
    let t4 := r.square
    let t := v.add v
    let t6 := t4.sub j
    let cx := t6.sub t
    let t := v.sub cx
    let t4 := s1.mul j
    let t6 := t4.add t4
    let t4 := r.mul t
    let cy := t4.sub t6
    let t := a.z.add b.z
    let t4 := t.square
    let t := t4.sub z1z1
    let t4 := t.sub z2z2
    let cz := t4.mul h
    some (cx, cy, cz)

/-- `Add`, twist.go:105-177, receiver `c` different from `a` (it may be `b`). -/
def add (c a b : TwistPoint) : TwistPoint :=
  if a.isInfinity then b
  else if b.isInfinity then a
  else match addXYZ a b with
    | none => double c a
    | some (x, y, z) => ⟨x, y, z, c.t⟩

/-- `Add`, twist.go:105-177, with `c == a`. -/
def addSelf (a b : TwistPoint) : TwistPoint :=
  if a.isInfinity then b
  else if b.isInfinity then a
  else match addXYZ a b with
    | none => doubleSelf a
    | some (x, y, z) => ⟨x, y, z, a.t⟩

/-- Loop of `Mul`, twist.go:222-229, bits `n-1 … 0` left. -/
def mulLoop (a : TwistPoint) (k : Int) : Nat → TwistPoint → TwistPoint → TwistPoint
  | 0, sum, _ => sum
  | n + 1, sum, t =>
    let t := double t sum
    let sum := if intBit k n then add sum t a else t
    mulLoop a k n sum t

/-- `Mul`, twist.go:217-235 with a new pool. -/
def mul (a : TwistPoint) (k : Int) : TwistPoint :=
  mulLoop a k (bitLen k + 1) (new.setInfinity) new

/-- `MakeAffine`, twist.go:237-256: there is no case for the point at infinity. -/
def makeAffine (c : TwistPoint) : TwistPoint :=
  if c.z.isOne then c
  else
    let zInv := c.z.invert
    let t := c.y.mul zInv
    let zInv2 := zInv.square
    let cy := t.mul zInv2
    let t := c.x.mul zInv2
    ⟨t, cy, .one, .one⟩

/-- `Negative`, twist.go:258-264. -/
def neg (a : TwistPoint) : TwistPoint := ⟨a.x, GfP2.zero.sub a.y, a.z, .zero⟩

/-- `Negative`, twist.go:258-264, with `c == a`: line 260 clears the `y` that line 261 subtracts. -/
def negSelf (a : TwistPoint) : TwistPoint := ⟨a.x, GfP2.zero.sub .zero, a.z, .zero⟩

end TwistPoint
end Verif

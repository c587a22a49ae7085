import Verif.Model.Heap
import Verif.Model.BnHeap

/-!
# `crypto/p256` on `big.Int` objects

The other models represent the coordinates of a point by their values.  In Go the fields `X` and `Y` are pointers, `Add` and `Multiply`
sometimes copy them (then two points have the same objects), and the arithmetic of crypto/p256/mycurve.go works on temporary
objects.  Here the coordinates are cells (`Cell`, as in the model of `crypto/bn256`) and every statement which writes to a `big.Int`
is a write to a cell.  Variables of type `*P256` are numbered, different variables point to different structs.

`CURVE.P` and `CURVE.N` are the objects 0 and 1.  go-ethereum's `ScalarMult` and `Double` are the functions in `Ext`, which return new
objects or nil.
-/

namespace Verif

open BigM

/-- `CURVE.P`, crypto/p256/mycurve.go:122. -/
def curveP : Cell := 0
/-- `CURVE.N`, crypto/p256/mycurve.go:123. -/
def curveN : Cell := 1

/-- `d.Mod(a, m)`; division by zero panics. -/
def modC (d a m : Cell) : BigM Unit := do
  let v ← read m
  if v = 0 then panic else write d ((← read a) % v)

/-- `if d.Sign() == -1 { d.Add(d, BitCurve.P) }`, crypto/p256/mycurve.go:49-51, 62-64, 86-88, 90-92. -/
def addIfNeg (d : Cell) : BigM Unit := do
  if (← read d) < 0 then add d d curveP else pure ()

/-- `addJacobian`, crypto/p256/mycurve.go:38-99. -/
def addJacobianO (x1 y1 z1 x2 y2 z2 : Cell) : BigM (Cell × Cell × Cell) := do
  let z1z1 ← new
  mul z1z1 z1 z1
  modC z1z1 z1z1 curveP
  let z2z2 ← new
  mul z2z2 z2 z2
  modC z2z2 z2z2 curveP
  let u1 ← new
  mul u1 x1 z2z2
  modC u1 u1 curveP
  let u2 ← new
  mul u2 x2 z1z1
  modC u2 u2 curveP
  let h ← new
  sub h u2 u1
  addIfNeg h
  let i ← new
  lsh1 i h
  mul i i i
  let j ← new
  mul j h i
  let s1 ← new
  mul s1 y1 z2
  mul s1 s1 z2z2
  modC s1 s1 curveP
  let s2 ← new
  mul s2 y2 z1
  mul s2 s2 z1z1
  modC s2 s2 curveP
  let r ← new
  sub r s2 s1
  addIfNeg r
  lsh1 r r
  let v ← new
  mul v u1 i
  let x3 ← new
  set x3 r
  mul x3 x3 x3
  sub x3 x3 j
  sub x3 x3 v
  sub x3 x3 v
  modC x3 x3 curveP
  let y3 ← new
  set y3 r
  sub v v x3
  mul y3 y3 v
  mul s1 s1 j
  lsh1 s1 s1
  sub y3 y3 s1
  modC y3 y3 curveP
  let z3 ← new
  add z3 z1 z2
  mul z3 z3 z3
  sub z3 z3 z1z1
  addIfNeg z3
  sub z3 z3 z2z2
  addIfNeg z3
  mul z3 z3 h
  modC z3 z3 curveP
  pure (x3, y3, z3)

/-- `affineFromJacobian`, crypto/p256/mycurve.go:101-114.  A nil result of `ModInverse` panics in the next line. -/
def affineFromJacobianO (x y z : Cell) : BigM (Cell × Cell) := do
  if (← read z) = 0 then do
    let xOut ← new
    let yOut ← new
    pure (xOut, yOut)
  else do
    let zinv ← new
    match modInverse (← read z) (← read curveP) with
    | none => panic
    | some w => do
      write zinv w
      let zinvsq ← new
      mul zinvsq zinv zinv
      let xOut ← new
      mul xOut x zinvsq
      modC xOut xOut curveP
      mul zinvsq zinvsq zinv
      let yOut ← new
      mul yOut y zinvsq
      modC yOut yOut curveP
      pure (xOut, yOut)

/-- `MyBitCurve.Add`, crypto/p256/mycurve.go:31-34. -/
def curveAddO (x1 y1 x2 y2 : Cell) : BigM (Cell × Cell) := do
  let z ← new
  setInt z 1
  let (x, y, z) ← addJacobianO x1 y1 z x2 y2 z
  affineFromJacobianO x y z

/-- The `big.Int` objects, and the fields `X` and `Y` of the variables. -/
structure PtHeap where
  big : BigHeap
  pt : Nat → Option Cell × Option Cell

/-- A computation on this heap. -/
def PtM (α : Type) : Type := PtHeap → Res (α × PtHeap)

namespace PtM

instance : Monad PtM where
  pure a := fun s => .ok (a, s)
  bind m f := fun s => m s >>= fun r => f r.1 r.2

/-- A computation on the integers only. -/
def lift {α : Type} (m : BigM α) : PtM α := fun s => m s.big >>= fun r => .ok (r.1, { s with big := r.2 })

/-- `p.X` and `p.Y`. -/
def fields (p : Nat) : PtM (Option Cell × Option Cell) := fun s => .ok (s.pt p, s)

/-- `p.X = x; p.Y = y`. -/
def setFields (p : Nat) (q : Option Cell × Option Cell) : PtM Unit := fun s =>
  .ok ((), { s with pt := fun i => if i = p then q else s.pt i })

/-- The object, unless the pointer is nil. -/
def deref (c : Option Cell) : PtM Cell := fun s => Res.ofOption c >>= fun c => .ok (c, s)

/-- `new(big.Int)` with a value, or nil. -/
def newInt : Option Int → PtM (Option Cell)
  | none => pure none
  | some v => do
    let c ← lift new
    lift (write c v)
    pure (some c)

/-- The results of a function of go-ethereum as new objects. -/
def newInts (v : P256) : PtM (Option Cell × Option Cell) := do
  let x ← newInt v.X
  let y ← newInt v.Y
  pure (x, y)

end PtM

open PtM

/-- `IsZero`, crypto/p256/p256.go:48-55. -/
def isZeroO (p : Nat) : PtM Bool := do
  match ← fields p with
  | (some x, some y) => do
    let z ← lift new
    lift (setInt z 0)
    pure (decide ((← lift (read x)) = (← lift (read z))) && decide ((← lift (read y)) = (← lift (read z))))
  | _ => pure true

/-- `SetInfinity`, crypto/p256/p256.go:170-174. -/
def setInfinityO (p : Nat) : PtM Unit := setFields p (none, none)

/-- `Add`, crypto/p256/p256.go:74-89. -/
def addO (p a b : Nat) : PtM Unit := do
  if ← isZeroO a then setFields p (← fields b)
  else if ← isZeroO b then setFields p (← fields b)
  else do
    let fa ← fields a
    let fb ← fields b
    let (x, y) ← lift (curveAddO (← deref fa.1) (← deref fa.2) (← deref fb.1) (← deref fb.2))
    setFields p (some x, some y)

/-- `Double`, crypto/p256/p256.go:94-102. -/
def doubleO (E : Ext) (p a : Nat) : PtM Unit := do
  if ← isZeroO a then setInfinityO p
  else do
    let fa ← fields a
    let x ← lift (read (← deref fa.1))
    let y ← lift (read (← deref fa.2))
    setFields p (← newInts (E.double x y))

/-- `ScalarMult`, crypto/p256/p256.go:107-121; `n` is a pointer. -/
def scalarMultO (E : Ext) (p a : Nat) (n : Option Cell) : PtM Unit := do
  if ← isZeroO a then setInfinityO p
  else do
    let n ← deref n
    if (← lift (read n)) = 0 then setInfinityO p
    else do
      let m ← lift new
      lift (modC m n curveN)
      let fa ← fields a
      let x ← lift (read (← deref fa.1))
      let y ← lift (read (← deref fa.2))
      setFields p (← newInts (E.scalarMult x y (← lift (read m)).toNat))

/-- `ScalarBaseMult`, crypto/p256/p256.go:126-137. -/
def scalarBaseMultO (E : Ext) (p : Nat) (n : Option Cell) : PtM Unit := do
  let n ← deref n
  if (← lift (read n)) = 0 then setInfinityO p
  else do
    let m ← lift new
    lift (modC m n curveN)
    setFields p (← newInts (E.scalarMult secpGx secpGy (← lift (read m)).toNat))

/-- `Neg`, crypto/p256/p256.go:60-69. -/
def negO (E : Ext) (p a : Nat) : PtM Unit := do
  if ← isZeroO a then setInfinityO p
  else do
    let one ← lift new
    lift (setInt one 1)
    let mone ← lift new
    lift (sub mone curveN one)
    scalarMultO E p p (some mone)

/-- `Multiply`, crypto/p256/p256.go:145-165. -/
def multiplyO (E : Ext) (p a b : Nat) : PtM Unit := do
  if ← isZeroO a then setFields p (← fields b)
  else if ← isZeroO b then setFields p (← fields a)
  else do
    let fa ← fields a
    let fb ← fields b
    let ax ← deref fa.1
    let ay ← deref fa.2
    let bx ← deref fb.1
    let by' ← deref fb.2
    if (← lift (read ax)) = (← lift (read bx)) ∧ (← lift (read ay)) = (← lift (read by')) then do
      let x ← lift (read ax)
      let y ← lift (read ay)
      setFields p (← newInts (E.double x y))
    else do
      let (x, y) ← lift (curveAddO ax ay bx by')
      setFields p (some x, some y)

/-- `IsOnCurve`, crypto/p256/p256.go:251-263, of a point with these fields. -/
def isOnCurveO (q : Option Cell × Option Cell) : PtM Bool := do
  let y ← deref q.2
  let y2 ← lift new
  lift (mul y2 y y)
  lift (modC y2 y2 curveP)
  let x ← deref q.1
  let x3 ← lift new
  lift (mul x3 x x)
  lift (mul x3 x3 x)
  let seven ← lift new
  lift (setInt seven 7)
  lift (add x3 x3 seven)
  lift (modC x3 x3 curveP)
  pure (decide ((← lift (read x3)) = (← lift (read y2))))

/-- `F`, crypto/p256/p256.go:223-234: each function of util/bn has a new object for its result. -/
def curveFO (x : Cell) : BigM Cell := do
  let a ← new
  mul a x x
  let b ← new
  modC b a curveP
  let c ← new
  mul c b x
  let d ← new
  modC d c curveP
  let seven ← new
  setInt seven 7
  let e ← new
  add e d seven
  let f ← new
  modC f e curveP
  pure f

/-- Loop of `MapToGroup`, crypto/p256/p256.go:200-216, with `fuel = 256 - i`.  `fx.ModSqrt(fx, P)` writes the root to `fx` and returns it, or
leaves `fx` and returns nil. -/
def mapToGroupLoopO (E : Ext) (m : List UInt8) : Nat → Nat → PtM (Option (Cell × Cell))
  | 0, _ => pure none
  | fuel + 1, i => do
    let h ← (fun s => hashToInt E (decimalNat i ++ m) >>= fun v => newInt v s : PtM (Option Cell))
    let h ← deref h
    let x ← lift new
    lift (modC x h curveP)
    let f ← lift (curveFO x)
    let fx ← lift new
    lift (modC fx f curveP)
    match E.modSqrt (← lift (read fx)) with
    | some w => do
      lift (write fx w)
      let on ← isOnCurveO (some x, some fx)
      let z ← lift new
      lift (setInt z 0)
      let zero := decide ((← lift (read x)) = (← lift (read z))) && decide ((← lift (read fx)) = (← lift (read z)))
      if on && !zero then pure (some (x, fx)) else mapToGroupLoopO E m fuel (i + 1)
    | none => mapToGroupLoopO E m fuel (i + 1)

/-- `if q, err := MapToGroup(m); err == nil { p = q }`, crypto/p256/p256.go:194-218. -/
def mapToGroupO (E : Ext) (p : Nat) (m : List UInt8) : PtM Unit := do
  match ← mapToGroupLoopO E m 256 0 with
  | some (x, y) => setFields p (some x, some y)
  | none => pure ()

end Verif

import Verif.Model.Vector

/-!
# Model of `crypto/p256` (secp256k1 points)
-/

namespace Verif

/-- `theCurve.P`, crypto/p256/mycurve.go:122. -/
def secpP : Int := 0xFFFFFFFFFFFFFFFFFFFFFFFFFFFFFFFFFFFFFFFFFFFFFFFFFFFFFFFEFFFFFC2F
/-- `theCurve.Gx`, crypto/p256/mycurve.go:125. -/
def secpGx : Int := 0x79BE667EF9DCBBAC55A06295CE870B07029BFCDB2DCE28D959F2815B16F81798
/-- `theCurve.Gy`, crypto/p256/mycurve.go:126. -/
def secpGy : Int := 0x483ADA7726A3C4655DA4FBFC0E1108A8FD17B448A68554199C47D08FFB10D4B8

/-- `P256`, crypto/p256/p256.go:41-43; the coordinates are pointers and may be nil. -/
structure P256 where
  X : Option Int
  Y : Option Int
  deriving DecidableEq, Repr

/-- Functions outside the repository which the modelled code calls.  They are parameters of
the model; `Spec/Secp.lean` states what is assumed about them (`Ext.Ok`). -/
structure Ext where
  /-- go-ethereum `BitCurve.ScalarMult(x, y, k)` (C code); the byte slice `k` is given by its
  big-endian value. -/
  scalarMult : Int → Int → Nat → P256
  /-- go-ethereum `BitCurve.Double(x, y)`. -/
  double : Int → Int → P256
  /-- `new(big.Int).ModSqrt(a, P)`. -/
  modSqrt : Int → Option Int
  /-- SHA-256. -/
  sha256 : List UInt8 → List UInt8

/-- `addJacobian`, crypto/p256/mycurve.go:38-99, all intermediate values as in the code. -/
def addJacobian (x1 y1 z1 x2 y2 z2 : Int) : Int × Int × Int :=
  let z1z1 := (z1 * z1) % secpP
  let z2z2 := (z2 * z2) % secpP
  let u1 := (x1 * z2z2) % secpP
  let u2 := (x2 * z1z1) % secpP
  let h := u2 - u1
  let h := if h < 0 then h + secpP else h
  let i := 2 * h
  let i := i * i
  let j := h * i
  let s1 := (y1 * z2 * z2z2) % secpP
  let s2 := (y2 * z1 * z1z1) % secpP
  let r := s2 - s1
  let r := if r < 0 then r + secpP else r
  let r := 2 * r
  let v := u1 * i
  let x3 := (r * r - j - v - v) % secpP
  let y3 := (r * (v - x3) - 2 * (s1 * j)) % secpP
  let z3 := (z1 + z2) * (z1 + z2) - z1z1
  let z3 := if z3 < 0 then z3 + secpP else z3
  let z3 := z3 - z2z2
  let z3 := if z3 < 0 then z3 + secpP else z3
  let z3 := (z3 * h) % secpP
  (x3, y3, z3)

/-- `affineFromJacobian`, crypto/p256/mycurve.go:101-114.  `ModInverse` would return nil (and
the multiplication panic) only for `z` not coprime to the prime `P`; that case is proved
unreachable (`affineFromJacobian_inverse_exists`), and is given the value `(0,0)` here. -/
def affineFromJacobian (q : Int × Int × Int) : Int × Int :=
  let (x, y, z) := q
  if z = 0 then (0, 0)
  else match modInverse z secpP with
    | none => (0, 0)
    | some zinv =>
      let zinvsq := zinv * zinv
      ((x * zinvsq) % secpP, (y * (zinvsq * zinv)) % secpP)

/-- `MyBitCurve.Add`, crypto/p256/mycurve.go:31-34. -/
def curveAdd (x1 y1 x2 y2 : Int) : Int × Int := affineFromJacobian (addJacobian x1 y1 1 x2 y2 1)

namespace P256

/-- `SetInfinity`, crypto/p256/p256.go:170-174. -/
def infinity : P256 := ⟨none, none⟩

/-- `IsZero`, crypto/p256/p256.go:48-55. -/
def isZero (p : P256) : Bool :=
  match p.X, p.Y with
  | some x, some y => x == 0 && y == 0
  | _, _ => true

/-- Coordinate access.  All uses are behind an `IsZero` test, so nil never reaches it. -/
def x (p : P256) : Int := p.X.getD 0
/-- See `x`. -/
def y (p : P256) : Int := p.Y.getD 0

/-- A point with both coordinates present. -/
def ofPair (q : Int × Int) : P256 := ⟨some q.1, some q.2⟩

/-- `Add`, crypto/p256/p256.go:74-89 (the receiver's previous value is not read, so the result
is a function of the arguments, also when they alias the receiver). -/
def add (a b : P256) : P256 :=
  if a.isZero then b
  else if b.isZero then b
  else ofPair (curveAdd a.x a.y b.x b.y)

/-- `Double`, crypto/p256/p256.go:94-102. -/
def double (E : Ext) (a : P256) : P256 :=
  if a.isZero then infinity else E.double a.x a.y

/-- `ScalarMult`, crypto/p256/p256.go:107-121. -/
def scalarMult (E : Ext) (a : P256) (n : Int) : P256 :=
  if a.isZero then infinity
  else if n = 0 then infinity
  else E.scalarMult a.x a.y (n % ORDER).toNat

/-- `ScalarBaseMult`, crypto/p256/p256.go:126-137; go-ethereum's `ScalarBaseMult(k)` is
`ScalarMult(Gx, Gy, k)`. -/
def scalarBaseMult (E : Ext) (n : Int) : P256 :=
  if n = 0 then infinity
  else E.scalarMult secpGx secpGy (n % ORDER).toNat

/-- `Neg`, crypto/p256/p256.go:60-69: `p` is the receiver, `a` the argument; note that line 67
multiplies the receiver, not the argument. -/
def neg (E : Ext) (p a : P256) : P256 :=
  if a.isZero then infinity else scalarMult E p (ORDER - 1)

/-- `Multiply`, crypto/p256/p256.go:145-165. -/
def multiply (E : Ext) (a b : P256) : P256 :=
  if a.isZero then b
  else if b.isZero then a
  else if a.x = b.x ∧ a.y = b.y then E.double a.x a.y
  else ofPair (curveAdd a.x a.y b.x b.y)

/-- `IsOnCurve`, crypto/p256/p256.go:251-263 (nil coordinates panic). -/
def isOnCurve (p : P256) : Res Bool :=
  match p.X, p.Y with
  | some x, some y => .ok (decide ((x * x * x + 7) % secpP = (y * y) % secpP))
  | _, _ => .panic

end P256

/-- `F`, crypto/p256/p256.go:223-234. -/
def curveF (x : Int) : Int :=
  let t := (x * x) % secpP
  let t := (t * x) % secpP
  (t + 7) % secpP

/-- ASCII bytes of `strconv.Itoa(i)` / `big.Int.String()` for a non-negative number. -/
def decimalNat (n : Nat) : List UInt8 :=
  if n = 0 then [48] else (Nat.digits 10 n).reverse.map (fun d => UInt8.ofNat (48 + d))

/-- `big.Int.String()` of a possibly nil pointer (math/big prints `<nil>`). -/
def decimal : Option Int → List UInt8
  | none => [60, 110, 105, 108, 62]
  | some v => if v < 0 then 45 :: decimalNat v.natAbs else decimalNat v.natAbs

/-- `HashToInt`, crypto/p256/p256.go:239-245. -/
def hashToInt (E : Ext) (b : List UInt8) : Res (Option Int) := fromByteArray (E.sha256 b)

/-- Loop of `MapToGroup`, crypto/p256/p256.go:200-216, with `fuel = 256 - i`.  The string
`m` is given by its bytes.  A nil hash value would panic in `bn.Mod`. -/
def mapToGroupLoop (E : Ext) (m : List UInt8) : Nat → Nat → Res (Option P256)
  | 0, _ => .ok none
  | fuel + 1, i => do
    let h ← hashToInt E (decimalNat i ++ m)
    let x ← Res.ofOption h
    let x := x % secpP
    let fx := curveF x % secpP
    match E.modSqrt fx with
    | some y =>
      let p : P256 := ⟨some x, some y⟩
      let on ← p.isOnCurve
      if on && !p.isZero then .ok (some p) else mapToGroupLoop E m fuel (i + 1)
    | none => mapToGroupLoop E m fuel (i + 1)

/-- `MapToGroup`, crypto/p256/p256.go:194-218. -/
def mapToGroup (E : Ext) (m : List UInt8) : Res (Option P256) := mapToGroupLoop E m 256 0

end Verif

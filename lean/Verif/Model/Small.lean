import Verif.Model.BnHeapPair

/-!
# Small functions

`util/intconversion`, the arithmetic of `util/bn`, and the functions of `bn256` that return parts of an element.
-/

namespace Verif

/-- An ASCII digit. -/
def isDec (b : UInt8) : Bool := 48 ≤ b && b ≤ 57

/-- A string of digits as a number; `none` if there are no digits or other bytes. -/
def digitsOf (s : List UInt8) : Option Int :=
  if s.isEmpty || !s.all isDec then none else some (s.foldl (fun a b => a * 10 + ((b.toNat : Int) - 48)) 0)

/-- `BigFromBase10`, util/intconversion/intconversion.go:25-28.  `SetString` of math/big with base 10 reads a sign, if there is one,
and then digits up to the end; otherwise it returns nil, and the second result, which says so, is dropped. -/
def bigFromBase10 : List UInt8 → Option Int
  | [] => none
  | c :: s =>
    if c = 45 then (digitsOf s).map fun v => -v
    else if c = 43 then digitsOf s
    else digitsOf (c :: s)

/-- `Add`, util/bn/bn.go:56-58. -/
def bnAdd (x y : Int) : Int := x + y

/-- `Sub`, util/bn/bn.go:60-62. -/
def bnSub (x y : Int) : Int := x - y

/-- `Mod`, util/bn/bn.go:64-66: the Euclidean remainder; division by zero panics. -/
def bnMod (base modulo : Int) : Res Int := if modulo = 0 then .panic else .ok (base % modulo)

/-- `Multiply`, util/bn/bn.go:68-70. -/
def bnMultiply (x y : Int) : Int := x * y

/-- `Real`, crypto/bn256/gfp2.go:234-236: the object itself, not a copy. -/
def Gf2.real (e : Gf2) : BigM Cell := pure e.x

/-- `Imag`, crypto/bn256/gfp2.go:238-240. -/
def Gf2.imag (e : Gf2) : BigM Cell := pure e.y

/-- `CurvePoints` of `G1`, crypto/bn256/bn256.go:74-76. -/
def G1H.curvePoints (e : CurveP) : BigM (Cell × Cell × Cell × Cell) := pure (e.x, e.y, e.z, e.t)

/-- `CurvePoints` of `G2`, crypto/bn256/bn256.go:225-227. -/
def G2H.curvePoints (e : TwistP) : BigM (Gf2 × Gf2 × Gf2 × Gf2) := pure (e.x, e.y, e.z, e.t)

end Verif

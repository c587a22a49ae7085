import Verif.Model.Ccs

/-!
# Model of the remaining methods of `bn256`: the group operations of `GT` by name, and `String` of `G1`

`gfP2.String`, `GT.String` and `G2.String` are in `Model/Ccs.lean`, because the challenges are hashes of them.
-/

namespace Verif

namespace GT

/-- `Add`, crypto/bn256/bn256.go:407-413. -/
def add (a b : GfP12) : GfP12 := a.mul b

/-- `Neg`, crypto/bn256/bn256.go:416-422. -/
def neg (a : GfP12) : GfP12 := a.invert

/-- `Invert`, crypto/bn256/bn256.go:373-379. -/
def invert (a : GfP12) : GfP12 := a.invert

/-- `IsZero`, crypto/bn256/bn256.go:397-399: the verdict and the element afterwards (`gfP12.IsZero` reduces it). -/
def isZero (a : GfP12) : Bool × GfP12 := (a.isZero, a.minimal)

/-- `IsOne`, crypto/bn256/bn256.go:402-404. -/
def isOne (a : GfP12) : Bool × GfP12 := (a.isOne, a.minimal)

end GT

/-- `curvePoint.String`, crypto/bn256/curve.go:50-53: the text, and the point afterwards. -/
def CurvePoint.string (c : CurvePoint) : List UInt8 × CurvePoint :=
  let c := c.makeAffine
  ([40] ++ decimal (some c.x) ++ [44, 32] ++ decimal (some c.y) ++ [41], c)

/-- `G1.String`, crypto/bn256/bn256.go:69-71: "bn256.G1" and the coordinates. -/
def G1.string (g : CurvePoint) : List UInt8 × CurvePoint :=
  ([98, 110, 50, 53, 54, 46, 71, 49] ++ g.string.1, g.string.2)

end Verif

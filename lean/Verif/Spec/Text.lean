import Verif.Model.Bip
import Verif.Model.BnText

/-!
# The printed forms of numbers and group elements, as strings

Written with the `toString` of Lean, not with the functions of the model.
-/

namespace Verif.Spec

/-- The bytes of a string of ASCII characters. -/
def ascii (s : String) : List UInt8 := s.toList.map fun c => UInt8.ofNat c.toNat

/-- A `*big.Int` as `math/big` prints it. -/
def intText : Option Int → String
  | none => "<nil>"
  | some v => toString v

/-- An element of secp256k1. -/
def p256Text (p : P256) : String := s!"P256({intText p.X},{intText p.Y})"

/-- An element of `F_{p²}`: both coordinates reduced. -/
def fp2Text (e : GfP2) : String := s!"({e.x % bnP},{e.y % bnP})"

/-- An element of `F_{p⁶}`. -/
def fp6Text (e : GfP6) : String := s!"({fp2Text e.x},{fp2Text e.y},{fp2Text e.z})"

/-- An element of `G1` with affine coordinates `x`, `y`. -/
def g1Text (x y : Int) : String := s!"bn256.G1({x}, {y})"

/-- An element of `G2`: the stored coordinates. -/
def g2Text (c : TwistPoint) : String := s!"bn256.G2({fp2Text c.x}, {fp2Text c.y}, {fp2Text c.z})"

/-- An element of `GT`. -/
def gtText (e : GfP12) : String := s!"bn256.GT({fp6Text e.x},{fp6Text e.y})"

end Verif.Spec

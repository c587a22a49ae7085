import Verif.Spec.Secp
import Mathlib.Algebra.BigOperators.Group.Finset.Basic
import Mathlib.Algebra.BigOperators.Ring.Finset

/-!
# Specification: the vector polynomials of the range proof

`l(X) = (aL - z) + sL·X`, `r(X) = yⁿ∘(aR + z + sR·X) + z²·2ⁿ`, `t(X) = <l(X), r(X)>`
(Bulletproofs paper, equations 58-60), where `aL` are the binary digits of the committed number
and `aR = aL - 1`.  All over the scalar field.
-/

namespace Verif.Spec
open Finset

variable {F : Type*} [CommRing F]

/-- The `i`-th binary digit (two's complement for negative numbers). -/
def bit (v : Int) (i : Nat) : Int := v / 2 ^ i % 2

/-- Constant coefficient of `lᵢ`. -/
def l0 (v : Int) (z : F) (i : Nat) : F := (bit v i : F) - z

/-- Constant coefficient of `rᵢ`. -/
def r0 (v : Int) (y z : F) (i : Nat) : F := y ^ i * ((bit v i : F) - 1 + z) + z ^ 2 * 2 ^ i

/-- Constant coefficient of `t`. -/
def t0 (n : Nat) (v : Int) (y z : F) : F := ∑ i ∈ range n, l0 v z i * r0 v y z i

/-- Linear coefficient of `t`. -/
def t1 (n : Nat) (v : Int) (y z : F) (sL sR : Nat → F) : F :=
  ∑ i ∈ range n, (l0 v z i * (y ^ i * sR i) + sL i * r0 v y z i)

/-- Quadratic coefficient of `t`. -/
def t2 (n : Nat) (y : F) (sL sR : Nat → F) : F := ∑ i ∈ range n, sL i * (y ^ i * sR i)

/-- `δ(y,z) = (z - z²)·<1,yⁿ> - z³·<1,2ⁿ>`. -/
def delta (n : Nat) (y z : F) : F := (z - z ^ 2) * (∑ i ∈ range n, y ^ i) - z ^ 3 * (2 ^ n - 1)

end Verif.Spec

import Verif.Spec.Bn256
import Verif.Lemmas.Gfp
import Verif.Lemmas.Curve

/-!
# Specification: the groups behind `G1` and `G2`

`BG1` is Mathlib's group of points of `y² = x³ + 3` over `GF(p)`, `BG2` that of `y² = x³ + 3/ξ`
over `F2`.  `Rep1`/`Rep2` say which group element a Go value represents.
-/

namespace Verif

/-- The group of `y² = x³ + 3` over `GF(p)`. -/
def BG1 : Type := (curve (3 : BF)).Point
noncomputable instance : AddCommGroup BG1 := inferInstanceAs (AddCommGroup (curve (3 : BF)).Point)
noncomputable instance : DecidableEq BG1 := Classical.decEq _

/-- The group of the twist over `F2`. -/
def BG2 : Type := (curve (3 / F2.xi)).Point
noncomputable instance : AddCommGroup BG2 := inferInstanceAs (AddCommGroup (curve (3 / F2.xi)).Point)
noncomputable instance : DecidableEq BG2 := Classical.decEq _

/-- `a` represents `Q`: Jacobian coordinates modulo `p`; `z` is not negative, and is zero if it is
divisible by `p` (so that `IsInfinity`, which compares with `0`, is right). -/
def Rep1 (a : CurvePoint) (Q : BG1) : Prop :=
  Jac Q (a.x : BF) (a.y : BF) (a.z : BF) ∧ 0 ≤ a.z ∧ ((a.z : BF) = 0 → a.z = 0)

/-- `a` represents `Q` on the twist. -/
def Rep2 (a : TwistPoint) (Q : BG2) : Prop :=
  Jac Q a.x.val a.y.val a.z.val ∧ 0 ≤ a.z.y ∧ (a.z.val = 0 → a.z = .zero)

/-- `a` is finite and its affine coordinates do not satisfy the equation of the twist. -/
def OffTwist (a : TwistPoint) : Prop :=
  a.z.val ≠ 0 ∧ 0 ≤ a.z.y ∧ a.y.val ^ 2 ≠ a.x.val ^ 3 + 3 / F2.xi * a.z.val ^ 6

/-- The affine `x` coordinates differ. -/
def DiffX (a b : TwistPoint) : Prop := a.x.val * b.z.val ^ 2 ≠ b.x.val * a.z.val ^ 2

/-- Adding the points in turn to `a`, in place, no step adds a finite point with the same `x`
coordinate or gives a sum with the same `x` coordinate as the point added. -/
def SafeAdds : TwistPoint → List TwistPoint → Prop
  | _, [] => True
  | a, b :: bs => (b.z = .zero ∨ (DiffX a b ∧ DiffX (a.addSelf b) b)) ∧ SafeAdds (a.addSelf b) bs

end Verif

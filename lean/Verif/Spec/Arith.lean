import Mathlib.Data.Int.ModEq
import Mathlib.Algebra.BigOperators.Group.Finset.Basic

/-! # Independent specifications for integer arithmetic -/

namespace Verif.Spec

/-- `d₀ + d₁·u + d₂·u² + …`. -/
def weighted (u : Int) : List Int → Int
  | [] => 0
  | d :: ds => d + u * weighted u ds

/-- `x` reduced into `[0, m)`: the unique such representative. -/
def IsResidue (m x r : Int) : Prop := 0 ≤ r ∧ r < m ∧ r ≡ x [ZMOD m]

/-- Inner product over the integers. -/
def dot : List Int → List Int → Int
  | x :: a, y :: b => x * y + dot a b
  | _, _ => 0

end Verif.Spec

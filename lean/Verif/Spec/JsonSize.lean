import Verif.Model.Json

/-!
# How many curve points a JSON value contains
-/

namespace Verif

/-- The members are exactly `X` and `Y`. -/
def JsonMembers.isPoint : JsonMembers → Bool
  | .cons k _ (.cons k' _ .nil) => k == [88] && k' == [89]
  | _ => false

mutual
/-- The number of objects, at any depth, whose members are `X` and `Y`. -/
def Json.pointCount : Json → Nat
  | .arr l => l.pointCount
  | .obj m => (if m.isPoint then 1 else 0) + m.pointCount
  | _ => 0
/-- The objects among the elements. -/
def JsonList.pointCount : JsonList → Nat
  | .nil => 0
  | .cons v l => v.pointCount + l.pointCount
/-- The objects among the members. -/
def JsonMembers.pointCount : JsonMembers → Nat
  | .nil => 0
  | .cons _ v m => v.pointCount + m.pointCount
end

/-- The coordinates, where present, are natural numbers of at most 256 bits. -/
def P256.Bounded (p : P256) : Prop :=
  (∀ v ∈ p.X, 0 ≤ v ∧ v < 2 ^ 256) ∧ (∀ v ∈ p.Y, 0 ≤ v ∧ v < 2 ^ 256)

end Verif

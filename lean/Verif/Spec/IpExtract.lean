import Mathlib.Algebra.Module.Basic
import Mathlib.Algebra.Module.Pi
import Mathlib.Algebra.Module.Prod
import Mathlib.Algebra.Field.Basic
import Mathlib.Data.Fin.VecNotation
import Mathlib.Algebra.BigOperators.Group.Finset.Basic

/-!
# The extractor for the inner-product argument

A prover that is run several times with different challenges yields a tree of transcripts.  `Tree.extract` computes,
from the scalars of such a tree only (the challenges and the final `a`, `b`; no group element is looked at), an opening
of the commitment or a linear relation between the generators.  Vectors are functions on the natural numbers of which
only the first `n` values matter.
-/

namespace Verif.Spec

variable {F : Type*} [Field F]

/-- Scalars of a tree of transcripts with `k` rounds: at every inner node four challenges, at the leaves the numbers
`a`, `b` sent last. -/
inductive Tree (F : Type*) : Nat → Type _ where
  | leaf (a b : F) : Tree F 0
  | node {k : Nat} (x : Fin 4 → F) (t : Fin 4 → Tree F k) : Tree F (k + 1)

/-- Coefficients of generators `g`, of generators `h` and of `u`. -/
abbrev Coeffs (F : Type*) := (Nat → F) × (Nat → F) × F

/-- What the extractor finds: vectors `a`, `b`, or coefficients of a relation. -/
inductive Found (F : Type*) where
  | opening (a b : Nat → F)
  | relation (v : Coeffs F)

/-- Coefficients with respect to the folded generators `x⁻¹·gᵢ + x·gᵢ₊ₘ` and `x·hᵢ + x⁻¹·hᵢ₊ₘ`, turned into
coefficients with respect to the `2m` generators. -/
def lift (m : Nat) (x : F) (v : Coeffs F) : Coeffs F :=
  (fun i => if i < m then x⁻¹ * v.1 i else x * v.1 (i - m),
   fun i => if i < m then x * v.2.1 i else x⁻¹ * v.2.1 (i - m), v.2.2)

/-- The coefficients `(a, b, <a,b>)`. -/
def coeffs (m : Nat) (a b : Nat → F) : Coeffs F := (a, b, ∑ i ∈ Finset.range m, a i * b i)

/-- Weights with which the values at `X = X₁, X₂, X₃` of `c₁·X + c₀ + c₂/X` add up to `c₀`. -/
def nu (X Y Z : F) : F := -(Y + Z) * X / ((X - Y) * (X - Z))

/-- Weights with which the values at `X = X₁, X₂, X₃` of `c₁·X + c₀ + c₂/X` add up to the value at `X = W`. -/
def mu (W X Y Z : F) : F := X / W * ((W - Y) * (W - Z) / ((X - Y) * (X - Z)))

/-- The opening interpolated from the first three children. -/
def interpolate (x : Fin 4 → F) (v : Fin 4 → Coeffs F) : Coeffs F :=
  nu (x 0 ^ 2) (x 1 ^ 2) (x 2 ^ 2) • v 0 + nu (x 1 ^ 2) (x 0 ^ 2) (x 2 ^ 2) • v 1 + nu (x 2 ^ 2) (x 0 ^ 2) (x 1 ^ 2) • v 2

/-- The difference between the fourth child and what the first three predict. -/
def deviation (x : Fin 4 → F) (v : Fin 4 → Coeffs F) : Coeffs F :=
  mu (x 3 ^ 2) (x 0 ^ 2) (x 1 ^ 2) (x 2 ^ 2) • v 0 + mu (x 3 ^ 2) (x 1 ^ 2) (x 0 ^ 2) (x 2 ^ 2) • v 1 +
    mu (x 3 ^ 2) (x 2 ^ 2) (x 0 ^ 2) (x 1 ^ 2) • v 2 - v 3

section
variable {M : Type*} [AddCommGroup M] [Module F M]

/-- The group element with the given coefficients. -/
def eval (n : Nat) (g h : Nat → M) (u : M) (v : Coeffs F) : M :=
  ∑ i ∈ Finset.range n, v.1 i • g i + ∑ i ∈ Finset.range n, v.2.1 i • h i + v.2.2 • u

/-- What `Found` says about the generators `g`, `h`, `u` and the point `P`: the opening is one of `P`, the relation
holds and is not trivial. -/
def Found.Valid (n : Nat) (g h : Nat → M) (u P : M) : Found F → Prop
  | .opening a b => P = ∑ i ∈ Finset.range n, a i • g i + ∑ i ∈ Finset.range n, b i • h i +
      (∑ i ∈ Finset.range n, a i * b i) • u
  | .relation v => (∃ i < n, v.1 i ≠ 0 ∨ v.2.1 i ≠ 0) ∧
      ∑ i ∈ Finset.range n, v.1 i • g i + ∑ i ∈ Finset.range n, v.2.1 i • h i + v.2.2 • u = 0

/-- The folded generators. -/
def fold (m : Nat) (x y : F) (g : Nat → M) (i : Nat) : M := x • g i + y • g (i + m)

/-- The tree consists of accepting transcripts for the generators `g`, `h`, `u` and the point `P`: `L` and `R` do not
depend on the challenge, the squares of the four challenges differ. -/
def Tree.Valid : {k : Nat} → Tree F k → (Nat → M) → (Nat → M) → M → M → Prop
  | _, .leaf a b, g, h, u, P => P = a • g 0 + b • h 0 + (a * b) • u
  | k + 1, .node x t, g, h, u, P => (∀ i, x i ≠ 0) ∧ (∀ i j, x i ^ 2 = x j ^ 2 → i = j) ∧
      ∃ L R : M, ∀ i, (t i).Valid (fold (2 ^ k) (x i)⁻¹ (x i) g) (fold (2 ^ k) (x i) (x i)⁻¹ h) u
        (P + (x i ^ 2) • L + (x i ^ 2)⁻¹ • R)

/-- The equation that decides about a transcript with the rounds `(L, R, x)` and the last message `a`, `b`. -/
def Accepts : List (M × M × F) → (Nat → M) → (Nat → M) → M → M → F → F → Prop
  | [], g, h, u, P, a, b => P = a • g 0 + b • h 0 + (a * b) • u
  | (L, R, x) :: r, g, h, u, P, a, b => x ≠ 0 ∧ Accepts r (fold (2 ^ r.length) x⁻¹ x g) (fold (2 ^ r.length) x x⁻¹ h) u
      (P + (x ^ 2) • L + (x ^ 2)⁻¹ • R) a b

end

/-- The tree is the result of running a prover again and again: in every round `L` and `R` are the same for all four
challenges, whose squares differ, and `acc` holds for the rounds `(L, R, x)` and the numbers `a`, `b` of every leaf. -/
def Tree.Forked {K : Type*} (pt : K → Prop) : {k : Nat} → Tree F k → (List (K × K × F) → F → F → Prop) → Prop
  | _, .leaf a b, acc => acc [] a b
  | _ + 1, .node x t, acc => (∀ i j, x i ^ 2 = x j ^ 2 → i = j) ∧ ∃ L R : K, pt L ∧ pt R ∧
      ∀ i, (t i).Forked pt (fun r a b => acc ((L, R, x i) :: r) a b)

variable [DecidableEq F]

/-- One node whose children have `m` generators each. -/
def combine (m : Nat) (x : Fin 4 → F) (r : Fin 4 → Found F) : Found F :=
  match r 0, r 1, r 2, r 3 with
  | .relation v, _, _, _ => .relation (lift m (x 0) v)
  | _, .relation v, _, _ => .relation (lift m (x 1) v)
  | _, _, .relation v, _ => .relation (lift m (x 2) v)
  | _, _, _, .relation v => .relation (lift m (x 3) v)
  | .opening a₀ b₀, .opening a₁ b₁, .opening a₂ b₂, .opening a₃ b₃ =>
    let v : Fin 4 → Coeffs F := ![lift m (x 0) (coeffs m a₀ b₀), lift m (x 1) (coeffs m a₁ b₁),
      lift m (x 2) (coeffs m a₂ b₂), lift m (x 3) (coeffs m a₃ b₃)]
    let d := deviation x v
    if ∀ i < 2 * m, d.1 i = 0 ∧ d.2.1 i = 0 then .opening (interpolate x v).1 (interpolate x v).2.1
    else .relation d

/-- The extractor. -/
def Tree.extract : {k : Nat} → Tree F k → Found F
  | _, .leaf a b => .opening (fun _ => a) (fun _ => b)
  | k + 1, .node x t => combine (2 ^ k) x (fun i => (t i).extract)

/-- The extractor for a claimed product `c`: two trees which belong to the multiples `x₁·u`, `x₂·u` of one generator. -/
def extractProduct {k : Nat} (c x₁ x₂ : F) (t₁ t₂ : Tree F k) : Found F :=
  match t₁.extract, t₂.extract with
  | .relation v, _ => .relation (v.1, v.2.1, x₁ * v.2.2)
  | _, .relation v => .relation (v.1, v.2.1, x₂ * v.2.2)
  | .opening a b, .opening a' b' =>
    if ∑ i ∈ Finset.range (2 ^ k), a i * b i = c then .opening a b
    else .relation (a - a', b - b', x₁ * (∑ i ∈ Finset.range (2 ^ k), a i * b i - c) -
      x₂ * (∑ i ∈ Finset.range (2 ^ k), a' i * b' i - c))

end Verif.Spec

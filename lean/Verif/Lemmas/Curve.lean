import Mathlib.AlgebraicGeometry.EllipticCurve.Affine.Point
import Mathlib.Tactic.FieldSimp
import Mathlib.Tactic.LinearCombination

/-!
# Jacobian formulas on `y² = x³ + b`

The formulas add-2007-bl and dbl-2009-l, written with plain field operations, compute the group
law of Mathlib's `WeierstrassCurve.Affine.Point`.
-/

namespace Verif
open WeierstrassCurve

/-- The short Weierstrass curve `y² = x³ + b`. -/
def curve {F : Type*} [Field F] (b : F) : WeierstrassCurve.Affine F := ⟨0, 0, 0, 0, b⟩

section
variable {F : Type*} [Field F] {b : F}

@[simp] theorem curve_a₁ : (curve b).a₁ = 0 := rfl
@[simp] theorem curve_a₂ : (curve b).a₂ = 0 := rfl
@[simp] theorem curve_a₃ : (curve b).a₃ = 0 := rfl
@[simp] theorem curve_a₄ : (curve b).a₄ = 0 := rfl
@[simp] theorem curve_a₆ : (curve b).a₆ = b := rfl

theorem curve_equation (x y : F) : (curve b).Equation x y ↔ y ^ 2 = x ^ 3 + b := by
  rw [Affine.equation_iff]; simp

theorem curve_nonsingular (h2 : (2 : F) ≠ 0) (h3 : (3 : F) ≠ 0) (hb : b ≠ 0) {x y : F}
    (h : y ^ 2 = x ^ 3 + b) : (curve b).Nonsingular x y := by
  rw [Affine.nonsingular_iff']
  refine ⟨(curve_equation x y).2 h, ?_⟩
  simp only [curve_a₁, curve_a₂, curve_a₃, curve_a₄]
  by_cases hy : y = 0
  · left
    have hx : x ≠ 0 := by
      rintro rfl
      rw [hy] at h
      apply hb
      linear_combination -h
    simp [h3, hx]
  · right; simp [h2, hy]

theorem curve_negY (x y : F) : (curve b).negY x y = -y := by simp [Affine.negY]

/-- `P` is the finite point with coordinates `x, y`. -/
def IsPt (P : (curve b).Point) (x y : F) : Prop := ∃ h : (curve b).Nonsingular x y, P = .some x y h

theorem IsPt.eqn {P : (curve b).Point} {x y : F} (h : IsPt P x y) : y ^ 2 = x ^ 3 + b :=
  (curve_equation x y).1 h.1.1

theorem IsPt.ne_zero {P : (curve b).Point} {x y : F} (h : IsPt P x y) : P ≠ 0 := by
  obtain ⟨h, rfl⟩ := h; exact Affine.Point.some_ne_zero h

theorem IsPt.inj {P Q : (curve b).Point} {x y x' y' : F} (h : IsPt P x y) (h' : IsPt Q x' y') :
    P = Q ↔ x = x' ∧ y = y' := by
  obtain ⟨h, rfl⟩ := h
  obtain ⟨h', rfl⟩ := h'
  constructor
  · intro e; injection e with e1 e2; exact ⟨e1, e2⟩
  · rintro ⟨rfl, rfl⟩; rfl

theorem isPt_or_zero (P : (curve b).Point) : P = 0 ∨ ∃ x y, IsPt P x y := by
  cases P with
  | zero => exact Or.inl rfl
  | some x y h => exact Or.inr ⟨x, y, h, rfl⟩

theorem IsPt.congr {P : (curve b).Point} {x y x' y' : F} (h : IsPt P x y) (hx : x = x')
    (hy : y = y') : IsPt P x' y' := by subst hx hy; exact h

theorem IsPt.neg {P : (curve b).Point} {x y : F} (h : IsPt P x y) : IsPt (-P) x (-y) := by
  obtain ⟨h, rfl⟩ := h
  rw [Affine.Point.neg_some]
  exact IsPt.congr ⟨_, rfl⟩ rfl (curve_negY x y)

variable [DecidableEq F]

theorem IsPt.add_of_ne {P Q : (curve b).Point} {x₁ y₁ x₂ y₂ : F} (h₁ : IsPt P x₁ y₁)
    (h₂ : IsPt Q x₂ y₂) (hx : x₁ ≠ x₂) :
    IsPt (P + Q) (((y₁ - y₂) / (x₁ - x₂)) ^ 2 - x₁ - x₂)
      (-(((y₁ - y₂) / (x₁ - x₂)) * ((((y₁ - y₂) / (x₁ - x₂)) ^ 2 - x₁ - x₂) - x₁) + y₁)) := by
  obtain ⟨h₁, rfl⟩ := h₁
  obtain ⟨h₂, rfl⟩ := h₂
  rw [Affine.Point.add_of_X_ne hx]
  refine IsPt.congr ⟨_, rfl⟩ ?_ ?_ <;>
    simp [Affine.addX, Affine.addY, Affine.negAddY, Affine.negY, Affine.slope_of_X_ne hx]

theorem IsPt.add_of_neg {P Q : (curve b).Point} {x₁ y₁ x₂ y₂ : F} (h₁ : IsPt P x₁ y₁)
    (h₂ : IsPt Q x₂ y₂) (hx : x₁ = x₂) (hy : y₁ = -y₂) : P + Q = 0 := by
  obtain ⟨h₁, rfl⟩ := h₁
  obtain ⟨h₂, rfl⟩ := h₂
  exact Affine.Point.add_of_Y_eq hx (by rw [curve_negY, hy])

/-- Two points with the same abscissa are equal or opposite. -/
theorem IsPt.eq_or_neg {P Q : (curve b).Point} {x y₁ y₂ : F} (h₁ : IsPt P x y₁)
    (h₂ : IsPt Q x y₂) : y₁ = y₂ ∨ y₁ = -y₂ := by
  have := h₁.eqn.trans h₂.eqn.symm
  exact sq_eq_sq_iff_eq_or_eq_neg.1 this

theorem IsPt.double (h2 : (2 : F) ≠ 0) {P : (curve b).Point} {x y : F} (h : IsPt P x y)
    (hy : y ≠ 0) :
    IsPt (P + P) ((3 * x ^ 2 / (2 * y)) ^ 2 - x - x)
      (-((3 * x ^ 2 / (2 * y)) * (((3 * x ^ 2 / (2 * y)) ^ 2 - x - x) - x) + y)) := by
  obtain ⟨h, rfl⟩ := h
  have hne : y ≠ (curve b).negY x y := by
    rw [curve_negY]
    intro hc
    have : 2 * y = 0 := by linear_combination hc
    rcases mul_eq_zero.1 this with h | h <;> contradiction
  rw [Affine.Point.add_self_of_Y_ne hne]
  have hs : (curve b).slope x x y y = 3 * x ^ 2 / (2 * y) := by
    rw [Affine.slope_of_Y_ne rfl hne, curve_negY]
    simp only [curve_a₁, curve_a₂, curve_a₄]
    congr 1 <;> ring
  refine IsPt.congr ⟨_, rfl⟩ ?_ ?_ <;>
    simp [Affine.addX, Affine.addY, Affine.negAddY, Affine.negY, hs]

theorem IsPt.double_zero {P : (curve b).Point} {x : F} (h : IsPt P x 0) : P + P = 0 :=
  h.add_of_neg h rfl (by simp)

/-- Jacobian coordinates `(x : y : z)` represent `P`. -/
def Jac (P : (curve b).Point) (x y z : F) : Prop :=
  (z = 0 ∧ P = 0) ∨ (z ≠ 0 ∧ IsPt P (x / z ^ 2) (y / z ^ 3))

theorem Jac.of_affine {P : (curve b).Point} {x y : F} (h : IsPt P x y) : Jac P x y 1 :=
  Or.inr ⟨one_ne_zero, h.congr (by simp) (by simp)⟩

theorem Jac.zero_iff {P : (curve b).Point} {x y z : F} (h : Jac P x y z) : P = 0 ↔ z = 0 := by
  rcases h with ⟨h1, h2⟩ | ⟨h1, h2⟩
  · exact ⟨fun _ => h1, fun _ => h2⟩
  · exact ⟨fun h => absurd h h2.ne_zero, fun h => absurd h h1⟩

theorem Jac.finite {P : (curve b).Point} {x y z : F} (h : Jac P x y z) (hz : z ≠ 0) :
    IsPt P (x / z ^ 2) (y / z ^ 3) := by
  rcases h with ⟨h1, _⟩ | ⟨_, h2⟩
  · exact absurd h1 hz
  · exact h2

/-- Cross-multiplied equality test. -/
theorem Jac.eq_iff {P Q : (curve b).Point} {x₁ y₁ z₁ x₂ y₂ z₂ : F} (h₁ : Jac P x₁ y₁ z₁)
    (h₂ : Jac Q x₂ y₂ z₂) (hz₁ : z₁ ≠ 0) (hz₂ : z₂ ≠ 0) :
    P = Q ↔ x₁ * z₂ ^ 2 = x₂ * z₁ ^ 2 ∧ y₁ * z₂ ^ 3 = y₂ * z₁ ^ 3 := by
  rw [(h₁.finite hz₁).inj (h₂.finite hz₂), div_eq_div_iff (by positivity) (by positivity),
    div_eq_div_iff (by positivity) (by positivity)]

/-- add-2007-bl computes the sum of distinct finite points. -/
theorem Jac.add {P Q : (curve b).Point} {x₁ y₁ z₁ x₂ y₂ z₂ : F} (h2 : (2 : F) ≠ 0)
    (h₁ : Jac P x₁ y₁ z₁) (h₂ : Jac Q x₂ y₂ z₂) (hz₁ : z₁ ≠ 0) (hz₂ : z₂ ≠ 0) (hPQ : P ≠ Q)
    {h r j v x₃ y₃ z₃ : F}
    (hh : h = x₂ * z₁ ^ 2 - x₁ * z₂ ^ 2) (hr : r = 2 * (y₂ * z₁ ^ 3 - y₁ * z₂ ^ 3))
    (hj : j = 4 * h ^ 3) (hv : v = x₁ * z₂ ^ 2 * (4 * h ^ 2))
    (hx₃ : x₃ = r ^ 2 - j - 2 * v) (hy₃ : y₃ = r * (v - x₃) - 2 * (y₁ * z₂ ^ 3) * j)
    (hz₃ : z₃ = 2 * z₁ * z₂ * h) : Jac (P + Q) x₃ y₃ z₃ := by
  have p₁ := h₁.finite hz₁
  have p₂ := h₂.finite hz₂
  by_cases hh0 : h = 0
  · left
    refine ⟨by rw [hz₃, hh0, mul_zero], ?_⟩
    have hx : x₁ / z₁ ^ 2 = x₂ / z₂ ^ 2 := by
      rw [div_eq_div_iff (by positivity) (by positivity)]
      linear_combination hh - hh0
    rw [← hx] at p₂
    rcases p₁.eq_or_neg p₂ with e | e
    · exact absurd ((p₁.inj p₂).2 ⟨rfl, e⟩) hPQ
    · exact p₁.add_of_neg p₂ rfl e
  · right
    refine ⟨by rw [hz₃]; positivity, ?_⟩
    have hx : x₁ / z₁ ^ 2 ≠ x₂ / z₂ ^ 2 := by
      rw [Ne, div_eq_div_iff (by positivity) (by positivity)]
      intro hc
      apply hh0; linear_combination hh - hc
    have hl : (y₁ / z₁ ^ 3 - y₂ / z₂ ^ 3) / (x₁ / z₁ ^ 2 - x₂ / z₂ ^ 2) = r / (2 * z₁ * z₂ * h) := by
      have hne := sub_ne_zero.2 hx
      rw [div_eq_div_iff hne (by positivity), hr]
      field_simp
      rw [hh]
      ring
    have hs := p₁.add_of_ne p₂ hx
    rw [hl] at hs
    have ex : (r / (2 * z₁ * z₂ * h)) ^ 2 - x₁ / z₁ ^ 2 - x₂ / z₂ ^ 2 = x₃ / z₃ ^ 2 := by
      rw [hx₃, hz₃, hj, hv]
      field_simp
      rw [hh]; ring
    rw [ex] at hs
    refine hs.congr rfl ?_
    rw [hy₃, hz₃, hj, hv]
    field_simp
    ring

/-- dbl-2009-l computes the double (also of the point at infinity and of 2-torsion points). -/
theorem Jac.double {P : (curve b).Point} {x y z : F} (h2 : (2 : F) ≠ 0) (hP : Jac P x y z)
    {d e x₃ y₃ z₃ : F} (hd : d = 4 * x * y ^ 2) (he : e = 3 * x ^ 2)
    (hx₃ : x₃ = e ^ 2 - 2 * d) (hy₃ : y₃ = e * (d - x₃) - 8 * y ^ 4) (hz₃ : z₃ = 2 * y * z) :
    Jac (P + P) x₃ y₃ z₃ := by
  by_cases hz : z = 0
  · left
    have := (hP.zero_iff).2 hz
    exact ⟨by rw [hz₃, hz, mul_zero], by rw [this, add_zero]⟩
  · have p := hP.finite hz
    by_cases hy : y = 0
    · left
      refine ⟨by rw [hz₃, hy]; ring, ?_⟩
      rw [hy, zero_div] at p
      exact p.double_zero
    · right
      refine ⟨by rw [hz₃]; positivity, ?_⟩
      refine (p.double h2 (by positivity)).congr ?_ ?_
      · rw [hx₃, hz₃, hd, he]; field_simp; ring
      · rw [hy₃, hx₃, hz₃, hd, he]; field_simp; ring

end
end Verif

import Verif.Lemmas.Line

/-!
# Maps `(x, y) ↦ (w² f(x), w³ f(y))` between curves `y² = x³ + b`

Base change, untwisting and the Frobenius maps are of this form.
-/

namespace Verif
open WeierstrassCurve WeierstrassCurve.Affine

variable {F K : Type*} [Field F] [Field K] {b : F} {b' : K}

/-- The data of such a map. -/
structure SMap (b : F) (b' : K) where
  f : F →+* K
  w : K
  w_ne : w ≠ 0
  h2 : (2 : K) ≠ 0
  h3 : (3 : K) ≠ 0
  hb' : b' ≠ 0
  hb : w ^ 6 * f b = b'

namespace SMap
variable (σ : SMap b b')

theorem eqn {x y : F} (h : y ^ 2 = x ^ 3 + b) :
    (σ.w ^ 3 * σ.f y) ^ 2 = (σ.w ^ 2 * σ.f x) ^ 3 + b' := by
  have e := congrArg σ.f h
  simp only [map_pow, map_add] at e
  linear_combination σ.w ^ 6 * e + σ.hb

/-- The map on points. -/
def app : (curve b).Point → (curve b').Point
  | .zero => 0
  | .some x y h => .some (σ.w ^ 2 * σ.f x) (σ.w ^ 3 * σ.f y)
      (curve_nonsingular σ.h2 σ.h3 σ.hb' (σ.eqn ((curve_equation x y).1 h.1)))

theorem isPt {A : (curve b).Point} {x y : F} (h : IsPt A x y) :
    IsPt (σ.app A) (σ.w ^ 2 * σ.f x) (σ.w ^ 3 * σ.f y) := by
  obtain ⟨h, rfl⟩ := h; exact ⟨_, rfl⟩

@[simp] theorem app_zero : σ.app 0 = 0 := rfl

theorem app_eq_zero {A : (curve b).Point} : σ.app A = 0 ↔ A = 0 := by
  rcases isPt_or_zero A with rfl | ⟨x, y, h⟩
  · simp
  · exact ⟨fun h' => absurd h' (σ.isPt h).ne_zero, fun h' => absurd h' h.ne_zero⟩

theorem X_inj {x₁ x₂ : F} : σ.w ^ 2 * σ.f x₁ = σ.w ^ 2 * σ.f x₂ ↔ x₁ = x₂ :=
  ⟨fun h => σ.f.injective (mul_left_cancel₀ (pow_ne_zero 2 σ.w_ne) h), fun h => by rw [h]⟩

theorem Y_inj {y₁ y₂ : F} : σ.w ^ 3 * σ.f y₁ = σ.w ^ 3 * σ.f y₂ ↔ y₁ = y₂ :=
  ⟨fun h => σ.f.injective (mul_left_cancel₀ (pow_ne_zero 3 σ.w_ne) h), fun h => by rw [h]⟩

theorem deg_iff {x₁ x₂ y₁ y₂ : F} :
    (σ.w ^ 2 * σ.f x₁ = σ.w ^ 2 * σ.f x₂ ∧ σ.w ^ 3 * σ.f y₁ = (curve b').negY (σ.w ^ 2 * σ.f x₂) (σ.w ^ 3 * σ.f y₂)) ↔
    (x₁ = x₂ ∧ y₁ = (curve b).negY x₂ y₂) := by
  rw [curve_negY, curve_negY, σ.X_inj, show -(σ.w ^ 3 * σ.f y₂) = σ.w ^ 3 * σ.f (-y₂) by rw [map_neg]; ring,
    σ.Y_inj]

variable [DecidableEq F] [DecidableEq K]

theorem slope {x₁ x₂ y₁ y₂ : F} (h₁ : (curve b).Equation x₁ y₁) (h₂ : (curve b).Equation x₂ y₂)
    (hxy : ¬(x₁ = x₂ ∧ y₁ = (curve b).negY x₂ y₂)) :
    (curve b').slope (σ.w ^ 2 * σ.f x₁) (σ.w ^ 2 * σ.f x₂) (σ.w ^ 3 * σ.f y₁) (σ.w ^ 3 * σ.f y₂) =
      σ.w * σ.f ((curve b).slope x₁ x₂ y₁ y₂) := by
  have hw := σ.w_ne
  by_cases hx : x₁ = x₂
  · subst hx
    have hy : y₁ ≠ (curve b).negY x₁ y₂ := fun h => hxy ⟨rfl, h⟩
    have hyy : y₁ = y₂ := Affine.Y_eq_of_Y_ne h₁ h₂ rfl hy
    subst hyy
    have hy' : σ.w ^ 3 * σ.f y₁ ≠ (curve b').negY (σ.w ^ 2 * σ.f x₁) (σ.w ^ 3 * σ.f y₁) :=
      fun h => hxy (σ.deg_iff.1 ⟨rfl, h⟩)
    rw [Affine.slope_of_Y_ne rfl hy, Affine.slope_of_Y_ne rfl hy', curve_negY, curve_negY]
    rw [curve_negY] at hy'
    have hd : σ.f y₁ - -σ.f y₁ ≠ 0 := by
      intro h
      apply hy'
      linear_combination σ.w ^ 3 * h
    have hd' : σ.w ^ 3 * σ.f y₁ - -(σ.w ^ 3 * σ.f y₁) ≠ 0 := sub_ne_zero.2 hy'
    simp only [curve_a₁, curve_a₂, curve_a₄, map_div₀, map_sub, map_add, map_mul, map_pow, map_neg, map_ofNat, map_zero]
    rw [mul_div_assoc', div_eq_div_iff hd' hd]
    ring
  · have hx' : σ.w ^ 2 * σ.f x₁ ≠ σ.w ^ 2 * σ.f x₂ := fun h => hx (σ.X_inj.1 h)
    rw [Affine.slope_of_X_ne hx, Affine.slope_of_X_ne hx']
    have hd : σ.f x₁ - σ.f x₂ ≠ 0 := sub_ne_zero.2 (fun h => hx (σ.f.injective h))
    have hd' : σ.w ^ 2 * σ.f x₁ - σ.w ^ 2 * σ.f x₂ ≠ 0 := sub_ne_zero.2 hx'
    simp only [map_div₀, map_sub]
    rw [mul_div_assoc', div_eq_div_iff hd' hd]
    ring

theorem app_add (A B : (curve b).Point) : σ.app (A + B) = σ.app A + σ.app B := by
  rcases isPt_or_zero A with rfl | ⟨x₁, y₁, hA⟩
  · simp
  rcases isPt_or_zero B with rfl | ⟨x₂, y₂, hB⟩
  · simp
  by_cases hxy : x₁ = x₂ ∧ y₁ = (curve b).negY x₂ y₂
  · have hxy' := σ.deg_iff.2 hxy
    rw [curve_negY] at hxy hxy'
    rw [hA.add_of_neg hB hxy.1 hxy.2, (σ.isPt hA).add_of_neg (σ.isPt hB) hxy'.1 hxy'.2, app_zero]
  · have hxy' := fun h => hxy (σ.deg_iff.1 h)
    refine ((σ.isPt (isPt_sum hA hB hxy)).inj (isPt_sum (σ.isPt hA) (σ.isPt hB) hxy')).2 ⟨?_, ?_⟩ <;>
    · rw [σ.slope hA.1.1 hB.1.1 hxy]
      simp [Affine.addX, Affine.addY, Affine.negAddY, curve_negY]
      ring

theorem app_neg (A : (curve b).Point) : σ.app (-A) = -σ.app A := by
  rw [eq_neg_iff_add_eq_zero, ← app_add, neg_add_cancel, app_zero]

/-- As a homomorphism. -/
def hom : (curve b).Point →+ (curve b').Point where
  toFun := σ.app
  map_zero' := σ.app_zero
  map_add' := σ.app_add

omit [DecidableEq F] [DecidableEq K] in
theorem vert_app (A : (curve b).Point) (x : F) : vert (σ.app A) (σ.w ^ 2 * σ.f x) = σ.f (vert A x) ∨
    vert (σ.app A) (σ.w ^ 2 * σ.f x) = σ.w ^ 2 * σ.f (vert A x) := by
  rcases isPt_or_zero A with rfl | ⟨x₁, y₁, hA⟩
  · left; simp
  · right; rw [hA.vert, (σ.isPt hA).vert, map_sub]; ring

/-- A chord through image points at an image point. -/
theorem line_app {A B : (curve b).Point} (x y : F) :
    ∃ k : Nat, line (σ.app A) (σ.app B) (σ.w ^ 2 * σ.f x) (σ.w ^ 3 * σ.f y) = σ.w ^ k * σ.f (line A B x y) := by
  cases A with
  | zero =>
    rcases σ.vert_app B x with h | h
    · exact ⟨0, by rw [pow_zero, one_mul]; exact h⟩
    · exact ⟨2, h⟩
  | some x₁ y₁ h₁ =>
    cases B with
    | zero => exact ⟨2, by simp only [app, Affine.Point.zero_def, line, map_sub]; ring⟩
    | some x₂ y₂ h₂ =>
      simp only [app, line, σ.deg_iff]
      split_ifs with hxy
      · exact ⟨2, by rw [map_sub]; ring⟩
      · refine ⟨3, ?_⟩
        rw [σ.slope h₁.1 h₂.1 hxy]
        simp only [map_sub, map_add, map_mul]
        ring

end SMap
end Verif

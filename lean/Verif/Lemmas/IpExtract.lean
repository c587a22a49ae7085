import Verif.Spec.IpExtract
import Mathlib.Tactic.FieldSimp
import Mathlib.Tactic.LinearCombination
import Mathlib.Tactic.Abel
import Mathlib.Tactic.Module
import Mathlib.Tactic.Ring
import Mathlib.Algebra.BigOperators.Intervals

/-! # Correctness of the extractor for the inner-product argument, in an arbitrary module -/

namespace Verif.Spec

open Finset

section
variable {F : Type*} [Field F]

theorem nu_sum {X Y Z : F} (h1 : X ≠ Y) (h2 : X ≠ Z) (h3 : Y ≠ Z) : nu X Y Z + nu Y X Z + nu Z X Y = 1 := by
  have a1 : X - Y ≠ 0 := sub_ne_zero.2 h1
  have a2 : X - Z ≠ 0 := sub_ne_zero.2 h2
  have a3 : Y - Z ≠ 0 := sub_ne_zero.2 h3
  have b1 : Y - X ≠ 0 := sub_ne_zero.2 h1.symm
  have b2 : Z - X ≠ 0 := sub_ne_zero.2 h2.symm
  have b3 : Z - Y ≠ 0 := sub_ne_zero.2 h3.symm
  rw [nu, nu, nu]
  field_simp
  ring

theorem nu_sum_mul {X Y Z : F} (h1 : X ≠ Y) (h2 : X ≠ Z) (h3 : Y ≠ Z) :
    nu X Y Z * X + nu Y X Z * Y + nu Z X Y * Z = 0 := by
  have a1 : X - Y ≠ 0 := sub_ne_zero.2 h1
  have a2 : X - Z ≠ 0 := sub_ne_zero.2 h2
  have a3 : Y - Z ≠ 0 := sub_ne_zero.2 h3
  have b1 : Y - X ≠ 0 := sub_ne_zero.2 h1.symm
  have b2 : Z - X ≠ 0 := sub_ne_zero.2 h2.symm
  have b3 : Z - Y ≠ 0 := sub_ne_zero.2 h3.symm
  rw [nu, nu, nu]
  field_simp
  ring

theorem nu_sum_inv {X Y Z : F} (h1 : X ≠ Y) (h2 : X ≠ Z) (h3 : Y ≠ Z) (c1 : X ≠ 0) (c2 : Y ≠ 0) (c3 : Z ≠ 0) :
    nu X Y Z * X⁻¹ + nu Y X Z * Y⁻¹ + nu Z X Y * Z⁻¹ = 0 := by
  have a1 : X - Y ≠ 0 := sub_ne_zero.2 h1
  have a2 : X - Z ≠ 0 := sub_ne_zero.2 h2
  have a3 : Y - Z ≠ 0 := sub_ne_zero.2 h3
  have b1 : Y - X ≠ 0 := sub_ne_zero.2 h1.symm
  have b2 : Z - X ≠ 0 := sub_ne_zero.2 h2.symm
  have b3 : Z - Y ≠ 0 := sub_ne_zero.2 h3.symm
  rw [nu, nu, nu]
  field_simp
  ring

theorem mu_sum {W X Y Z : F} (h1 : X ≠ Y) (h2 : X ≠ Z) (h3 : Y ≠ Z) (c0 : W ≠ 0) :
    mu W X Y Z + mu W Y X Z + mu W Z X Y = 1 := by
  have a1 : X - Y ≠ 0 := sub_ne_zero.2 h1
  have a2 : X - Z ≠ 0 := sub_ne_zero.2 h2
  have a3 : Y - Z ≠ 0 := sub_ne_zero.2 h3
  have b1 : Y - X ≠ 0 := sub_ne_zero.2 h1.symm
  have b2 : Z - X ≠ 0 := sub_ne_zero.2 h2.symm
  have b3 : Z - Y ≠ 0 := sub_ne_zero.2 h3.symm
  rw [mu, mu, mu]
  field_simp
  ring

theorem mu_sum_mul {W X Y Z : F} (h1 : X ≠ Y) (h2 : X ≠ Z) (h3 : Y ≠ Z) (c0 : W ≠ 0) :
    mu W X Y Z * X + mu W Y X Z * Y + mu W Z X Y * Z = W := by
  have a1 : X - Y ≠ 0 := sub_ne_zero.2 h1
  have a2 : X - Z ≠ 0 := sub_ne_zero.2 h2
  have a3 : Y - Z ≠ 0 := sub_ne_zero.2 h3
  have b1 : Y - X ≠ 0 := sub_ne_zero.2 h1.symm
  have b2 : Z - X ≠ 0 := sub_ne_zero.2 h2.symm
  have b3 : Z - Y ≠ 0 := sub_ne_zero.2 h3.symm
  rw [mu, mu, mu]
  field_simp
  ring

theorem mu_sum_inv {W X Y Z : F} (h1 : X ≠ Y) (h2 : X ≠ Z) (h3 : Y ≠ Z) (c0 : W ≠ 0) (c1 : X ≠ 0) (c2 : Y ≠ 0)
    (c3 : Z ≠ 0) : mu W X Y Z * X⁻¹ + mu W Y X Z * Y⁻¹ + mu W Z X Y * Z⁻¹ = W⁻¹ := by
  have a1 : X - Y ≠ 0 := sub_ne_zero.2 h1
  have a2 : X - Z ≠ 0 := sub_ne_zero.2 h2
  have a3 : Y - Z ≠ 0 := sub_ne_zero.2 h3
  have b1 : Y - X ≠ 0 := sub_ne_zero.2 h1.symm
  have b2 : Z - X ≠ 0 := sub_ne_zero.2 h2.symm
  have b3 : Z - Y ≠ 0 := sub_ne_zero.2 h3.symm
  rw [mu, mu, mu]
  field_simp
  ring

theorem mu_ne_zero {W X Y Z : F} (h1 : X ≠ Y) (h2 : X ≠ Z) (c0 : W ≠ 0) (c1 : X ≠ 0) (d2 : W ≠ Y) (d3 : W ≠ Z) :
    mu W X Y Z ≠ 0 := by
  have a1 : X - Y ≠ 0 := sub_ne_zero.2 h1
  have a2 : X - Z ≠ 0 := sub_ne_zero.2 h2
  have a3 : W - Y ≠ 0 := sub_ne_zero.2 d2
  have a4 : W - Z ≠ 0 := sub_ne_zero.2 d3
  rw [mu]
  exact mul_ne_zero (div_ne_zero c1 c0) (div_ne_zero (mul_ne_zero a3 a4) (mul_ne_zero a1 a2))

/-- Four values which fit one interpolation are affine in the square of the challenge. -/
theorem affine_of_fit {x α : Fin 4 → F} (hx : ∀ i, x i ≠ 0) (hd : ∀ i j, x i ^ 2 = x j ^ 2 → i = j)
    (e1 : mu (x 3 ^ 2) (x 0 ^ 2) (x 1 ^ 2) (x 2 ^ 2) * ((x 0)⁻¹ * α 0) +
      mu (x 3 ^ 2) (x 1 ^ 2) (x 0 ^ 2) (x 2 ^ 2) * ((x 1)⁻¹ * α 1) +
      mu (x 3 ^ 2) (x 2 ^ 2) (x 0 ^ 2) (x 1 ^ 2) * ((x 2)⁻¹ * α 2) - (x 3)⁻¹ * α 3 = 0)
    (e2 : mu (x 3 ^ 2) (x 0 ^ 2) (x 1 ^ 2) (x 2 ^ 2) * (x 0 * α 0) +
      mu (x 3 ^ 2) (x 1 ^ 2) (x 0 ^ 2) (x 2 ^ 2) * (x 1 * α 1) +
      mu (x 3 ^ 2) (x 2 ^ 2) (x 0 ^ 2) (x 1 ^ 2) * (x 2 * α 2) - x 3 * α 3 = 0) :
    ∃ c1 c0 : F, ∀ i, α i = x i * c1 + (x i)⁻¹ * c0 := by
  have hX : ∀ i, x i ^ 2 ≠ 0 := fun i => pow_ne_zero 2 (hx i)
  have n01 : x 0 ^ 2 ≠ x 1 ^ 2 := fun h => absurd (hd _ _ h) (by decide)
  have n02 : x 0 ^ 2 ≠ x 2 ^ 2 := fun h => absurd (hd _ _ h) (by decide)
  have n12 : x 1 ^ 2 ≠ x 2 ^ 2 := fun h => absurd (hd _ _ h) (by decide)
  have n30 : x 3 ^ 2 ≠ x 0 ^ 2 := fun h => absurd (hd _ _ h) (by decide)
  have n31 : x 3 ^ 2 ≠ x 1 ^ 2 := fun h => absurd (hd _ _ h) (by decide)
  have n32 : x 3 ^ 2 ≠ x 2 ^ 2 := fun h => absurd (hd _ _ h) (by decide)
  have m0 := mu_sum n01 n02 n12 (hX 3)
  have m1 := mu_sum_mul n01 n02 n12 (hX 3)
  have m2 := mu_sum_inv n01 n02 n12 (hX 3) (hX 0) (hX 1) (hX 2)
  have m3 : mu (x 3 ^ 2) (x 2 ^ 2) (x 0 ^ 2) (x 1 ^ 2) ≠ 0 := mu_ne_zero n02.symm n12.symm (hX 3) (hX 2) n30 n31
  generalize mu (x 3 ^ 2) (x 0 ^ 2) (x 1 ^ 2) (x 2 ^ 2) = p at *
  generalize mu (x 3 ^ 2) (x 1 ^ 2) (x 0 ^ 2) (x 2 ^ 2) = q at *
  generalize mu (x 3 ^ 2) (x 2 ^ 2) (x 0 ^ 2) (x 1 ^ 2) = r at *
  have d01 : x 0 ^ 2 - x 1 ^ 2 ≠ 0 := sub_ne_zero.2 n01
  have h0 := hx 0
  have h1 := hx 1
  have h2 := hx 2
  have h3 := hx 3
  set c1 := (x 0 * α 0 - x 1 * α 1) / (x 0 ^ 2 - x 1 ^ 2) with hc1
  set c0 := x 0 * α 0 - c1 * x 0 ^ 2 with hc0
  have a0 : α 0 = x 0 * c1 + (x 0)⁻¹ * c0 := by
    rw [hc0]; field_simp; ring
  have a1 : α 1 = x 1 * c1 + (x 1)⁻¹ * c0 := by
    have : c1 * (x 0 ^ 2 - x 1 ^ 2) = x 0 * α 0 - x 1 * α 1 := by rw [hc1]; field_simp
    rw [hc0]
    field_simp
    linear_combination this
  have i0 : (x 0)⁻¹ * x 0 = 1 := inv_mul_cancel₀ h0
  have i1 : (x 1)⁻¹ * x 1 = 1 := inv_mul_cancel₀ h1
  have i2 : (x 2)⁻¹ * x 2 = 1 := inv_mul_cancel₀ h2
  have i3 : (x 3)⁻¹ * x 3 = 1 := inv_mul_cancel₀ h3
  have key : r * ((x 3 ^ 2 - x 2 ^ 2) * (x 2)⁻¹) * (α 2 - (x 2 * c1 + (x 2)⁻¹ * c0)) = 0 := by
    have eα : p * ((x 3 ^ 2 * (x 0)⁻¹ - x 0) * α 0) + q * ((x 3 ^ 2 * (x 1)⁻¹ - x 1) * α 1) +
        r * ((x 3 ^ 2 * (x 2)⁻¹ - x 2) * α 2) = 0 := by
      linear_combination x 3 ^ 2 * e1 - e2 + x 3 * α 3 * i3
    have ef : p * ((x 3 ^ 2 * (x 0)⁻¹ - x 0) * (x 0 * c1 + (x 0)⁻¹ * c0)) +
        q * ((x 3 ^ 2 * (x 1)⁻¹ - x 1) * (x 1 * c1 + (x 1)⁻¹ * c0)) +
        r * ((x 3 ^ 2 * (x 2)⁻¹ - x 2) * (x 2 * c1 + (x 2)⁻¹ * c0)) = 0 := by
      have i3' : x 3 ^ 2 * (x 3 ^ 2)⁻¹ = 1 := mul_inv_cancel₀ (hX 3)
      linear_combination c1 * x 3 ^ 2 * m0 - c1 * m1 + c0 * x 3 ^ 2 * m2 - c0 * m0 + c0 * i3' +
        p * (c1 * x 3 ^ 2 - c0) * i0 + q * (c1 * x 3 ^ 2 - c0) * i1 + r * (c1 * x 3 ^ 2 - c0) * i2
    rw [← a0, ← a1] at ef
    linear_combination eα - ef - r * x 2 * (α 2 - (x 2 * c1 + (x 2)⁻¹ * c0)) * i2
  have a2 : α 2 = x 2 * c1 + (x 2)⁻¹ * c0 := by
    rcases mul_eq_zero.1 key with h | h
    · exact absurd h (mul_ne_zero m3 (mul_ne_zero (sub_ne_zero.2 n32) (inv_ne_zero h2)))
    · exact sub_eq_zero.1 h
  have a3 : α 3 = x 3 * c1 + (x 3)⁻¹ * c0 := by
    have h4 : x 3 * α 3 = x 3 * (x 3 * c1 + (x 3)⁻¹ * c0) := by
      rw [a0, a1, a2] at e2
      linear_combination -e2 + c1 * m1 + c0 * m0 + p * c0 * i0 + q * c0 * i1 + r * c0 * i2 - c0 * i3
    exact mul_left_cancel₀ h3 h4
  refine ⟨c1, c0, fun i => ?_⟩
  fin_cases i
  · exact a0
  · exact a1
  · exact a2
  · exact a3

/-- The coefficients of the affine form are the interpolated ones. -/
theorem affine_coeffs {x α : Fin 4 → F} (hx : ∀ i, x i ≠ 0) (hd : ∀ i j, x i ^ 2 = x j ^ 2 → i = j) {c1 c0 : F}
    (h : ∀ i, α i = x i * c1 + (x i)⁻¹ * c0) :
    nu (x 0 ^ 2) (x 1 ^ 2) (x 2 ^ 2) * ((x 0)⁻¹ * α 0) + nu (x 1 ^ 2) (x 0 ^ 2) (x 2 ^ 2) * ((x 1)⁻¹ * α 1) +
      nu (x 2 ^ 2) (x 0 ^ 2) (x 1 ^ 2) * ((x 2)⁻¹ * α 2) = c1 ∧
    nu (x 0 ^ 2) (x 1 ^ 2) (x 2 ^ 2) * (x 0 * α 0) + nu (x 1 ^ 2) (x 0 ^ 2) (x 2 ^ 2) * (x 1 * α 1) +
      nu (x 2 ^ 2) (x 0 ^ 2) (x 1 ^ 2) * (x 2 * α 2) = c0 := by
  have hX : ∀ i, x i ^ 2 ≠ 0 := fun i => pow_ne_zero 2 (hx i)
  have n01 : x 0 ^ 2 ≠ x 1 ^ 2 := fun h => absurd (hd _ _ h) (by decide)
  have n02 : x 0 ^ 2 ≠ x 2 ^ 2 := fun h => absurd (hd _ _ h) (by decide)
  have n12 : x 1 ^ 2 ≠ x 2 ^ 2 := fun h => absurd (hd _ _ h) (by decide)
  have m0 := nu_sum n01 n02 n12
  have m1 := nu_sum_mul n01 n02 n12
  have m2 := nu_sum_inv n01 n02 n12 (hX 0) (hX 1) (hX 2)
  generalize nu (x 0 ^ 2) (x 1 ^ 2) (x 2 ^ 2) = p at *
  generalize nu (x 1 ^ 2) (x 0 ^ 2) (x 2 ^ 2) = q at *
  generalize nu (x 2 ^ 2) (x 0 ^ 2) (x 1 ^ 2) = r at *
  have i0 : (x 0)⁻¹ * x 0 = 1 := inv_mul_cancel₀ (hx 0)
  have i1 : (x 1)⁻¹ * x 1 = 1 := inv_mul_cancel₀ (hx 1)
  have i2 : (x 2)⁻¹ * x 2 = 1 := inv_mul_cancel₀ (hx 2)
  rw [h 0, h 1, h 2]
  constructor
  · linear_combination c1 * m0 + c0 * m2 + p * c1 * i0 + q * c1 * i1 + r * c1 * i2
  · linear_combination c0 * m0 + c1 * m1 + p * c0 * i0 + q * c0 * i1 + r * c0 * i2

/-- With fitting coefficients the interpolated inner product is the inner product of the interpolated vectors. -/
theorem product_fit {x α β : Fin 4 → F} (hx : ∀ i, x i ≠ 0) (hd : ∀ i j, x i ^ 2 = x j ^ 2 → i = j)
    {a1 a0 b1 b0 : F} (ha : ∀ i, α i = x i * a1 + (x i)⁻¹ * a0) (hb : ∀ i, β i = x i * b1 + (x i)⁻¹ * b0) :
    nu (x 0 ^ 2) (x 1 ^ 2) (x 2 ^ 2) * (α 0 * β 0) + nu (x 1 ^ 2) (x 0 ^ 2) (x 2 ^ 2) * (α 1 * β 1) +
      nu (x 2 ^ 2) (x 0 ^ 2) (x 1 ^ 2) * (α 2 * β 2) = a1 * b0 + a0 * b1 := by
  have hX : ∀ i, x i ^ 2 ≠ 0 := fun i => pow_ne_zero 2 (hx i)
  have n01 : x 0 ^ 2 ≠ x 1 ^ 2 := fun h => absurd (hd _ _ h) (by decide)
  have n02 : x 0 ^ 2 ≠ x 2 ^ 2 := fun h => absurd (hd _ _ h) (by decide)
  have n12 : x 1 ^ 2 ≠ x 2 ^ 2 := fun h => absurd (hd _ _ h) (by decide)
  have m0 := nu_sum n01 n02 n12
  have m1 := nu_sum_mul n01 n02 n12
  have m2 := nu_sum_inv n01 n02 n12 (hX 0) (hX 1) (hX 2)
  generalize nu (x 0 ^ 2) (x 1 ^ 2) (x 2 ^ 2) = p at *
  generalize nu (x 1 ^ 2) (x 0 ^ 2) (x 2 ^ 2) = q at *
  generalize nu (x 2 ^ 2) (x 0 ^ 2) (x 1 ^ 2) = r at *
  have i0 : (x 0)⁻¹ * x 0 = 1 := inv_mul_cancel₀ (hx 0)
  have i1 : (x 1)⁻¹ * x 1 = 1 := inv_mul_cancel₀ (hx 1)
  have i2 : (x 2)⁻¹ * x 2 = 1 := inv_mul_cancel₀ (hx 2)
  rw [ha 0, ha 1, ha 2, hb 0, hb 1, hb 2]
  linear_combination (a1 * b0 + a0 * b1) * m0 + a1 * b1 * m1 + a0 * b0 * m2 +
    (a1 * b0 + a0 * b1) * (p * i0 + q * i1 + r * i2)

end

section
variable {F M : Type*} [Field F] [AddCommGroup M] [Module F M]

theorem eval_add (n : Nat) (g h : Nat → M) (u : M) (v w : Coeffs F) :
    eval n g h u (v + w) = eval n g h u v + eval n g h u w := by
  simp only [eval, Prod.fst_add, Prod.snd_add, Pi.add_apply, add_smul, sum_add_distrib]
  abel

theorem eval_smul (n : Nat) (g h : Nat → M) (u : M) (c : F) (v : Coeffs F) :
    eval n g h u (c • v) = c • eval n g h u v := by
  simp only [eval, Prod.smul_fst, Prod.smul_snd, Pi.smul_apply, smul_eq_mul, mul_smul, smul_add, smul_sum]

theorem eval_sub (n : Nat) (g h : Nat → M) (u : M) (v w : Coeffs F) :
    eval n g h u (v - w) = eval n g h u v - eval n g h u w := by
  have := eval_add n g h u v ((-1 : F) • w)
  rw [eval_smul, neg_smul, one_smul, neg_smul, one_smul, ← sub_eq_add_neg, ← sub_eq_add_neg] at this
  exact this

/-- `lift` does what it should. -/
theorem eval_lift (m : Nat) (g h : Nat → M) (u : M) (x : F) (v : Coeffs F) :
    eval (2 * m) g h u (lift m x v) = eval m (fold m x⁻¹ x g) (fold m x x⁻¹ h) u v := by
  have key : ∀ (c d : F) (w : Nat → F) (k : Nat → M),
      ∑ i ∈ range (2 * m), (if i < m then c * w i else d * w (i - m)) • k i =
        ∑ i ∈ range m, w i • fold m c d k i := by
    intro c d w k
    rw [two_mul, sum_range_add, ← sum_add_distrib]
    refine sum_congr rfl fun i hi => ?_
    have h1 : i < m := mem_range.1 hi
    rw [if_pos h1, if_neg (by omega), show m + i - m = i by omega, fold, smul_add, smul_smul, smul_smul,
      mul_comm c, mul_comm d, add_comm m i]
  rw [eval, eval, lift]
  simp only [key]

/-- A relation lifts to a relation. -/
theorem Found.valid_lift {m : Nat} {g h : Nat → M} {u P Q : M} {x : F} (hx : x ≠ 0) {v : Coeffs F}
    (hv : (Found.relation v).Valid m (fold m x⁻¹ x g) (fold m x x⁻¹ h) u P) :
    (Found.relation (lift m x v)).Valid (2 * m) g h u Q := by
  obtain ⟨⟨i, hi, hne⟩, hz⟩ := hv
  refine ⟨⟨i, by omega, ?_⟩, ?_⟩
  · simp only [lift, if_pos hi, ne_eq, mul_eq_zero, inv_eq_zero, hx, false_or]
    exact hne
  · have := eval_lift m g h u x v
    rw [eval, eval, hz] at this
    exact this

theorem smul_interp {x : Fin 4 → F} (hx : ∀ i, x i ≠ 0) (hd : ∀ i j, x i ^ 2 = x j ^ 2 → i = j) (P L R : M) :
    nu (x 0 ^ 2) (x 1 ^ 2) (x 2 ^ 2) • (P + (x 0 ^ 2) • L + (x 0 ^ 2)⁻¹ • R) +
      nu (x 1 ^ 2) (x 0 ^ 2) (x 2 ^ 2) • (P + (x 1 ^ 2) • L + (x 1 ^ 2)⁻¹ • R) +
      nu (x 2 ^ 2) (x 0 ^ 2) (x 1 ^ 2) • (P + (x 2 ^ 2) • L + (x 2 ^ 2)⁻¹ • R) = P := by
  have hX : ∀ i, x i ^ 2 ≠ 0 := fun i => pow_ne_zero 2 (hx i)
  have n01 : x 0 ^ 2 ≠ x 1 ^ 2 := fun h => absurd (hd _ _ h) (by decide)
  have n02 : x 0 ^ 2 ≠ x 2 ^ 2 := fun h => absurd (hd _ _ h) (by decide)
  have n12 : x 1 ^ 2 ≠ x 2 ^ 2 := fun h => absurd (hd _ _ h) (by decide)
  have m0 := nu_sum n01 n02 n12
  have m1 := nu_sum_mul n01 n02 n12
  have m2 := nu_sum_inv n01 n02 n12 (hX 0) (hX 1) (hX 2)
  linear_combination (norm := module) m0 • P + m1 • L + m2 • R

theorem smul_predict {x : Fin 4 → F} (hx : ∀ i, x i ≠ 0) (hd : ∀ i j, x i ^ 2 = x j ^ 2 → i = j) (P L R : M) :
    mu (x 3 ^ 2) (x 0 ^ 2) (x 1 ^ 2) (x 2 ^ 2) • (P + (x 0 ^ 2) • L + (x 0 ^ 2)⁻¹ • R) +
      mu (x 3 ^ 2) (x 1 ^ 2) (x 0 ^ 2) (x 2 ^ 2) • (P + (x 1 ^ 2) • L + (x 1 ^ 2)⁻¹ • R) +
      mu (x 3 ^ 2) (x 2 ^ 2) (x 0 ^ 2) (x 1 ^ 2) • (P + (x 2 ^ 2) • L + (x 2 ^ 2)⁻¹ • R) =
    P + (x 3 ^ 2) • L + (x 3 ^ 2)⁻¹ • R := by
  have hX : ∀ i, x i ^ 2 ≠ 0 := fun i => pow_ne_zero 2 (hx i)
  have n01 : x 0 ^ 2 ≠ x 1 ^ 2 := fun h => absurd (hd _ _ h) (by decide)
  have n02 : x 0 ^ 2 ≠ x 2 ^ 2 := fun h => absurd (hd _ _ h) (by decide)
  have n12 : x 1 ^ 2 ≠ x 2 ^ 2 := fun h => absurd (hd _ _ h) (by decide)
  have m0 := mu_sum n01 n02 n12 (hX 3)
  have m1 := mu_sum_mul n01 n02 n12 (hX 3)
  have m2 := mu_sum_inv n01 n02 n12 (hX 3) (hX 0) (hX 1) (hX 2)
  linear_combination (norm := module) m0 • P + m1 • L + m2 • R

variable [DecidableEq F]

/-- The case of four openings. -/
theorem combine_openings {m : Nat} {g h : Nat → M} {u P L R : M} {x : Fin 4 → F} (hx : ∀ i, x i ≠ 0)
    (hd : ∀ i j, x i ^ 2 = x j ^ 2 → i = j) {a b : Fin 4 → Nat → F}
    (hr : ∀ i, (Found.opening (a i) (b i)).Valid m (fold m (x i)⁻¹ (x i) g) (fold m (x i) (x i)⁻¹ h) u
      (P + (x i ^ 2) • L + (x i ^ 2)⁻¹ • R)) :
    (combine m x (fun i => .opening (a i) (b i))).Valid (2 * m) g h u P := by
  have hv : ∀ i, eval (2 * m) g h u (lift m (x i) (coeffs m (a i) (b i))) =
      P + (x i ^ 2) • L + (x i ^ 2)⁻¹ • R := by
    intro i
    rw [eval_lift]
    exact (hr i).symm
  rw [combine]
  simp only
  set v : Fin 4 → Coeffs F := ![lift m (x 0) (coeffs m (a 0) (b 0)), lift m (x 1) (coeffs m (a 1) (b 1)),
      lift m (x 2) (coeffs m (a 2) (b 2)), lift m (x 3) (coeffs m (a 3) (b 3))] with hvdef
  have v_eq : ∀ i, v i = lift m (x i) (coeffs m (a i) (b i)) := by
    intro i
    fin_cases i <;> rfl
  split
  · rename_i h0
    have hP : eval (2 * m) g h u (interpolate x v) = P := by
      rw [interpolate, eval_add, eval_add, eval_smul, eval_smul, eval_smul, v_eq, v_eq, v_eq, hv, hv, hv]
      exact smul_interp hx hd P L R
    have fit : ∀ i < m, ∃ a1 a0 b1 b0 : F, (∀ j, a j i = x j * a1 + (x j)⁻¹ * a0) ∧
        (∀ j, b j i = x j * b1 + (x j)⁻¹ * b0) := by
      intro i hi
      have q1 := h0 i (by omega)
      have q2 := h0 (m + i) (by omega)
      simp only [deviation, v_eq, lift, coeffs, Prod.fst_sub, Prod.fst_add, Prod.smul_fst, Prod.snd_sub, Prod.snd_add,
        Prod.smul_snd, Pi.add_apply, Pi.sub_apply, Pi.smul_apply, smul_eq_mul, if_pos hi,
        if_neg (show ¬ m + i < m by omega), show m + i - m = i by omega] at q1 q2
      obtain ⟨a1, a0, ha⟩ := affine_of_fit (α := fun j => a j i) hx hd q1.1 q2.1
      obtain ⟨b1, b0, hb⟩ := affine_of_fit (α := fun j => b j i) hx hd q2.2 q1.2
      exact ⟨a1, a0, b1, b0, ha, hb⟩
    have hc : (interpolate x v).2.2 = ∑ i ∈ range (2 * m), (interpolate x v).1 i * (interpolate x v).2.1 i := by
      rw [two_mul, sum_range_add, ← sum_add_distrib]
      simp only [interpolate, v_eq, lift, coeffs, Prod.fst_add, Prod.smul_fst, Prod.snd_add, Prod.smul_snd,
        Pi.add_apply, Pi.smul_apply, smul_eq_mul, mul_sum]
      rw [← sum_add_distrib, ← sum_add_distrib]
      refine sum_congr rfl fun i hi => ?_
      have hi : i < m := mem_range.1 hi
      obtain ⟨a1, a0, b1, b0, ha, hb⟩ := fit i hi
      simp only [if_pos hi, if_neg (show ¬ m + i < m by omega), show m + i - m = i by omega]
      have A := affine_coeffs (α := fun j => a j i) hx hd ha
      have B := affine_coeffs (α := fun j => b j i) hx hd hb
      rw [A.1, A.2, B.1, B.2]
      exact product_fit (α := fun j => a j i) (β := fun j => b j i) hx hd ha hb
    rw [eval, hc] at hP
    exact hP.symm
  · rename_i h0
    refine ⟨?_, ?_⟩
    · by_contra hn
      apply h0
      intro i hi
      by_contra hne
      exact hn ⟨i, hi, by tauto⟩
    · have : eval (2 * m) g h u (deviation x v) = 0 := by
        rw [deviation, eval_sub, eval_add, eval_add, eval_smul, eval_smul, eval_smul, v_eq, v_eq, v_eq, v_eq,
          hv, hv, hv, hv, smul_predict hx hd, sub_self]
      exact this

theorem combine_valid {m : Nat} {g h : Nat → M} {u P L R : M} {x : Fin 4 → F} (hx : ∀ i, x i ≠ 0)
    (hd : ∀ i j, x i ^ 2 = x j ^ 2 → i = j) {r : Fin 4 → Found F}
    (hr : ∀ i, (r i).Valid m (fold m (x i)⁻¹ (x i) g) (fold m (x i) (x i)⁻¹ h) u
      (P + (x i ^ 2) • L + (x i ^ 2)⁻¹ • R)) :
    (combine m x r).Valid (2 * m) g h u P := by
  rcases h0 : r 0 with ⟨a0, b0⟩ | v
  · rcases h1 : r 1 with ⟨a1, b1⟩ | v
    · rcases h2 : r 2 with ⟨a2, b2⟩ | v
      · rcases h3 : r 3 with ⟨a3, b3⟩ | v
        · have : r = fun i => Found.opening ((![a0, a1, a2, a3] : Fin 4 → Nat → F) i)
              ((![b0, b1, b2, b3] : Fin 4 → Nat → F) i) := by
            funext i
            fin_cases i
            · exact h0
            · exact h1
            · exact h2
            · exact h3
          rw [this] at hr ⊢
          exact combine_openings hx hd hr
        · have := hr 3
          rw [h3] at this
          simp only [combine, h0, h1, h2, h3]
          exact Found.valid_lift (hx 3) this
      · have := hr 2
        rw [h2] at this
        simp only [combine, h0, h1, h2]
        exact Found.valid_lift (hx 2) this
    · have := hr 1
      rw [h1] at this
      simp only [combine, h0, h1]
      exact Found.valid_lift (hx 1) this
  · have := hr 0
    rw [h0] at this
    simp only [combine, h0]
    exact Found.valid_lift (hx 0) this

/-- What the extractor computes from a tree of accepting transcripts is valid. -/
theorem Tree.extract_valid {k : Nat} (t : Tree F k) : ∀ {g h : Nat → M} {u P : M}, t.Valid g h u P →
    t.extract.Valid (2 ^ k) g h u P := by
  induction t with
  | leaf a b =>
    intro g h u P hv
    rw [Tree.Valid] at hv
    rw [Tree.extract, Found.Valid, hv]
    simp
  | node x t ih =>
    intro g h u P hv
    rw [Tree.Valid] at hv
    obtain ⟨hx, hd, L, R, hv⟩ := hv
    rw [Tree.extract, pow_succ, mul_comm]
    exact combine_valid hx hd fun i => ih i (hv i)

end

/-! ### From the runs of a prover to a valid tree -/

section
variable {F M : Type*} [Field F] [AddCommGroup M] [Module F M]

theorem fold_congr {m : Nat} {x y : F} {g g' : Nat → M} (hg : ∀ i < 2 * m, g i = g' i) :
    ∀ i < m, fold m x y g i = fold m x y g' i := by
  intro i hi
  rw [fold, fold, hg i (by omega), hg (i + m) (by omega)]

theorem Accepts.congr (r : List (M × M × F)) : ∀ {g g' h h' : Nat → M} {u P : M} {a b : F},
    (∀ i < 2 ^ r.length, g i = g' i) → (∀ i < 2 ^ r.length, h i = h' i) →
    (Accepts r g h u P a b ↔ Accepts r g' h' u P a b) := by
  induction r with
  | nil =>
    intro g g' h h' u P a b hg hh
    rw [Accepts, Accepts, hg 0 (by simp), hh 0 (by simp)]
  | cons q r ih =>
    intro g g' h h' u P a b hg hh
    obtain ⟨L, R, x⟩ := q
    rw [Accepts, Accepts]
    rw [List.length_cons, pow_succ, mul_comm] at hg hh
    rw [ih (fold_congr hg) (fold_congr hh)]

/-- Every tree has a leaf. -/
theorem Tree.Forked.exists_leaf {K : Type*} {pt : K → Prop} {k : Nat} (t : Tree F k) :
    ∀ {acc : List (K × K × F) → F → F → Prop}, t.Forked pt acc → ∃ r a b, acc r a b := by
  induction t with
  | leaf a b => intro acc h; exact ⟨_, _, _, h⟩
  | node x t ih =>
    intro acc h
    obtain ⟨_, L, R, _, _, h⟩ := h
    obtain ⟨r, a, b, h⟩ := ih 0 (h 0)
    exact ⟨_, _, _, h⟩

/-- Leaves have as many rounds as the tree. -/
theorem Tree.Forked.with_length {K : Type*} {pt : K → Prop} {k : Nat} (t : Tree F k) :
    ∀ {acc : List (K × K × F) → F → F → Prop}, t.Forked pt acc →
      t.Forked pt (fun r a b => acc r a b ∧ r.length = k ∧ ∀ q ∈ r, pt q.1 ∧ pt q.2.1) := by
  induction t with
  | leaf a b => intro acc h; exact ⟨h, rfl, by simp⟩
  | @node k x t ih =>
    intro acc h
    obtain ⟨hd, L, R, hL, hR, h⟩ := h
    refine ⟨hd, L, R, hL, hR, fun i => ?_⟩
    have := ih i (h i)
    revert this
    generalize t i = s
    clear ih h t
    intro this
    suffices H : ∀ {k : Nat} (s : Tree F k) {p q : List (K × K × F) → F → F → Prop}, (∀ r a b, p r a b → q r a b) →
        s.Forked pt p → s.Forked pt q by
      refine H s ?_ this
      rintro r a b ⟨h1, h2, h3⟩
      refine ⟨h1, by rw [List.length_cons, h2], fun q hq => ?_⟩
      rcases List.mem_cons.1 hq with rfl | hq
      · exact ⟨hL, hR⟩
      · exact h3 q hq
    intro k s
    induction s with
    | leaf a b => intro p q hpq h; exact hpq _ _ _ h
    | node x t ih =>
      intro p q hpq h
      obtain ⟨hd, L, R, hL, hR, h⟩ := h
      exact ⟨hd, L, R, hL, hR, fun i => ih i (fun r a b => hpq _ a b) (h i)⟩

theorem Tree.Forked.valid {K : Type*} {pt : K → Prop} {val : K → M} {k : Nat} (t : Tree F k) :
    ∀ {acc : List (K × K × F) → F → F → Prop} {g h : Nat → M} {u P : M},
      (∀ r a b, r.length = k → (∀ q ∈ r, pt q.1 ∧ pt q.2.1) → acc r a b →
        Accepts (r.map fun q => (val q.1, val q.2.1, q.2.2)) g h u P a b) →
      t.Forked pt acc → t.Valid g h u P := by
  induction t with
  | leaf a b => intro acc g h u P hacc hf; exact hacc [] a b rfl (by simp) hf
  | @node k x t ih =>
    intro acc g h u P hacc hf
    obtain ⟨hd, L, R, hL, hR, hf⟩ := hf
    have step : ∀ i r a b, r.length = k → (∀ q ∈ r, pt q.1 ∧ pt q.2.1) → acc ((L, R, x i) :: r) a b →
        x i ≠ 0 ∧ Accepts (r.map fun q => (val q.1, val q.2.1, q.2.2)) (fold (2 ^ k) (x i)⁻¹ (x i) g)
          (fold (2 ^ k) (x i) (x i)⁻¹ h) u (P + (x i ^ 2) • val L + (x i ^ 2)⁻¹ • val R) a b := by
      intro i r a b hl hpt ha
      have := hacc ((L, R, x i) :: r) a b (by rw [List.length_cons, hl]) (by
        intro q hq
        rcases List.mem_cons.1 hq with rfl | hq
        · exact ⟨hL, hR⟩
        · exact hpt q hq) ha
      rw [List.map_cons, Accepts, List.length_map, hl] at this
      exact this
    refine ⟨fun i => ?_, hd, val L, val R, fun i => ?_⟩
    · obtain ⟨r, a, b, ha, hl, hpt⟩ := Tree.Forked.exists_leaf _ (Tree.Forked.with_length _ (hf i))
      exact (step i r a b hl hpt ha).1
    · exact ih i (fun r a b hl hpt ha => (step i r a b hl hpt ha).2) (hf i)

variable [DecidableEq F]

/-- The extractor for a claimed product. -/
theorem extractProduct_valid {k : Nat} {c x₁ x₂ : F} (hx : x₁ ≠ x₂) {t₁ t₂ : Tree F k} {g h : Nat → M} {u P : M}
    (h₁ : t₁.Valid g h (x₁ • u) (P + (x₁ * c) • u)) (h₂ : t₂.Valid g h (x₂ • u) (P + (x₂ * c) • u)) :
    match extractProduct c x₁ x₂ t₁ t₂ with
    | .opening a b => P = ∑ i ∈ range (2 ^ k), a i • g i + ∑ i ∈ range (2 ^ k), b i • h i ∧
        ∑ i ∈ range (2 ^ k), a i * b i = c
    | .relation v => ((∃ i < 2 ^ k, v.1 i ≠ 0 ∨ v.2.1 i ≠ 0) ∨ v.2.2 ≠ 0) ∧
        ∑ i ∈ range (2 ^ k), v.1 i • g i + ∑ i ∈ range (2 ^ k), v.2.1 i • h i + v.2.2 • u = 0 := by
  have e₁ := t₁.extract_valid h₁
  have e₂ := t₂.extract_valid h₂
  rw [extractProduct]
  cases r₁ : t₁.extract with
  | relation v =>
    rw [r₁] at e₁
    simp only
    refine ⟨Or.inl e₁.1, ?_⟩
    rw [mul_comm, mul_smul]
    exact e₁.2
  | opening a b =>
    cases r₂ : t₂.extract with
    | relation v =>
      rw [r₂] at e₂
      simp only
      refine ⟨Or.inl e₂.1, ?_⟩
      rw [mul_comm, mul_smul]
      exact e₂.2
    | opening a' b' =>
      rw [r₁] at e₁
      rw [r₂] at e₂
      rw [Found.Valid] at e₁ e₂
      by_cases hs : ∑ i ∈ range (2 ^ k), a i * b i = c
      · simp only [hs, if_true]
        refine ⟨?_, trivial⟩
        rw [hs] at e₁
        linear_combination (norm := module) e₁
      · simp only [hs, if_false]
        refine ⟨?_, ?_⟩
        · by_contra hn
          rw [not_or, not_exists, not_not] at hn
          have hab : ∀ i < 2 ^ k, a i = a' i ∧ b i = b' i := by
            intro i hi
            have := hn.1 i
            simp only [Pi.sub_apply, not_and, not_or, not_not, sub_eq_zero] at this
            exact this hi
          have hsum : ∑ i ∈ range (2 ^ k), a' i * b' i = ∑ i ∈ range (2 ^ k), a i * b i := by
            refine sum_congr rfl fun i hi => ?_
            have := hab i (mem_range.1 hi)
            rw [this.1, this.2]
          have h0 := hn.2
          rw [hsum, ← sub_mul, mul_eq_zero, sub_eq_zero, sub_eq_zero] at h0
          exact h0.elim hx hs
        · simp only [Pi.sub_apply, sub_smul, sum_sub_distrib]
          linear_combination (norm := module) e₂ - e₁

end

end Verif.Spec

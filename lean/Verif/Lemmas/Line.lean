import Verif.Lemmas.Curve

/-!
# Chords and tangents as functions on the curve

For points `A`, `B` the function `line A B` cuts out `A`, `B` and `-(A+B)`; `vert A` cuts out `A` and
`-A`.  Seen as elements of the coordinate ring they satisfy a cocycle identity up to a constant,
because the two sides generate the same ideal.
-/

namespace Verif
open WeierstrassCurve Polynomial WeierstrassCurve.Affine

section
variable {F : Type*} [Field F] {b : F}

/-- The vertical through `A`, at abscissa `x` (`1` for infinity). -/
def vert : (curve b).Point → F → F
  | .zero, _ => 1
  | .some x₁ _ _, x => x - x₁

@[simp] theorem vert_zero (x : F) : vert (0 : (curve b).Point) x = 1 := rfl

theorem IsPt.vert {A : (curve b).Point} {x₁ y₁ : F} (h : IsPt A x₁ y₁) (x : F) : Verif.vert A x = x - x₁ := by
  obtain ⟨h, rfl⟩ := h; rfl

/-- The vertical through `A` as an element of the coordinate ring. -/
noncomputable def vertC : (curve b).Point → (curve b).CoordinateRing
  | .zero => 1
  | .some x₁ _ _ => CoordinateRing.XClass (curve b) x₁

/-- The maximal ideal of `A` (the whole ring for infinity). -/
noncomputable def ptIdeal : (curve b).Point → Ideal (curve b).CoordinateRing
  | .zero => ⊤
  | .some x₁ y₁ _ => CoordinateRing.XYIdeal (curve b) x₁ (C y₁)

variable [DecidableEq F]

/-- The chord through `A` and `B` (tangent if equal, vertical if the sum is infinity, the vertical
through the other point if one is infinity), at the point `(x, y)`. -/
noncomputable def line : (curve b).Point → (curve b).Point → F → F → F
  | .zero, B, x, _ => vert B x
  | .some x₁ _ _, .zero, x, _ => x - x₁
  | .some x₁ y₁ _, .some x₂ y₂ _, x, y =>
    if x₁ = x₂ ∧ y₁ = (curve b).negY x₂ y₂ then x - x₁
    else y - ((curve b).slope x₁ x₂ y₁ y₂ * (x - x₁) + y₁)

/-- `line` as an element of the coordinate ring. -/
noncomputable def lineC : (curve b).Point → (curve b).Point → (curve b).CoordinateRing
  | .zero, B => vertC B
  | .some x₁ _ _, .zero => CoordinateRing.XClass (curve b) x₁
  | .some x₁ y₁ _, .some x₂ y₂ _ =>
    if x₁ = x₂ ∧ y₁ = (curve b).negY x₂ y₂ then CoordinateRing.XClass (curve b) x₁
    else CoordinateRing.YClass (curve b) (linePolynomial x₁ y₁ ((curve b).slope x₁ x₂ y₁ y₂))

theorem vertC_ne_zero (A : (curve b).Point) : vertC A ≠ 0 := by
  cases A with
  | zero => exact one_ne_zero
  | some x y h => exact CoordinateRing.XClass_ne_zero x

theorem lineC_ne_zero (A B : (curve b).Point) : lineC A B ≠ 0 := by
  cases A with
  | zero => exact vertC_ne_zero B
  | some x y h =>
    cases B with
    | zero => exact CoordinateRing.XClass_ne_zero x
    | some x' y' h' =>
      simp only [lineC]
      split_ifs
      · exact CoordinateRing.XClass_ne_zero x
      · exact CoordinateRing.YClass_ne_zero _

theorem ptIdeal_neg (A : (curve b).Point) : ptIdeal A * ptIdeal (-A) = Ideal.span {vertC A} := by
  cases A with
  | zero => simp [← Affine.Point.zero_def, ptIdeal, vertC]
  | some x y h =>
    rw [Affine.Point.neg_some, mul_comm]
    exact CoordinateRing.XYIdeal_neg_mul h

theorem ptIdeal_mul (A B : (curve b).Point) :
    Ideal.span {vertC (A + B)} * (ptIdeal A * ptIdeal B) = Ideal.span {lineC A B} * ptIdeal (A + B) := by
  cases A with
  | zero =>
    rw [← Affine.Point.zero_def, zero_add]
    simp [ptIdeal, lineC, Affine.Point.zero_def]
  | some x y h =>
    cases B with
    | zero =>
      rw [← Affine.Point.zero_def, add_zero]
      simp [ptIdeal, lineC, Affine.Point.zero_def, vertC]
    | some x' y' h' =>
      by_cases hxy : x = x' ∧ y = (curve b).negY x' y'
      · have h0 : (Affine.Point.some x y h + .some x' y' h' : (curve b).Point) = 0 := Affine.Point.add_of_Y_eq hxy.1 hxy.2
        have hn : (Affine.Point.some x' y' h' : (curve b).Point) = -(.some x y h) := (neg_eq_of_add_eq_zero_right h0).symm
        rw [h0, hn, ptIdeal_neg, ← hn]
        simp only [lineC, if_pos hxy]
        simp [ptIdeal, Affine.Point.zero_def, vertC]
      · rw [Affine.Point.add_some hxy]
        simp only [lineC, if_neg hxy]
        exact CoordinateRing.XYIdeal_mul_XYIdeal h.1 h'.1 hxy

omit [DecidableEq F] in
/-- A unit of the coordinate ring is a constant. -/
theorem unit_const {u : (curve b).CoordinateRing} (hu : IsUnit u) : ∃ k : F, k ≠ 0 ∧ u = CoordinateRing.mk (curve b) (C (C k)) := by
  obtain ⟨p, q, rfl⟩ := CoordinateRing.exists_smul_basis_eq u
  have hn := hu.map (Algebra.norm F[X])
  have hd := Polynomial.degree_eq_zero_of_isUnit hn
  rw [CoordinateRing.degree_norm_smul_basis] at hd
  have hq : q = 0 := by
    by_contra hq
    have h1 : (2 • q.degree + 3 : WithBot ℕ) ≤ 0 := hd ▸ le_max_right _ _
    rw [Polynomial.degree_eq_natDegree hq] at h1
    have : ((2 * q.natDegree + 3 : ℕ) : WithBot ℕ) ≤ (0 : ℕ) := by
      refine le_trans (le_of_eq ?_) h1
      push_cast; rw [two_nsmul, two_mul]
    have := Nat.cast_le.1 this
    omega
  subst hq
  have hp : p.degree = 0 := by
    by_cases hp : p = 0
    · subst hp; simp at hd
    · rw [Polynomial.degree_eq_natDegree hp] at hd ⊢
      have h1 : (2 • (p.natDegree : WithBot ℕ)) ≤ 0 := hd ▸ le_max_left _ _
      have : ((2 * p.natDegree : ℕ) : WithBot ℕ) ≤ (0 : ℕ) := by
        refine le_trans (le_of_eq ?_) h1
        push_cast; rw [two_nsmul, two_mul]
      have := Nat.cast_le.1 this
      have h0 : p.natDegree = 0 := by omega
      rw [h0]; rfl
  rw [Polynomial.eq_C_of_degree_eq_zero hp]
  refine ⟨p.coeff 0, ?_, ?_⟩
  · intro h0
    rw [Polynomial.eq_C_of_degree_eq_zero hp, h0] at hp
    simp at hp
  · rw [zero_smul, add_zero, CoordinateRing.smul, mul_one]

/-- The cocycle identity in the coordinate ring. -/
theorem lineC_cocycle (A B D : (curve b).Point) : ∃ k : F, k ≠ 0 ∧
    vertC (B + D) * lineC A B * lineC (A + B) D =
      CoordinateRing.mk (curve b) (C (C k)) * (vertC (A + B) * lineC B D * lineC A (B + D)) := by
  have e1 : Ideal.span {vertC (A + B + D)} * (Ideal.span {vertC (A + B)} * (ptIdeal A * ptIdeal B)) * ptIdeal D
      = Ideal.span {lineC A B} * (Ideal.span {lineC (A + B) D} * ptIdeal (A + B + D)) := by
    rw [ptIdeal_mul, ← ptIdeal_mul (A + B) D]; ring
  have e2 : Ideal.span {vertC (A + B + D)} * ptIdeal A * (Ideal.span {vertC (B + D)} * (ptIdeal B * ptIdeal D))
      = Ideal.span {lineC B D} * (Ideal.span {lineC A (B + D)} * ptIdeal (A + B + D)) := by
    rw [ptIdeal_mul, add_assoc, ← ptIdeal_mul A (B + D)]; ring
  have e3 : Ideal.span {vertC (B + D) * lineC A B * lineC (A + B) D} * ptIdeal (A + B + D) =
      Ideal.span {vertC (A + B) * lineC B D * lineC A (B + D)} * ptIdeal (A + B + D) := by
    simp only [← Ideal.span_singleton_mul_span_singleton]
    calc _ = Ideal.span {vertC (B + D)} * (Ideal.span {lineC A B} * (Ideal.span {lineC (A + B) D} * ptIdeal (A + B + D))) := by ring
      _ = Ideal.span {vertC (A + B)} * (Ideal.span {lineC B D} * (Ideal.span {lineC A (B + D)} * ptIdeal (A + B + D))) := by
        rw [← e1, ← e2]; ring
      _ = _ := by ring
  have e4 := congrArg (· * ptIdeal (-(A + B + D))) e3
  simp only [mul_assoc _ (ptIdeal (A + B + D)), ptIdeal_neg, Ideal.span_singleton_mul_span_singleton] at e4
  have e5 := (Ideal.span_singleton_eq_span_singleton.1 e4)
  have e6 : Associated (vertC (A + B) * lineC B D * lineC A (B + D)) (vertC (B + D) * lineC A B * lineC (A + B) D) := by
    refine Associated.symm ?_
    obtain ⟨u, hu⟩ := e5
    refine ⟨u, mul_right_cancel₀ (vertC_ne_zero (A + B + D)) ?_⟩
    linear_combination hu
  obtain ⟨u, hu⟩ := e6
  obtain ⟨k, hk, hk'⟩ := unit_const u.isUnit
  exact ⟨k, hk, by rw [← hu, hk', mul_comm]⟩

/-- Evaluation at a point. -/
noncomputable def evalAt {x y : F} (h : (curve b).Equation x y) : (curve b).CoordinateRing →+* F :=
  AdjoinRoot.evalEval (p := (curve b).polynomial) h

omit [DecidableEq F] in
theorem evalAt_mk {x y : F} (h : (curve b).Equation x y) (g : Polynomial (Polynomial F)) :
    evalAt h (CoordinateRing.mk (curve b) g) = g.evalEval x y := AdjoinRoot.evalEval_mk h g

omit [DecidableEq F] in
theorem evalAt_XClass {x y : F} (h : (curve b).Equation x y) (x₁ : F) :
    evalAt h (CoordinateRing.XClass (curve b) x₁) = x - x₁ := by
  rw [CoordinateRing.XClass, evalAt_mk, Polynomial.evalEval_C]; simp

omit [DecidableEq F] in
theorem evalAt_YClass {x y : F} (h : (curve b).Equation x y) (x₁ y₁ l : F) :
    evalAt h (CoordinateRing.YClass (curve b) (linePolynomial x₁ y₁ l)) = y - (l * (x - x₁) + y₁) := by
  rw [CoordinateRing.YClass, evalAt_mk, Polynomial.evalEval_sub, Polynomial.evalEval_C]; simp [linePolynomial]

omit [DecidableEq F] in
theorem evalAt_vertC {x y : F} (h : (curve b).Equation x y) (A : (curve b).Point) : evalAt h (vertC A) = vert A x := by
  cases A with
  | zero => exact map_one _
  | some x₁ y₁ h₁ => exact evalAt_XClass h x₁

theorem evalAt_lineC {x y : F} (h : (curve b).Equation x y) (A B : (curve b).Point) :
    evalAt h (lineC A B) = line A B x y := by
  cases A with
  | zero => exact evalAt_vertC h B
  | some x₁ y₁ h₁ =>
    cases B with
    | zero => exact evalAt_XClass h x₁
    | some x₂ y₂ h₂ =>
      simp only [lineC, line]
      split_ifs
      · exact evalAt_XClass h x₁
      · exact evalAt_YClass h x₁ y₁ _

/-- The values of a chord at `P` and `-P`. -/
theorem line_mul_neg {x y : F} (h : (curve b).Equation x y) (A B : (curve b).Point) :
    line A B x y * line A B x (-y) = vert A x * vert B x * vert (A + B) x ∨
    line A B x y * line A B x (-y) = -(vert A x * vert B x * vert (A + B) x) := by
  cases A with
  | zero =>
    left
    rw [← Affine.Point.zero_def, zero_add]
    simp only [vert_zero, one_mul]
    rfl
  | some x₁ y₁ h₁ =>
    cases B with
    | zero =>
      left
      rw [← Affine.Point.zero_def, add_zero]
      simp [line, Affine.Point.zero_def, vert]
    | some x₂ y₂ h₂ =>
      by_cases hxy : x₁ = x₂ ∧ y₁ = (curve b).negY x₂ y₂
      · left
        rw [Affine.Point.add_of_Y_eq hxy.1 hxy.2]
        simp only [line, if_pos hxy, vert_zero, mul_one]
        simp only [vert, hxy.1]
      · right
        rw [Affine.Point.add_some hxy]
        simp only [line, if_neg hxy, vert]
        have e := congrArg (Polynomial.eval x) (Affine.addPolynomial_slope h₁.1 h₂.1 hxy)
        rw [curve_equation] at h
        simp [Affine.addPolynomial, Affine.polynomial, linePolynomial] at e
        simp only [Affine.addX, curve_a₁, curve_a₂]
        linear_combination e - h

theorem line_symm (A B : (curve b).Point) (x y : F) : line A B x y = line B A x y := by
  cases A with
  | zero => cases B <;> rfl
  | some x₁ y₁ h₁ =>
    cases B with
    | zero => rfl
    | some x₂ y₂ h₂ =>
      simp only [line, curve_negY]
      by_cases hx : x₁ = x₂
      · subst hx
        by_cases hy : y₁ = -y₂
        · rw [if_pos ⟨rfl, hy⟩, if_pos ⟨rfl, by rw [hy, neg_neg]⟩]
        · have h12 := (IsPt.eq_or_neg (P := .some x₁ y₁ h₁) (Q := .some x₁ y₂ h₂) ⟨h₁, rfl⟩ ⟨h₂, rfl⟩).resolve_right hy
          subst h12
          rfl
      · rw [if_neg (fun h => hx h.1), if_neg (fun h => hx h.1.symm), Affine.slope_of_X_ne hx,
          Affine.slope_of_X_ne (Ne.symm hx)]
        have h1 : x₁ - x₂ ≠ 0 := sub_ne_zero.2 hx
        have h2 : x₂ - x₁ ≠ 0 := sub_ne_zero.2 (Ne.symm hx)
        field_simp
        ring

/-- The cocycle identity for the values at a point, up to a fourth root of unity. -/
theorem line_cocycle {x y : F} (h : (curve b).Equation x y) (A B D : (curve b).Point)
    (hA : vert A x ≠ 0) (hB : vert B x ≠ 0) (hD : vert D x ≠ 0) (hAB : vert (A + B) x ≠ 0)
    (hBD : vert (B + D) x ≠ 0) (hABD : vert (A + B + D) x ≠ 0) :
    (vert (B + D) x * line A B x y * line (A + B) D x y) ^ 4 =
    (vert (A + B) x * line B D x y * line A (B + D) x y) ^ 4 := by
  obtain ⟨k, hk, e⟩ := lineC_cocycle A B D
  have h' : (curve b).Equation x (-y) := by
    rw [curve_equation] at h ⊢; rw [neg_sq]; exact h
  have e1 := congrArg (evalAt h) e
  have e2 := congrArg (evalAt h') e
  simp only [map_mul, evalAt_vertC, evalAt_lineC, evalAt_mk, Polynomial.evalEval_C, Polynomial.eval_C] at e1 e2
  have n1 := line_mul_neg h A B
  have n2 := line_mul_neg h (A + B) D
  have n3 := line_mul_neg h B D
  have n4 := line_mul_neg h A (B + D)
  rw [← add_assoc] at n4
  have hk4 : k ^ 4 = 1 := by
    have s1 : (line A B x y * line A B x (-y)) ^ 2 = (vert A x * vert B x * vert (A + B) x) ^ 2 := by
      rcases n1 with n | n <;> rw [n] <;> ring
    have s2 : (line (A + B) D x y * line (A + B) D x (-y)) ^ 2 = (vert (A + B) x * vert D x * vert (A + B + D) x) ^ 2 := by
      rcases n2 with n | n <;> rw [n] <;> ring
    have s3 : (line B D x y * line B D x (-y)) ^ 2 = (vert B x * vert D x * vert (B + D) x) ^ 2 := by
      rcases n3 with n | n <;> rw [n] <;> ring
    have s4 : (line A (B + D) x y * line A (B + D) x (-y)) ^ 2 = (vert A x * vert (B + D) x * vert (A + B + D) x) ^ 2 := by
      rcases n4 with n | n <;> rw [n] <;> ring
    have e3 : (vert (B + D) x) ^ 4 * ((line A B x y * line A B x (-y)) ^ 2 * (line (A + B) D x y * line (A + B) D x (-y)) ^ 2) =
        k ^ 4 * ((vert (A + B) x) ^ 4 * ((line B D x y * line B D x (-y)) ^ 2 * (line A (B + D) x y * line A (B + D) x (-y)) ^ 2)) := by
      have := congrArg (· ^ 2) (congrArg₂ (· * ·) e1 e2)
      linear_combination this
    rw [s1, s2, s3, s4] at e3
    have hne : (vert (B + D) x) ^ 4 * ((vert A x * vert B x * vert (A + B) x) ^ 2 * (vert (A + B) x * vert D x * vert (A + B + D) x) ^ 2) ≠ 0 := by
      exact mul_ne_zero (pow_ne_zero _ hBD) (mul_ne_zero (pow_ne_zero _ (mul_ne_zero (mul_ne_zero hA hB) hAB))
        (pow_ne_zero _ (mul_ne_zero (mul_ne_zero hAB hD) hABD)))
    refine mul_right_cancel₀ hne ?_
    linear_combination -e3
  rw [e1, mul_pow, hk4, one_mul]

/-- The elementary symmetric functions of the abscissas on a chord. -/
theorem chord_sym {x₁ x₂ y₁ y₂ : F} (h₁ : (curve b).Equation x₁ y₁) (h₂ : (curve b).Equation x₂ y₂)
    (hxy : ¬(x₁ = x₂ ∧ y₁ = (curve b).negY x₂ y₂)) {l x₃ : F} (hl : l = (curve b).slope x₁ x₂ y₁ y₂)
    (hx₃ : x₃ = (curve b).addX x₁ x₂ l) :
    x₁ + x₂ + x₃ = l ^ 2 ∧ x₁ * x₂ + x₁ * x₃ + x₂ * x₃ = -2 * l * (y₁ - l * x₁) ∧
    x₁ * x₂ * x₃ = (y₁ - l * x₁) ^ 2 - b := by
  have e := Affine.addPolynomial_slope h₁ h₂ hxy
  rw [← hl, ← hx₃] at e
  have e0 := congrArg (Polynomial.eval 0) e
  have e1 := congrArg (Polynomial.eval 1) e
  simp [Affine.addPolynomial, Affine.polynomial, linePolynomial] at e0 e1
  have s1 : x₁ + x₂ + x₃ = l ^ 2 := by
    rw [hx₃, Affine.addX, curve_a₁, curve_a₂]; ring
  refine ⟨s1, ?_, ?_⟩
  · linear_combination e1 - e0 + s1
  · linear_combination -e0

omit [DecidableEq F] in
theorem recip_aux {x₁ x₂ x₃ l n p₁ p₂ p₃ m r : F}
    (a1 : x₁ + x₂ + x₃ = l ^ 2) (a2 : x₁ * x₂ + x₁ * x₃ + x₂ * x₃ = -2 * l * n)
    (a3 : x₁ * x₂ * x₃ = n ^ 2 - b) (c1 : p₁ + p₂ + p₃ = m ^ 2)
    (c2 : p₁ * p₂ + p₁ * p₃ + p₂ * p₃ = -2 * m * r) (c3 : p₁ * p₂ * p₃ = r ^ 2 - b) :
    ((m - l) * p₁ + (r - n)) * ((m - l) * p₂ + (r - n)) * ((m - l) * p₃ + (r - n)) =
    ((m - l) * x₁ + (r - n)) * ((m - l) * x₂ + (r - n)) * ((m - l) * x₃ + (r - n)) := by
  linear_combination (m - l) * (r - n) ^ 2 * (c1 - a1) + (m - l) ^ 2 * (r - n) * (c2 - a2) + (m - l) ^ 3 * (c3 - a3)

/-- `line` between two finite points whose sum is finite. -/
theorem line_of_ne {A B : (curve b).Point} {x₁ y₁ x₂ y₂ : F} (hA : IsPt A x₁ y₁) (hB : IsPt B x₂ y₂)
    (hAB : A + B ≠ 0) (x y : F) :
    ¬(x₁ = x₂ ∧ y₁ = (curve b).negY x₂ y₂) ∧
    line A B x y = y - ((curve b).slope x₁ x₂ y₁ y₂ * (x - x₁) + y₁) := by
  have hxy : ¬(x₁ = x₂ ∧ y₁ = (curve b).negY x₂ y₂) := by
    rintro ⟨h1, h2⟩
    rw [curve_negY] at h2
    exact hAB (hA.add_of_neg hB h1 h2)
  obtain ⟨h₁, rfl⟩ := hA
  obtain ⟨h₂, rfl⟩ := hB
  exact ⟨hxy, if_neg hxy⟩

theorem isPt_sum {A B : (curve b).Point} {x₁ y₁ x₂ y₂ : F} (hA : IsPt A x₁ y₁) (hB : IsPt B x₂ y₂)
    (hxy : ¬(x₁ = x₂ ∧ y₁ = (curve b).negY x₂ y₂)) :
    IsPt (A + B) ((curve b).addX x₁ x₂ ((curve b).slope x₁ x₂ y₁ y₂))
      ((curve b).addY x₁ x₂ y₁ ((curve b).slope x₁ x₂ y₁ y₂)) := by
  obtain ⟨h₁, rfl⟩ := hA
  obtain ⟨h₂, rfl⟩ := hB
  rw [Affine.Point.add_some hxy]
  exact ⟨_, rfl⟩

/-- Reciprocity: the product of the values of one chord at the three points of another is, up to
sign, the product of the values of the other at the three points of the one. -/
theorem line_recip {A B P R : (curve b).Point} {x₁ y₁ x₂ y₂ x₃ y₃ p₁ q₁ p₂ q₂ p₃ q₃ : F}
    (hA : IsPt A x₁ y₁) (hB : IsPt B x₂ y₂) (hS : IsPt (A + B) x₃ y₃)
    (hP : IsPt P p₁ q₁) (hR : IsPt R p₂ q₂) (hT : IsPt (P + R) p₃ q₃) :
    line A B p₁ q₁ * line A B p₂ q₂ * line A B p₃ (-q₃) =
      -(line P R x₁ y₁ * line P R x₂ y₂ * line P R x₃ (-y₃)) := by
  obtain ⟨hxy, -⟩ := line_of_ne hA hB hS.ne_zero 0 0
  obtain ⟨hpq, -⟩ := line_of_ne hP hR hT.ne_zero 0 0
  rw [(line_of_ne hA hB hS.ne_zero _ _).2, (line_of_ne hA hB hS.ne_zero _ _).2,
    (line_of_ne hA hB hS.ne_zero _ _).2, (line_of_ne hP hR hT.ne_zero _ _).2,
    (line_of_ne hP hR hT.ne_zero _ _).2, (line_of_ne hP hR hT.ne_zero _ _).2]
  obtain ⟨ex, ey⟩ := (hS.inj (isPt_sum hA hB hxy)).1 rfl
  obtain ⟨fx, fy⟩ := (hT.inj (isPt_sum hP hR hpq)).1 rfl
  have hy2 : y₂ = (curve b).slope x₁ x₂ y₁ y₂ * (x₂ - x₁) + y₁ := by
    by_cases hx : x₁ = x₂
    · subst hx
      have := (IsPt.eq_or_neg hA hB).resolve_right (fun h => hxy ⟨rfl, by rw [curve_negY]; exact h⟩)
      rw [this]; ring
    · rw [Affine.slope_of_X_ne hx]
      have : x₁ - x₂ ≠ 0 := sub_ne_zero.2 hx
      field_simp
      ring
  have hq2 : q₂ = (curve b).slope p₁ p₂ q₁ q₂ * (p₂ - p₁) + q₁ := by
    by_cases hx : p₁ = p₂
    · subst hx
      have := (IsPt.eq_or_neg hP hR).resolve_right (fun h => hpq ⟨rfl, by rw [curve_negY]; exact h⟩)
      rw [this]; ring
    · rw [Affine.slope_of_X_ne hx]
      have : p₁ - p₂ ≠ 0 := sub_ne_zero.2 hx
      field_simp
      ring
  generalize hl : (curve b).slope x₁ x₂ y₁ y₂ = l at *
  generalize hm : (curve b).slope p₁ p₂ q₁ q₂ = m at *
  obtain ⟨a1, a2, a3⟩ := chord_sym hA.1.1 hB.1.1 hxy hl.symm ex
  obtain ⟨c1, c2, c3⟩ := chord_sym hP.1.1 hR.1.1 hpq hm.symm fx
  have ey' : -y₃ = l * (x₃ - x₁) + y₁ := by rw [ey, ex, Affine.addY, curve_negY, Affine.negAddY]; ring
  have fy' : -q₃ = m * (p₃ - p₁) + q₁ := by rw [fy, fx, Affine.addY, curve_negY, Affine.negAddY]; ring
  have key := recip_aux a1 a2 a3 c1 c2 c3
  rw [ey', fy', hy2, hq2]
  linear_combination key

end
end Verif

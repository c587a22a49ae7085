import Verif.Lemmas.Ate
import Verif.Lemmas.BnBytes

/-!
# `miller` computes the Miller function

Each line function returns the chord through two points of the twist, untwisted, at the point of
`G1`, up to a factor in `F2`, which the final exponentiation removes.
-/

namespace Verif
open WeierstrassCurve WeierstrassCurve.Affine

/-- `r` holds the point `A` in Jacobian coordinates, with `t = z²`. -/
def TwPt (r : TwistPoint) (A : (curve (3 / F2.xi)).Point) : Prop :=
  Jac A r.x.val r.y.val r.z.val ∧ r.t.val = r.z.val ^ 2

/-- The sparse element `c + bω + aω³`. -/
noncomputable def lineVal (a b c : F2) : F12 := e2 c + e2 b * F12.omega + e2 a * F12.omega ^ 3

theorem mulLine_val (ret : GfP12) (a b c : GfP2) :
    (mulLine ret a b c).val = ret.val * lineVal a.val b.val c.val := by
  have ho : F12.omega ^ 2 = algebraMap F6 F12 F6.tau := F12.omega_sq
  have ho3 : F12.omega ^ 3 = algebraMap F6 F12 F6.tau * F12.omega := by rw [← ho]; ring
  simp only [mulLine, GfP12.val, GfP6.val_sub, GfP6.val_mul, GfP6.val_add, GfP6.val_mulTau,
    GfP6.val_mulScalar, map_add, map_mul, map_sub, lineVal, e2, RingHom.comp_apply, ho3]
  simp only [GfP6.val, GfP2.val_zero, GfP2.val_add, map_zero, zero_mul, zero_add, map_add, map_mul, map_pow]
  set T := algebraMap F6 F12 F6.tau
  set a' := algebraMap F6 F12 (algebraMap F2 F6 a.val)
  set b' := algebraMap F6 F12 (algebraMap F2 F6 b.val)
  set c' := algebraMap F6 F12 (algebraMap F2 F6 c.val)
  generalize algebraMap F6 F12 (algebraMap F2 F6 ret.x.x.val) = u
  generalize algebraMap F6 F12 (algebraMap F2 F6 ret.x.y.val) = v
  linear_combination (-(a' * T + b')) * (u * (algebraMap F6 F12 F6.tau) ^ 2 + v * T +
    algebraMap F6 F12 (algebraMap F2 F6 ret.x.z.val)) * ho

theorem e1_int (k : Int) : e1 (k : BF) = e2 (k : F2) := by simp

/-- A chord given by its slope on the twist. -/
theorem line_untwist {A B : (curve (3 / F2.xi)).Point} {x₁ y₁ x₂ y₂ : F2} (hA : IsPt A x₁ y₁)
    (hB : IsPt B x₂ y₂) (hAB : A + B ≠ 0) {l k a b c : F2} (hl : l = (curve (3 / F2.xi)).slope x₁ x₂ y₁ y₂)
    (X Y : Int) (hc : c = k * Y) (hb : b = -(k * l * X)) (ha : a = k * (l * x₁ - y₁)) :
    lineVal a b c = e2 k * line (untwist.app A) (untwist.app B) (e1 (X : BF)) (e1 (Y : BF)) := by
  have h0 : untwist.app A + untwist.app B ≠ 0 := by
    rw [← SMap.app_add, Ne, SMap.app_eq_zero]; exact hAB
  have hxy := (line_of_ne hA hB hAB 0 0).1
  rw [(line_of_ne (untwist.isPt hA) (untwist.isPt hB) h0 _ _).2, untwist.slope hA.1.1 hB.1.1 hxy, ← hl,
    lineVal, hc, hb, ha, e1_int, e1_int]
  simp only [untwist, map_mul, map_neg, map_sub]
  ring

theorem lineFunctionAdd_spec {r p : TwistPoint} {q : CurvePoint} {r2 : GfP2}
    {A B : (curve (3 / F2.xi)).Point} (hr : TwPt r A) (hA : A ≠ 0) (hp : IsPt B p.x.val p.y.val)
    (hr2 : r2.val = p.y.val ^ 2) (hAB : A ≠ B) (hAB' : A + B ≠ 0) :
    ∃ k : F2, k ≠ 0 ∧
      lineVal (lineFunctionAdd r p q r2).1.val (lineFunctionAdd r p q r2).2.1.val
        (lineFunctionAdd r p q r2).2.2.1.val =
        e2 k * line (untwist.app A) (untwist.app B) (e1 (q.x : BF)) (e1 (q.y : BF)) ∧
      TwPt (lineFunctionAdd r p q r2).2.2.2 (A + B) := by
  obtain ⟨hJ, ht⟩ := hr
  have hz : r.z.val ≠ 0 := fun h => hA (hJ.zero_iff.2 h)
  have hf := hJ.finite hz
  have hx : r.x.val / r.z.val ^ 2 ≠ p.x.val := by
    intro h
    rw [h] at hf
    rcases hf.eq_or_neg hp with e | e
    · exact hAB ((hf.inj hp).2 ⟨rfl, e⟩)
    · exact hAB' (hf.add_of_neg hp rfl e)
  have hH : p.x.val * r.z.val ^ 2 - r.x.val ≠ 0 := by
    intro h
    apply hx
    rw [div_eq_iff (pow_ne_zero 2 hz)]
    linear_combination -h
  have h2 := f2_two
  refine ⟨2 * (2 * r.z.val * (p.x.val * r.z.val ^ 2 - r.x.val)), by positivity, ?_, ?_, ?_⟩
  · have hx2 : r.x.val - p.x.val * r.z.val ^ 2 ≠ 0 := by
      intro h; apply hH; linear_combination -h
    have hs : (curve (3 / F2.xi)).slope (r.x.val / r.z.val ^ 2) p.x.val (r.y.val / r.z.val ^ 3) p.y.val =
        (r.y.val - p.y.val * r.z.val ^ 3) / (r.z.val * (r.x.val - p.x.val * r.z.val ^ 2)) := by
      have e : r.x.val / r.z.val ^ 2 - p.x.val = (r.x.val - p.x.val * r.z.val ^ 2) / r.z.val ^ 2 := by
        field_simp
      rw [Affine.slope_of_X_ne hx, e]
      field_simp
    have e : ∀ w : F2, w * (p.x.val * r.z.val ^ 2 - r.x.val) *
        ((r.y.val - p.y.val * r.z.val ^ 3) / (r.z.val * (r.x.val - p.x.val * r.z.val ^ 2))) =
        w * (p.y.val * r.z.val ^ 3 - r.y.val) / r.z.val := by
      intro w
      field_simp
      ring
    refine line_untwist hf hp hAB' hs.symm q.x q.y ?_ ?_ ?_
    · simp only [lineFunctionAdd, GfP2.val_add, GfP2.val_sub, GfP2.val_mul, GfP2.val_square, GfP2.val_mulScalar,
        GfP2.val_zero, hr2, ht]
      ring
    · rw [← mul_assoc, e]
      simp only [lineFunctionAdd, GfP2.val_add, GfP2.val_sub, GfP2.val_mul, GfP2.val_square, GfP2.val_mulScalar,
        GfP2.val_zero, hr2, ht]
      field_simp
      ring
    · rw [mul_sub, ← mul_assoc, ← mul_assoc, e]
      simp only [lineFunctionAdd, GfP2.val_add, GfP2.val_sub, GfP2.val_mul, GfP2.val_square, GfP2.val_mulScalar,
        GfP2.val_zero, hr2, ht]
      field_simp
      ring
  · refine Jac.add h2 hJ (Jac.of_affine hp) hz one_ne_zero hAB rfl rfl rfl rfl ?_ ?_ ?_ <;>
    · simp only [lineFunctionAdd, GfP2.val_add, GfP2.val_sub, GfP2.val_mul, GfP2.val_square, hr2, ht]
      ring
  · simp only [lineFunctionAdd, GfP2.val_square]

theorem lineFunctionDouble_spec {r : TwistPoint} {q : CurvePoint}
    {A : (curve (3 / F2.xi)).Point} (hr : TwPt r A) (hA : A + A ≠ 0) :
    ∃ k : F2, k ≠ 0 ∧
      lineVal (lineFunctionDouble r q).1.val (lineFunctionDouble r q).2.1.val
        (lineFunctionDouble r q).2.2.1.val =
        e2 k * line (untwist.app A) (untwist.app A) (e1 (q.x : BF)) (e1 (q.y : BF)) ∧
      TwPt (lineFunctionDouble r q).2.2.2 (A + A) := by
  obtain ⟨hJ, ht⟩ := hr
  have hA0 : A ≠ 0 := by rintro rfl; exact hA (add_zero 0)
  have hz : r.z.val ≠ 0 := fun h => hA0 (hJ.zero_iff.2 h)
  have hf := hJ.finite hz
  have hy : r.y.val ≠ 0 := by
    intro h
    rw [h, zero_div] at hf
    exact hA hf.double_zero
  have h2 := f2_two
  refine ⟨4 * r.y.val * r.z.val ^ 3, by
    rw [show (4 : F2) = 2 * 2 by norm_num]; positivity, ?_, ?_, ?_⟩
  · have hs : (curve (3 / F2.xi)).slope (r.x.val / r.z.val ^ 2) (r.x.val / r.z.val ^ 2) (r.y.val / r.z.val ^ 3)
        (r.y.val / r.z.val ^ 3) = 3 * r.x.val ^ 2 / (2 * r.y.val * r.z.val) := by
      have hne : r.y.val / r.z.val ^ 3 ≠ (curve (3 / F2.xi)).negY (r.x.val / r.z.val ^ 2) (r.y.val / r.z.val ^ 3) := by
        rw [curve_negY]
        intro hc
        have : 2 * (r.y.val / r.z.val ^ 3) = 0 := by linear_combination hc
        rcases mul_eq_zero.1 this with h | h
        · exact h2 h
        · exact (div_ne_zero hy (pow_ne_zero 3 hz)) h
      rw [Affine.slope_of_Y_ne rfl hne, curve_negY]
      simp only [curve_a₁, curve_a₂, curve_a₄]
      have e : r.y.val / r.z.val ^ 3 - -(r.y.val / r.z.val ^ 3) = 2 * r.y.val / r.z.val ^ 3 := by ring
      rw [e]
      field_simp
      ring
    refine line_untwist hf hf hA hs.symm q.x q.y ?_ ?_ ?_ <;>
    · simp only [lineFunctionDouble, GfP2.val_add, GfP2.val_sub, GfP2.val_mul, GfP2.val_square, GfP2.val_mulScalar,
        GfP2.val_zero, ht]
      field_simp
      try ring
  · refine Jac.double h2 hJ rfl rfl ?_ ?_ ?_ <;>
    · simp only [lineFunctionDouble, GfP2.val_add, GfP2.val_sub, GfP2.val_mul, GfP2.val_square, ht]
      ring
  · simp only [lineFunctionDouble, GfP2.val_square]

end Verif

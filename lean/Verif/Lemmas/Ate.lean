import Verif.Lemmas.Smap
import Verif.Lemmas.Cocycle
import Verif.Lemmas.BnCurve
import Verif.Lemmas.Gfp12

/-!
# The reduced line values of the optimal ate pairing form a cocycle
-/

namespace Verif
open WeierstrassCurve WeierstrassCurve.Affine

/-! ## Embeddings -/

/-- `F2 → F12`. -/
noncomputable def e2 : F2 →+* F12 := (algebraMap F6 F12).comp (algebraMap F2 F6)
/-- `GF(p) → F12`. -/
noncomputable def e1 : BF →+* F12 := e2.comp (algebraMap BF F2)

theorem f12_two : (2 : F12) ≠ 0 := by
  have := (map_ne_zero e2).2 f2_two
  rwa [map_ofNat] at this

theorem f12_three : (3 : F12) ≠ 0 := by
  have := (map_ne_zero e2).2 f2_three
  rwa [map_ofNat] at this

theorem omega_six : F12.omega ^ 6 = e2 F2.xi := by
  rw [show F12.omega ^ 6 = (F12.omega ^ 2) ^ 3 by ring, F12.omega_sq, ← map_pow, F6.tau_cube]; rfl

theorem omega_ne : F12.omega ≠ 0 := by
  intro h
  have := omega_six
  rw [h, zero_pow (by norm_num), eq_comm, map_eq_zero] at this
  exact xi_ne_zero this

theorem xi_three : (3 / F2.xi : F2) ≠ 0 := div_ne_zero f2_three xi_ne_zero

/-- Base change of `G1`. -/
noncomputable def bc : SMap (3 : BF) (3 : F12) where
  f := e1
  w := 1
  w_ne := one_ne_zero
  h2 := f12_two
  h3 := f12_three
  hb' := f12_three
  hb := by rw [map_ofNat]; ring

/-- The untwist. -/
noncomputable def untwist : SMap (3 / F2.xi) (3 : F12) where
  f := e2
  w := F12.omega
  w_ne := omega_ne
  h2 := f12_two
  h3 := f12_three
  hb' := f12_three
  hb := by
    rw [omega_six, ← map_mul, mul_div_cancel₀ _ xi_ne_zero, map_ofNat]

/-- The Frobenius of the curve over `F12`. -/
noncomputable def frob : SMap (3 : F12) (3 : F12) where
  f := frobenius F12 bnPn
  w := 1
  w_ne := one_ne_zero
  h2 := f12_two
  h3 := f12_three
  hb' := f12_three
  hb := by rw [map_ofNat]; ring

/-- The Frobenius carried over to the twist. -/
noncomputable def twFrob : SMap (3 / F2.xi) (3 / F2.xi) where
  f := frobenius F2 bnPn
  w := xiToPMinus1Over6.val
  w_ne := by
    rw [← xi_pow_sixth]; exact pow_ne_zero _ xi_ne_zero
  h2 := f2_two
  h3 := f2_three
  hb' := xi_three
  hb := by
    rw [← xi_pow_sixth, ← pow_mul, map_div₀, map_ofNat, frobenius_def,
      show (bnPn - 1) / 6 * 6 = bnPn - 1 by decide +kernel]
    have e : bnPn = bnPn - 1 + 1 := by decide +kernel
    have h : F2.xi ^ bnPn = F2.xi ^ (bnPn - 1) * F2.xi := by
      conv_lhs => rw [e]
      rw [pow_succ]
    rw [h]
    have hx : F2.xi ^ (bnPn - 1) ≠ 0 := pow_ne_zero _ xi_ne_zero
    generalize F2.xi ^ (bnPn - 1) = z at *
    have := xi_ne_zero
    field_simp

theorem omega_pow_p' : F12.omega ^ bnPn = F12.omega * e2 xiToPMinus1Over6.val := F12.omega_pow_p

theorem frob_untwist (A : (curve (3 / F2.xi)).Point) : frob.app (untwist.app A) = untwist.app (twFrob.app A) := by
  rcases isPt_or_zero A with rfl | ⟨x, y, hA⟩
  · simp
  · refine ((frob.isPt (untwist.isPt hA)).inj (untwist.isPt (twFrob.isPt hA))).2 ⟨?_, ?_⟩
    · simp only [frob, untwist, twFrob, frobenius_def, map_mul, map_pow, one_pow, one_mul]
      rw [omega_pow_p']; ring
    · simp only [frob, untwist, twFrob, frobenius_def, map_mul, map_pow, one_pow, one_mul]
      rw [omega_pow_p']; ring

theorem e1_pow_p (x : BF) : e1 x ^ bnPn = e1 x := by rw [← map_pow, ZMod.pow_card]

theorem frob_bc (P : (curve (3 : BF)).Point) : frob.app (bc.app P) = bc.app P := by
  rcases isPt_or_zero P with rfl | ⟨x, y, hP⟩
  · simp
  · refine ((frob.isPt (bc.isPt hP)).inj (bc.isPt hP)).2 ⟨?_, ?_⟩ <;>
    · simp only [frob, bc, frobenius_def, one_pow, one_mul, e1_pow_p]

/-! ## Classes modulo the kernel of the final exponentiation -/

/-- The exponent of the final exponentiation. -/
def ateE : Nat := (bnPn ^ 12 - 1) / bnNn

/-- The class of a non-zero value, as the result of the final exponentiation. -/
noncomputable def cls (z : F12) : Additive F12ˣ :=
  if h : z ≠ 0 then Additive.ofMul ((Units.mk0 z h) ^ ateE) else 0

theorem cls_of_ne {z : F12} (h : z ≠ 0) : cls z = Additive.ofMul ((Units.mk0 z h) ^ ateE) := dif_pos h

theorem cls_val {z : F12} (h : z ≠ 0) : ((cls z).toMul : F12) = z ^ ateE := by
  rw [cls_of_ne h]; simp

theorem cls_eq {z w : F12} (hz : z ≠ 0) (hw : w ≠ 0) : cls z = cls w ↔ z ^ ateE = w ^ ateE := by
  rw [← cls_val hz, ← cls_val hw, Units.val_inj, Additive.toMul.apply_eq_iff_eq]

theorem cls_mul {z w : F12} (hz : z ≠ 0) (hw : w ≠ 0) : cls (z * w) = cls z + cls w := by
  rw [cls_of_ne hz, cls_of_ne hw, cls_of_ne (mul_ne_zero hz hw), ← ofMul_mul, ← mul_pow, Units.mk0_mul]

theorem cls_one : cls 1 = 0 := by
  rw [cls_of_ne one_ne_zero, Units.mk0_one, one_pow, ofMul_one]

theorem cls_pow {z : F12} (hz : z ≠ 0) (k : Nat) : cls (z ^ k) = k • cls z := by
  induction k with
  | zero => rw [pow_zero, cls_one, zero_smul]
  | succ k ih => rw [pow_succ, cls_mul (pow_ne_zero _ hz) hz, ih, succ_nsmul]

theorem cls_eq_zero {z : F12} (hz : z ≠ 0) : cls z = 0 ↔ z ^ ateE = 1 := by
  rw [← cls_one, cls_eq hz one_ne_zero, one_pow]

theorem cls_f6 (a : F6) : cls (algebraMap F6 F12 a) = 0 := by
  by_cases h : a = 0
  · rw [h, map_zero, cls, dif_neg (by simp)]
  · rw [cls_eq_zero ((map_ne_zero _).2 h), ← map_pow,
      show ateE = (bnPn ^ 6 - 1) * ((bnPn ^ 6 + 1) / bnNn) by decide +kernel, pow_mul, F6.pow_p6_sub_one h,
      one_pow, map_one]

theorem cls_neg (z : F12) : cls (-z) = cls z := by
  by_cases h : z = 0
  · rw [h, neg_zero]
  · rw [cls_eq (neg_ne_zero.2 h) h, Even.neg_pow (by rw [Nat.even_iff]; decide +kernel)]

theorem cls_of_pow_four {z w : F12} (hz : z ≠ 0) (hw : w ≠ 0) (h : z ^ 4 = w ^ 4) : cls z = cls w := by
  rw [cls_eq hz hw, show ateE = 4 * (ateE / 4) by decide +kernel, pow_mul, h, ← pow_mul]

theorem cls_order (z : F12) : bnNn • cls z = 0 := by
  by_cases h : z = 0
  · rw [h, cls, dif_neg (by simp), smul_zero]
  · rw [← cls_pow h, cls_eq_zero (pow_ne_zero _ h), ← pow_mul,
      show bnNn * ateE = bnPn ^ 12 - 1 by decide +kernel, F12.pow_p12_sub_one h]

/-- `6u+2`. -/
def bnS : Nat := 29793968203157093288

theorem ate_kill (z : F12) : ((bnS : Int) + bnPn - bnPn ^ 2 + bnPn ^ 3) • cls z = 0 := by
  have h : ((bnS : Int) + bnPn - bnPn ^ 2 + bnPn ^ 3) =
      (((bnS : Int) + bnPn - bnPn ^ 2 + bnPn ^ 3) / bnNn) * (bnNn : Int) := by decide +kernel
  rw [h, mul_smul, natCast_zsmul, cls_order, smul_zero]

/-! ## Non-vanishing -/

theorem omega_cube (y : F2) : F12.omega ^ 3 * e2 y = algebraMap F6 F12 (F6.tau * algebraMap F2 F6 y) * F12.omega := by
  rw [map_mul, ← F12.omega_sq]; simp only [e2, RingHom.comp_apply]; ring

theorem vert_ne {P : (curve (3 : BF)).Point} {x y : BF} (hP : IsPt P x y) (A : (curve (3 / F2.xi)).Point) :
    vert (untwist.app A) (e1 x) ≠ 0 := by
  rcases isPt_or_zero A with rfl | ⟨x', y', hA⟩
  · simp
  · rw [(untwist.isPt hA).vert]
    intro h
    have hx : e1 x = untwist.w ^ 2 * untwist.f x' := sub_eq_zero.1 h
    have e1' : e1 y ^ 2 = e1 x ^ 3 + 3 := by
      have := (bc.isPt hP).eqn
      simpa [bc] using this
    have e2' := (untwist.isPt hA).eqn
    rw [← hx, ← e1'] at e2'
    have h0 : y = 0 := by
      have key : ∀ s : F6, algebraMap F6 F12 s * F12.omega + algebraMap F6 F12 (algebraMap F2 F6 (algebraMap BF F2 y)) = 0 → y = 0 := by
        intro s hs
        have := (F12.coord hs).2
        rwa [map_eq_zero, map_eq_zero] at this
      rcases sq_eq_sq_iff_eq_or_eq_neg.1 e2' with h | h
      · apply key (-(F6.tau * algebraMap F2 F6 y'))
        have h' : F12.omega ^ 3 * e2 y' = e1 y := h
        rw [omega_cube] at h'
        rw [map_neg]
        have : e1 y = algebraMap F6 F12 (algebraMap F2 F6 (algebraMap BF F2 y)) := rfl
        rw [← this, ← h']; ring
      · apply key (F6.tau * algebraMap F2 F6 y')
        have h' : F12.omega ^ 3 * e2 y' = -e1 y := h
        rw [omega_cube] at h'
        have : e1 y = algebraMap F6 F12 (algebraMap F2 F6 (algebraMap BF F2 y)) := rfl
        rw [← this, h']; ring
    have := hP.eqn
    rw [h0] at this
    exact bf_no_cube x (by linear_combination -this)

/-! ## Values in `F6` -/

theorem e2_f6 (x : F2) : ∃ a : F6, e2 x = algebraMap F6 F12 a := ⟨_, rfl⟩

theorem vert_f6 (x : BF) (A : (curve (3 / F2.xi)).Point) :
    ∃ a : F6, vert (untwist.app A) (e1 x) = algebraMap F6 F12 a := by
  rcases isPt_or_zero A with rfl | ⟨x', y', hA⟩
  · exact ⟨1, by simp⟩
  · rw [(untwist.isPt hA).vert]
    refine ⟨algebraMap F2 F6 (algebraMap BF F2 x) - F6.tau * algebraMap F2 F6 x', ?_⟩
    rw [map_sub, map_mul, ← F12.omega_sq]; rfl

theorem vert_f6' (x' : F2) (P : (curve (3 : BF)).Point) :
    ∃ a : F6, vert (bc.app P) (F12.omega ^ 2 * e2 x') = algebraMap F6 F12 a := by
  rcases isPt_or_zero P with rfl | ⟨x, y, hP⟩
  · exact ⟨1, by simp⟩
  · rw [(bc.isPt hP).vert]
    refine ⟨F6.tau * algebraMap F2 F6 x' - algebraMap F2 F6 (algebraMap BF F2 x), ?_⟩
    rw [map_sub, map_mul, ← F12.omega_sq]
    simp only [bc, one_pow, one_mul]; rfl

theorem cls_vert (x : BF) (A : (curve (3 / F2.xi)).Point) : cls (vert (untwist.app A) (e1 x)) = 0 := by
  obtain ⟨a, h⟩ := vert_f6 x A
  rw [h, cls_f6]

theorem cls_vert' (x' : F2) (P : (curve (3 : BF)).Point) : cls (vert (bc.app P) (F12.omega ^ 2 * e2 x')) = 0 := by
  obtain ⟨a, h⟩ := vert_f6' x' P
  rw [h, cls_f6]

theorem vert_ne' {A : (curve (3 / F2.xi)).Point} {x' y' : F2} (hA : IsPt A x' y') (P : (curve (3 : BF)).Point) :
    vert (bc.app P) (F12.omega ^ 2 * e2 x') ≠ 0 := by
  rcases isPt_or_zero P with rfl | ⟨x, y, hP⟩
  · simp
  · have h := vert_ne hP A
    rw [(untwist.isPt hA).vert] at h
    rw [(bc.isPt hP).vert]
    intro hc
    apply h
    have e : e1 x = bc.w ^ 2 * bc.f x := by simp [bc]
    rw [e]
    change bc.w ^ 2 * bc.f x - F12.omega ^ 2 * e2 x' = 0
    linear_combination -hc

theorem equation1 {P : (curve (3 : BF)).Point} {x y : BF} (hP : IsPt P x y) :
    (curve (3 : F12)).Equation (e1 x) (e1 y) := by
  have := (bc.isPt hP).1.1
  simpa [bc] using this

theorem line_neg_self {F : Type*} [Field F] [DecidableEq F] {b : F} (A : (curve b).Point) (x y : F) :
    line A (-A) x y = vert A x := by
  cases A with
  | zero => rfl
  | some x₁ y₁ h₁ =>
    rw [Affine.Point.neg_some]
    simp only [line]
    rw [if_pos ⟨trivial, by rw [curve_negY, curve_negY, neg_neg]⟩]; rfl

/-! ## The cocycle -/

section
variable {P : (curve (3 : BF)).Point} {x y : BF} (hP : IsPt P x y)
include hP

theorem line_ne (A B : (curve (3 / F2.xi)).Point) : line (untwist.app A) (untwist.app B) (e1 x) (e1 y) ≠ 0 ∧
    line (untwist.app A) (untwist.app B) (e1 x) (-e1 y) ≠ 0 := by
  have h := line_mul_neg (equation1 hP) (untwist.app A) (untwist.app B)
  rw [← SMap.app_add] at h
  have hv := mul_ne_zero (mul_ne_zero (vert_ne hP A) (vert_ne hP B)) (vert_ne hP (A + B))
  rcases h with h | h
  · rw [← h] at hv; exact mul_ne_zero_iff.1 hv
  · rw [← neg_ne_zero, ← h] at hv; exact mul_ne_zero_iff.1 hv

theorem cls_line_neg (A B : (curve (3 / F2.xi)).Point) :
    cls (line (untwist.app A) (untwist.app B) (e1 x) (-e1 y)) =
      -cls (line (untwist.app A) (untwist.app B) (e1 x) (e1 y)) := by
  have h := line_mul_neg (equation1 hP) (untwist.app A) (untwist.app B)
  rw [← SMap.app_add] at h
  obtain ⟨n1, n2⟩ := line_ne hP A B
  rw [eq_neg_iff_add_eq_zero, add_comm, ← cls_mul n1 n2]
  have hv : cls (vert (untwist.app A) (e1 x) * vert (untwist.app B) (e1 x) * vert (untwist.app (A + B)) (e1 x)) = 0 := by
    rw [cls_mul (mul_ne_zero (vert_ne hP A) (vert_ne hP B)) (vert_ne hP (A + B)),
      cls_mul (vert_ne hP A) (vert_ne hP B), cls_vert, cls_vert, cls_vert]; simp
  rcases h with h | h
  · rw [h, hv]
  · rw [h, cls_neg, hv]

theorem cocycle_pt : Cocycle (fun A B : (curve (3 / F2.xi)).Point =>
    cls (line (untwist.app A) (untwist.app B) (e1 x) (e1 y))) where
  symm A B := by rw [line_symm]
  zero A := by
    rw [SMap.app_zero]
    exact cls_vert x A
  neg A := by
    rw [SMap.app_neg, line_neg_self]
    exact cls_vert x A
  assoc A B D := by
    have h := line_cocycle (equation1 hP) (untwist.app A) (untwist.app B) (untwist.app D)
    simp only [← SMap.app_add] at h
    have h := h (vert_ne hP _) (vert_ne hP _) (vert_ne hP _) (vert_ne hP _) (vert_ne hP _) (vert_ne hP _)
    have v1 := vert_ne hP (B + D)
    have v2 := vert_ne hP (A + B)
    have l1 := (line_ne hP A B).1
    have l2 := (line_ne hP (A + B) D).1
    have l3 := (line_ne hP B D).1
    have l4 := (line_ne hP A (B + D)).1
    have h := cls_of_pow_four (mul_ne_zero (mul_ne_zero v1 l1) l2) (mul_ne_zero (mul_ne_zero v2 l3) l4) h
    rwa [cls_mul (mul_ne_zero v1 l1) l2, cls_mul v1 l1, cls_mul (mul_ne_zero v2 l3) l4, cls_mul v2 l3,
      cls_vert, cls_vert, zero_add, zero_add] at h

theorem cls_frob (A B : (curve (3 / F2.xi)).Point) :
    cls (line (untwist.app (twFrob.app A)) (untwist.app (twFrob.app B)) (e1 x) (e1 y)) =
      bnPn • cls (line (untwist.app A) (untwist.app B) (e1 x) (e1 y)) := by
  obtain ⟨k, hk⟩ := frob.line_app (A := untwist.app A) (B := untwist.app B) (e1 x) (e1 y)
  have hw : frob.w = 1 := rfl
  have hf : ∀ z, frob.f z = z ^ bnPn := fun z => rfl
  rw [hw, one_pow, one_pow, one_pow, one_mul, one_mul, one_mul, hf, hf, hf, e1_pow_p, e1_pow_p] at hk
  rw [← frob_untwist, ← frob_untwist, hk, cls_pow (line_ne hP A B).1]

end

/-- The chord through `S` and `T` at the point `U` (`1` at infinity). -/
noncomputable def lineAt {F : Type*} [Field F] [DecidableEq F] {b : F} (S T : (curve b).Point) :
    (curve b).Point → F
  | .zero => 1
  | .some x y _ => line S T x y

theorem IsPt.lineAt {F : Type*} [Field F] [DecidableEq F] {b : F} {S T U : (curve b).Point} {x y : F}
    (h : IsPt U x y) : Verif.lineAt S T U = line S T x y := by
  obtain ⟨h, rfl⟩ := h; rfl

/-- The class of the chord through (the images of) `A` and `B` at `P`. -/
noncomputable def ateC (P : (curve (3 : BF)).Point) (A B : (curve (3 / F2.xi)).Point) : Additive F12ˣ :=
  cls (lineAt (untwist.app A) (untwist.app B) (bc.app P))

/-- The class of the chord through `P` and `R` at (the image of) `A`. -/
noncomputable def ateD (P R : (curve (3 : BF)).Point) (A : (curve (3 / F2.xi)).Point) : Additive F12ˣ :=
  cls (lineAt (bc.app P) (bc.app R) (untwist.app A))

theorem bc_isPt {P : (curve (3 : BF)).Point} {x y : BF} (hP : IsPt P x y) : IsPt (bc.app P) (e1 x) (e1 y) := by
  have := bc.isPt hP
  simpa [bc] using this

theorem ateC_of_pt {P : (curve (3 : BF)).Point} {x y : BF} (hP : IsPt P x y) (A B : (curve (3 / F2.xi)).Point) :
    ateC P A B = cls (line (untwist.app A) (untwist.app B) (e1 x) (e1 y)) := by
  rw [ateC, (bc_isPt hP).lineAt]

@[simp] theorem ateC_zero (A B : (curve (3 / F2.xi)).Point) : ateC 0 A B = 0 := cls_one

theorem ateC_neg (P : (curve (3 : BF)).Point) (A B : (curve (3 / F2.xi)).Point) : ateC (-P) A B = -ateC P A B := by
  rcases isPt_or_zero P with rfl | ⟨x, y, hP⟩
  · simp
  · rw [ateC_of_pt hP.neg, ateC_of_pt hP, map_neg, cls_line_neg hP]

theorem cocycle_ateC (P : (curve (3 : BF)).Point) : Cocycle (ateC P) := by
  rcases isPt_or_zero P with rfl | ⟨x, y, hP⟩
  · exact ⟨by simp, by simp, by simp, by simp⟩
  · have h := cocycle_pt hP
    have e : ateC P = fun A B => cls (line (untwist.app A) (untwist.app B) (e1 x) (e1 y)) := by
      funext A B; exact ateC_of_pt hP A B
    rw [e]; exact h

theorem ateC_frob (P : (curve (3 : BF)).Point) (A B : (curve (3 / F2.xi)).Point) :
    ateC P (twFrob.app A) (twFrob.app B) = bnPn • ateC P A B := by
  rcases isPt_or_zero P with rfl | ⟨x, y, hP⟩
  · simp
  · rw [ateC_of_pt hP, ateC_of_pt hP, cls_frob hP]

theorem untwist_isPt {A : (curve (3 / F2.xi)).Point} {x' y' : F2} (hA : IsPt A x' y') :
    IsPt (untwist.app A) (F12.omega ^ 2 * e2 x') (F12.omega ^ 3 * e2 y') := untwist.isPt hA

@[simp] theorem ateD_zero (P R : (curve (3 : BF)).Point) : ateD P R 0 = 0 := cls_one

section
variable {A : (curve (3 / F2.xi)).Point} {x' y' : F2} (hA : IsPt A x' y')
include hA

theorem line_ne' (P R : (curve (3 : BF)).Point) :
    line (bc.app P) (bc.app R) (F12.omega ^ 2 * e2 x') (F12.omega ^ 3 * e2 y') ≠ 0 ∧
    line (bc.app P) (bc.app R) (F12.omega ^ 2 * e2 x') (-(F12.omega ^ 3 * e2 y')) ≠ 0 := by
  have h := line_mul_neg (untwist_isPt hA).1.1 (bc.app P) (bc.app R)
  rw [← SMap.app_add] at h
  have hv := mul_ne_zero (mul_ne_zero (vert_ne' hA P) (vert_ne' hA R)) (vert_ne' hA (P + R))
  rcases h with h | h
  · rw [← h] at hv; exact mul_ne_zero_iff.1 hv
  · rw [← neg_ne_zero, ← h] at hv; exact mul_ne_zero_iff.1 hv

theorem cls_line_neg' (P R : (curve (3 : BF)).Point) :
    cls (line (bc.app P) (bc.app R) (F12.omega ^ 2 * e2 x') (-(F12.omega ^ 3 * e2 y'))) =
      -cls (line (bc.app P) (bc.app R) (F12.omega ^ 2 * e2 x') (F12.omega ^ 3 * e2 y')) := by
  have h := line_mul_neg (untwist_isPt hA).1.1 (bc.app P) (bc.app R)
  rw [← SMap.app_add] at h
  obtain ⟨n1, n2⟩ := line_ne' hA P R
  rw [eq_neg_iff_add_eq_zero, add_comm, ← cls_mul n1 n2]
  have hv : cls (vert (bc.app P) (F12.omega ^ 2 * e2 x') * vert (bc.app R) (F12.omega ^ 2 * e2 x') *
      vert (bc.app (P + R)) (F12.omega ^ 2 * e2 x')) = 0 := by
    rw [cls_mul (mul_ne_zero (vert_ne' hA P) (vert_ne' hA R)) (vert_ne' hA (P + R)),
      cls_mul (vert_ne' hA P) (vert_ne' hA R), cls_vert', cls_vert', cls_vert']; simp
  rcases h with h | h
  · rw [h, hv]
  · rw [h, cls_neg, hv]
end

theorem ateD_neg (P R : (curve (3 : BF)).Point) (A : (curve (3 / F2.xi)).Point) : ateD P R (-A) = -ateD P R A := by
  rcases isPt_or_zero A with rfl | ⟨x', y', hA⟩
  · simp
  · have h1 := untwist_isPt hA.neg
    rw [map_neg, mul_neg] at h1
    rw [ateD, ateD, h1.lineAt, (untwist_isPt hA).lineAt, cls_line_neg' hA]

theorem ateD_frob (P R : (curve (3 : BF)).Point) (A : (curve (3 / F2.xi)).Point) :
    ateD P R (twFrob.app A) = bnPn • ateD P R A := by
  rcases isPt_or_zero A with rfl | ⟨x', y', hA⟩
  · simp
  · obtain ⟨k, hk⟩ := frob.line_app (A := bc.app P) (B := bc.app R) (F12.omega ^ 2 * e2 x') (F12.omega ^ 3 * e2 y')
    have h := frob.isPt (untwist_isPt hA)
    rw [frob_untwist] at h
    rw [show frob.w ^ k = 1 from one_pow k, one_mul, frob_bc, frob_bc] at hk
    rw [ateD, ateD, h.lineAt, (untwist_isPt hA).lineAt, ← cls_pow (line_ne' hA P R).1, hk]
    rfl

/-- The reciprocity law for the classes. -/
theorem ate_recip (P R : (curve (3 : BF)).Point) (A B : (curve (3 / F2.xi)).Point) :
    ateC P A B + ateC R A B = ateC (P + R) A B + (ateD P R A + ateD P R B - ateD P R (A + B)) := by
  have hcP := cocycle_ateC P
  have hcR := cocycle_ateC R
  have hcS := cocycle_ateC (P + R)
  rcases isPt_or_zero A with rfl | ⟨a₁, a₂, hA⟩
  · rw [hcP.zero, hcR.zero, hcS.zero, zero_add]; simp
  rcases isPt_or_zero B with rfl | ⟨b₁, b₂, hB⟩
  · rw [hcP.symm, hcR.symm, hcS.symm, hcP.zero, hcR.zero, hcS.zero, add_zero]; simp
  rcases isPt_or_zero (A + B) with hAB | ⟨c₁, c₂, hC⟩
  · have : B = -A := eq_neg_of_add_eq_zero_right hAB
    subst this
    rw [hcP.neg, hcR.neg, hcS.neg, ateD_neg, hAB]; simp
  have dz : ∀ D : (curve (3 / F2.xi)).Point, ∀ S : (curve (3 : BF)).Point, ateD 0 S D = 0 ∧ ateD S 0 D = 0 ∧ ateD S (-S) D = 0 := by
    intro D S
    rcases isPt_or_zero D with rfl | ⟨d₁, d₂, hD⟩
    · simp
    · have hl := fun P R => (untwist_isPt hD).lineAt (S := bc.app P) (T := bc.app R)
      refine ⟨?_, ?_, ?_⟩
      · rw [ateD, hl]; exact cls_vert' d₁ S
      · rw [ateD, hl, line_symm]; exact cls_vert' d₁ S
      · rw [ateD, hl, SMap.app_neg, line_neg_self]; exact cls_vert' d₁ S
  rcases isPt_or_zero P with rfl | ⟨p₁, p₂, hP⟩
  · rw [(dz _ _).1, (dz _ _).1, (dz _ _).1, zero_add]; simp
  rcases isPt_or_zero R with rfl | ⟨r₁, r₂, hR⟩
  · rw [(dz _ _).2.1, (dz _ _).2.1, (dz _ _).2.1, add_zero]; simp
  rcases isPt_or_zero (P + R) with hPR | ⟨s₁, s₂, hS⟩
  · have : R = -P := eq_neg_of_add_eq_zero_right hPR
    subst this
    rw [(dz _ _).2.2, (dz _ _).2.2, (dz _ _).2.2, ateC_neg, hPR]; simp
  have hC' := untwist_isPt hC
  rw [SMap.app_add] at hC'
  have hS' := bc_isPt hS
  rw [SMap.app_add] at hS'
  have key := line_recip (untwist_isPt hA) (untwist_isPt hB) hC' (bc_isPt hP) (bc_isPt hR) hS'
  have key := congrArg cls key
  rw [cls_neg, cls_mul (mul_ne_zero (line_ne hP A B).1 (line_ne hR A B).1) (line_ne hS A B).2,
    cls_mul (line_ne hP A B).1 (line_ne hR A B).1, cls_line_neg hS,
    cls_mul (mul_ne_zero (line_ne' hA P R).1 (line_ne' hB P R).1) (line_ne' hC P R).2,
    cls_mul (line_ne' hA P R).1 (line_ne' hB P R).1, cls_line_neg' hC] at key
  rw [ateC_of_pt hP, ateC_of_pt hR, ateC_of_pt hS, ateD, ateD, ateD, (untwist_isPt hA).lineAt,
    (untwist_isPt hB).lineAt, (untwist_isPt hC).lineAt, sub_eq_add_neg, ← key]
  abel

/-! ## The reduced pairing -/

/-- The reduced optimal ate pairing, as a class. -/
noncomputable def ateV (P : (curve (3 : BF)).Point) (Q : (curve (3 / F2.xi)).Point) : Additive F12ˣ :=
  ateF (ateC P) twFrob.hom bnS Q

theorem ateV_add_left (P R : (curve (3 : BF)).Point) {Q : (curve (3 / F2.xi)).Point}
    (hQ : AteRel twFrob.hom bnS Q) : ateV (P + R) Q = ateV P Q + ateV R Q :=
  ateF_coboundary (ateD P R) twFrob.hom bnPn bnS (ate_recip P R) (ateD_zero P R) (ateD_neg P R)
    (ateD_frob P R) (fun _ => ate_kill _) hQ

theorem ateV_add_right (P : (curve (3 : BF)).Point) {Q R : (curve (3 / F2.xi)).Point}
    (hQ : AteRel twFrob.hom bnS Q) (hR : AteRel twFrob.hom bnS R) :
    ateV P (Q + R) = ateV P Q + ateV P R :=
  ateF_add (cocycle_ateC P) twFrob.hom bnPn bnS (ateC_frob P) (fun _ _ => ate_kill _) hQ hR

end Verif

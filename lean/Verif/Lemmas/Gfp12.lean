import Verif.Lemmas.Gfp

/-!
# The degree-6 and degree-12 levels of the tower: Frobenius, `F12` is a field
-/

namespace Verif
open Polynomial

/-! ## Frobenius on `F6` -/

theorem F6.tau_pow_p : F6.tau ^ bnPn = F6.tau * algebraMap F2 F6 xiToPMinus1Over3.val := by
  have h : bnPn = 3 * ((bnPn - 1) / 3) + 1 := by decide +kernel
  conv_lhs => rw [h]
  rw [pow_succ, pow_mul, F6.tau_cube, ← map_pow, xi_pow_third, mul_comm]

theorem xi_third_sq : xiToPMinus1Over3.val ^ 2 = xiTo2PMinus2Over3.val := by
  rw [← xi_pow_third, ← xi_pow_two_thirds, ← pow_mul]
  congr 1

theorem GfP6.val_frobenius (a : GfP6) : a.frobenius.val = a.val ^ bnPn := by
  rw [GfP6.val, GfP6.val, add_pow_char, add_pow_char, mul_pow, mul_pow, ← pow_mul, mul_comm 2, pow_mul,
    F6.tau_pow_p, mul_pow]
  simp only [frobenius, GfP2.val_mul, GfP2.val_conj, ← map_pow, xi_third_sq, map_mul]
  ring

theorem GfP6.val_frobeniusP2 (a : GfP6) : a.frobeniusP2.val = a.val ^ (bnPn ^ 2) := by
  rw [pow_two, pow_mul, ← val_frobenius, ← val_frobenius, val_eq_iff]
  simp only [frobenius, frobeniusP2, GfP2.val_mulScalar, GfP2.val_mul, GfP2.val_conj, mul_pow, ← pow_mul,
    ← pow_two, GfP2.val_pow_p2, ← xi_pow_third, ← xi_pow_two_thirds, ← xi_pow_p2_third,
    ← xi_pow_p2_two_thirds, mul_assoc, ← pow_add]
  refine ⟨?_, ?_, trivial⟩ <;> congr 2

theorem F6.pow_p6 (z : F6) : z ^ (bnPn ^ 6) = z := by
  obtain ⟨a, rfl⟩ := GfP6.val_surjective z
  rw [show bnPn ^ 6 = bnPn ^ 2 * bnPn ^ 2 * bnPn ^ 2 by ring, pow_mul, pow_mul, ← GfP6.val_frobeniusP2,
    ← GfP6.val_frobeniusP2, ← GfP6.val_frobeniusP2, GfP6.val_eq_iff]
  simp only [GfP6.frobeniusP2, GfP2.val_mulScalar, mul_assoc, ← Int.cast_mul]
  have h1 : ((xiTo2PSquaredMinus2Over3 * (xiTo2PSquaredMinus2Over3 * xiTo2PSquaredMinus2Over3) : Int) : F2) = 1 := by
    rw [← f2_emod]
    rw [show (xiTo2PSquaredMinus2Over3 * (xiTo2PSquaredMinus2Over3 * xiTo2PSquaredMinus2Over3)) % bnP = 1 by decide +kernel]
    simp
  have h2 : ((xiToPSquaredMinus1Over3 * (xiToPSquaredMinus1Over3 * xiToPSquaredMinus1Over3) : Int) : F2) = 1 := by
    rw [← f2_emod]
    rw [show (xiToPSquaredMinus1Over3 * (xiToPSquaredMinus1Over3 * xiToPSquaredMinus1Over3)) % bnP = 1 by decide +kernel]
    simp
  rw [h1, h2]; simp

theorem F6.pow_p6_sub_one {z : F6} (hz : z ≠ 0) : z ^ (bnPn ^ 6 - 1) = 1 := by
  have h := F6.pow_p6 z
  have e : bnPn ^ 6 = bnPn ^ 6 - 1 + 1 := by decide +kernel
  rw [e, pow_succ] at h
  exact mul_right_cancel₀ hz (by rw [one_mul]; exact h)

theorem F6.tau_ne_zero : F6.tau ≠ 0 := by
  intro h
  have := F6.tau_cube
  rw [h, zero_pow (by norm_num), eq_comm, map_eq_zero] at this
  exact xi_ne_zero this

theorem f6_two : (2 : F6) ≠ 0 := by
  have := (map_ne_zero (algebraMap F2 F6)).2 f2_two
  rwa [map_ofNat] at this

theorem f6_not_square (w : F6) : w ^ 2 ≠ F6.tau := by
  intro h
  have hw : w ≠ 0 := by
    rintro rfl
    exact F6.tau_ne_zero (by rw [← h]; ring)
  have h1 := F6.pow_p6_sub_one hw
  rw [show bnPn ^ 6 - 1 = 2 * (3 * ((bnPn ^ 2 - 1) / 2 * ((bnPn ^ 4 + bnPn ^ 2 + 1) / 3))) by decide +kernel,
    pow_mul, h, pow_mul, F6.tau_cube, ← map_pow, pow_mul, xi_pow_p2_half,
    Odd.neg_one_pow (by rw [Nat.odd_iff]; decide +kernel), map_neg, map_one] at h1
  apply f6_two
  linear_combination -h1

/-! ## `F12` -/

instance : Fact (Irreducible (X ^ 2 - C F6.tau : F6[X])) :=
  ⟨X_pow_sub_C_irreducible_of_prime Nat.prime_two f6_not_square⟩

noncomputable instance : Field F12 := inferInstanceAs (Field (AdjoinRoot (X ^ 2 - C F6.tau : F6[X])))
noncomputable instance : DecidableEq F12 := Classical.decEq _

theorem F12.omega_sq : F12.omega ^ 2 = algebraMap F6 F12 F6.tau := by
  have h : aeval (AdjoinRoot.root (X ^ 2 - C F6.tau : F6[X])) (X ^ 2 - C F6.tau : F6[X]) = 0 := by
    rw [AdjoinRoot.aeval_eq, AdjoinRoot.mk_self]
  simp only [map_sub, map_pow, aeval_X, aeval_C] at h
  exact sub_eq_zero.1 h

theorem F12.coord {x y : F6} (h : algebraMap F6 F12 x * F12.omega + algebraMap F6 F12 y = 0) :
    x = 0 ∧ y = 0 := by
  have h' : AdjoinRoot.mk (X ^ 2 - C F6.tau : F6[X]) (C x * X + C y) = 0 := by
    rw [map_add, map_mul, AdjoinRoot.mk_X]
    exact h
  rw [AdjoinRoot.mk_eq_zero] at h'
  have h0 := eq_zero_of_dvd_of_degree_lt h' (by
    rw [degree_X_pow_sub_C (by norm_num)]
    refine lt_of_le_of_lt degree_linear_le (by norm_num))
  refine ⟨?_, ?_⟩
  · simpa [coeff_C] using congrArg (fun q => coeff q 1) h0
  · simpa using congrArg (fun q => coeff q 0) h0

instance : CharP F12 bnPn := charP_of_injective_algebraMap (algebraMap F6 F12).injective bnPn

namespace GfP12

theorem val_eq_zero (a : GfP12) : a.val = 0 ↔ a.x.val = 0 ∧ a.y.val = 0 := by
  constructor
  · exact fun h => F12.coord h
  · rintro ⟨h1, h2⟩
    simp [GfP12.val, h1, h2]

@[simp] theorem val_zero : GfP12.zero.val = 0 := by simp [GfP12.val, zero]
@[simp] theorem val_one : GfP12.one.val = 1 := by simp [GfP12.val, one]

@[simp] theorem val_add (a b : GfP12) : (a.add b).val = a.val + b.val := by
  simp only [GfP12.val, add, GfP6.val_add, map_add]; ring

@[simp] theorem val_sub (a b : GfP12) : (a.sub b).val = a.val - b.val := by
  simp only [GfP12.val, sub, GfP6.val_sub, map_sub]; ring

@[simp] theorem val_neg (a : GfP12) : a.neg.val = -a.val := by
  simp only [GfP12.val, neg, GfP6.val_neg, map_neg]; ring

@[simp] theorem val_minimal (a : GfP12) : a.minimal.val = a.val := by
  simp [GfP12.val, minimal]

theorem val_eq_iff (a b : GfP12) : a.val = b.val ↔ a.x.val = b.x.val ∧ a.y.val = b.y.val := by
  rw [← sub_eq_zero, ← val_sub, val_eq_zero]
  simp only [sub, GfP6.val_sub, sub_eq_zero]

@[simp] theorem val_mul (a b : GfP12) : (a.mul b).val = a.val * b.val := by
  simp only [GfP12.val, mul, GfP6.val_mul, GfP6.val_add, GfP6.val_mulTau, map_mul, map_add]
  linear_combination
    (-(algebraMap F6 F12 a.x.val * algebraMap F6 F12 b.x.val)) * F12.omega_sq

@[simp] theorem val_square (a : GfP12) : a.square.val = a.val ^ 2 := by
  simp only [GfP12.val, square, GfP6.val_mul, GfP6.val_add, GfP6.val_sub, GfP6.val_double, GfP6.val_mulTau,
    map_mul, map_add, map_sub, map_ofNat]
  linear_combination (-(algebraMap F6 F12 a.x.val) ^ 2) * F12.omega_sq

theorem val_conj (a : GfP12) :
    a.conj.val = algebraMap F6 F12 a.y.val - algebraMap F6 F12 a.x.val * F12.omega := by
  simp only [GfP12.val, conj, GfP6.val_neg, map_neg]; ring

theorem val_mulScalar (e a : GfP12) (b : GfP6) : (e.mulScalar a b).val = e.val * algebraMap F6 F12 b.val := by
  simp only [GfP12.val, mulScalar, GfP6.val_mul, map_mul]; ring

@[simp] theorem val_invert (a : GfP12) : a.invert.val = a.val⁻¹ := by
  by_cases h0 : a.val = 0
  · obtain ⟨hx, hy⟩ := (val_eq_zero a).1 h0
    rw [h0, inv_zero, GfP12.val]
    simp [invert, mulScalar, hx, hy]
  · set N := a.y.val ^ 2 - F6.tau * a.x.val ^ 2 with hN
    have hv : a.invert.val = a.conj.val * algebraMap F6 F12 N⁻¹ := by
      simp only [invert, val_mulScalar, GfP6.val_invert, GfP6.val_sub, GfP6.val_square, GfP6.val_mulTau,
        ← hN]
      rfl
    have hprod : a.val * a.conj.val = algebraMap F6 F12 N := by
      rw [val_conj, GfP12.val, hN]
      simp only [map_mul, map_sub, map_pow]
      linear_combination (-(algebraMap F6 F12 a.x.val) ^ 2) * F12.omega_sq
    have hN0 : N ≠ 0 := by
      intro hc
      by_cases hx : a.x.val = 0
      · rw [hN, hx] at hc
        exact h0 ((val_eq_zero a).2 ⟨hx, by simpa using hc⟩)
      · apply f6_not_square (a.y.val / a.x.val)
        rw [div_pow, div_eq_iff (pow_ne_zero 2 hx)]
        linear_combination hc
    apply eq_inv_of_mul_eq_one_left
    rw [hv, mul_comm, ← mul_assoc, hprod, ← map_mul, mul_inv_cancel₀ hN0, map_one]

theorem val_surjective (z : F12) : ∃ a : GfP12, a.val = z := by
  have key : ∀ q : F6[X], ∃ a : GfP12, a.val = AdjoinRoot.mk (X ^ 2 - C F6.tau : F6[X]) q := by
    intro q
    induction q using Polynomial.induction_on' with
    | add p q hp hq =>
      obtain ⟨a, ha⟩ := hp
      obtain ⟨b, hb⟩ := hq
      exact ⟨a.add b, by rw [val_add, ha, hb, map_add]; rfl⟩
    | monomial n c =>
      induction n with
      | zero =>
        obtain ⟨d, hd⟩ := GfP6.val_surjective c
        refine ⟨⟨.zero, d⟩, ?_⟩
        rw [GfP12.val]
        simp only [GfP6.val_zero, map_zero, zero_mul, zero_add, hd, monomial_zero_left]
        rfl
      | succ n ih =>
        obtain ⟨a, ha⟩ := ih
        refine ⟨a.mul ⟨.one, .zero⟩, ?_⟩
        rw [val_mul, ha, ← monomial_mul_X, map_mul, AdjoinRoot.mk_X]
        have : (⟨.one, .zero⟩ : GfP12).val = F12.omega := by simp [GfP12.val]
        rw [this]; rfl
  obtain ⟨q, rfl⟩ := AdjoinRoot.mk_surjective z
  exact key q

theorem val_expLoop (a : GfP12) (k : Int) (n : Nat) (s : GfP12) :
    (expLoop a k n s).val = s.val ^ (2 ^ n) * a.val ^ (k % 2 ^ n).toNat := by
  induction n generalizing s with
  | zero => simp [expLoop]
  | succ n ih =>
    rw [expLoop, ih, emod_two_pow_succ]
    by_cases hb : intBit k n
    · simp only [hb, if_true, val_mul, val_square]
      rw [mul_pow, ← pow_mul, pow_succ' 2 n, pow_add, mul_assoc]
    · simp only [hb, Bool.false_eq_true, if_false, val_square, zero_add]
      rw [← pow_mul, pow_succ' 2 n]

theorem val_exp_emod (a : GfP12) (k : Int) : (a.exp k).val = a.val ^ (k % 2 ^ bitLen k).toNat := by
  rw [exp, val_expLoop]; simp

theorem val_exp (a : GfP12) {k : Int} (hk : 0 ≤ k) : (a.exp k).val = a.val ^ k.toNat := by
  rw [val_exp_emod, emod_bitLen_of_nonneg hk]

end GfP12

theorem F12.omega_pow_p :
    F12.omega ^ bnPn = F12.omega * algebraMap F6 F12 (algebraMap F2 F6 xiToPMinus1Over6.val) := by
  have h : bnPn = 2 * (3 * ((bnPn - 1) / 6)) + 1 := by decide +kernel
  conv_lhs => rw [h]
  rw [pow_succ, pow_mul, F12.omega_sq, ← map_pow, pow_mul, F6.tau_cube, ← map_pow, xi_pow_sixth, mul_comm]

theorem GfP12.val_frobenius (a : GfP12) : a.frobenius.val = a.val ^ bnPn := by
  rw [GfP12.val, GfP12.val, add_pow_char, mul_pow, F12.omega_pow_p]
  simp only [frobenius, GfP6.val_mulScalar, GfP6.val_frobenius, map_pow, map_mul]
  ring

theorem F12.omega_pow_p2 :
    F12.omega ^ (bnPn ^ 2) = F12.omega * (xiToPSquaredMinus1Over6 : F12) := by
  have h : bnPn ^ 2 = 2 * (3 * ((bnPn ^ 2 - 1) / 6)) + 1 := by decide +kernel
  conv_lhs => rw [h]
  rw [pow_succ, pow_mul, F12.omega_sq, ← map_pow, pow_mul, F6.tau_cube, ← map_pow, xi_pow_p2_sixth, mul_comm]
  simp

theorem GfP12.val_frobeniusP2 (a : GfP12) : a.frobeniusP2.val = a.val ^ (bnPn ^ 2) := by
  rw [GfP12.val, GfP12.val, add_pow_char_pow, mul_pow, F12.omega_pow_p2]
  simp only [frobeniusP2, GfP6.val_mulGFP, GfP6.val_frobeniusP2, map_pow, map_mul, map_intCast]
  ring

/-- `a^(p⁶)` is the conjugate. -/
theorem GfP12.val_conj_pow (a : GfP12) : a.conj.val = a.val ^ (bnPn ^ 6) := by
  have ho : F12.omega ^ (bnPn ^ 6) = -F12.omega := by
    have h : bnPn ^ 6 = 2 * (3 * ((bnPn ^ 2 - 1) / 2 * ((bnPn ^ 4 + bnPn ^ 2 + 1) / 3))) + 1 := by
      decide +kernel
    conv_lhs => rw [h]
    rw [pow_succ, pow_mul, F12.omega_sq, ← map_pow, pow_mul, F6.tau_cube, ← map_pow, pow_mul,
      xi_pow_p2_half, Odd.neg_one_pow (by rw [Nat.odd_iff]; decide +kernel)]
    simp
  rw [GfP12.val, GfP12.val, add_pow_char_pow, mul_pow, ho, ← map_pow, ← map_pow, F6.pow_p6, F6.pow_p6]
  simp only [conj, GfP6.val_neg, map_neg]; ring

theorem F12.pow_p12 (z : F12) : z ^ (bnPn ^ 12) = z := by
  obtain ⟨a, rfl⟩ := GfP12.val_surjective z
  rw [show bnPn ^ 12 = bnPn ^ 6 * bnPn ^ 6 by ring, pow_mul, ← GfP12.val_conj_pow, ← GfP12.val_conj_pow,
    GfP12.val_eq_iff]
  simp [GfP12.conj]

theorem F12.pow_p12_sub_one {z : F12} (hz : z ≠ 0) : z ^ (bnPn ^ 12 - 1) = 1 := by
  have h := F12.pow_p12 z
  have e : bnPn ^ 12 = bnPn ^ 12 - 1 + 1 := by decide +kernel
  rw [e, pow_succ] at h
  exact mul_right_cancel₀ hz (by rw [one_mul]; exact h)


/-! ## Final exponentiation -/

/-- `a` holds the `k`-th power of `f`. -/
def HasExp (f : F12) (a : GfP12) (k : Int) : Prop := a.val = f ^ k

namespace HasExp
variable {f : F12} (hf : f ≠ 0) {a b : GfP12} {k l : Int}
include hf

theorem mul (ha : HasExp f a k) (hb : HasExp f b l) : HasExp f (a.mul b) (k + l) := by
  rw [HasExp, GfP12.val_mul, ha, hb, zpow_add₀ hf]

theorem square (ha : HasExp f a k) : HasExp f a.square (2 * k) := by
  rw [HasExp, GfP12.val_square, ha, mul_comm, zpow_mul]; norm_cast

theorem frobenius (ha : HasExp f a k) : HasExp f a.frobenius (bnP * k) := by
  rw [HasExp, GfP12.val_frobenius, ha, mul_comm, zpow_mul, bnP_eq, zpow_natCast]

theorem frobeniusP2 (ha : HasExp f a k) : HasExp f a.frobeniusP2 (bnP ^ 2 * k) := by
  rw [HasExp, GfP12.val_frobeniusP2, ha, mul_comm, zpow_mul, bnP_eq, ← Nat.cast_pow, zpow_natCast]

theorem exp {u : Int} (hu : 0 ≤ u) (ha : HasExp f a k) : HasExp f (a.exp u) (u * k) := by
  rw [HasExp, GfP12.val_exp _ hu, ha, mul_comm, zpow_mul, ← zpow_natCast, Int.toNat_of_nonneg hu]

theorem conj (hu : f ^ (bnPn ^ 6) = f⁻¹) (ha : HasExp f a k) : HasExp f a.conj (-k) := by
  rw [HasExp, GfP12.val_conj_pow, ha, ← zpow_natCast, ← zpow_mul, mul_comm, zpow_mul, zpow_natCast, hu,
    inv_zpow, zpow_neg]

end HasExp

theorem finalExponentiation_val (a : GfP12) :
    (finalExponentiation a).val = a.val ^ ((bnPn ^ 12 - 1) / bnNn) := by
  by_cases h0 : a.val = 0
  · rw [h0, zero_pow (by decide +kernel)]
    have h1 : a.invert.val = 0 := by rw [GfP12.val_invert, h0, inv_zero]
    simp only [finalExponentiation, GfP12.val_mul, GfP12.val_square, GfP12.val_frobenius,
      GfP12.val_frobeniusP2, h1, mul_zero, zero_mul]
    rw [zero_pow (by decide +kernel)]
    simp
  · have e1 : (⟨a.x.neg, a.y⟩ : GfP12).val = a.val ^ (bnPn ^ 6) := a.val_conj_pow
    set g := (⟨a.x.neg, a.y⟩ : GfP12).mul a.invert with hg
    have hg1 : g.val = a.val ^ (bnPn ^ 6 - 1) := by
      rw [hg, GfP12.val_mul, e1, GfP12.val_invert]
      have e : bnPn ^ 6 = bnPn ^ 6 - 1 + 1 := by decide +kernel
      conv_lhs => rw [e]
      rw [pow_succ, mul_assoc, mul_inv_cancel₀ h0, mul_one]
    set t := g.mul g.frobeniusP2 with ht
    have ht1 : t.val = a.val ^ ((bnPn ^ 6 - 1) * (bnPn ^ 2 + 1)) := by
      rw [ht, GfP12.val_mul, GfP12.val_frobeniusP2, hg1, ← pow_mul, ← pow_add]
      congr 1
    have htn : t.val ≠ 0 := by rw [ht1]; exact pow_ne_zero _ h0
    have hu : t.val ^ (bnPn ^ 6) = t.val⁻¹ := by
      apply eq_inv_of_mul_eq_one_left
      rw [← pow_succ, ht1, ← pow_mul,
        show (bnPn ^ 6 - 1) * (bnPn ^ 2 + 1) * (bnPn ^ 6 + 1) = (bnPn ^ 12 - 1) * (bnPn ^ 2 + 1) by decide +kernel,
        pow_mul, F12.pow_p12_sub_one h0, one_pow]
    have b0 : HasExp t.val t 1 := by rw [HasExp, zpow_one]
    have fp := b0.frobenius htn
    have fp2 := b0.frobeniusP2 htn
    have fp3 := fp2.frobenius htn
    have hU : (0 : Int) ≤ bnU := by decide
    have fu := b0.exp htn hU
    have fu2 := fu.exp htn hU
    have fu3 := fu2.exp htn hU
    have y3 := (fu.frobenius htn).conj htn hu
    have fu2p := fu2.frobenius htn
    have fu3p := fu3.frobenius htn
    have y2 := fu2.frobeniusP2 htn
    have y0 := (fp.mul htn fp2).mul htn fp3
    have y1 := b0.conj htn hu
    have y5 := fu2.conj htn hu
    have y4 := (fu.mul htn fu2p).conj htn hu
    have y6 := (fu3.mul htn fu3p).conj htn hu
    have t0 := ((y6.square htn).mul htn y4).mul htn y5
    have t1 := (y3.mul htn y5).mul htn t0
    have t0' := t0.mul htn y2
    have t1' := (((t1.square htn).mul htn t0').square htn)
    have t0'' := t1'.mul htn y1
    have t1'' := t1'.mul htn y0
    have fin := (t0''.square htn).mul htn t1''
    have key : (finalExponentiation a).val = _ := fin
    rw [key, show (bnPn ^ 12 - 1) / bnNn = (bnPn ^ 6 - 1) * (bnPn ^ 2 + 1) * ((bnPn ^ 4 - bnPn ^ 2 + 1) / bnNn) by
      decide +kernel, pow_mul, ← ht1, ← zpow_natCast]
    exact congrArg (t.val ^ ·) (by decide +kernel)

/-! ## `Minimal`, `IsZero`, `IsOne` -/

/-- Both coordinates are reduced. -/
def GfP2.Red (a : GfP2) : Prop := 0 ≤ a.x ∧ a.x < bnP ∧ 0 ≤ a.y ∧ a.y < bnP

theorem GfP2.Red.eq {a b : GfP2} (ha : a.Red) (hb : b.Red) (h : a.val = b.val) : a = b := by
  rw [val_eq_iff] at h
  obtain ⟨h1, h2⟩ := h
  obtain ⟨a1, a2, a3, a4⟩ := ha
  obtain ⟨b1, b2, b3, b4⟩ := hb
  rw [Int.emod_eq_of_lt a1 a2, Int.emod_eq_of_lt b1 b2] at h1
  rw [Int.emod_eq_of_lt a3 a4, Int.emod_eq_of_lt b3 b4] at h2
  cases a; cases b; simp_all

theorem GfP2.zero_red : GfP2.zero.Red := by unfold Red zero; decide
theorem GfP2.one_red : GfP2.one.Red := by unfold Red one; decide

theorem GfP2.minimal_eq (a : GfP2) : a.minimal = ⟨a.x % bnP, a.y % bnP⟩ := by
  have key : ∀ m : Int, (if m < 0 ∨ m ≥ bnP then m % bnP else m) = m % bnP := by
    intro m
    split
    · rfl
    · rename_i h
      rw [Int.emod_eq_of_lt] <;> omega
  rw [minimal, key, key]

theorem GfP2.minimal_red (a : GfP2) : a.minimal.Red := by
  rw [minimal_eq]
  exact ⟨Int.emod_nonneg _ (ne_of_gt bnP_pos), Int.emod_lt_of_pos _ bnP_pos,
    Int.emod_nonneg _ (ne_of_gt bnP_pos), Int.emod_lt_of_pos _ bnP_pos⟩

theorem GfP2.Red.isZero {a : GfP2} (h : a.Red) : a.isZero = true ↔ a.val = 0 := by
  rw [GfP2.isZero, Bool.and_eq_true, beq_iff_eq, beq_iff_eq]
  constructor
  · rintro ⟨h1, h2⟩
    simp [val_def, h1, h2]
  · intro hc
    rw [h.eq zero_red (by rw [hc, val_zero])]; exact ⟨rfl, rfl⟩

theorem GfP2.Red.isOne {a : GfP2} (h : a.Red) : a.isOne = true ↔ a.val = 1 := by
  constructor
  · intro h1
    simp only [GfP2.isOne] at h1
    split at h1
    · cases h1
    · rename_i hx
      rw [not_not] at hx
      rw [beq_iff_eq] at h1
      have := h.2.2.1
      have hy : a.y = 1 := by omega
      simp [val_def, hx, hy]
  · intro hc
    rw [h.eq one_red (by rw [hc, val_one])]; rfl

theorem GfP6.isZero_minimal (a : GfP6) : a.minimal.isZero = true ↔ a.val = 0 := by
  rw [val_eq_zero, isZero, Bool.and_eq_true, Bool.and_eq_true, minimal]
  simp only [(GfP2.minimal_red _).isZero, GfP2.val_minimal, and_assoc]

theorem GfP6.isOne_minimal (a : GfP6) : a.minimal.isOne = true ↔ a.val = 1 := by
  rw [← val_one, val_eq_iff, isOne, Bool.and_eq_true, Bool.and_eq_true, minimal]
  simp only [(GfP2.minimal_red _).isZero, (GfP2.minimal_red _).isOne, GfP2.val_minimal, one,
    GfP2.val_zero, GfP2.val_one, and_assoc]

theorem GfP12.isZero_iff (a : GfP12) : a.isZero = true ↔ a.val = 0 := by
  rw [val_eq_zero, ← GfP6.isZero_minimal, ← GfP6.isZero_minimal, ← Bool.and_eq_true]
  exact Iff.rfl

theorem GfP12.isOne_iff (a : GfP12) : a.isOne = true ↔ a.val = 1 := by
  rw [← val_one, val_eq_iff]
  rw [show GfP12.one.x.val = 0 from GfP6.val_zero, show GfP12.one.y.val = 1 from GfP6.val_one,
    ← GfP6.isZero_minimal, ← GfP6.isOne_minimal, ← Bool.and_eq_true]
  exact Iff.rfl

end Verif

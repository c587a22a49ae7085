import Verif.Lemmas.Gfp12

/-! # C42-C45: the extension fields of bn256, exponentiation, Frobenius, final exponentiation -/

namespace Verif

/-! ## C42 -/

/-- C42: the three quotient rings are fields, every element is the value of a Go object, and
two `gfP2` hold the same element exactly when their coordinates agree modulo `p`. -/
theorem C42_fields :
    IsField F2 ∧ IsField F6 ∧ IsField F12 ∧
    F2.i ^ 2 = -1 ∧ F6.tau ^ 3 = algebraMap F2 F6 (F2.i + 9) ∧ F12.omega ^ 2 = algebraMap F6 F12 F6.tau ∧
    Function.Surjective GfP2.val ∧ Function.Surjective GfP6.val ∧ Function.Surjective GfP12.val ∧
    (∀ a b : GfP2, a.val = b.val ↔ a.x ≡ b.x [ZMOD bnP] ∧ a.y ≡ b.y [ZMOD bnP]) ∧
    (∀ a b : GfP6, a.val = b.val ↔ a.x.val = b.x.val ∧ a.y.val = b.y.val ∧ a.z.val = b.z.val) ∧
    (∀ a b : GfP12, a.val = b.val ↔ a.x.val = b.x.val ∧ a.y.val = b.y.val) :=
  ⟨Field.toIsField F2, Field.toIsField F6, Field.toIsField F12, F2.i_sq, F6.tau_cube, F12.omega_sq,
    GfP2.val_surjective, GfP6.val_surjective, GfP12.val_surjective, GfP2.val_eq_iff, GfP6.val_eq_iff,
    GfP12.val_eq_iff⟩

/-- C42 for `gfP2`. -/
theorem C42_gfP2 (a b : GfP2) (k : Int) :
    GfP2.zero.val = 0 ∧ GfP2.one.val = 1 ∧
    (a.add b).val = a.val + b.val ∧ (a.sub b).val = a.val - b.val ∧ a.neg.val = -a.val ∧
    a.double.val = 2 * a.val ∧ (a.mul b).val = a.val * b.val ∧ a.square.val = a.val ^ 2 ∧
    (a.mulScalar k).val = a.val * k ∧ a.mulXi.val = (F2.i + 9) * a.val ∧ a.conj.val = a.val ^ bnPn ∧
    a.minimal.val = a.val ∧ (∀ leftover, (a.invertWith leftover).val = a.val⁻¹) := by
  refine ⟨GfP2.val_zero, GfP2.val_one, GfP2.val_add a b, GfP2.val_sub a b, GfP2.val_neg a,
    GfP2.val_double a, GfP2.val_mul a b, GfP2.val_square a, GfP2.val_mulScalar a k, GfP2.val_mulXi a,
    GfP2.val_conj a, GfP2.val_minimal a, fun l => ?_⟩
  rw [GfP2.invertWith_eq]; exact GfP2.val_invert a

/-- C42 for `gfP6`. -/
theorem C42_gfP6 (a b : GfP6) (c : GfP2) (k : Int) :
    GfP6.zero.val = 0 ∧ GfP6.one.val = 1 ∧
    (a.add b).val = a.val + b.val ∧ (a.sub b).val = a.val - b.val ∧ a.neg.val = -a.val ∧
    a.double.val = 2 * a.val ∧ (a.mul b).val = a.val * b.val ∧ a.square.val = a.val ^ 2 ∧
    (a.mulScalar c).val = a.val * algebraMap F2 F6 c.val ∧ (a.mulGFP k).val = a.val * k ∧
    a.mulTau.val = F6.tau * a.val ∧ a.minimal.val = a.val ∧ a.invert.val = a.val⁻¹ :=
  ⟨GfP6.val_zero, GfP6.val_one, GfP6.val_add a b, GfP6.val_sub a b, GfP6.val_neg a, GfP6.val_double a,
    GfP6.val_mul a b, GfP6.val_square a, GfP6.val_mulScalar a c, GfP6.val_mulGFP a k, GfP6.val_mulTau a,
    GfP6.val_minimal a, GfP6.val_invert a⟩

/-- C42 for `gfP12`; `IsZero` and `IsOne` recognise the values 0 and 1 however they are stored. -/
theorem C42_gfP12 (a b : GfP12) (c : GfP6) :
    GfP12.zero.val = 0 ∧ GfP12.one.val = 1 ∧
    (a.add b).val = a.val + b.val ∧ (a.sub b).val = a.val - b.val ∧ a.neg.val = -a.val ∧
    (a.mul b).val = a.val * b.val ∧ a.square.val = a.val ^ 2 ∧
    (b.mulScalar a c).val = b.val * algebraMap F6 F12 c.val ∧
    a.conj.val = algebraMap F6 F12 a.y.val - algebraMap F6 F12 a.x.val * F12.omega ∧
    a.conj.val = a.val ^ (bnPn ^ 6) ∧ a.minimal.val = a.val ∧ a.invert.val = a.val⁻¹ ∧
    (a.isZero = true ↔ a.val = 0) ∧ (a.isOne = true ↔ a.val = 1) :=
  ⟨GfP12.val_zero, GfP12.val_one, GfP12.val_add a b, GfP12.val_sub a b, GfP12.val_neg a,
    GfP12.val_mul a b, GfP12.val_square a, GfP12.val_mulScalar b a c, GfP12.val_conj a,
    GfP12.val_conj_pow a, GfP12.val_minimal a, GfP12.val_invert a, GfP12.isZero_iff a, GfP12.isOne_iff a⟩

/-- C42: `Exp` of `gfP2` and `gfP12`.  A negative exponent counts as `2^n - |k|`, where `n` is the number of bits of `|k|`. -/
theorem C42_exp (a : GfP2) (b : GfP12) (k : Int) :
    (0 ≤ k → (a.exp k).val = a.val ^ k.toNat ∧ (b.exp k).val = b.val ^ k.toNat) ∧
    (k < 0 → (a.exp k).val = a.val ^ (2 ^ (Nat.log2 k.natAbs + 1) - k.natAbs) ∧ (b.exp k).val = b.val ^ (2 ^ (Nat.log2 k.natAbs + 1) - k.natAbs)) := by
  refine ⟨fun h => ⟨GfP2.val_exp a h, GfP12.val_exp b h⟩, fun h => ?_⟩
  rw [GfP12.val_exp_emod, emod_bitLen_of_neg h, GfP2.exp, GfP2.val_expLoop, emod_bitLen_of_neg h, GfP2.val_one, one_pow, one_mul, bitLen,
    if_neg h.ne]
  exact ⟨rfl, rfl⟩

example : (GfP2.exp ⟨2, 3⟩ (-5)).minimal = ((GfP2.mul ⟨2, 3⟩ ⟨2, 3⟩).mul ⟨2, 3⟩).minimal := by decide +kernel

/-- C42: inverses are inverses, for every non-zero element of the three fields. -/
theorem C42_inverse (a : GfP2) (b : GfP6) (c : GfP12) :
    (a.val ≠ 0 → (a.mul a.invert).val = 1) ∧ (b.val ≠ 0 → (b.mul b.invert).val = 1) ∧
    (c.val ≠ 0 → (c.mul c.invert).val = 1) := by
  refine ⟨fun h => ?_, fun h => ?_, fun h => ?_⟩
  · rw [GfP2.val_mul, GfP2.val_invert, mul_inv_cancel₀ h]
  · rw [GfP6.val_mul, GfP6.val_invert, mul_inv_cancel₀ h]
  · rw [GfP12.val_mul, GfP12.val_invert, mul_inv_cancel₀ h]

/-- An element with non-trivial coordinates everywhere and its inverse. -/
example : let a : GfP12 := ⟨⟨⟨1, 2⟩, ⟨3, 4⟩, ⟨5, 6⟩⟩, ⟨⟨7, 8⟩, ⟨9, 10⟩, ⟨-11, bnP + 12⟩⟩⟩
    a.isZero = false ∧ (a.mul a.invert).isOne = true ∧ a ≠ a.minimal := by decide +kernel

/-! ## C43 -/

theorem eq_inv_iff_mul_eq_one₀' {F : Type*} [Field F] {a b : F} (hb : b ≠ 0) : a = b⁻¹ ↔ a * b = 1 :=
  ⟨fun h => by rw [h, inv_mul_cancel₀ hb], eq_inv_of_mul_eq_one_left⟩

/-- C43: `GT.ScalarMult` for `k ≥ 0`. -/
theorem C43_scalarMult (a : GfP12) (k : Nat) : (GT.scalarMult a k).val = a.val ^ k :=
  GfP12.val_exp a (Int.natCast_nonneg k)

/-- C43: `GT.ScalarMult` for a negative scalar uses the low bits of the two's complement. -/
theorem C43_scalarMult_neg (a : GfP12) {k : Int} (hk : k < 0) :
    (GT.scalarMult a k).val = a.val ^ (2 ^ bitLen k - k.natAbs) := by
  rw [GT.scalarMult, GfP12.val_exp_emod, emod_bitLen_of_neg hk]

/-- `-3` is read as `4 - 3 = 1`. -/
example (a : GfP12) : (GT.scalarMult a (-3)).val = a.val ^ 1 := C43_scalarMult_neg a (by decide)

/-- C43: so `ScalarMult` by `-1` returns `a` itself, not the inverse, unless `a = ±1` (or `a = 0`). -/
theorem C43_scalarMult_minus_one (a : GfP12) :
    (GT.scalarMult a (-1)).val = a.val ∧
    ((GT.scalarMult a (-1)).val = a.val⁻¹ ↔ a.val = 0 ∨ a.val = 1 ∨ a.val = -1) := by
  have h : (GT.scalarMult a (-1)).val = a.val := by
    rw [C43_scalarMult_neg a (by decide), show 2 ^ bitLen (-1) - (-1 : Int).natAbs = 1 by decide, pow_one]
  refine ⟨h, ?_⟩
  rw [h]
  by_cases ha : a.val = 0
  · simp [ha]
  · rw [eq_inv_iff_mul_eq_one₀' ha, or_iff_right ha, ← mul_self_eq_one_iff]

/-- The generic wrong case: a negative scalar gives the inverse power exactly when `a` to the power
`2^bitLen` is one. -/
theorem C43_scalarMult_neg_iff (a : GfP12) (ha : a.val ≠ 0) {k : Int} (hk : k < 0) :
    (GT.scalarMult a k).val = a.val ^ k ↔ a.val ^ (2 ^ bitLen k) = 1 := by
  rw [C43_scalarMult_neg a hk]
  have hl : k.natAbs ≤ 2 ^ bitLen k := le_of_lt (lt_two_pow_bitLen k)
  have e : k = -(k.natAbs : Int) := by omega
  have e1 : a.val ^ k = (a.val ^ k.natAbs)⁻¹ := by
    conv_lhs => rw [e]
    rw [zpow_neg, zpow_natCast]
  rw [e1, eq_inv_iff_mul_eq_one₀' (pow_ne_zero _ ha), ← pow_add, Nat.sub_add_cancel hl]

example : (GT.scalarMult .one (-3)).val = (GfP12.one).val ^ (-3 : Int) :=
  (C43_scalarMult_neg_iff .one (by simp) (by decide)).2 (by simp)

/-- C43: `GT.Exp` returns `a^k` for every integer `k` (`a ≠ 0`), but the receiver keeps its value
and the argument is overwritten by the result. -/
theorem C43_exp (e a : GfP12) (ha : a.val ≠ 0) (k : Int) :
    (GT.exp e a k).1.val = a.val ^ k ∧ (GT.exp e a k).2.1 = e ∧ (GT.exp e a k).2.2 = (GT.exp e a k).1 := by
  have _ := ha
  refine ⟨?_, rfl, rfl⟩
  unfold GT.exp
  by_cases hk : k ≥ 0
  · simp only [if_pos hk]
    lift k to Nat using hk
    rw [C43_scalarMult, zpow_natCast]
  · simp only [if_neg hk, GfP12.val_invert]
    have hn : k = -(k.natAbs : Int) := by omega
    conv_rhs => rw [hn]
    rw [C43_scalarMult, zpow_neg, zpow_natCast]

example : (GT.exp .zero .one (-3)).1.val = (GfP12.one).val ^ (-3 : Int) := (C43_exp .zero .one (by simp) (-3)).1

/-- The argument really changes, and the receiver is not the result. -/
theorem C43_exp_witness :
    let a : GfP12 := ⟨.one, .one⟩
    (GT.exp .one a 2).1.val ≠ (GT.exp .one a 2).2.1.val ∧ (GT.exp .one a 2).2.2.val ≠ a.val := by
  simp only [ne_eq, GfP12.val_eq_iff, GfP6.val_eq_iff, GfP2.val_eq_iff]
  constructor <;> decide +kernel

example : (⟨.one, .one⟩ : GfP12).val ≠ 0 ∧ (⟨.one, .one⟩ : GfP12).val ^ (2 ^ bitLen (-3)) ≠ 1 := by
  have h : (⟨.one, .one⟩ : GfP12).val ^ (2 ^ bitLen (-3)) = (GT.scalarMult ⟨.one, .one⟩ 4).val := by
    exact (C43_scalarMult ⟨.one, .one⟩ 4).symm
  rw [h, ← GfP12.val_one, ← GfP12.val_zero]
  simp only [ne_eq, GfP12.val_eq_iff, GfP6.val_eq_iff, GfP2.val_eq_iff]
  constructor <;> decide +kernel

/-! ## C44 -/

/-- C44: Frobenius maps at every level. -/
theorem C44_frobenius (a : GfP6) (b : GfP12) :
    a.frobenius.val = a.val ^ bnPn ∧ a.frobeniusP2.val = a.val ^ (bnPn ^ 2) ∧
    b.frobenius.val = b.val ^ bnPn ∧ b.frobeniusP2.val = b.val ^ (bnPn ^ 2) ∧
    b.val ^ (bnPn ^ 12) = b.val :=
  ⟨a.val_frobenius, a.val_frobeniusP2, b.val_frobenius, b.val_frobeniusP2, F12.pow_p12 _⟩

/-- The seven constants of constants.go are the powers of `ξ = i + 9` they are named after. -/
theorem C44_constants :
    xiToPMinus1Over6.val = F2.xi ^ ((bnPn - 1) / 6) ∧ xiToPMinus1Over3.val = F2.xi ^ ((bnPn - 1) / 3) ∧
    xiToPMinus1Over2.val = F2.xi ^ ((bnPn - 1) / 2) ∧ xiTo2PMinus2Over3.val = F2.xi ^ ((2 * bnPn - 2) / 3) ∧
    (xiToPSquaredMinus1Over3 : F2) = F2.xi ^ ((bnPn ^ 2 - 1) / 3) ∧
    (xiTo2PSquaredMinus2Over3 : F2) = F2.xi ^ ((2 * bnPn ^ 2 - 2) / 3) ∧
    (xiToPSquaredMinus1Over6 : F2) = F2.xi ^ ((bnPn ^ 2 - 1) / 6) :=
  ⟨xi_pow_sixth.symm, xi_pow_third.symm, xi_pow_half.symm, xi_pow_two_thirds.symm, xi_pow_p2_third.symm,
    xi_pow_p2_two_thirds.symm, xi_pow_p2_sixth.symm⟩

/-- Frobenius moves a concrete element. -/
example : let b : GfP12 := ⟨⟨⟨1, 2⟩, ⟨3, 4⟩, ⟨5, 6⟩⟩, ⟨⟨7, 8⟩, ⟨9, 10⟩, ⟨11, 12⟩⟩⟩
    b.frobenius.minimal ≠ b ∧ (b.frobeniusP2.sub b.frobenius.frobenius).isZero = true := by decide +kernel

/-! ## C45 -/

/-- C45: the final exponentiation, for every element (0 is mapped to 0). -/
theorem C45_finalExponentiation (a : GfP12) :
    (finalExponentiation a).val = a.val ^ ((bnPn ^ 12 - 1) / bnNn) := finalExponentiation_val a

/-- C45: `Order` divides `p¹² - 1`, and the result for a non-zero element has order dividing `Order`. -/
theorem C45_order (a : GfP12) (ha : a.val ≠ 0) :
    bnNn ∣ bnPn ^ 12 - 1 ∧ (finalExponentiation a).val ^ bnNn = 1 := by
  have hd : bnNn ∣ bnPn ^ 12 - 1 := Nat.dvd_of_mod_eq_zero (by decide +kernel)
  refine ⟨hd, ?_⟩
  rw [finalExponentiation_val, ← pow_mul, Nat.div_mul_cancel hd, F12.pow_p12_sub_one ha]

example : (finalExponentiation .one).val ^ bnNn = 1 := (C45_order .one (by simp)).2

/-- C45: it is multiplicative, so one final exponentiation serves a product of Miller values. -/
theorem C45_mul (a b : GfP12) :
    (finalExponentiation (a.mul b)).val = (finalExponentiation a).val * (finalExponentiation b).val := by
  simp only [finalExponentiation_val, GfP12.val_mul, mul_pow]

/-- A concrete element whose image is neither 0 nor 1. -/
example : let a : GfP12 := ⟨.one, .one⟩
    a.isZero = false ∧ (finalExponentiation a).isOne = false ∧ (finalExponentiation a).isZero = false := by
  decide +kernel

end Verif

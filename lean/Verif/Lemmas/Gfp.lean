import Verif.Spec.Bn256
import Verif.Lemmas.Arith
import Mathlib.Tactic.LinearCombination
import Mathlib.Algebra.CharP.Algebra

/-!
# The extension fields of bn256: the model computes in `F2`, `F6`, `F12`
-/

namespace Verif
open Polynomial

theorem bnP_pos : 0 < bnP := by decide

theorem bf_two : (2 : BF) ≠ 0 := by
  have : ((2 : Nat) : BF) ≠ 0 := by
    rw [Ne, ZMod.natCast_eq_zero_iff]; decide +kernel
  exact_mod_cast this

theorem bf_three : (3 : BF) ≠ 0 := by
  have : ((3 : Nat) : BF) ≠ 0 := by
    rw [Ne, ZMod.natCast_eq_zero_iff]; decide +kernel
  exact_mod_cast this

@[simp] theorem bf_emod (a : Int) : ((a % bnP : Int) : BF) = (a : BF) := by
  rw [bnP_eq]; exact ZMod.intCast_mod a bnPn

theorem bf_eq_iff (a b : Int) : (a : BF) = (b : BF) ↔ a % bnP = b % bnP := by
  rw [bnP_eq]; exact ZMod.intCast_eq_intCast_iff a b bnPn

theorem bf_eq_zero (a : Int) : (a : BF) = 0 ↔ bnP ∣ a := by
  rw [bnP_eq]; exact ZMod.intCast_zmod_eq_zero_iff_dvd a bnPn

theorem bf_inj {a b : Int} (ha : 0 ≤ a) (ha' : a < bnP) (hb : 0 ≤ b) (hb' : b < bnP) :
    (a : BF) = (b : BF) ↔ a = b := by
  rw [bf_eq_iff, Int.emod_eq_of_lt ha ha', Int.emod_eq_of_lt hb hb']

/-- `-1` is not a square modulo `p`. -/
theorem bf_neg_one (b : BF) : b ^ 2 ≠ -1 := by
  intro h
  have : IsSquare (-1 : BF) := ⟨b, by rw [← h]; ring⟩
  rw [ZMod.exists_sq_eq_neg_one_iff] at this
  exact this (by decide +kernel)

theorem bf_sum_sq {a b : BF} (h : a ^ 2 + b ^ 2 = 0) : a = 0 ∧ b = 0 := by
  by_cases hb : b = 0
  · subst hb
    exact ⟨by simpa using h, rfl⟩
  · exfalso
    apply bf_neg_one (a / b)
    rw [div_pow]
    field_simp
    linear_combination h

theorem modInverse_bn {z : Int} (hz : (z : BF) ≠ 0) :
    ∃ r, modInverse z bnP = some r ∧ 0 ≤ r ∧ r < bnP ∧ (r : BF) = (z : BF)⁻¹ := by
  have hn : bnP ≠ 0 := ne_of_gt bnP_pos
  have hg : Int.gcd z bnP = 1 := by
    rw [bnP_eq, Int.gcd_def, Int.natAbs_natCast]
    have hp : bnPn.Prime := Fact.out
    rw [Nat.gcd_comm]
    apply (Nat.Prime.coprime_iff_not_dvd hp).2
    intro hd
    apply hz
    rw [bf_eq_zero, bnP_eq]
    exact Int.natCast_dvd.2 hd
  obtain ⟨r, h1, h2, h3, h4⟩ := (modInverse_spec z bnP hn).1 hg
  refine ⟨r, h1, h2, by rwa [abs_of_pos bnP_pos] at h3, ?_⟩
  have : ((r * z - 1 : Int) : BF) = 0 := (bf_eq_zero _).2 h4
  push_cast at this
  apply eq_inv_of_mul_eq_one_left
  linear_combination this

/-! ## Fields and coordinates -/

theorem irreducible_F2 : Irreducible (X ^ 2 - C (-1) : BF[X]) :=
  X_pow_sub_C_irreducible_of_prime Nat.prime_two bf_neg_one

instance : Fact (Irreducible (X ^ 2 - C (-1) : BF[X])) := ⟨irreducible_F2⟩

noncomputable instance : Field F2 := inferInstanceAs (Field (AdjoinRoot (X ^ 2 - C (-1) : BF[X])))
noncomputable instance : DecidableEq F2 := Classical.decEq _

theorem F2.i_sq : F2.i ^ 2 = -1 := by
  have h : aeval (AdjoinRoot.root (X ^ 2 - C (-1) : BF[X])) (X ^ 2 - C (-1) : BF[X]) = 0 := by
    rw [AdjoinRoot.aeval_eq, AdjoinRoot.mk_self]
  simp only [map_sub, map_pow, aeval_X, aeval_C, map_neg, map_one] at h
  exact sub_eq_zero.1 h

/-- Coordinates over `GF(p)` are unique. -/
theorem F2.coord {x y : BF} (h : algebraMap BF F2 x * F2.i + algebraMap BF F2 y = 0) : x = 0 ∧ y = 0 := by
  have h' : AdjoinRoot.mk (X ^ 2 - C (-1) : BF[X]) (C x * X + C y) = 0 := by
    rw [map_add, map_mul, AdjoinRoot.mk_X]
    exact h
  rw [AdjoinRoot.mk_eq_zero] at h'
  have h0 := eq_zero_of_dvd_of_degree_lt h' (by
    rw [degree_X_pow_sub_C (by norm_num)]
    refine lt_of_le_of_lt degree_linear_le (by norm_num))
  constructor
  · simpa using congrArg (fun q => coeff q 1) h0
  · simpa using congrArg (fun q => coeff q 0) h0


instance : CharP F2 bnPn := charP_of_injective_algebraMap (algebraMap BF F2).injective bnPn

theorem f2_two : (2 : F2) ≠ 0 := by
  intro h
  apply bf_two
  apply (algebraMap BF F2).injective
  rw [map_zero, map_ofNat]; exact h

theorem f2_three : (3 : F2) ≠ 0 := by
  intro h
  apply bf_three
  apply (algebraMap BF F2).injective
  rw [map_zero, map_ofNat]; exact h

@[simp] theorem f2_emod (a : Int) : ((a % bnP : Int) : F2) = (a : F2) := by
  have := congrArg (algebraMap BF F2) (bf_emod a)
  simpa only [map_intCast] using this

theorem f2_cast_eq_zero (a : Int) : (a : F2) = 0 ↔ (a : BF) = 0 := by
  rw [← map_intCast (algebraMap BF F2), map_eq_zero]

namespace GfP2

theorem val_def (a : GfP2) : a.val = (a.x : F2) * F2.i + (a.y : F2) := by
  simp only [GfP2.val, map_intCast]

theorem val_eq_zero (a : GfP2) : a.val = 0 ↔ (a.x : BF) = 0 ∧ (a.y : BF) = 0 := by
  constructor
  · exact fun h => F2.coord h
  · rintro ⟨h1, h2⟩
    simp [GfP2.val, h1, h2]

@[simp] theorem val_zero : GfP2.zero.val = 0 := by simp [val_def, zero]
@[simp] theorem val_one : GfP2.one.val = 1 := by simp [val_def, one]

@[simp] theorem val_add (a b : GfP2) : (a.add b).val = a.val + b.val := by
  simp only [val_def, add]; push_cast; ring

@[simp] theorem val_sub (a b : GfP2) : (a.sub b).val = a.val - b.val := by
  simp only [val_def, sub]; push_cast; ring

@[simp] theorem val_neg (a : GfP2) : a.neg.val = -a.val := by
  simp only [val_def, neg]; push_cast; ring

@[simp] theorem val_double (a : GfP2) : a.double.val = 2 * a.val := by
  simp only [val_def, double]; push_cast; ring

@[simp] theorem val_mulScalar (a : GfP2) (b : Int) : (a.mulScalar b).val = a.val * (b : F2) := by
  simp only [val_def, mulScalar]; push_cast; ring

@[simp] theorem val_mul (a b : GfP2) : (a.mul b).val = a.val * b.val := by
  simp only [val_def, mul, f2_emod]; push_cast
  linear_combination (-(a.x : F2) * b.x) * F2.i_sq

@[simp] theorem val_square (a : GfP2) : a.square.val = a.val ^ 2 := by
  simp only [val_def, square, f2_emod]; push_cast
  linear_combination (-(a.x : F2) * a.x) * F2.i_sq

@[simp] theorem val_mulXi (a : GfP2) : a.mulXi.val = F2.xi * a.val := by
  simp only [val_def, mulXi, F2.xi]; push_cast
  linear_combination (-(a.x : F2)) * F2.i_sq

@[simp] theorem val_minimal (a : GfP2) : a.minimal.val = a.val := by
  simp only [val_def, minimal]
  congr 1
  · congr 1; split <;> simp
  · split <;> simp

theorem val_eq_iff (a b : GfP2) : a.val = b.val ↔ a.x % bnP = b.x % bnP ∧ a.y % bnP = b.y % bnP := by
  rw [← sub_eq_zero, ← val_sub, val_eq_zero]
  simp only [sub, Int.cast_sub, sub_eq_zero, bf_eq_iff]

/-- The norm `x² + y²` vanishes only for zero. -/
theorem norm_eq_zero (a : GfP2) (h : ((a.y * a.y + a.x * a.x : Int) : BF) = 0) : a.val = 0 := by
  rw [val_eq_zero]
  exact bf_sum_sq (by push_cast at h; linear_combination h)

/-- The value of `Invert` does not depend on the old content of the pool cell, and is the field
inverse (zero for zero). -/
theorem val_invertWith (l : Int) (a : GfP2) : (a.invertWith l).val = a.val⁻¹ := by
  by_cases h : ((a.y * a.y + a.x * a.x : Int) : BF) = 0
  · have h0 := norm_eq_zero a h
    have hx : (a.x : F2) = 0 := (f2_cast_eq_zero _).2 ((val_eq_zero a).1 h0).1
    have hy : (a.y : F2) = 0 := (f2_cast_eq_zero _).2 ((val_eq_zero a).1 h0).2
    rw [h0, inv_zero, val_def]
    simp only [invertWith, f2_emod]; push_cast
    rw [hx, hy]; ring
  · obtain ⟨r, hr, _, _, hr2⟩ := modInverse_bn h
    have hr3 : (r : F2) * ((a.y : F2) * a.y + a.x * a.x) = 1 := by
      have := congrArg (algebraMap BF F2) (show (r : BF) * ((a.y * a.y + a.x * a.x : Int) : BF) = 1 by
        rw [hr2]; exact inv_mul_cancel₀ h)
      rw [map_mul, map_intCast, map_intCast, map_one] at this
      push_cast at this
      exact this
    apply eq_inv_of_mul_eq_one_left
    simp only [val_def, invertWith, hr, Option.getD_some, f2_emod]; push_cast
    linear_combination hr3 - (a.x : F2) * a.x * r * F2.i_sq

@[simp] theorem val_invert (a : GfP2) : a.invert.val = a.val⁻¹ := val_invertWith 0 a

theorem mod_self (a b : Int) (h : (a : BF) = b) : a % bnP = b % bnP := (bf_eq_iff a b).1 h

/-- The leftover never matters. -/
theorem invertWith_eq (l : Int) (a : GfP2) : a.invertWith l = a.invert := by
  have h := (val_invertWith l a).trans (val_invert a).symm
  rw [val_eq_iff] at h
  simp only [invert, invertWith, Int.emod_emod_of_dvd _ (dvd_refl bnP)] at h ⊢
  rw [h.1, h.2]

end GfP2

/-! ## Bits and exponentiation -/

theorem lt_two_pow_bitLen (k : Int) : k.natAbs < 2 ^ bitLen k := by
  unfold bitLen
  split
  · rename_i h; subst h; simp
  · exact Nat.lt_log2_self

theorem two_pow_bitLen_le (k : Int) (hk : k ≠ 0) : 2 ^ (bitLen k - 1) ≤ k.natAbs := by
  unfold bitLen
  rw [if_neg hk]
  exact Nat.log2_self_le (by omega)

/-- The low `n+1` bits of `k`. -/
theorem emod_two_pow_succ (k : Int) (n : Nat) :
    (k % 2 ^ (n + 1)).toNat = (if intBit k n then 2 ^ n else 0) + (k % 2 ^ n).toNat := by
  have hp : (0 : Int) < 2 ^ n := by positivity
  have h1 : k % 2 ^ (n + 1) = 2 ^ n * (k / 2 ^ n % 2) + k % 2 ^ n := by
    have e1 := Int.emod_add_mul_ediv k (2 ^ n)
    have e2 := Int.emod_add_mul_ediv (k / 2 ^ n) 2
    have e3 : k = 2 ^ (n + 1) * (k / 2 ^ n / 2) + (2 ^ n * (k / 2 ^ n % 2) + k % 2 ^ n) := by
      conv_lhs => rw [← e1, ← e2]
      rw [pow_succ]; ring
    have hb : k / 2 ^ n % 2 = 0 ∨ k / 2 ^ n % 2 = 1 := Int.emod_two_eq_zero_or_one _
    have hm0 := Int.emod_nonneg k hp.ne'
    have hm1 := Int.emod_lt_of_pos k hp
    conv_lhs => rw [e3]
    rw [Int.mul_add_emod_self_left]
    apply Int.emod_eq_of_lt
    · rcases hb with h | h <;> rw [h] <;> omega
    · rw [pow_succ]; rcases hb with h | h <;> rw [h] <;> omega
  have hm0 := Int.emod_nonneg k hp.ne'
  rw [h1]
  rcases Int.emod_two_eq_zero_or_one (k / 2 ^ n) with h | h
  · have : intBit k n = false := by simp [intBit, h]
    rw [this, h]; simp
  · have : intBit k n = true := by simp [intBit, h]
    rw [this, h]
    simp only [mul_one, if_true]
    rw [Int.toNat_add hp.le hm0]
    congr 1

theorem emod_bitLen_of_nonneg {k : Int} (hk : 0 ≤ k) : (k % 2 ^ bitLen k).toNat = k.toNat := by
  rw [Int.emod_eq_of_lt hk]
  have := lt_two_pow_bitLen k
  have h2 : (k.natAbs : Int) < 2 ^ bitLen k := by exact_mod_cast this
  omega

theorem emod_bitLen_of_neg {k : Int} (hk : k < 0) :
    (k % 2 ^ bitLen k).toNat = 2 ^ bitLen k - k.natAbs := by
  have := lt_two_pow_bitLen k
  have h3 : (k.natAbs : Int) < 2 ^ bitLen k := by exact_mod_cast this
  have : k % 2 ^ bitLen k = 2 ^ bitLen k - k.natAbs := by
    rw [← Int.add_emod_right, Int.emod_eq_of_lt] <;> omega
  rw [this]
  have h4 : ((2 ^ bitLen k : Nat) : Int) = 2 ^ bitLen k := by push_cast; rfl
  omega

theorem GfP2.val_expLoop (a : GfP2) (k : Int) (n : Nat) (s : GfP2) :
    (expLoop a k n s).val = s.val ^ (2 ^ n) * a.val ^ (k % 2 ^ n).toNat := by
  induction n generalizing s with
  | zero => simp [expLoop]
  | succ n ih =>
    rw [expLoop, ih, emod_two_pow_succ, pow_succ 2 n, mul_comm (2 ^ n) 2, pow_mul]
    cases intBit k n
    · simp
    · simp only [if_true, val_mul, val_square]
      rw [mul_pow, pow_add]; ring

/-- `gfP2.Exp` for an exponent `k ≥ 0`. -/
theorem GfP2.val_exp (a : GfP2) {k : Int} (hk : 0 ≤ k) : (a.exp k).val = a.val ^ k.toNat := by
  rw [exp, val_expLoop, emod_bitLen_of_nonneg hk]; simp

/-! ## Frobenius on `F2`, and `ξ` is neither a square nor a cube -/

theorem F2.i_pow_p : F2.i ^ bnPn = -F2.i := by
  have h : bnPn = 2 * (2 * (bnPn / 4) + 1) + 1 := by decide +kernel
  rw [h, pow_succ, pow_mul, F2.i_sq, pow_succ, pow_mul]; simp

theorem f2_cast_pow_p (a : Int) : (a : F2) ^ bnPn = a := by
  rw [← map_intCast (algebraMap BF F2), ← map_pow, ZMod.pow_card]

/-- `a^p` is the conjugate. -/
theorem GfP2.val_conj (a : GfP2) : a.conj.val = a.val ^ bnPn := by
  rw [val_def, val_def, add_pow_char, mul_pow, f2_cast_pow_p, f2_cast_pow_p, F2.i_pow_p]
  simp only [conj]; push_cast; ring

theorem GfP2.val_pow_p2 (a : GfP2) : a.val ^ (bnPn ^ 2) = a.val := by
  rw [pow_two, pow_mul, ← val_conj, ← val_conj]
  simp [val_def, conj]

/-- Every element of `F2` is the value of some `gfP2`. -/
theorem GfP2.val_surjective (z : F2) : ∃ a : GfP2, a.val = z := by
  have key : ∀ q : BF[X], ∃ a : GfP2, a.val = AdjoinRoot.mk (X ^ 2 - C (-1) : BF[X]) q := by
    intro q
    induction q using Polynomial.induction_on' with
    | add p q hp hq =>
      obtain ⟨a, ha⟩ := hp
      obtain ⟨b, hb⟩ := hq
      exact ⟨a.add b, by rw [val_add, ha, hb, map_add]; rfl⟩
    | monomial n c =>
      induction n with
      | zero =>
        refine ⟨⟨0, (c.val : Int)⟩, ?_⟩
        rw [GfP2.val]
        simp only [Int.cast_zero, map_zero, zero_mul, zero_add, Int.cast_natCast, ZMod.natCast_zmod_val,
          monomial_zero_left]
        rfl
      | succ n ih =>
        obtain ⟨a, ha⟩ := ih
        refine ⟨a.mul ⟨1, 0⟩, ?_⟩
        rw [val_mul, ha, ← monomial_mul_X, map_mul, AdjoinRoot.mk_X]
        have : (⟨1, 0⟩ : GfP2).val = F2.i := by simp [val_def]
        rw [this]; rfl
  obtain ⟨q, rfl⟩ := AdjoinRoot.mk_surjective z
  exact key q

theorem F2.pow_p2 (z : F2) : z ^ (bnPn ^ 2) = z := by
  obtain ⟨a, rfl⟩ := GfP2.val_surjective z
  exact a.val_pow_p2

theorem F2.pow_p2_sub_one {z : F2} (hz : z ≠ 0) : z ^ (bnPn ^ 2 - 1) = 1 := by
  have h := F2.pow_p2 z
  have e : bnPn ^ 2 = bnPn ^ 2 - 1 + 1 := by decide +kernel
  rw [e, pow_succ] at h
  exact mul_right_cancel₀ hz (by rw [one_mul]; exact h)

theorem val_xi : (⟨1, 9⟩ : GfP2).val = F2.xi := by simp [GfP2.val_def, F2.xi]

/-- A power of `ξ` computed with the model's `Exp`. -/
theorem xi_pow (k : Int) (hk : 0 ≤ k) (c : GfP2) (h : (GfP2.exp ⟨1, 9⟩ k) = c) :
    F2.xi ^ k.toNat = c.val := by
  rw [← h, GfP2.val_exp _ hk, val_xi]

theorem xi_ne_zero : F2.xi ≠ 0 := by
  rw [← val_xi, Ne, GfP2.val_eq_zero]
  simp

theorem xi_pow_sixth : F2.xi ^ ((bnPn - 1) / 6) = xiToPMinus1Over6.val := by
  rw [show (bnPn - 1) / 6 = ((bnP - 1) / 6).toNat by decide +kernel]
  exact xi_pow ((bnP - 1) / 6) (by decide +kernel) _ (by decide +kernel)
theorem xi_pow_third : F2.xi ^ ((bnPn - 1) / 3) = xiToPMinus1Over3.val := by
  rw [show (bnPn - 1) / 3 = ((bnP - 1) / 3).toNat by decide +kernel]
  exact xi_pow ((bnP - 1) / 3) (by decide +kernel) _ (by decide +kernel)
theorem xi_pow_half : F2.xi ^ ((bnPn - 1) / 2) = xiToPMinus1Over2.val := by
  rw [show (bnPn - 1) / 2 = ((bnP - 1) / 2).toNat by decide +kernel]
  exact xi_pow ((bnP - 1) / 2) (by decide +kernel) _ (by decide +kernel)
theorem xi_pow_two_thirds : F2.xi ^ ((2 * bnPn - 2) / 3) = xiTo2PMinus2Over3.val := by
  rw [show (2 * bnPn - 2) / 3 = ((2 * bnP - 2) / 3).toNat by decide +kernel]
  exact xi_pow ((2 * bnP - 2) / 3) (by decide +kernel) _ (by decide +kernel)
theorem xi_pow_p2_third : F2.xi ^ ((bnPn ^ 2 - 1) / 3) = (xiToPSquaredMinus1Over3 : F2) := by
  rw [show (bnPn ^ 2 - 1) / 3 = ((bnP ^ 2 - 1) / 3).toNat by decide +kernel,
    xi_pow ((bnP ^ 2 - 1) / 3) (by decide +kernel) ⟨0, xiToPSquaredMinus1Over3⟩ (by decide +kernel)]
  simp [GfP2.val_def]
theorem xi_pow_p2_two_thirds : F2.xi ^ ((2 * bnPn ^ 2 - 2) / 3) = (xiTo2PSquaredMinus2Over3 : F2) := by
  rw [show (2 * bnPn ^ 2 - 2) / 3 = ((2 * bnP ^ 2 - 2) / 3).toNat by decide +kernel,
    xi_pow ((2 * bnP ^ 2 - 2) / 3) (by decide +kernel) ⟨0, xiTo2PSquaredMinus2Over3⟩ (by decide +kernel)]
  simp [GfP2.val_def]
theorem xi_pow_p2_sixth : F2.xi ^ ((bnPn ^ 2 - 1) / 6) = (xiToPSquaredMinus1Over6 : F2) := by
  rw [show (bnPn ^ 2 - 1) / 6 = ((bnP ^ 2 - 1) / 6).toNat by decide +kernel,
    xi_pow ((bnP ^ 2 - 1) / 6) (by decide +kernel) ⟨0, xiToPSquaredMinus1Over6⟩ (by decide +kernel)]
  simp [GfP2.val_def]
theorem xi_pow_p2_half : F2.xi ^ ((bnPn ^ 2 - 1) / 2) = -1 := by
  rw [show (bnPn ^ 2 - 1) / 2 = ((bnP ^ 2 - 1) / 2).toNat by decide +kernel,
    xi_pow ((bnP ^ 2 - 1) / 2) (by decide +kernel) ⟨0, bnP - 1⟩ (by decide +kernel),
    show (⟨0, bnP - 1⟩ : GfP2).val = (⟨0, -1⟩ : GfP2).val from (GfP2.val_eq_iff _ _).2 (by decide +kernel)]
  simp [GfP2.val_def]

theorem f2_not_cube (w : F2) : w ^ 3 ≠ F2.xi := by
  intro h
  have hw : w ≠ 0 := by
    rintro rfl
    exact xi_ne_zero (by rw [← h]; ring)
  have h1 := xi_pow_p2_third
  rw [← h, ← pow_mul, show 3 * ((bnPn ^ 2 - 1) / 3) = bnPn ^ 2 - 1 by decide +kernel,
    F2.pow_p2_sub_one hw] at h1
  have h2 : (⟨0, xiToPSquaredMinus1Over3⟩ : GfP2).val = GfP2.one.val := by
    rw [GfP2.val_one]; simp [GfP2.val_def, ← h1]
  rw [GfP2.val_eq_iff] at h2
  exact absurd h2 (by decide +kernel)

/-! ## `F6` -/

instance : Fact (Irreducible (X ^ 3 - C F2.xi : F2[X])) :=
  ⟨X_pow_sub_C_irreducible_of_prime Nat.prime_three f2_not_cube⟩

noncomputable instance : Field F6 := inferInstanceAs (Field (AdjoinRoot (X ^ 3 - C F2.xi : F2[X])))
noncomputable instance : DecidableEq F6 := Classical.decEq _

theorem F6.tau_cube : F6.tau ^ 3 = algebraMap F2 F6 F2.xi := by
  have h : aeval (AdjoinRoot.root (X ^ 3 - C F2.xi : F2[X])) (X ^ 3 - C F2.xi : F2[X]) = 0 := by
    rw [AdjoinRoot.aeval_eq, AdjoinRoot.mk_self]
  simp only [map_sub, map_pow, aeval_X, aeval_C] at h
  exact sub_eq_zero.1 h

theorem F6.coord {x y z : F2}
    (h : algebraMap F2 F6 x * F6.tau ^ 2 + algebraMap F2 F6 y * F6.tau + algebraMap F2 F6 z = 0) :
    x = 0 ∧ y = 0 ∧ z = 0 := by
  have h' : AdjoinRoot.mk (X ^ 3 - C F2.xi : F2[X]) (C x * X ^ 2 + C y * X + C z) = 0 := by
    rw [map_add, map_add, map_mul, map_mul, map_pow, AdjoinRoot.mk_X]
    exact h
  rw [AdjoinRoot.mk_eq_zero] at h'
  have h0 := eq_zero_of_dvd_of_degree_lt h' (by
    rw [degree_X_pow_sub_C (by norm_num)]
    refine lt_of_le_of_lt degree_quadratic_le (by norm_num))
  refine ⟨?_, ?_, ?_⟩
  · simpa [coeff_X, coeff_C] using congrArg (fun q => coeff q 2) h0
  · simpa [coeff_X_pow, coeff_C] using congrArg (fun q => coeff q 1) h0
  · simpa using congrArg (fun q => coeff q 0) h0

instance : CharP F6 bnPn := charP_of_injective_algebraMap (algebraMap F2 F6).injective bnPn

namespace GfP6

theorem val_eq_zero (a : GfP6) : a.val = 0 ↔ a.x.val = 0 ∧ a.y.val = 0 ∧ a.z.val = 0 := by
  constructor
  · exact fun h => F6.coord h
  · rintro ⟨h1, h2, h3⟩
    simp [GfP6.val, h1, h2, h3]

@[simp] theorem val_zero : GfP6.zero.val = 0 := by simp [GfP6.val, zero]
@[simp] theorem val_one : GfP6.one.val = 1 := by simp [GfP6.val, one]

@[simp] theorem val_add (a b : GfP6) : (a.add b).val = a.val + b.val := by
  simp only [GfP6.val, add, GfP2.val_add, map_add]; ring

@[simp] theorem val_sub (a b : GfP6) : (a.sub b).val = a.val - b.val := by
  simp only [GfP6.val, sub, GfP2.val_sub, map_sub]; ring

@[simp] theorem val_neg (a : GfP6) : a.neg.val = -a.val := by
  simp only [GfP6.val, neg, GfP2.val_neg, map_neg]; ring

@[simp] theorem val_double (a : GfP6) : a.double.val = 2 * a.val := by
  simp only [GfP6.val, double, GfP2.val_double, map_mul, map_ofNat]; ring

@[simp] theorem val_minimal (a : GfP6) : a.minimal.val = a.val := by
  simp [GfP6.val, minimal]

theorem val_eq_iff (a b : GfP6) :
    a.val = b.val ↔ a.x.val = b.x.val ∧ a.y.val = b.y.val ∧ a.z.val = b.z.val := by
  rw [← sub_eq_zero, ← val_sub, val_eq_zero]
  simp only [sub, GfP2.val_sub, sub_eq_zero]

@[simp] theorem val_mulScalar (a : GfP6) (b : GfP2) :
    (a.mulScalar b).val = a.val * algebraMap F2 F6 b.val := by
  simp only [GfP6.val, mulScalar, GfP2.val_mul, map_mul]; ring

@[simp] theorem val_mulGFP (a : GfP6) (b : Int) : (a.mulGFP b).val = a.val * (b : F6) := by
  simp only [GfP6.val, mulGFP, GfP2.val_mulScalar, map_mul, map_intCast]; ring

@[simp] theorem val_mulTau (a : GfP6) : a.mulTau.val = F6.tau * a.val := by
  simp only [GfP6.val, mulTau, GfP2.val_mulXi, map_mul]
  linear_combination (-algebraMap F2 F6 a.x.val) * F6.tau_cube

@[simp] theorem val_mul (a b : GfP6) : (a.mul b).val = a.val * b.val := by
  simp only [GfP6.val, mul, GfP2.val_mul, GfP2.val_add, GfP2.val_sub, GfP2.val_mulXi, map_mul,
    map_add, map_sub]
  generalize algebraMap F2 F6 a.x.val = x₁
  generalize algebraMap F2 F6 a.y.val = y₁
  generalize algebraMap F2 F6 a.z.val = z₁
  generalize algebraMap F2 F6 b.x.val = x₂
  generalize algebraMap F2 F6 b.y.val = y₂
  generalize algebraMap F2 F6 b.z.val = z₂
  linear_combination (-(x₁ * x₂ * F6.tau + x₁ * y₂ + x₂ * y₁)) * F6.tau_cube

@[simp] theorem val_square (a : GfP6) : a.square.val = a.val ^ 2 := by
  simp only [GfP6.val, square, GfP2.val_square, GfP2.val_add, GfP2.val_sub, GfP2.val_mulXi, map_mul,
    map_add, map_sub, map_pow]
  generalize algebraMap F2 F6 a.x.val = x₁
  generalize algebraMap F2 F6 a.y.val = y₁
  generalize algebraMap F2 F6 a.z.val = z₁
  linear_combination (-(x₁ * x₁ * F6.tau + x₁ * y₁ + x₁ * y₁)) * F6.tau_cube

/-- If all three cofactors vanish, so does the element. -/
theorem cofactors_zero {x y z : F2} (hA : z ^ 2 - F2.xi * (x * y) = 0) (hB : F2.xi * x ^ 2 - y * z = 0)
    (hC : y ^ 2 - x * z = 0) : x = 0 ∧ y = 0 ∧ z = 0 := by
  by_cases hx : x = 0
  · subst hx
    exact ⟨rfl, by simpa using hC, by simpa using hA⟩
  · exfalso
    apply f2_not_cube (y / x)
    rw [div_pow]
    rw [div_eq_iff (by positivity)]
    linear_combination y * hC - x * hB

@[simp] theorem val_invert (a : GfP6) : a.invert.val = a.val⁻¹ := by
  by_cases h0 : a.val = 0
  · obtain ⟨hx, hy, hz⟩ := (val_eq_zero a).1 h0
    rw [h0, inv_zero, GfP6.val]
    simp [invert, hx, hy, hz]
  · set A := a.z.val ^ 2 - F2.xi * (a.x.val * a.y.val) with hA
    set B := F2.xi * a.x.val ^ 2 - a.y.val * a.z.val with hB
    set C' := a.y.val ^ 2 - a.x.val * a.z.val with hC
    set F := F2.xi * (C' * a.y.val) + A * a.z.val + F2.xi * (B * a.x.val) with hF
    have hv : a.invert.val = algebraMap F2 F6 F⁻¹ *
        (algebraMap F2 F6 C' * F6.tau ^ 2 + algebraMap F2 F6 B * F6.tau + algebraMap F2 F6 A) := by
      simp only [GfP6.val, invert, GfP2.val_mul, GfP2.val_invert, GfP2.val_add, GfP2.val_sub,
        GfP2.val_mulXi, GfP2.val_square, ← hA, ← hB, ← hC, ← hF, map_mul]
      ring
    have hprod : a.val * (algebraMap F2 F6 C' * F6.tau ^ 2 + algebraMap F2 F6 B * F6.tau + algebraMap F2 F6 A)
        = algebraMap F2 F6 F := by
      rw [GfP6.val, hF, hA, hB, hC]
      simp only [map_mul, map_add, map_sub, map_pow]
      generalize algebraMap F2 F6 a.x.val = x
      generalize algebraMap F2 F6 a.y.val = y
      generalize algebraMap F2 F6 a.z.val = z
      rw [← F6.tau_cube]; ring
    have hF0 : F ≠ 0 := by
      intro hc
      rw [hc, map_zero] at hprod
      have := F6.coord ((mul_eq_zero.1 hprod).resolve_left h0)
      obtain ⟨c1, c2, c3⟩ := this
      have := cofactors_zero c3 c2 c1
      exact h0 ((val_eq_zero a).2 this)
    apply eq_inv_of_mul_eq_one_left
    rw [hv, mul_assoc, mul_comm _ a.val, hprod, ← map_mul, inv_mul_cancel₀ hF0, map_one]

theorem val_surjective (z : F6) : ∃ a : GfP6, a.val = z := by
  have key : ∀ q : F2[X], ∃ a : GfP6, a.val = AdjoinRoot.mk (X ^ 3 - C F2.xi : F2[X]) q := by
    intro q
    induction q using Polynomial.induction_on' with
    | add p q hp hq =>
      obtain ⟨a, ha⟩ := hp
      obtain ⟨b, hb⟩ := hq
      exact ⟨a.add b, by rw [val_add, ha, hb, map_add]; rfl⟩
    | monomial n c =>
      induction n with
      | zero =>
        obtain ⟨d, hd⟩ := GfP2.val_surjective c
        refine ⟨⟨.zero, .zero, d⟩, ?_⟩
        rw [GfP6.val]
        simp only [GfP2.val_zero, map_zero, zero_mul, zero_add, hd, monomial_zero_left]
        rfl
      | succ n ih =>
        obtain ⟨a, ha⟩ := ih
        refine ⟨a.mulTau, ?_⟩
        rw [val_mulTau, ha, ← monomial_mul_X, map_mul, AdjoinRoot.mk_X, mul_comm]
        rfl
  obtain ⟨q, rfl⟩ := AdjoinRoot.mk_surjective z
  exact key q

end GfP6

end Verif

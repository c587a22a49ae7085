import Verif.Spec.BnGroup
import Verif.Lemmas.SecpGroup
import Verif.Lemmas.Gfp12

/-!
# Group law of `curvePoint` and `twistPoint`
-/

namespace Verif

/-! ## Bits of the scalar -/

theorem emod_two_pow_succ_nat (k : Int) (n : Nat) :
    (k % 2 ^ (n + 1)).toNat = (if intBit k n then 2 ^ n else 0) + (k % 2 ^ n).toNat :=
  emod_two_pow_succ k n

theorem emod_bitLen_succ {k : Int} (hk : 0 ≤ k) : k % 2 ^ (bitLen k + 1) = k := by
  have h := lt_two_pow_bitLen k
  have h2 : (k.natAbs : Int) < 2 ^ bitLen k := by exact_mod_cast h
  apply Int.emod_eq_of_lt hk
  rw [pow_succ]; omega

/-! ## `G1` -/

theorem bf_three_ne : (3 : BF) ≠ 0 := bf_three

theorem Rep1.zero_iff {a : CurvePoint} {Q : BG1} (h : Rep1 a Q) : Q = 0 ↔ (a.z : BF) = 0 := Jac.zero_iff h.1

theorem Rep1.isInfinity {a : CurvePoint} {Q : BG1} (h : Rep1 a Q) : a.isInfinity = true ↔ Q = 0 := by
  rw [CurvePoint.isInfinity, beq_iff_eq, h.zero_iff]
  exact ⟨fun h => by rw [h]; simp, h.2.2⟩

theorem Rep1.z_ne {a : CurvePoint} {Q : BG1} (h : Rep1 a Q) (hQ : Q ≠ 0) : (a.z : BF) ≠ 0 :=
  fun hc => hQ ((Jac.zero_iff h.1).2 hc)

theorem Rep1.eq_iff {a b : CurvePoint} {Q R : BG1} (ha : Rep1 a Q) (hb : Rep1 b R) (hQ : Q ≠ 0) (hR : R ≠ 0) :
    Q = R ↔ (a.x : BF) * (b.z : BF) ^ 2 = b.x * (a.z : BF) ^ 2 ∧ (a.y : BF) * (b.z : BF) ^ 3 = b.y * (a.z : BF) ^ 3 :=
  Jac.eq_iff ha.1 hb.1 (ha.z_ne hQ) (hb.z_ne hR)

theorem Rep1.unique {a : CurvePoint} {Q R : BG1} (h : Rep1 a Q) (h' : Rep1 a R) : Q = R := by
  by_cases hQ : Q = 0
  · rw [hQ, eq_comm, ← h'.isInfinity, h.isInfinity, hQ]
  · have hz := h.z_ne hQ
    exact (Jac.eq_iff h.1 h'.1 hz hz).2 ⟨rfl, rfl⟩

/-- The cached coordinate `t` does not matter. -/
theorem Rep1.t {x y z t t' : Int} {Q : BG1} (h : Rep1 ⟨x, y, z, t⟩ Q) : Rep1 ⟨x, y, z, t'⟩ Q := h

theorem rep1_infinity {a : CurvePoint} (h : a.z = 0) : Rep1 a 0 :=
  ⟨Or.inl ⟨by rw [h]; simp, rfl⟩, by omega, fun _ => h⟩

namespace CurvePoint

theorem doubleXY_cast (a : CurvePoint) :
    ((doubleXY a).1 : BF) = (3 * (a.x : BF) ^ 2) ^ 2 - 2 * (4 * a.x * (a.y : BF) ^ 2) ∧
    ((doubleXY a).2 : BF) = 3 * (a.x : BF) ^ 2 * (4 * a.x * (a.y : BF) ^ 2 -
      ((3 * (a.x : BF) ^ 2) ^ 2 - 2 * (4 * a.x * (a.y : BF) ^ 2))) - 8 * (a.y : BF) ^ 4 := by
  constructor <;>
  · simp only [doubleXY, bf_emod, Int.cast_mul, Int.cast_sub, Int.cast_add]
    ring

theorem two_mul_emod_zero {m : Int} (h : ((m % bnP + m % bnP : Int) : BF) = 0) : m % bnP + m % bnP = 0 := by
  have h1 : ((m % bnP : Int) : BF) = 0 := by
    push_cast at h
    have : (2 : BF) * ((m % bnP : Int) : BF) = 0 := by linear_combination h
    exact (mul_eq_zero.1 this).resolve_left bf_two
  have h2 := (bf_inj (Int.emod_nonneg m (ne_of_gt bnP_pos)) (Int.emod_lt_of_pos m bnP_pos)
    (le_refl 0) bnP_pos).1 (by simpa using h1)
  omega

theorem emod_zero_of_cast {m : Int} (h : ((m % bnP : Int) : BF) = 0) : m % bnP = 0 :=
  (bf_inj (Int.emod_nonneg m (ne_of_gt bnP_pos)) (Int.emod_lt_of_pos m bnP_pos)
    (le_refl 0) bnP_pos).1 (by simpa using h)

theorem double_rep {a : CurvePoint} {Q : BG1} (c : CurvePoint) (h : Rep1 a Q) :
    Rep1 (double c a) (Q + Q) := by
  obtain ⟨e1, e2⟩ := doubleXY_cast a
  refine ⟨?_, ?_, ?_⟩
  · refine Jac.double bf_two h.1 rfl rfl e1 ?_ ?_
    · rw [show ((double c a).y : BF) = ((doubleXY a).2 : BF) from rfl, e2]
      rw [show ((double c a).x : BF) = ((doubleXY a).1 : BF) from rfl, e1]
    · simp only [double, Int.cast_add, bf_emod, Int.cast_mul]; ring
  · have := Int.emod_nonneg (a.y * a.z) (ne_of_gt bnP_pos)
    simp only [double]; omega
  · exact two_mul_emod_zero

theorem addXYZ_none {a b : CurvePoint} {Q R : BG1} (ha : Rep1 a Q) (hb : Rep1 b R) (hQ : Q ≠ 0) (hR : R ≠ 0) :
    addXYZ a b = none ↔ Q = R := by
  have key : ∀ m n : Int, n % bnP - m % bnP = 0 ↔ (m : BF) = (n : BF) := by
    intro m n
    rw [bf_eq_iff, sub_eq_zero, eq_comm]
  rw [ha.eq_iff hb hQ hR]
  simp only [addXYZ, beq_iff_eq, Bool.and_eq_true, key, Int.cast_mul, bf_emod]
  split
  · rename_i h
    simp only [true_iff]
    refine ⟨?_, ?_⟩
    · linear_combination h.1
    · linear_combination h.2
  · rename_i h
    simp only [reduceCtorEq, false_iff]
    contrapose! h
    refine ⟨?_, ?_⟩
    · linear_combination h.1
    · linear_combination h.2

theorem addXYZ_some {a b : CurvePoint} {Q R : BG1} (ha : Rep1 a Q) (hb : Rep1 b R) (hQ : Q ≠ 0) (hR : R ≠ 0)
    {x y z : Int} (h : addXYZ a b = some (x, y, z)) (t : Int) : Rep1 ⟨x, y, z, t⟩ (Q + R) := by
  have hne : Q ≠ R := by
    intro hc
    rw [← addXYZ_none ha hb hQ hR, h] at hc
    cases hc
  simp only [addXYZ] at h
  split at h
  · cases h
  · simp only [Option.some.injEq, Prod.mk.injEq] at h
    obtain ⟨e1, e2, e3⟩ := h
    refine ⟨?_, ?_, ?_⟩
    · refine Jac.add (z₁ := (a.z : BF)) (z₂ := (b.z : BF)) bf_two ha.1 hb.1 (ha.z_ne hQ) (hb.z_ne hR) hne
        rfl rfl rfl rfl ?_ ?_ ?_
      · rw [← e1]; simp only [bf_emod, Int.cast_mul, Int.cast_sub, Int.cast_add]; ring
      · rw [← e2, ← e1]; simp only [bf_emod, Int.cast_mul, Int.cast_sub, Int.cast_add]; ring
      · rw [← e3]; simp only [bf_emod, Int.cast_mul, Int.cast_sub, Int.cast_add]; ring
    · rw [← e3]; exact Int.emod_nonneg _ (ne_of_gt bnP_pos)
    · rw [← e3]; exact emod_zero_of_cast

theorem add_rep {a b : CurvePoint} {Q R : BG1} (c : CurvePoint) (ha : Rep1 a Q) (hb : Rep1 b R) :
    Rep1 (add c a b) (Q + R) := by
  unfold add
  by_cases hQ : Q = 0
  · rw [if_pos (ha.isInfinity.2 hQ), hQ, zero_add]; exact hb
  rw [if_neg (fun h => hQ (ha.isInfinity.1 h))]
  by_cases hR : R = 0
  · rw [if_pos (hb.isInfinity.2 hR), hR, add_zero]; exact ha
  rw [if_neg (fun h => hR (hb.isInfinity.1 h))]
  split
  · rename_i h
    rw [addXYZ_none ha hb hQ hR] at h
    subst h
    exact double_rep c ha
  · rename_i x y z h
    exact addXYZ_some ha hb hQ hR h _

/-- The in-place addition is right unless both operands are the same finite point. -/
theorem addSelf_rep {a b : CurvePoint} {Q R : BG1} (ha : Rep1 a Q) (hb : Rep1 b R) (h : Q ≠ R ∨ Q = 0) :
    Rep1 (addSelf a b) (Q + R) := by
  unfold addSelf
  by_cases hQ : Q = 0
  · rw [if_pos (ha.isInfinity.2 hQ), hQ, zero_add]; exact hb
  rw [if_neg (fun h => hQ (ha.isInfinity.1 h))]
  by_cases hR : R = 0
  · rw [if_pos (hb.isInfinity.2 hR), hR, add_zero]; exact ha
  rw [if_neg (fun h => hR (hb.isInfinity.1 h))]
  split
  · rename_i h'
    rw [addXYZ_none ha hb hQ hR] at h'
    exact absurd h' (h.resolve_right hQ)
  · rename_i x y z h
    exact addXYZ_some ha hb hQ hR h _

theorem mulLoop_rep {a : CurvePoint} {Q : BG1} (ha : Rep1 a Q) (k : Int) (n : Nat) (s t : CurvePoint) (S : BG1)
    (hs : Rep1 s S) : Rep1 (mulLoop a k n s t) (2 ^ n • S + (k % 2 ^ n).toNat • Q) := by
  induction n generalizing s t S with
  | zero => simpa [mulLoop] using hs
  | succ n ih =>
    rw [mulLoop, emod_two_pow_succ_nat]
    have hd := double_rep t hs
    by_cases hb : intBit k n
    · simp only [hb, if_true]
      have := ih _ (double t s) _ (add_rep s hd ha)
      convert this using 1
      rw [smul_add, smul_add, add_smul, pow_succ, mul_smul, two_smul, smul_add]; abel
    · simp only [hb, Bool.false_eq_true, if_false, zero_add]
      have := ih _ (double t s) _ hd
      convert this using 1
      rw [pow_succ, mul_smul, two_smul]

theorem mul_rep {a : CurvePoint} {Q : BG1} (ha : Rep1 a Q) {k : Int} (hk : 0 ≤ k) :
    Rep1 (a.mul k) (k • Q) := by
  have := mulLoop_rep ha k (bitLen k + 1) new.setInfinity new 0 (rep1_infinity rfl)
  rw [emod_bitLen_succ hk, smul_zero, zero_add, ← natCast_zsmul, Int.toNat_of_nonneg hk] at this
  exact this

theorem neg_rep {a : CurvePoint} {Q : BG1} (ha : Rep1 a Q) : Rep1 a.neg (-Q) := by
  refine ⟨?_, ha.2⟩
  rcases ha.1 with ⟨h1, h2⟩ | ⟨h1, h2⟩
  · exact Or.inl ⟨h1, by rw [h2]; exact neg_zero (G := BG1)⟩
  · refine Or.inr ⟨h1, h2.neg.congr rfl ?_⟩
    simp only [neg, Int.cast_neg]; ring

theorem makeAffine_rep {a : CurvePoint} {Q : BG1} (ha : Rep1 a Q) : Rep1 a.makeAffine Q := by
  unfold makeAffine
  split
  · exact ha
  · split
    · rename_i h
      rw [ha.isInfinity] at h
      rw [h]; exact rep1_infinity rfl
    · rename_i h
      rw [ha.isInfinity] at h
      have hz := ha.z_ne h
      obtain ⟨r, hr, _, _, hrF⟩ := modInverse_bn hz
      refine ⟨?_, Int.one_nonneg, fun h => absurd h (by simp)⟩
      simp only [hr, Option.getD_some, Int.cast_one]
      apply Jac.of_affine
      refine (ha.1.finite hz).congr ?_ ?_
      · simp only [bf_emod, Int.cast_mul, hrF]; field_simp
      · simp only [bf_emod, Int.cast_mul, hrF]; field_simp

/-- After `MakeAffine` a finite point has `z = 1`. -/
theorem makeAffine_z {a : CurvePoint} {Q : BG1} (ha : Rep1 a Q) (hQ : Q ≠ 0) : a.makeAffine.z = 1 := by
  unfold makeAffine
  split
  · rename_i h
    have := ha.2.1
    omega
  · rw [if_neg (fun h => hQ (ha.isInfinity.1 h))]

end CurvePoint

theorem rep1_gen_eqn : ((-2 : Int) : BF) ^ 2 = ((1 : Int) : BF) ^ 3 + 3 := by
  push_cast; ring

/-- The generator of `G1`. -/
def bnG1 : BG1 := .some _ _ (curve_nonsingular bf_two bf_three bf_three rep1_gen_eqn)

theorem rep1_gen : Rep1 .gen bnG1 := by
  refine ⟨?_, by decide, fun h => absurd h (by simp [CurvePoint.gen])⟩
  have : Jac bnG1 ((1 : Int) : BF) ((-2 : Int) : BF) 1 := Jac.of_affine ⟨_, rfl⟩
  simpa [CurvePoint.gen] using this

theorem bnG1_ne_zero : bnG1 ≠ 0 := by
  intro h
  have := rep1_gen.isInfinity.2 h
  exact absurd this (by decide)

theorem bnG1_order : bnNn • bnG1 = 0 := by
  have h := CurvePoint.mul_rep rep1_gen (k := bnOrder) (by decide)
  have h2 : (CurvePoint.gen.mul bnOrder).isInfinity = true := by decide +kernel
  rw [h.isInfinity, bnOrder_eq, natCast_zsmul] at h2
  exact h2

theorem bf_no_cube (x : BF) : x ^ 3 + 3 ≠ 0 := by
  refine no_cube_root (bnPn - 3) 3 bf_three ?_ (by decide +kernel) (by decide +kernel)
    (by decide +kernel) x
  have h : ((bnPn - 3 + 3 : Nat) : BF) = 0 := by
    rw [show bnPn - 3 + 3 = bnPn by decide +kernel]; exact ZMod.natCast_self _
  push_cast at h
  linear_combination h

theorem bg1_card : Nat.card BG1 = bnNn :=
  card_point_eq bnNn (Fact.out) bnG1 bnG1_ne_zero bnG1_order (by decide +kernel) bf_no_cube
    (by decide +kernel)

theorem bg1_nsmul (Q : BG1) : bnNn • Q = 0 := by
  rw [← bg1_card]; exact card_nsmul_eq_zero'

/-! ## `G2` -/

theorem twistB_val : twistB.val = 3 / F2.xi := by
  rw [eq_div_iff xi_ne_zero, ← val_xi, ← GfP2.val_mul]
  have : (⟨0, 3⟩ : GfP2).val = 3 := by simp [GfP2.val_def]
  rw [← this, GfP2.val_eq_iff]
  decide +kernel

theorem twist_ne : (3 : F2) / F2.xi ≠ 0 := div_ne_zero f2_three xi_ne_zero

theorem Rep2.zero_iff {a : TwistPoint} {Q : BG2} (h : Rep2 a Q) : Q = 0 ↔ a.z.val = 0 := Jac.zero_iff h.1

theorem Rep2.isInfinity {a : TwistPoint} {Q : BG2} (h : Rep2 a Q) : a.isInfinity = true ↔ Q = 0 := by
  rw [h.zero_iff, TwistPoint.isInfinity, GfP2.isZero, Bool.and_eq_true, beq_iff_eq, beq_iff_eq]
  constructor
  · rintro ⟨h1, h2⟩
    simp [GfP2.val_def, h1, h2]
  · intro hc
    rw [h.2.2 hc]; exact ⟨rfl, rfl⟩

theorem Rep2.z_ne {a : TwistPoint} {Q : BG2} (h : Rep2 a Q) (hQ : Q ≠ 0) : a.z.val ≠ 0 :=
  fun hc => hQ ((Jac.zero_iff h.1).2 hc)

theorem Rep2.eq_iff {a b : TwistPoint} {Q R : BG2} (ha : Rep2 a Q) (hb : Rep2 b R) (hQ : Q ≠ 0) (hR : R ≠ 0) :
    Q = R ↔ a.x.val * b.z.val ^ 2 = b.x.val * a.z.val ^ 2 ∧ a.y.val * b.z.val ^ 3 = b.y.val * a.z.val ^ 3 :=
  Jac.eq_iff ha.1 hb.1 (ha.z_ne hQ) (hb.z_ne hR)

theorem Rep2.unique {a : TwistPoint} {Q R : BG2} (h : Rep2 a Q) (h' : Rep2 a R) : Q = R := by
  by_cases hQ : Q = 0
  · rw [hQ, eq_comm, ← h'.isInfinity, h.isInfinity, hQ]
  · have hz := h.z_ne hQ
    exact (Jac.eq_iff h.1 h'.1 hz hz).2 ⟨rfl, rfl⟩

theorem Rep2.t {x y z t t' : GfP2} {Q : BG2} (h : Rep2 ⟨x, y, z, t⟩ Q) : Rep2 ⟨x, y, z, t'⟩ Q := h

theorem rep2_infinity {a : TwistPoint} (h : a.z = .zero) : Rep2 a 0 :=
  ⟨Or.inl ⟨by rw [h]; simp, rfl⟩, by rw [h]; exact le_refl 0, fun _ => h⟩

theorem GfP2.mul_red (a b : GfP2) : (a.mul b).Red :=
  ⟨Int.emod_nonneg _ (ne_of_gt bnP_pos), Int.emod_lt_of_pos _ bnP_pos,
    Int.emod_nonneg _ (ne_of_gt bnP_pos), Int.emod_lt_of_pos _ bnP_pos⟩

theorem GfP2.square_red (a : GfP2) : a.square.Red :=
  ⟨Int.emod_nonneg _ (ne_of_gt bnP_pos), Int.emod_lt_of_pos _ bnP_pos,
    Int.emod_nonneg _ (ne_of_gt bnP_pos), Int.emod_lt_of_pos _ bnP_pos⟩

theorem GfP2.isZero_sub {a b : GfP2} (ha : a.Red) (hb : b.Red) :
    (a.sub b).isZero = true ↔ a.val = b.val := by
  rw [isZero, Bool.and_eq_true, beq_iff_eq, beq_iff_eq]
  constructor
  · rintro ⟨h1, h2⟩
    simp only [sub] at h1 h2
    rw [val_def, val_def, sub_eq_zero.1 h1, sub_eq_zero.1 h2]
  · intro h
    rw [ha.eq hb h]; simp [sub]

namespace TwistPoint

theorem doubleXY_val (a : TwistPoint) :
    (doubleXY a).1.val = (3 * a.x.val ^ 2) ^ 2 - 2 * (4 * a.x.val * a.y.val ^ 2) ∧
    (doubleXY a).2.val = 3 * a.x.val ^ 2 * (4 * a.x.val * a.y.val ^ 2 -
      ((3 * a.x.val ^ 2) ^ 2 - 2 * (4 * a.x.val * a.y.val ^ 2))) - 8 * a.y.val ^ 4 := by
  constructor <;>
  · simp only [doubleXY, GfP2.val_add, GfP2.val_sub, GfP2.val_mul, GfP2.val_square]
    ring

theorem double_rep {a : TwistPoint} {Q : BG2} (c : TwistPoint) (h : Rep2 a Q) :
    Rep2 (double c a) (Q + Q) := by
  obtain ⟨e1, e2⟩ := doubleXY_val a
  refine ⟨?_, ?_, ?_⟩
  · refine Jac.double f2_two h.1 rfl rfl e1 ?_ ?_
    · rw [show (double c a).y.val = (doubleXY a).2.val from rfl, e2]
      rw [show (double c a).x.val = (doubleXY a).1.val from rfl, e1]
    · simp only [double, GfP2.val_add, GfP2.val_mul]; ring
  · have := (GfP2.mul_red a.y a.z).2.2.1
    simp only [double, GfP2.add]; omega
  · intro h0
    simp only [double, GfP2.val_add] at h0
    have h1 : (a.y.mul a.z).val = GfP2.zero.val := by
      rw [GfP2.val_zero]
      have : (2 : F2) * (a.y.mul a.z).val = 0 := by linear_combination h0
      exact (mul_eq_zero.1 this).resolve_left f2_two
    have h2 := (GfP2.mul_red a.y a.z).eq GfP2.zero_red h1
    simp only [double, h2]; rfl

theorem addXYZ_none {a b : TwistPoint} {Q R : BG2} (ha : Rep2 a Q) (hb : Rep2 b R) (hQ : Q ≠ 0) (hR : R ≠ 0) :
    addXYZ a b = none ↔ Q = R := by
  rw [ha.eq_iff hb hQ hR]
  simp only [addXYZ, Bool.and_eq_true, GfP2.isZero_sub (GfP2.mul_red _ _) (GfP2.mul_red _ _), GfP2.val_mul,
    GfP2.val_square]
  split
  · rename_i h
    simp only [true_iff]
    refine ⟨?_, ?_⟩
    · linear_combination -h.1
    · linear_combination -h.2
  · rename_i h
    simp only [reduceCtorEq, false_iff]
    contrapose! h
    refine ⟨?_, ?_⟩
    · linear_combination -h.1
    · linear_combination -h.2

theorem addXYZ_some {a b : TwistPoint} {Q R : BG2} (ha : Rep2 a Q) (hb : Rep2 b R) (hQ : Q ≠ 0) (hR : R ≠ 0)
    {x y z : GfP2} (h : addXYZ a b = some (x, y, z)) (t : GfP2) : Rep2 ⟨x, y, z, t⟩ (Q + R) := by
  have hne : Q ≠ R := by
    intro hc
    rw [← addXYZ_none ha hb hQ hR, h] at hc
    cases hc
  simp only [addXYZ] at h
  split at h
  · cases h
  · simp only [Option.some.injEq, Prod.mk.injEq] at h
    obtain ⟨e1, e2, e3⟩ := h
    refine ⟨?_, ?_, ?_⟩
    · refine Jac.add (z₁ := a.z.val) (z₂ := b.z.val) f2_two ha.1 hb.1 (ha.z_ne hQ) (hb.z_ne hR) hne
        rfl rfl rfl rfl ?_ ?_ ?_
      · rw [← e1]; simp only [GfP2.val_add, GfP2.val_sub, GfP2.val_mul, GfP2.val_square]; ring
      · rw [← e2, ← e1]; simp only [GfP2.val_add, GfP2.val_sub, GfP2.val_mul, GfP2.val_square]; ring
      · rw [← e3]; simp only [GfP2.val_add, GfP2.val_sub, GfP2.val_mul, GfP2.val_square]; ring
    · rw [← e3]; exact (GfP2.mul_red _ _).2.2.1
    · rw [← e3]
      intro h0
      exact (GfP2.mul_red _ _).eq GfP2.zero_red (by rw [GfP2.val_zero]; exact h0)

theorem add_rep {a b : TwistPoint} {Q R : BG2} (c : TwistPoint) (ha : Rep2 a Q) (hb : Rep2 b R) :
    Rep2 (add c a b) (Q + R) := by
  unfold add
  by_cases hQ : Q = 0
  · rw [if_pos (ha.isInfinity.2 hQ), hQ, zero_add]; exact hb
  rw [if_neg (fun h => hQ (ha.isInfinity.1 h))]
  by_cases hR : R = 0
  · rw [if_pos (hb.isInfinity.2 hR), hR, add_zero]; exact ha
  rw [if_neg (fun h => hR (hb.isInfinity.1 h))]
  split
  · rename_i h
    rw [addXYZ_none ha hb hQ hR] at h
    subst h
    exact double_rep c ha
  · rename_i x y z h
    exact addXYZ_some ha hb hQ hR h _

theorem addSelf_rep {a b : TwistPoint} {Q R : BG2} (ha : Rep2 a Q) (hb : Rep2 b R) (h : Q ≠ R ∨ Q = 0) :
    Rep2 (addSelf a b) (Q + R) := by
  unfold addSelf
  by_cases hQ : Q = 0
  · rw [if_pos (ha.isInfinity.2 hQ), hQ, zero_add]; exact hb
  rw [if_neg (fun h => hQ (ha.isInfinity.1 h))]
  by_cases hR : R = 0
  · rw [if_pos (hb.isInfinity.2 hR), hR, add_zero]; exact ha
  rw [if_neg (fun h => hR (hb.isInfinity.1 h))]
  split
  · rename_i h'
    rw [addXYZ_none ha hb hQ hR] at h'
    exact absurd h' (h.resolve_right hQ)
  · rename_i x y z h
    exact addXYZ_some ha hb hQ hR h _

theorem mulLoop_rep {a : TwistPoint} {Q : BG2} (ha : Rep2 a Q) (k : Int) (n : Nat) (s t : TwistPoint) (S : BG2)
    (hs : Rep2 s S) : Rep2 (mulLoop a k n s t) (2 ^ n • S + (k % 2 ^ n).toNat • Q) := by
  induction n generalizing s t S with
  | zero => simpa [mulLoop] using hs
  | succ n ih =>
    rw [mulLoop, emod_two_pow_succ_nat]
    have hd := double_rep t hs
    by_cases hb : intBit k n
    · simp only [hb, if_true]
      have := ih _ (double t s) _ (add_rep s hd ha)
      convert this using 1
      rw [smul_add, smul_add, add_smul, pow_succ, mul_smul, two_smul, smul_add]; abel
    · simp only [hb, Bool.false_eq_true, if_false, zero_add]
      have := ih _ (double t s) _ hd
      convert this using 1
      rw [pow_succ, mul_smul, two_smul]

theorem mul_rep {a : TwistPoint} {Q : BG2} (ha : Rep2 a Q) {k : Int} (hk : 0 ≤ k) :
    Rep2 (a.mul k) (k • Q) := by
  have := mulLoop_rep ha k (bitLen k + 1) new.setInfinity new 0 (rep2_infinity rfl)
  rw [emod_bitLen_succ hk, smul_zero, zero_add, ← natCast_zsmul, Int.toNat_of_nonneg hk] at this
  exact this

theorem neg_rep {a : TwistPoint} {Q : BG2} (ha : Rep2 a Q) : Rep2 a.neg (-Q) := by
  refine ⟨?_, ha.2⟩
  rcases ha.1 with ⟨h1, h2⟩ | ⟨h1, h2⟩
  · exact Or.inl ⟨h1, by rw [h2]; exact neg_zero (G := BG2)⟩
  · refine Or.inr ⟨h1, h2.neg.congr rfl ?_⟩
    simp only [neg, GfP2.val_sub, GfP2.val_zero]; ring

theorem isOne_val {a : GfP2} (h : 0 ≤ a.y) (h1 : a.isOne = true) : a = .one := by
  simp only [GfP2.isOne] at h1
  split at h1
  · cases h1
  · rename_i hx
    rw [not_not] at hx
    rw [beq_iff_eq] at h1
    have : a.y = 1 := by omega
    cases a; simp_all [GfP2.one]

theorem makeAffine_rep {a : TwistPoint} {Q : BG2} (ha : Rep2 a Q) (hQ : Q ≠ 0) : Rep2 a.makeAffine Q := by
  unfold makeAffine
  split
  · exact ha
  · have hz := ha.z_ne hQ
    refine ⟨?_, Int.one_nonneg, fun h => absurd h (by simp)⟩
    simp only [GfP2.val_one]
    apply Jac.of_affine
    refine (ha.1.finite hz).congr ?_ ?_
    · simp only [GfP2.val_mul, GfP2.val_square, GfP2.val_invert]; field_simp
    · simp only [GfP2.val_mul, GfP2.val_square, GfP2.val_invert]; field_simp

theorem makeAffine_z (a : TwistPoint) {Q : BG2} (ha : Rep2 a Q) : a.makeAffine.z = .one := by
  unfold makeAffine
  split
  · rename_i h
    exact isOne_val ha.2.1 h
  · rfl

end TwistPoint

theorem rep2_gen_eqn : TwistPoint.gen.y.val ^ 2 = TwistPoint.gen.x.val ^ 3 + 3 / F2.xi := by
  rw [← twistB_val, pow_succ TwistPoint.gen.x.val, ← GfP2.val_square, ← GfP2.val_square, ← GfP2.val_mul, ← GfP2.val_add,
    GfP2.val_eq_iff]
  decide +kernel

/-- The generator of `G2`. -/
noncomputable def bnG2 : BG2 := .some _ _ (curve_nonsingular f2_two f2_three twist_ne rep2_gen_eqn)

theorem rep2_gen : Rep2 .gen bnG2 := by
  have h1 : TwistPoint.gen.z = .one := rfl
  refine ⟨?_, by decide, fun h => absurd h (by rw [h1]; simp)⟩
  rw [h1, GfP2.val_one]
  exact Jac.of_affine ⟨_, rfl⟩

theorem bnG2_ne_zero : bnG2 ≠ 0 := by
  intro h
  have := rep2_gen.isInfinity.2 h
  exact absurd this (by decide)

theorem bnG2_order : bnNn • bnG2 = 0 := by
  have h := TwistPoint.mul_rep rep2_gen (k := bnOrder) (by decide)
  have h2 : (TwistPoint.gen.mul bnOrder).isInfinity = true := by decide +kernel
  rw [h.isInfinity, bnOrder_eq, natCast_zsmul] at h2
  exact h2

/-! ## Every group element is represented -/

theorem rep1_exists (Q : BG1) : ∃ c, Rep1 c Q := by
  rcases isPt_or_zero Q with h | ⟨x, y, hp⟩
  · exact ⟨.new, by rw [h]; exact rep1_infinity rfl⟩
  · refine ⟨⟨x.val, y.val, 1, 1⟩, ?_, Int.one_nonneg, fun h => absurd h (by simp)⟩
    simp only [Int.cast_natCast, ZMod.natCast_zmod_val, Int.cast_one]
    exact Jac.of_affine hp

theorem rep2_exists (Q : BG2) : ∃ c, Rep2 c Q := by
  rcases isPt_or_zero Q with h | ⟨x, y, hp⟩
  · exact ⟨.new, by rw [h]; exact rep2_infinity rfl⟩
  · obtain ⟨a, rfl⟩ := GfP2.val_surjective x
    obtain ⟨b, rfl⟩ := GfP2.val_surjective y
    refine ⟨⟨a, b, .one, .one⟩, ?_, Int.one_nonneg, fun h => absurd h (by simp)⟩
    simp only [GfP2.val_one]
    exact Jac.of_affine hp

theorem TwistPoint.makeAffine_infinity {a : TwistPoint} {Q : BG2} (ha : Rep2 a Q) (hQ : Q = 0) :
    a.makeAffine = ⟨.zero, .zero, .one, .one⟩ := by
  have hz : a.z = .zero := ha.2.2 (ha.zero_iff.1 hQ)
  have hi : GfP2.zero.invert = .zero := by decide +kernel
  have hs : GfP2.zero.square = .zero := by decide +kernel
  have hm : ∀ b : GfP2, b.mul .zero = .zero := by
    intro b
    simp [GfP2.mul, GfP2.zero]
  unfold makeAffine
  rw [hz, if_neg (by decide)]
  simp only [hi, hs, hm]

end Verif

import Verif.Lemmas.BnInplace
import Verif.Lemmas.BnOff

/-! # C34-C37, C47, C48: the groups G1 and G2, random elements, the cell pool -/

namespace Verif

/-! ## C34 -/

/-- C34: `Add` into a receiver other than the first operand is the group law, for all points
(infinity, equal and opposite points included). -/
theorem C34_add (c a b : CurvePoint) (Q R : BG1) (ha : Rep1 a Q) (hb : Rep1 b R) :
    Rep1 (CurvePoint.add c a b) (Q + R) := CurvePoint.add_rep c ha hb

/-- Also for equal operands. -/
example : Rep1 (CurvePoint.add .new .gen .gen) (bnG1 + bnG1) := C34_add .new _ _ _ _ rep1_gen rep1_gen

/-- C34: `Neg`. -/
theorem C34_neg (a : CurvePoint) (Q : BG1) (ha : Rep1 a Q) : Rep1 a.neg (-Q) := CurvePoint.neg_rep ha

example : Rep1 CurvePoint.gen.neg (-bnG1) := C34_neg _ _ rep1_gen

/-- C34: `ScalarMult` for every integer. -/
theorem C34_scalarMult (e a : CurvePoint) (Q : BG1) (ha : Rep1 a Q) (k : Int) :
    Rep1 (G1.scalarMult e a k) (k • Q) := by
  unfold G1.scalarMult
  split
  · split
    · rename_i h
      rw [h, zero_smul]; exact rep1_infinity rfl
    · rename_i h _
      exact CurvePoint.mul_rep ha h
  · rename_i h
    have h1 := CurvePoint.neg_rep (CurvePoint.mul_rep ha (k := (k.natAbs : Int)) (by omega))
    rwa [← neg_smul, show -(k.natAbs : Int) = k by omega] at h1

example : Rep1 (G1.scalarMult .new .gen (-7)) ((-7 : Int) • bnG1) := C34_scalarMult .new _ _ rep1_gen (-7)

/-- C34: `ScalarBaseMult`. -/
theorem C34_scalarBaseMult (e : CurvePoint) (k : Int) : Rep1 (G1.scalarBaseMult e k) (k • bnG1) :=
  C34_scalarMult e _ _ rep1_gen k

/-- C34: `IsInfinity` is right, a value represents one element only, and every element of the group
has a representation. -/
theorem C34_rep (a : CurvePoint) (Q R : BG1) :
    (Rep1 a Q → (a.isInfinity = true ↔ Q = 0)) ∧ (Rep1 a Q → Rep1 a R → Q = R) ∧ ∃ c, Rep1 c Q :=
  ⟨Rep1.isInfinity, Rep1.unique, rep1_exists Q⟩

/-- C34: `MakeAffine` keeps the point. -/
theorem C34_makeAffine (a : CurvePoint) (Q : BG1) (ha : Rep1 a Q) :
    Rep1 a.makeAffine Q ∧ (Q ≠ 0 → a.makeAffine.z = 1) :=
  ⟨CurvePoint.makeAffine_rep ha, CurvePoint.makeAffine_z ha⟩

/-- A finite point and its double are distinct finite points. -/
example : Rep1 .gen bnG1 ∧ bnG1 ≠ 0 ∧ Rep1 (G1.scalarBaseMult .new (-7)) ((-7 : Int) • bnG1) :=
  ⟨rep1_gen, bnG1_ne_zero, C34_scalarBaseMult _ _⟩

/-! ## C35 -/

/-- C35: in-place addition `e.Add(e, b)` in `G1` is right for distinct or infinite operands. -/
theorem C35_distinct (a b : CurvePoint) (Q R : BG1) (ha : Rep1 a Q) (hb : Rep1 b R) (h : Q ≠ R ∨ Q = 0) :
    Rep1 (CurvePoint.addSelf a b) (Q + R) := CurvePoint.addSelf_rep ha hb h

/-- `G` and `2G`; infinity and `G`. -/
example : Rep1 (CurvePoint.addSelf .gen (G1.scalarBaseMult .new 2)) (bnG1 + (2 : Int) • bnG1) ∧
    Rep1 (CurvePoint.addSelf .new .gen) (0 + bnG1) :=
  ⟨C35_distinct _ _ _ _ rep1_gen (C34_scalarBaseMult .new 2) (.inl fun h => bnG1_ne_zero (left_eq_add.1 (h.trans (two_zsmul bnG1)))),
    C35_distinct _ _ _ _ (rep1_infinity rfl) rep1_gen (.inr rfl)⟩

/-- C35: the same for `G2`. -/
theorem C35_distinct2 (a b : TwistPoint) (Q R : BG2) (ha : Rep2 a Q) (hb : Rep2 b R) (h : Q ≠ R ∨ Q = 0) :
    Rep2 (TwistPoint.addSelf a b) (Q + R) := TwistPoint.addSelf_rep ha hb h

example : Rep2 (TwistPoint.addSelf .gen .new) (bnG2 + 0) ∧ Rep2 (TwistPoint.addSelf .new .gen) (0 + bnG2) :=
  ⟨C35_distinct2 _ _ _ _ rep2_gen (rep2_infinity rfl) (.inl bnG2_ne_zero), C35_distinct2 _ _ _ _ (rep2_infinity rfl) rep2_gen (.inr rfl)⟩

/-- C35: for equal finite operands in `G1`, the result is `2Q` exactly when the new `y` happens to
be the old one (or the new `x` is zero and the cubes of the `y` agree). -/
theorem C35_equal (a b : CurvePoint) (Q : BG1) (ha : Rep1 a Q) (hb : Rep1 b Q) (hQ : Q ≠ 0) :
    Rep1 (CurvePoint.addSelf a b) (Q + Q) ↔
      let x : BF := a.x
      let y : BF := a.y
      let y' := 36 * x ^ 3 * y ^ 2 - 27 * x ^ 6 - 8 * y ^ 4
      y' = y ∨ (9 * x ^ 4 - 8 * x * y ^ 2 = 0 ∧ y' ^ 3 = y ^ 3) := by
  rw [CurvePoint.addSelf_eq ha hb hQ, CurvePoint.doubleSelf_iff ha hQ]
  have : dblY (a.x : BF) (a.y : BF) = 36 * (a.x : BF) ^ 3 * (a.y : BF) ^ 2 - 27 * (a.x : BF) ^ 6 - 8 * (a.y : BF) ^ 4 := by
    simp only [dblY, dblX]; ring
  rw [this]; rfl

/-- The generator and its double computed by `e.Add(e, e)`. -/
example := C35_equal .gen .gen bnG1 rep1_gen rep1_gen bnG1_ne_zero

/-- C35: the same for `G2`. -/
theorem C35_equal2 (a b : TwistPoint) (Q : BG2) (ha : Rep2 a Q) (hb : Rep2 b Q) (hQ : Q ≠ 0) :
    Rep2 (TwistPoint.addSelf a b) (Q + Q) ↔
      let x := a.x.val
      let y := a.y.val
      let y' := 36 * x ^ 3 * y ^ 2 - 27 * x ^ 6 - 8 * y ^ 4
      y' = y ∨ (9 * x ^ 4 - 8 * x * y ^ 2 = 0 ∧ y' ^ 3 = y ^ 3) := by
  rw [TwistPoint.addSelf_eq ha hb hQ, TwistPoint.doubleSelf_iff ha hQ]
  have : dblY a.x.val a.y.val = 36 * a.x.val ^ 3 * a.y.val ^ 2 - 27 * a.x.val ^ 6 - 8 * a.y.val ^ 4 := by
    simp only [dblY, dblX]; ring
  rw [this]; rfl

example := C35_equal2 .gen .gen bnG2 rep2_gen rep2_gen bnG2_ne_zero

/-- C35: among all affine `G1` values, at most 20 coordinate pairs are doubled correctly in place. -/
theorem C35_rare :
    {q : BF × BF | ∃ (a : CurvePoint) (Q : BG1), Rep1 a Q ∧ a.z = 1 ∧ q = ((a.x : BF), (a.y : BF)) ∧
      Rep1 (CurvePoint.addSelf a a) (Q + Q)}.encard ≤ 20 := by
  refine (Set.encard_le_encard ?_).trans (inplace_rare (3 : BF))
  rintro q ⟨a, Q, ha, hz, rfl, h⟩
  have hQ : Q ≠ 0 := by
    intro hc
    have := ha.isInfinity.2 hc
    rw [CurvePoint.isInfinity, hz] at this
    exact absurd this (by decide)
  rw [CurvePoint.addSelf_eq ha ha hQ, CurvePoint.doubleSelf_iff ha hQ] at h
  refine ⟨?_, h⟩
  have := (ha.1.finite (ha.z_ne hQ)).eqn
  simpa [hz] using this

/-- C35: the same for affine `G2` values. -/
theorem C35_rare2 :
    {q : F2 × F2 | ∃ (a : TwistPoint) (Q : BG2), Rep2 a Q ∧ a.z = .one ∧ q = (a.x.val, a.y.val) ∧
      Rep2 (TwistPoint.addSelf a a) (Q + Q)}.encard ≤ 20 := by
  refine (Set.encard_le_encard ?_).trans (inplace_rare (3 / F2.xi))
  rintro q ⟨a, Q, ha, hz, rfl, h⟩
  have hQ : Q ≠ 0 := by
    intro hc
    have := ha.isInfinity.2 hc
    rw [TwistPoint.isInfinity, hz] at this
    exact absurd this (by decide)
  rw [TwistPoint.addSelf_eq ha ha hQ, TwistPoint.doubleSelf_iff ha hQ] at h
  refine ⟨?_, h⟩
  have := (ha.1.finite (ha.z_ne hQ)).eqn
  simpa [hz] using this

/-- C35: for the generators the in-place sum is wrong; in `G1` it is not even a point of the curve. -/
theorem C35_generators :
    (∀ R : BG1, ¬ Rep1 (CurvePoint.addSelf .gen .gen) R) ∧
    (∀ R : BG2, ¬ Rep2 (TwistPoint.addSelf .gen .gen) R) := by
  constructor
  · intro R h
    have hR : R ≠ 0 := by
      intro hc
      exact absurd (h.isInfinity.2 hc) (by decide +kernel)
    have h2 := CurvePoint.makeAffine_rep h
    have hz := CurvePoint.makeAffine_z h hR
    have := (h2.1.finite (h2.z_ne hR)).eqn
    rw [hz, Int.cast_one, one_pow, one_pow, div_one, div_one] at this
    have h3 : (((CurvePoint.addSelf .gen .gen).makeAffine.y ^ 2 : Int) : BF)
        = (((CurvePoint.addSelf .gen .gen).makeAffine.x ^ 3 + 3 : Int) : BF) := by
      push_cast; exact this
    rw [bf_eq_iff] at h3
    exact absurd h3 (by decide +kernel)
  · intro R h
    have hR : R ≠ 0 := by
      intro hc
      exact absurd (h.isInfinity.2 hc) (by decide +kernel)
    have h2 := TwistPoint.makeAffine_rep h hR
    have hz := TwistPoint.makeAffine_z _ h
    have := (h2.1.finite (h2.z_ne hR)).eqn
    rw [hz, GfP2.val_one, one_pow, one_pow, div_one, div_one, ← twistB_val,
      pow_succ (TwistPoint.addSelf .gen .gen).makeAffine.x.val, ← GfP2.val_square, ← GfP2.val_square,
      ← GfP2.val_mul, ← GfP2.val_add, GfP2.val_eq_iff] at this
    exact absurd this (by decide +kernel)

/-- Distinct operands exist: `G` and `2G`. -/
example : Rep1 .gen bnG1 ∧ Rep1 (G1.scalarBaseMult .new 2) ((2 : Int) • bnG1) ∧ bnG1 ≠ (2 : Int) • bnG1 := by
  refine ⟨rep1_gen, C34_scalarBaseMult _ _, ?_⟩
  intro h
  apply bnG1_ne_zero
  rw [two_smul] at h
  exact left_eq_add.1 h

/-! ## C36 -/

/-- C36: `Add` into a receiver other than the first operand. -/
theorem C36_add (c a b : TwistPoint) (Q R : BG2) (ha : Rep2 a Q) (hb : Rep2 b R) :
    Rep2 (TwistPoint.add c a b) (Q + R) := TwistPoint.add_rep c ha hb

example : Rep2 (TwistPoint.add .new .gen .gen) (bnG2 + bnG2) := C36_add .new _ _ _ _ rep2_gen rep2_gen

/-- C36: `Neg`. -/
theorem C36_neg (a : TwistPoint) (Q : BG2) (ha : Rep2 a Q) : Rep2 a.neg (-Q) := TwistPoint.neg_rep ha

example : Rep2 TwistPoint.gen.neg (-bnG2) := C36_neg _ _ rep2_gen

/-- C36: `ScalarMult` by a number that is not negative. -/
theorem C36_scalarMult (a : TwistPoint) (Q : BG2) (ha : Rep2 a Q) (k : Int) (hk : 0 ≤ k) :
    Rep2 (G2.scalarMult a k) (k • Q) := by
  rw [G2.scalarMult, if_pos hk]
  exact TwistPoint.mul_rep ha hk

example : Rep2 (G2.scalarMult .gen 7) ((7 : Int) • bnG2) := C36_scalarMult _ _ rep2_gen 7 (by decide)

/-- C36: `ScalarBaseMult` by a number that is not negative. -/
theorem C36_scalarBaseMult (k : Int) (hk : 0 ≤ k) : Rep2 (G2.scalarBaseMult k) (k • bnG2) :=
  C36_scalarMult _ _ rep2_gen k hk

example : Rep2 (G2.scalarBaseMult 7) ((7 : Int) • bnG2) := C36_scalarBaseMult 7 (by decide)

/-- C36: `e.Neg(e)` gives the inverse exactly when `Q = -Q`; otherwise the result is a finite point
that is not on the curve. -/
theorem C36_neg_inplace (a : TwistPoint) (Q : BG2) (ha : Rep2 a Q) :
    (Q = -Q → Rep2 a.negSelf (-Q)) ∧ (Q ≠ -Q → OffTwist a.negSelf ∧ ∀ R : BG2, ¬ Rep2 a.negSelf R) := by
  refine ⟨fun h => negSelf_rep ha (eq_neg_iff_add_eq_zero.1 h), fun h => ?_⟩
  have ho := negSelf_off ha (fun hc => h (eq_neg_iff_add_eq_zero.2 hc))
  exact ⟨ho, ho.not_rep⟩

/-- Infinity is its own inverse; the generator is not. -/
example : Rep2 TwistPoint.new.negSelf (-0) ∧ (bnG2 ≠ -bnG2 → OffTwist TwistPoint.gen.negSelf) :=
  ⟨(C36_neg_inplace _ _ (rep2_infinity rfl)).1 (by simp), fun h => ((C36_neg_inplace _ _ rep2_gen).2 h).1⟩

/-- C36: `ScalarMult` by a negative number gives the right point exactly when `2k·Q = 0`; otherwise the
result is a finite point that is not on the curve. -/
theorem C36_scalarMult_negative (a : TwistPoint) (Q : BG2) (ha : Rep2 a Q) (k : Int) (hk : k < 0) :
    ((2 * k) • Q = 0 → Rep2 (G2.scalarMult a k) (k • Q)) ∧
    ((2 * k) • Q ≠ 0 → OffTwist (G2.scalarMult a k) ∧ ∀ R : BG2, ¬ Rep2 (G2.scalarMult a k) R) := by
  rw [G2.scalarMult, if_neg (by omega)]
  have h1 := TwistPoint.mul_rep ha (k := (k.natAbs : Int)) (by omega)
  obtain ⟨h2, h3⟩ := C36_neg_inplace _ _ h1
  have e : -((k.natAbs : Int) • Q) = k • Q := by rw [← neg_smul, show -(k.natAbs : Int) = k by omega]
  have e2 : (k.natAbs : Int) • Q = -((k.natAbs : Int) • Q) ↔ (2 * k) • Q = 0 := by
    rw [e, ← neg_eq_iff_eq_neg.2 e.symm, mul_smul, two_smul, neg_eq_iff_add_eq_zero]
  exact ⟨fun h => e ▸ h2 (e2.2 h), fun h => h3 (fun hc => h (e2.1 hc))⟩

example : Rep2 (G2.scalarMult .new (-7)) ((-7 : Int) • (0 : BG2)) :=
  (C36_scalarMult_negative _ _ (rep2_infinity rfl) (-7) (by decide)).1 (by simp)

/-- C36: for multiples of the generator: a negative scalar gives the right point exactly when the
product is infinite. -/
theorem C36_scalarBaseMult_negative (k : Int) (hk : k < 0) :
    (bnOrder ∣ k → Rep2 (G2.scalarBaseMult k) (k • bnG2)) ∧
    (¬ bnOrder ∣ k → OffTwist (G2.scalarBaseMult k) ∧ ∀ R : BG2, ¬ Rep2 (G2.scalarBaseMult k) R) := by
  have ho : addOrderOf bnG2 = bnNn := addOrderOf_eq_prime bnG2_order bnG2_ne_zero
  have hd : ∀ j : Int, j • bnG2 = 0 ↔ bnOrder ∣ j := fun j => by
    rw [← addOrderOf_dvd_iff_zsmul_eq_zero, ho, bnOrder_eq]
  obtain ⟨h1, h2⟩ := C36_scalarMult_negative _ _ rep2_gen k hk
  have h3 : bnOrder ∣ 2 * k ↔ bnOrder ∣ k := by
    refine ⟨fun h => ?_, fun h => Dvd.dvd.mul_left h 2⟩
    exact Int.dvd_of_dvd_mul_right_of_gcd_one h (by decide +kernel)
  exact ⟨fun h => h1 ((hd _).2 (h3.2 h)), fun h => h2 (fun hc => h (h3.1 ((hd _).1 hc)))⟩

example : OffTwist (G2.scalarBaseMult (-7)) ∧ Rep2 (G2.scalarBaseMult (-bnOrder)) ((-bnOrder) • bnG2) :=
  ⟨((C36_scalarBaseMult_negative (-7) (by decide)).2 (by decide +kernel)).1,
    (C36_scalarBaseMult_negative (-bnOrder) (by decide)).1 (by simp)⟩

/-- C36: `IsInfinity`, uniqueness and existence of representations. -/
theorem C36_rep (a : TwistPoint) (Q R : BG2) :
    (Rep2 a Q → (a.isInfinity = true ↔ Q = 0)) ∧ (Rep2 a Q → Rep2 a R → Q = R) ∧ ∃ c, Rep2 c Q :=
  ⟨Rep2.isInfinity, Rep2.unique, rep2_exists Q⟩

/-- C36: `MakeAffine` keeps every finite point, and turns infinity into `(0,0)`, which is finite and
not on the curve. -/
theorem C36_makeAffine (a : TwistPoint) (Q : BG2) (ha : Rep2 a Q) :
    (Q ≠ 0 → Rep2 a.makeAffine Q ∧ a.makeAffine.z = .one) ∧
    (Q = 0 → a.makeAffine = ⟨.zero, .zero, .one, .one⟩) :=
  ⟨fun h => ⟨TwistPoint.makeAffine_rep ha h, TwistPoint.makeAffine_z a ha⟩,
    fun h => TwistPoint.makeAffine_infinity ha h⟩

/-- The generator is finite; `ScalarBaseMult(-1)` is finite, has `y = 0` and is not its inverse. -/
example : Rep2 .gen bnG2 ∧ bnG2 ≠ 0 ∧ (G2.scalarBaseMult (-1)).isInfinity = false ∧
    (G2.scalarBaseMult (-1)).y = .zero ∧ ∀ R : BG2, ¬ Rep2 (G2.scalarBaseMult (-1)) R :=
  ⟨rep2_gen, bnG2_ne_zero, by decide +kernel, rfl,
    ((C36_scalarBaseMult_negative (-1) (by decide)).2 (by decide +kernel)).2⟩

/-! ## C37 -/

/-- C37: `P` and `Order` are prime; `y² = x³ + 3` has exactly `Order` points. -/
theorem C37_orders :
    bnP.toNat.Prime ∧ bnOrder.toNat.Prime ∧ Nat.card BG1 = bnOrder.toNat ∧
    addOrderOf bnG1 = bnOrder.toNat ∧ addOrderOf bnG2 = bnOrder.toNat := by
  have e1 : bnP.toNat = bnPn := by decide +kernel
  have e2 : bnOrder.toNat = bnNn := by decide +kernel
  rw [e1, e2]
  exact ⟨Fact.out, Fact.out, bg1_card, addOrderOf_eq_prime bnG1_order bnG1_ne_zero,
    addOrderOf_eq_prime bnG2_order bnG2_ne_zero⟩

/-- C37: the generator of `G1` generates the whole curve group. -/
theorem C37_cyclic (Q : BG1) : ∃ k : Nat, k < bnNn ∧ Q = k • bnG1 := by
  have hf : Finite BG1 := Nat.finite_of_card_ne_zero (by rw [bg1_card]; decide +kernel)
  have h := mem_zmultiples_of_prime_card (G := BG1) (p := bnNn) bg1_card (g := bnG1) (g' := Q) bnG1_ne_zero
  obtain ⟨k, rfl⟩ := AddSubgroup.mem_zmultiples_iff.1 h
  refine ⟨(k % bnNn).toNat, ?_, ?_⟩
  · have := Int.emod_lt_of_pos k (b := (bnNn : Int)) (by decide +kernel)
    have := Int.emod_nonneg k (b := (bnNn : Int)) (by decide +kernel)
    omega
  · rw [← natCast_zsmul, Int.toNat_of_nonneg (Int.emod_nonneg k (by decide +kernel))]
    conv_lhs => rw [← Int.emod_add_mul_ediv k bnNn]
    rw [add_smul, mul_smul, natCast_zsmul, bg1_nsmul, add_zero]

/-- C37: scalars count modulo `Order`: two multiples of a finite `G1` point agree exactly when the
scalars are congruent, and likewise for every finite multiple of the `G2` generator. -/
theorem C37_scalars (k l : Int) :
    (∀ Q : BG1, Q ≠ 0 → (k • Q = l • Q ↔ k ≡ l [ZMOD bnOrder])) ∧
    (∀ m : Int, m • bnG2 ≠ 0 → (k • (m • bnG2) = l • (m • bnG2) ↔ k ≡ l [ZMOD bnOrder])) := by
  have key : ∀ {A : Type} [AddCommGroup A] (Q : A), bnNn • Q = 0 → Q ≠ 0 →
      (k • Q = l • Q ↔ k ≡ l [ZMOD bnOrder]) := by
    intro A _ Q h0 hQ
    have ho : addOrderOf Q = bnNn := addOrderOf_eq_prime h0 hQ
    rw [bnOrder_eq, ← ho]
    exact zsmul_eq_zsmul_iff_modEq
  refine ⟨fun Q hQ => key Q (bg1_nsmul Q) hQ, fun m hm => key _ ?_ hm⟩
  rw [smul_comm, bnG2_order, smul_zero]

example : bnG1 ≠ 0 ∧ (1 : Int) • bnG2 ≠ 0 := ⟨bnG1_ne_zero, by rw [one_smul]; exact bnG2_ne_zero⟩

/-! ## C47 -/

/-- C47: whatever the random numbers, `RandomG1` returns `(k, k·g1)` for the first non-zero number
of the stream, it is finite, and every number before it was zero. -/
theorem C47_randomG1 (st : List (Option Int)) (hst : ∀ k, some k ∈ st → 0 ≤ k ∧ k < bnOrder)
    (k : Int) (p : CurvePoint) (h : randomG1 st = some (some (k, p))) :
    0 < k ∧ k < bnOrder ∧ Rep1 p (k • bnG1) ∧ k • bnG1 ≠ 0 ∧
    ∃ n rest, st = List.replicate n (some 0) ++ some k :: rest := by
  induction st with
  | nil => simp [randomG1] at h
  | cons o st ih =>
    cases o with
    | none => simp [randomG1] at h
    | some j =>
      have hj := hst j (by simp)
      simp only [randomG1] at h
      split at h
      · rename_i hpos
        simp only [Option.some.injEq, Prod.mk.injEq] at h
        obtain ⟨rfl, rfl⟩ := h
        refine ⟨hpos, hj.2, C34_scalarBaseMult _ _, ?_, 0, st, rfl⟩
        intro hc
        have := ((C37_scalars j 0).1 bnG1 bnG1_ne_zero).1 (by rw [hc, zero_smul])
        rw [Int.ModEq, Int.emod_eq_of_lt hj.1 hj.2, Int.zero_emod] at this
        omega
      · obtain ⟨h1, h2, h3, h4, n, rest, h5⟩ := ih (fun k hk => hst k (by simp [hk])) h
        refine ⟨h1, h2, h3, h4, n + 1, rest, ?_⟩
        rw [h5, show j = 0 by omega]; rfl

/-- The numbers 0, 0, 5: the result is `(5, 5·g₁)`. -/
example : ∃ p, randomG1 [some 0, some 0, some 5] = some (some (5, p)) ∧ Rep1 p ((5 : Int) • bnG1) :=
  ⟨_, rfl, (C47_randomG1 [some 0, some 0, some 5] (by
    intro k hk
    simp only [List.mem_cons, Option.some.injEq, List.not_mem_nil, or_false] at hk
    rcases hk with rfl | rfl | rfl <;> decide) 5 _ rfl).2.2.1⟩

/-- C47: the same for `RandomG2`. -/
theorem C47_randomG2 (st : List (Option Int)) (hst : ∀ k, some k ∈ st → 0 ≤ k ∧ k < bnOrder)
    (k : Int) (p : TwistPoint) (h : randomG2 st = some (some (k, p))) :
    0 < k ∧ k < bnOrder ∧ Rep2 p (k • bnG2) ∧ k • bnG2 ≠ 0 ∧
    ∃ n rest, st = List.replicate n (some 0) ++ some k :: rest := by
  induction st with
  | nil => simp [randomG2] at h
  | cons o st ih =>
    cases o with
    | none => simp [randomG2] at h
    | some j =>
      have hj := hst j (by simp)
      simp only [randomG2] at h
      split at h
      · rename_i hpos
        simp only [Option.some.injEq, Prod.mk.injEq] at h
        obtain ⟨rfl, rfl⟩ := h
        refine ⟨hpos, hj.2, C36_scalarBaseMult _ hj.1, ?_, 0, st, rfl⟩
        intro hc
        have := ((C37_scalars j 0).2 1 (by rw [one_smul]; exact bnG2_ne_zero)).1 (by
          rw [one_smul, hc, zero_smul])
        rw [Int.ModEq, Int.emod_eq_of_lt hj.1 hj.2, Int.zero_emod] at this
        omega
      · obtain ⟨h1, h2, h3, h4, n, rest, h5⟩ := ih (fun k hk => hst k (by simp [hk])) h
        refine ⟨h1, h2, h3, h4, n + 1, rest, ?_⟩
        rw [h5, show j = 0 by omega]; rfl

example : ∃ p, randomG2 [some 0, some 0, some 5] = some (some (5, p)) ∧ Rep2 p ((5 : Int) • bnG2) :=
  ⟨_, rfl, (C47_randomG2 [some 0, some 0, some 5] (by
    intro k hk
    simp only [List.mem_cons, Option.some.injEq, List.not_mem_nil, or_false] at hk
    rcases hk with rfl | rfl | rfl <;> decide) 5 _ rfl).2.2.1⟩

/-- C47: both return as soon as the stream offers a non-zero number, and an error of the random
source is reported, not ignored. -/
theorem C47_returns (n : Nat) (k : Int) (hk : 0 < k) (rest : List (Option Int)) :
    randomG1 (List.replicate n (some 0) ++ some k :: rest) = some (some (k, G1.scalarBaseMult .new k)) ∧
    randomG2 (List.replicate n (some 0) ++ some k :: rest) = some (some (k, G2.scalarBaseMult k)) ∧
    randomG1 (List.replicate n (some 0) ++ none :: rest) = some none ∧
    randomG2 (List.replicate n (some 0) ++ none :: rest) = some none := by
  induction n with
  | zero => simp [randomG1, randomG2, hk]
  | succ n ih =>
    rw [List.replicate_succ]
    simpa [randomG1, randomG2] using ih

example : ∃ p, randomG1 [some 0, some 0, some 5, none] = some (some (5, p)) ∧
    ∀ k, some k ∈ [some 0, some 0, some 5, (none : Option Int)] → 0 ≤ k ∧ k < bnOrder := by
  refine ⟨_, (C47_returns 2 5 (by decide) [none]).1, ?_⟩
  intro k hk
  simp only [List.mem_cons, Option.some.injEq, List.not_mem_nil, or_false, reduceCtorEq] at hk
  rcases hk with rfl | rfl | rfl <;> decide

/-! ## C48 -/

/-- A history of the pool: `u` lists the cells handed out and not yet put back, `g` and `q` count
the calls of `Get` and `Put`; only cells in use are put back. -/
inductive PoolRun : BnPool → List Nat → Nat → Nat → Prop
  | start : PoolRun .empty [] 0 0
  | get {p u g q} : PoolRun p u g q → PoolRun p.get.2 (p.get.1 :: u) (g + 1) q
  | put {p u g q} (c : Nat) : PoolRun p u g q → c ∈ u → PoolRun (p.put c) (u.erase c) g (q + 1)

/-- C48: the cells in use are pairwise distinct and none of them is in the pool; `Count` is the
number of cells in use, i.e. the number of `Get`s minus the number of `Put`s. -/
theorem C48_pool {p : BnPool} {u : List Nat} {g q : Nat} (h : PoolRun p u g q) :
    u.Nodup ∧ p.bns.Nodup ∧ (∀ c ∈ u, c ∉ p.bns) ∧ p.count = u.length ∧ p.count = (g : Int) - q := by
  suffices H : (u ++ p.bns).Nodup ∧ (∀ c ∈ u ++ p.bns, c < p.fresh) ∧ p.count = u.length ∧
      p.count = (g : Int) - q by
    obtain ⟨h1, _, h3, h4⟩ := H
    rw [List.nodup_append] at h1
    exact ⟨h1.1, h1.2.1, fun c hc hb => h1.2.2 c hc c hb rfl, h3, h4⟩
  induction h with
  | start => simp [BnPool.empty]
  | @get p u g q _ ih =>
    obtain ⟨h1, h2, h3, h4⟩ := ih
    unfold BnPool.get
    cases hl : p.bns.getLast? with
    | none =>
      simp only [List.getLast?_eq_none_iff] at hl
      simp only [hl, List.append_nil] at h1 h2 ⊢
      refine ⟨List.nodup_cons.2 ⟨fun hc => lt_irrefl _ (h2 _ hc), h1⟩, ?_, by simp [h3], by push_cast; omega⟩
      intro c hc
      rcases List.mem_cons.1 hc with rfl | hc
      · exact Nat.lt_succ_self _
      · exact Nat.lt_succ_of_lt (h2 c hc)
    | some b =>
      have hb : p.bns = p.bns.dropLast ++ [b] := (List.dropLast_append_getLast? b hl).symm
      have hperm : ((b :: u) ++ p.bns.dropLast).Perm (u ++ p.bns) := by
        conv_rhs => rw [hb]
        rw [← List.append_assoc]
        exact (List.perm_append_singleton _ _).symm
      refine ⟨hperm.nodup_iff.2 h1, fun c hc => h2 c (hperm.mem_iff.1 hc), by simp [h3], by push_cast; omega⟩
  | @put p u g q c _ hc ih =>
    obtain ⟨h1, h2, h3, h4⟩ := ih
    have hperm : (u.erase c ++ (p.bns ++ [c])).Perm (u ++ p.bns) := by
      rw [← List.append_assoc]
      refine (List.perm_append_singleton _ _).trans ?_
      exact (List.perm_cons_erase hc).symm.append_right p.bns
    refine ⟨hperm.nodup_iff.2 h1, fun d hd => h2 d (hperm.mem_iff.1 hd), ?_, ?_⟩
    · have hl : 0 < u.length := List.length_pos_of_mem hc
      have := List.length_erase_of_mem hc
      simp only [BnPool.put]; omega
    · simp only [BnPool.put]; push_cast; omega

/-- A history with two cells in use and one back in the pool. -/
example : ∃ p : BnPool, ∃ u, PoolRun p u 3 1 ∧ p.count = 2 :=
  ⟨_, _, PoolRun.put _ (PoolRun.get (PoolRun.get (PoolRun.get .start))) List.mem_cons_self,
    (C48_pool (PoolRun.put _ (PoolRun.get (PoolRun.get (PoolRun.get .start))) List.mem_cons_self)).2.2.2.2⟩

/-- The condition on `Put` is needed: a cell put back twice is handed out twice. -/
theorem C48_double_put (p : BnPool) (c : Nat) :
    let p2 := (p.put c).put c
    p2.get.1 = c ∧ p2.get.2.get.1 = c := by
  simp [BnPool.put, BnPool.get, ← List.append_assoc]

/-- A history with two cells in use and one back in the pool. -/
example : ∃ p u, PoolRun p u 3 1 ∧ u.length = 2 :=
  ⟨_, _, PoolRun.put _ (PoolRun.get (PoolRun.get (PoolRun.get .start))) List.mem_cons_self, rfl⟩

end Verif

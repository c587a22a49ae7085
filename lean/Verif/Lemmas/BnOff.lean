import Verif.Lemmas.BnCurve

/-! # Points that are not on the twist

The formulas of `Double` and `Add` do not use the constant of the curve equation.  A point that is not
on the twist lies on some other curve `y² = x³ + β`, and its multiples stay there. -/

namespace Verif

namespace TwistPoint

/-- `a` is infinite, or finite on `y² = x³ + β`. -/
def OnB (β : F2) (a : TwistPoint) : Prop :=
  0 ≤ a.z.y ∧ (a.z.val = 0 → a.z = .zero) ∧ (a.z.val ≠ 0 → a.y.val ^ 2 = a.x.val ^ 3 + β * a.z.val ^ 6)

theorem isInfinity_iff {a : TwistPoint} (h : a.z.val = 0 → a.z = .zero) :
    a.isInfinity = true ↔ a.z.val = 0 := by
  constructor
  · intro h
    simp only [isInfinity, GfP2.isZero, Bool.and_eq_true, beq_iff_eq] at h
    simp [GfP2.val_def, h.1, h.2]
  · intro h0
    rw [isInfinity, h h0]; rfl

theorem OnB.double {β : F2} {a : TwistPoint} (c : TwistPoint) (h : OnB β a) : OnB β (double c a) := by
  obtain ⟨e1, e2⟩ := doubleXY_val a
  refine ⟨?_, ?_, ?_⟩
  · have := (GfP2.mul_red a.y a.z).2.2.1
    simp only [TwistPoint.double, GfP2.add]; omega
  · intro h0
    simp only [TwistPoint.double, GfP2.val_add] at h0
    have h1 : (a.y.mul a.z).val = GfP2.zero.val := by
      rw [GfP2.val_zero]
      have : (2 : F2) * (a.y.mul a.z).val = 0 := by linear_combination h0
      exact (mul_eq_zero.1 this).resolve_left f2_two
    have h2 := (GfP2.mul_red a.y a.z).eq GfP2.zero_red h1
    simp only [TwistPoint.double, h2]; rfl
  · intro hz
    have hz' : a.z.val ≠ 0 := by
      intro hc
      apply hz
      simp only [TwistPoint.double, GfP2.val_add, GfP2.val_mul, hc]; ring
    have e := h.2.2 hz'
    rw [show (TwistPoint.double c a).y.val = (doubleXY a).2.val from rfl, e2,
      show (TwistPoint.double c a).x.val = (doubleXY a).1.val from rfl, e1]
    simp only [TwistPoint.double, GfP2.val_add, GfP2.val_mul]
    generalize a.x.val = x at *
    generalize a.y.val = y at *
    generalize a.z.val = z at *
    have e' : β * z ^ 6 = y ^ 2 - x ^ 3 := by rw [e]; ring
    linear_combination -64 * y ^ 6 * e'

/-- The chord: what `addXYZ` computes, and the equation it satisfies. -/
theorem addXYZ_eqn {a b : TwistPoint} {x y z : GfP2} (h : addXYZ a b = some (x, y, z)) :
    0 ≤ z.y ∧ (z.val = 0 → z = .zero) ∧
    z.val = 2 * a.z.val * b.z.val * (b.x.val * a.z.val ^ 2 - a.x.val * b.z.val ^ 2) ∧
    ∀ β : F2, x.val ^ 3 + β * z.val ^ 6 - y.val ^ 2 = 64 *
      ((a.x.val ^ 3 + β * a.z.val ^ 6 - a.y.val ^ 2) * b.z.val ^ 6 *
        ((b.x.val * a.z.val ^ 2 - a.x.val * b.z.val ^ 2) ^ 6 -
          (b.x.val * a.z.val ^ 2 - a.x.val * b.z.val ^ 2) ^ 3 *
            (x.val / 4 - a.x.val * b.z.val ^ 2 * (b.x.val * a.z.val ^ 2 - a.x.val * b.z.val ^ 2) ^ 2)) +
      (b.x.val ^ 3 + β * b.z.val ^ 6 - b.y.val ^ 2) * a.z.val ^ 6 *
        ((b.x.val * a.z.val ^ 2 - a.x.val * b.z.val ^ 2) ^ 3 *
            (x.val / 4 - a.x.val * b.z.val ^ 2 * (b.x.val * a.z.val ^ 2 - a.x.val * b.z.val ^ 2) ^ 2))) := by
  simp only [addXYZ] at h
  split at h
  · cases h
  · simp only [Option.some.injEq, Prod.mk.injEq] at h
    obtain ⟨e1, e2, e3⟩ := h
    have f4 : (4 : F2) ≠ 0 := by
      rw [show (4 : F2) = 2 * 2 by norm_num]; exact mul_ne_zero f2_two f2_two
    refine ⟨?_, ?_, ?_, fun β => ?_⟩
    · rw [← e3]; exact (GfP2.mul_red _ _).2.2.1
    · rw [← e3]
      intro h0
      exact (GfP2.mul_red _ _).eq GfP2.zero_red (by rw [GfP2.val_zero]; exact h0)
    · rw [← e3]; simp only [GfP2.val_add, GfP2.val_sub, GfP2.val_mul, GfP2.val_square]; ring
    · have x' : x.val = 4 * ((b.y.val * a.z.val ^ 3 - a.y.val * b.z.val ^ 3) ^ 2 -
          (b.x.val * a.z.val ^ 2 - a.x.val * b.z.val ^ 2) ^ 3 -
          2 * (a.x.val * b.z.val ^ 2) * (b.x.val * a.z.val ^ 2 - a.x.val * b.z.val ^ 2) ^ 2) := by
        rw [← e1]; simp only [GfP2.val_add, GfP2.val_sub, GfP2.val_mul, GfP2.val_square]; ring
      have y' : y.val = 8 * ((b.y.val * a.z.val ^ 3 - a.y.val * b.z.val ^ 3) *
          (a.x.val * b.z.val ^ 2 * (b.x.val * a.z.val ^ 2 - a.x.val * b.z.val ^ 2) ^ 2 - x.val / 4) -
          a.y.val * b.z.val ^ 3 * (b.x.val * a.z.val ^ 2 - a.x.val * b.z.val ^ 2) ^ 3) := by
        rw [← e2, ← e1]; simp only [GfP2.val_add, GfP2.val_sub, GfP2.val_mul, GfP2.val_square]
        field_simp
        ring
      have z' : z.val = 2 * a.z.val * b.z.val * (b.x.val * a.z.val ^ 2 - a.x.val * b.z.val ^ 2) := by
        rw [← e3]; simp only [GfP2.val_add, GfP2.val_sub, GfP2.val_mul, GfP2.val_square]; ring
      have q : x.val / 4 = (b.y.val * a.z.val ^ 3 - a.y.val * b.z.val ^ 3) ^ 2 -
          (b.x.val * a.z.val ^ 2 - a.x.val * b.z.val ^ 2) ^ 3 -
          2 * (a.x.val * b.z.val ^ 2) * (b.x.val * a.z.val ^ 2 - a.x.val * b.z.val ^ 2) ^ 2 := by
        rw [x', mul_div_cancel_left₀ _ f4]
      rw [y', z', q, x']
      generalize a.x.val = x₁
      generalize a.y.val = y₁
      generalize a.z.val = z₁
      generalize b.x.val = x₂
      generalize b.y.val = y₂
      generalize b.z.val = z₂
      ring

theorem OnB.add {β : F2} {a b : TwistPoint} (c : TwistPoint) (ha : OnB β a) (hb : OnB β b) :
    OnB β (TwistPoint.add c a b) := by
  unfold TwistPoint.add
  by_cases h1 : a.z.val = 0
  · rw [if_pos ((isInfinity_iff ha.2.1).2 h1)]; exact hb
  rw [if_neg (fun h => h1 ((isInfinity_iff ha.2.1).1 h))]
  by_cases h2 : b.z.val = 0
  · rw [if_pos ((isInfinity_iff hb.2.1).2 h2)]; exact ha
  rw [if_neg (fun h => h2 ((isInfinity_iff hb.2.1).1 h))]
  split
  · exact ha.double c
  · rename_i x y z h
    obtain ⟨e1, e2, _, e4⟩ := addXYZ_eqn h
    refine ⟨e1, e2, fun _ => ?_⟩
    have e := e4 β
    rw [ha.2.2 h1, hb.2.2 h2] at e
    simp only [sub_self, zero_mul, add_zero, mul_zero] at e
    exact (sub_eq_zero.1 e).symm

theorem OnB.mulLoop {β : F2} {a : TwistPoint} (ha : OnB β a) (k : Int) :
    ∀ (n : Nat) (s t : TwistPoint), OnB β s → OnB β (mulLoop a k n s t)
  | 0, _, _, hs => hs
  | n + 1, s, t, hs => by
    rw [TwistPoint.mulLoop]
    by_cases hb : intBit k n
    · simp only [hb, if_true]
      exact OnB.mulLoop ha k n _ _ ((hs.double t).add s ha)
    · simp only [hb, Bool.false_eq_true, if_false]
      exact OnB.mulLoop ha k n _ _ (hs.double t)

theorem OnB.mul {β : F2} {a : TwistPoint} (ha : OnB β a) (k : Int) : OnB β (a.mul k) :=
  OnB.mulLoop ha k _ _ _ ⟨le_refl 0, fun _ => rfl, fun h => absurd (GfP2.val_zero) h⟩

end TwistPoint

instance (a b : TwistPoint) : Decidable (DiffX a b) :=
  decidable_of_iff (¬ ((a.x.mul b.z.square).x % bnP = (b.x.mul a.z.square).x % bnP ∧
    (a.x.mul b.z.square).y % bnP = (b.x.mul a.z.square).y % bnP)) (by
    rw [← GfP2.val_eq_iff, DiffX]
    simp only [GfP2.val_mul, GfP2.val_square])

instance : ∀ (a : TwistPoint) (bs : List TwistPoint), Decidable (SafeAdds a bs)
  | _, [] => inferInstanceAs (Decidable True)
  | a, b :: bs => by
    have := instDecidableSafeAdds (a.addSelf b) bs
    unfold SafeAdds
    infer_instance

open TwistPoint

theorem Rep2.eqn {a : TwistPoint} {R : BG2} (h : Rep2 a R) (hz : a.z.val ≠ 0) :
    a.y.val ^ 2 = a.x.val ^ 3 + 3 / F2.xi * a.z.val ^ 6 := by
  have e := (h.1.finite hz).eqn
  generalize 3 / F2.xi = β at *
  rw [div_pow, div_pow, ← pow_mul, ← pow_mul, div_eq_iff (pow_ne_zero _ hz), add_mul,
    div_mul_cancel₀ _ (pow_ne_zero _ hz)] at e
  exact e

/-- A point that is not on the twist represents nothing. -/
theorem OffTwist.not_rep {a : TwistPoint} (h : OffTwist a) (R : BG2) : ¬ Rep2 a R :=
  fun hR => h.2.2 (hR.eqn h.1)

/-- Every multiple of a point that is not on the twist is infinite or not on the twist. -/
theorem OffTwist.mul {a : TwistPoint} (h : OffTwist a) (k : Int) :
    (a.mul k).z = .zero ∨ OffTwist (a.mul k) := by
  have hz6 : a.z.val ^ 6 ≠ 0 := pow_ne_zero _ h.1
  have hb : OnB ((a.y.val ^ 2 - a.x.val ^ 3) / a.z.val ^ 6) a :=
    ⟨h.2.1, fun hc => absurd hc h.1, fun _ => by rw [div_mul_cancel₀ _ hz6]; ring⟩
  have hm := hb.mul k
  by_cases h0 : (a.mul k).z.val = 0
  · exact Or.inl (hm.2.1 h0)
  refine Or.inr ⟨h0, hm.1, fun hc => h.2.2 ?_⟩
  have e : (a.y.val ^ 2 - a.x.val ^ 3) / a.z.val ^ 6 = 3 / F2.xi := by
    have e1 := hm.2.2 h0
    rw [hc] at e1
    exact (mul_right_cancel₀ (pow_ne_zero 6 h0) (add_left_cancel e1)).symm
  rw [div_eq_iff hz6] at e
  linear_combination e

theorem OffTwist.addSelf {a b : TwistPoint} {R : BG2} (h : OffTwist a) (hb : Rep2 b R)
    (hs : b.z = .zero ∨ (DiffX a b ∧ DiffX (a.addSelf b) b)) : OffTwist (a.addSelf b) := by
  have ha' : ¬ a.isInfinity = true := fun hc => h.1 ((isInfinity_iff (fun hc => absurd hc h.1)).1 hc)
  rcases hs with hs | ⟨h1, h2⟩
  · rw [TwistPoint.addSelf, if_neg ha', if_pos (by rw [isInfinity, hs]; rfl)]
    exact h
  by_cases hz : b.z.val = 0
  · rw [TwistPoint.addSelf, if_neg ha', if_pos ((isInfinity_iff hb.2.2).2 hz)]
    exact h
  have hb' : ¬ b.isInfinity = true := fun hc => hz ((isInfinity_iff hb.2.2).1 hc)
  have hne : b.x.val * a.z.val ^ 2 - a.x.val * b.z.val ^ 2 ≠ 0 := fun hc => h1 (sub_eq_zero.1 hc).symm
  have eb : b.x.val ^ 3 + 3 / F2.xi * b.z.val ^ 6 - b.y.val ^ 2 = 0 := by
    rw [hb.eqn hz, sub_self]
  rw [TwistPoint.addSelf, if_neg ha', if_neg hb'] at h2 ⊢
  split
  · rename_i hn
    exfalso
    apply hne
    simp only [addXYZ, Bool.and_eq_true, GfP2.isZero_sub (GfP2.mul_red _ _) (GfP2.mul_red _ _), GfP2.val_mul,
      GfP2.val_square] at hn
    split at hn
    · rename_i hc
      linear_combination hc.1
    · cases hn
  · rename_i x y z hn
    rw [hn] at h2
    obtain ⟨e1, e2, e3, e4⟩ := addXYZ_eqn hn
    have hz3 : z.val ≠ 0 := by
      rw [e3]
      exact mul_ne_zero (mul_ne_zero (mul_ne_zero f2_two h.1) hz) hne
    refine ⟨hz3, e1, fun hc => ?_⟩
    have e := e4 (3 / F2.xi)
    have f4 : (4 : F2) ≠ 0 := by
      rw [show (4 : F2) = 2 * 2 by norm_num]; exact mul_ne_zero f2_two f2_two
    have hc' : x.val ^ 3 + 3 / F2.xi * z.val ^ 6 - y.val ^ 2 = 0 := by
      rw [sub_eq_zero]; exact hc.symm
    rw [eb, zero_mul, zero_mul, add_zero, hc'] at e
    have f64 : (64 : F2) ≠ 0 := by
      rw [show (64 : F2) = 4 * 4 * 4 by norm_num]; exact mul_ne_zero (mul_ne_zero f4 f4) f4
    have e5 := (mul_eq_zero.1 e.symm).resolve_left f64
    have hea : (a.x.val ^ 3 + 3 / F2.xi * a.z.val ^ 6 - a.y.val ^ 2) * b.z.val ^ 6 ≠ 0 :=
      mul_ne_zero (fun h0 => h.2.2 (sub_eq_zero.1 h0).symm) (pow_ne_zero _ hz)
    have e6 := (mul_eq_zero.1 e5).resolve_left hea
    apply h2
    change x.val * b.z.val ^ 2 = b.x.val * z.val ^ 2
    have e7 : (b.x.val * a.z.val ^ 2 - a.x.val * b.z.val ^ 2) ^ 3 *
        ((b.x.val * a.z.val ^ 2 - a.x.val * b.z.val ^ 2) ^ 3 -
          (x.val / 4 - a.x.val * b.z.val ^ 2 * (b.x.val * a.z.val ^ 2 - a.x.val * b.z.val ^ 2) ^ 2)) = 0 := by
      linear_combination e6
    have e8 := (mul_eq_zero.1 e7).resolve_left (pow_ne_zero _ hne)
    have e9 : x.val = 4 * (x.val / 4) := (mul_div_cancel₀ _ f4).symm
    rw [e3, e9]
    linear_combination (-4 * b.z.val ^ 2) * e8

theorem OffTwist.safe {a : TwistPoint} {bs : List TwistPoint} (h : OffTwist a)
    (hb : ∀ b ∈ bs, ∃ R, Rep2 b R) (hs : SafeAdds a bs) : OffTwist (bs.foldl TwistPoint.addSelf a) := by
  induction bs generalizing a with
  | nil => exact h
  | cons b bs ih =>
    obtain ⟨R, hR⟩ := hb b List.mem_cons_self
    rw [SafeAdds] at hs
    exact ih (h.addSelf hR hs.1) (fun b' hb' => hb b' (List.mem_cons_of_mem _ hb')) hs.2

/-- `Negative` in place: right exactly for the points with `Q = -Q`, otherwise off the twist. -/
theorem negSelf_off {a : TwistPoint} {Q : BG2} (ha : Rep2 a Q) (h : Q + Q ≠ 0) : OffTwist a.negSelf := by
  have hQ : Q ≠ 0 := by
    rintro rfl
    exact h (add_zero _)
  have hz := ha.z_ne hQ
  refine ⟨hz, ha.2.1, fun hc => h ?_⟩
  have h0 : a.negSelf.y.val = 0 := by simp [negSelf, GfP2.val_sub, GfP2.val_zero]
  have hy : a.y.val = 0 := by
    rw [h0] at hc
    have e : a.y.val ^ 2 = 0 := by
      rw [ha.eqn hz]
      exact hc.symm.trans (zero_pow two_ne_zero)
    exact (pow_eq_zero_iff two_ne_zero).1 e
  have hp := ha.1.finite hz
  rw [hy, zero_div] at hp
  exact hp.double_zero

theorem negSelf_rep {a : TwistPoint} {Q : BG2} (ha : Rep2 a Q) (h : Q + Q = 0) : Rep2 a.negSelf (-Q) := by
  by_cases hQ : Q = 0
  · subst hQ
    rw [neg_zero]
    exact rep2_infinity (ha.2.2 (ha.zero_iff.1 rfl))
  have hz := ha.z_ne hQ
  have hp := ha.1.finite hz
  have hn : Q = -Q := eq_neg_of_add_eq_zero_left h
  have h2 := hp.neg
  have e := (hp.inj h2).1 hn
  have hy : a.y.val = 0 := by
    have e2 := e.2
    have : (2 : F2) * (a.y.val / a.z.val ^ 3) = 0 := by linear_combination e2
    have := (mul_eq_zero.1 this).resolve_left f2_two
    exact (div_eq_zero_iff.1 this).resolve_right (pow_ne_zero _ hz)
  have hr := neg_rep ha
  have e3 : a.negSelf.y.val = a.neg.y.val := by
    simp [negSelf, neg, GfP2.val_sub, GfP2.val_zero, hy]
  refine ⟨?_, hr.2⟩
  rw [e3]
  exact hr.1

end Verif

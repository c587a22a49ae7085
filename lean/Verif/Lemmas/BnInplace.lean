import Verif.Lemmas.BnCurve
import Mathlib.Tactic.ComputeDegree
import Mathlib.Algebra.Polynomial.Roots
import Mathlib.Data.Set.Card

/-!
# Doubling a point in place

`Double` with the receiver equal to the argument computes `z` from the new `y`.
-/

namespace Verif
open Polynomial

section
variable {F : Type*} [Field F] [DecidableEq F] {b : F}

/-- `x` coordinate of dbl-2009-l. -/
def dblX (x y : F) : F := 9 * x ^ 4 - 8 * x * y ^ 2
/-- `y` coordinate of dbl-2009-l. -/
def dblY (x y : F) : F := 3 * x ^ 2 * (4 * x * y ^ 2 - dblX x y) - 8 * y ^ 4

/-- With the new `y` in place of the old one, the result is the double exactly in these cases. -/
theorem inplace_iff (h2 : (2 : F) ≠ 0) (hcube : ∀ x : F, x ^ 3 + b ≠ 0) {P : (curve b).Point} {x y z : F}
    (hP : Jac P x y z) (hz : z ≠ 0) :
    Jac (P + P) (dblX x y) (dblY x y) (2 * dblY x y * z) ↔
      dblY x y = y ∨ (dblX x y = 0 ∧ dblY x y ^ 3 = y ^ 3) := by
  have hd : Jac (P + P) (dblX x y) (dblY x y) (2 * y * z) :=
    Jac.double h2 hP rfl rfl (by rw [dblX]; ring) (by rw [dblY]) rfl
  have fin_y : ∀ {R : (curve b).Point} {u v w : F}, Jac R u v w → w ≠ 0 → v ≠ 0 := by
    intro R u v w h hw hv
    have := (h.finite hw).eqn
    rw [hv, zero_div] at this
    exact hcube (u / w ^ 2) (by linear_combination -this)
  have hy : y ≠ 0 := fin_y hP hz
  have hz' : 2 * y * z ≠ 0 := mul_ne_zero (mul_ne_zero h2 hy) hz
  have hY : dblY x y ≠ 0 := fin_y hd hz'
  have hz'' : 2 * dblY x y * z ≠ 0 := mul_ne_zero (mul_ne_zero h2 hY) hz
  constructor
  · intro h
    obtain ⟨h1, h3⟩ := (Jac.eq_iff h hd hz'' hz').1 rfl
    have h3' : dblY x y ^ 3 = y ^ 3 := by
      have : (8 * z ^ 3 * dblY x y) * (dblY x y ^ 3 - y ^ 3) = 0 := by linear_combination -h3
      have h8 : (8 : F) * z ^ 3 * dblY x y ≠ 0 := by
        rw [show (8 : F) = 2 ^ 3 by norm_num]; positivity
      exact sub_eq_zero.1 ((mul_eq_zero.1 this).resolve_left h8)
    have h1' : dblX x y = 0 ∨ dblY x y ^ 2 = y ^ 2 := by
      have : (4 * z ^ 2) * (dblX x y * (dblY x y ^ 2 - y ^ 2)) = 0 := by linear_combination -h1
      have h4 : (4 : F) * z ^ 2 ≠ 0 := by
        rw [show (4 : F) = 2 ^ 2 by norm_num]; positivity
      rcases mul_eq_zero.1 ((mul_eq_zero.1 this).resolve_left h4) with h | h
      · exact Or.inl h
      · exact Or.inr (sub_eq_zero.1 h)
    rcases h1' with h | h
    · exact Or.inr ⟨h, h3'⟩
    · left
      have : y ^ 2 * (dblY x y - y) = 0 := by linear_combination h3' - dblY x y * h
      exact sub_eq_zero.1 ((mul_eq_zero.1 this).resolve_left (pow_ne_zero 2 hy))
  · rintro (h | ⟨h, h3⟩)
    · rw [h] at hd ⊢; exact hd
    · refine Or.inr ⟨hz'', (hd.finite hz').congr ?_ ?_⟩
      · rw [h, zero_div, zero_div]
      · rw [mul_pow, mul_pow, mul_pow, mul_pow, h3]

/-- On affine points the condition is a polynomial equation with few solutions. -/
theorem inplace_rare (b : F) :
    {q : F × F | q.2 ^ 2 = q.1 ^ 3 + b ∧
      (dblY q.1 q.2 = q.2 ∨ (dblX q.1 q.2 = 0 ∧ dblY q.1 q.2 ^ 3 = q.2 ^ 3))}.encard ≤ 20 := by
  let f : F → F := fun x => x ^ 6 + 20 * b * x ^ 3 - 8 * b ^ 2
  let p1 : F[X] := X ^ 12 + (C (40 * b) * X ^ 9 + C (384 * b ^ 2) * X ^ 6 + C (-320 * b ^ 3 - 1) * X ^ 3 + C (64 * b ^ 4 - b))
  let p2 : F[X] := X ^ 4 + C (-8 * b) * X
  let p3 : F → F[X] := fun x => X ^ 2 + C (-(x ^ 3 + b))
  have m1 : p1.Monic := by
    apply monic_X_pow_add (n := 12)
    refine lt_of_le_of_lt (b := 9) ?_ (by norm_num)
    compute_degree
  have m2 : p2.Monic := by
    apply monic_X_pow_add (n := 4)
    refine lt_of_le_of_lt (b := 1) ?_ (by norm_num)
    compute_degree
  have m3 : ∀ x, (p3 x).Monic := fun x => by
    apply monic_X_pow_add (n := 2)
    refine lt_of_le_of_lt (b := 0) ?_ (by norm_num)
    compute_degree
  have d1 : p1.natDegree ≤ 12 := by simp only [p1]; compute_degree
  have d2 : p2.natDegree ≤ 4 := by simp only [p2]; compute_degree
  have d3 : ∀ x, (p3 x).natDegree ≤ 2 := fun x => by simp only [p3]; compute_degree
  let T1 : Finset (F × F) := p1.roots.toFinset.image (fun x => (x, f x))
  let T2 : Finset (F × F) := p2.roots.toFinset.biUnion (fun x => (p3 x).roots.toFinset.image (fun y => (x, y)))
  have c1 : T1.card ≤ 12 :=
    Finset.card_image_le.trans ((Multiset.toFinset_card_le _).trans ((card_roots' _).trans d1))
  have c2 : T2.card ≤ 8 := by
    have h4 : p2.roots.toFinset.card ≤ 4 := (Multiset.toFinset_card_le _).trans ((card_roots' _).trans d2)
    refine (Finset.card_biUnion_le_card_mul _ _ 2 ?_).trans (by omega)
    intro x _
    exact Finset.card_image_le.trans ((Multiset.toFinset_card_le _).trans ((card_roots' _).trans (d3 x)))
  have hsub : {q : F × F | q.2 ^ 2 = q.1 ^ 3 + b ∧
      (dblY q.1 q.2 = q.2 ∨ (dblX q.1 q.2 = 0 ∧ dblY q.1 q.2 ^ 3 = q.2 ^ 3))} ⊆ ((T1 ∪ T2 : Finset (F × F)) : Set (F × F)) := by
    rintro ⟨x, y⟩ ⟨he, h⟩
    simp only at he h
    have eY : dblY x y = f x := by
      simp only [dblY, dblX, f]
      linear_combination (36 * x ^ 3 - 8 * y ^ 2 - 8 * (x ^ 3 + b)) * he
    rw [Finset.mem_coe, Finset.mem_union]
    rcases h with h | ⟨h, _⟩
    · left
      refine Finset.mem_image.2 ⟨x, ?_, by rw [← eY, h]⟩
      rw [Multiset.mem_toFinset, mem_roots m1.ne_zero, IsRoot.def]
      simp only [p1, eval_add, eval_mul, eval_pow, eval_X, eval_C]
      rw [eY] at h
      simp only [f] at h
      linear_combination (x ^ 6 + 20 * b * x ^ 3 - 8 * b ^ 2 + y) * h + he
    · right
      refine Finset.mem_biUnion.2 ⟨x, ?_, Finset.mem_image.2 ⟨y, ?_, rfl⟩⟩
      · rw [Multiset.mem_toFinset, mem_roots m2.ne_zero, IsRoot.def]
        simp only [p2, eval_add, eval_mul, eval_pow, eval_X, eval_C]
        rw [dblX] at h
        linear_combination h + 8 * x * he
      · rw [Multiset.mem_toFinset, mem_roots (m3 x).ne_zero, IsRoot.def]
        simp only [p3, eval_add, eval_pow, eval_X, eval_C]
        linear_combination he
  refine (Set.encard_le_encard hsub).trans ?_
  rw [Set.encard_coe_eq_coe_finsetCard]
  have := (Finset.card_union_le T1 T2).trans (Nat.add_le_add c1 c2)
  exact_mod_cast this

end

theorem dbl_cast (a : CurvePoint) :
    ((CurvePoint.doubleXY a).1 : BF) = dblX (a.x : BF) (a.y : BF) ∧
    ((CurvePoint.doubleXY a).2 : BF) = dblY (a.x : BF) (a.y : BF) := by
  obtain ⟨h1, h2⟩ := CurvePoint.doubleXY_cast a
  rw [h1, h2]
  constructor <;> simp only [dblX, dblY] <;> ring

theorem dbl_val (a : TwistPoint) :
    (TwistPoint.doubleXY a).1.val = dblX a.x.val a.y.val ∧
    (TwistPoint.doubleXY a).2.val = dblY a.x.val a.y.val := by
  obtain ⟨h1, h2⟩ := TwistPoint.doubleXY_val a
  rw [h1, h2]
  constructor <;> simp only [dblX, dblY] <;> ring

theorem CurvePoint.addSelf_eq {a b : CurvePoint} {Q : BG1} (ha : Rep1 a Q) (hb : Rep1 b Q) (hQ : Q ≠ 0) :
    addSelf a b = doubleSelf a := by
  unfold addSelf
  rw [if_neg (fun h => hQ (ha.isInfinity.1 h)), if_neg (fun h => hQ (hb.isInfinity.1 h)),
    (addXYZ_none ha hb hQ hQ).2 rfl]

theorem TwistPoint.addSelf_eq {a b : TwistPoint} {Q : BG2} (ha : Rep2 a Q) (hb : Rep2 b Q) (hQ : Q ≠ 0) :
    addSelf a b = doubleSelf a := by
  unfold addSelf
  rw [if_neg (fun h => hQ (ha.isInfinity.1 h)), if_neg (fun h => hQ (hb.isInfinity.1 h)),
    (addXYZ_none ha hb hQ hQ).2 rfl]

theorem CurvePoint.doubleSelf_iff {a : CurvePoint} {Q : BG1} (ha : Rep1 a Q) (hQ : Q ≠ 0) :
    Rep1 (doubleSelf a) (Q + Q) ↔ dblY (a.x : BF) a.y = a.y ∨
      (dblX (a.x : BF) a.y = 0 ∧ dblY (a.x : BF) a.y ^ 3 = (a.y : BF) ^ 3) := by
  rw [← inplace_iff bf_two bf_no_cube ha.1 (ha.z_ne hQ)]
  obtain ⟨e1, e2⟩ := dbl_cast a
  have e1' : ((doubleSelf a).x : BF) = dblX (a.x : BF) a.y := e1
  have e2' : ((doubleSelf a).y : BF) = dblY (a.x : BF) a.y := e2
  have ez : ((doubleSelf a).z : BF) = 2 * dblY (a.x : BF) a.y * a.z := by
    simp only [doubleSelf, Int.cast_add, bf_emod, Int.cast_mul, e2]; ring
  constructor
  · intro h
    have := h.1
    rw [ez, e1', e2'] at this
    exact this
  · intro h
    refine ⟨?_, ?_, two_mul_emod_zero⟩
    · rw [ez, e1', e2']; exact h
    · have := Int.emod_nonneg ((doubleXY a).2 * a.z) (ne_of_gt bnP_pos)
      simp only [doubleSelf]; omega

/-- `-3/ξ` is not a cube in `F2`. -/
theorem twist_no_cube (w : F2) : w ^ 3 + 3 / F2.xi ≠ 0 := by
  intro h
  have hw3 : w ^ 3 = twistB.neg.val := by rw [GfP2.val_neg, twistB_val]; linear_combination h
  have hw : w ≠ 0 := by
    rintro rfl
    exact twist_ne (by linear_combination h)
  have h1 : (GfP2.exp twistB.neg ((bnP ^ 2 - 1) / 3)).val = 1 := by
    have e : 3 * ((bnP ^ 2 - 1) / 3).toNat = bnPn ^ 2 - 1 := by decide +kernel
    rw [GfP2.val_exp _ (by decide +kernel), ← hw3, ← pow_mul, e, F2.pow_p2_sub_one hw]
  rw [← GfP2.val_one, GfP2.val_eq_iff] at h1
  exact absurd h1 (by decide +kernel)

theorem TwistPoint.doubleSelf_iff {a : TwistPoint} {Q : BG2} (ha : Rep2 a Q) (hQ : Q ≠ 0) :
    Rep2 (doubleSelf a) (Q + Q) ↔ dblY a.x.val a.y.val = a.y.val ∨
      (dblX a.x.val a.y.val = 0 ∧ dblY a.x.val a.y.val ^ 3 = a.y.val ^ 3) := by
  rw [← inplace_iff f2_two twist_no_cube ha.1 (ha.z_ne hQ)]
  obtain ⟨e1, e2⟩ := dbl_val a
  have e1' : (doubleSelf a).x.val = dblX a.x.val a.y.val := e1
  have e2' : (doubleSelf a).y.val = dblY a.x.val a.y.val := e2
  have ez : (doubleSelf a).z.val = 2 * dblY a.x.val a.y.val * a.z.val := by
    simp only [doubleSelf, GfP2.val_add, GfP2.val_mul, e2]; ring
  constructor
  · intro h
    have := h.1
    rw [ez, e1', e2'] at this
    exact this
  · intro h
    refine ⟨?_, ?_, ?_⟩
    · rw [ez, e1', e2']; exact h
    · have := (GfP2.mul_red (doubleXY a).2 a.z).2.2.1
      simp only [doubleSelf, GfP2.add]; omega
    · intro h0
      simp only [doubleSelf, GfP2.val_add] at h0
      have h1 : ((doubleXY a).2.mul a.z).val = GfP2.zero.val := by
        rw [GfP2.val_zero]
        have : (2 : F2) * ((doubleXY a).2.mul a.z).val = 0 := by linear_combination h0
        exact (mul_eq_zero.1 this).resolve_left f2_two
      have h2 := (GfP2.mul_red (doubleXY a).2 a.z).eq GfP2.zero_red h1
      simp only [doubleSelf, h2]; rfl

end Verif

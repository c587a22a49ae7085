import Verif.Lemmas.MillerLoop

/-!
# `Pair` is the reduced optimal ate pairing
-/

namespace Verif
open WeierstrassCurve WeierstrassCurve.Affine

/-! ## Frobenius on the twist -/

theorem twFrob_isPt {Q : (curve (3 / F2.xi)).Point} {a : TwistPoint} (h : IsPt Q a.x.val a.y.val) :
    IsPt (twFrob.hom Q) (millerQ1 a).x.val (millerQ1 a).y.val := by
  have w2 : xiToPMinus1Over6.val ^ 2 = xiToPMinus1Over3.val := by
    rw [← xi_pow_sixth, ← xi_pow_third, ← pow_mul, show (bnPn - 1) / 6 * 2 = (bnPn - 1) / 3 by decide +kernel]
  have w3 : xiToPMinus1Over6.val ^ 3 = xiToPMinus1Over2.val := by
    rw [← xi_pow_sixth, ← xi_pow_half, ← pow_mul, show (bnPn - 1) / 6 * 3 = (bnPn - 1) / 2 by decide +kernel]
  refine (twFrob.isPt h).congr ?_ ?_
  · simp only [millerQ1, GfP2.val_mul, GfP2.val_conj, twFrob, frobenius_def, w2]; ring
  · simp only [millerQ1, GfP2.val_mul, GfP2.val_conj, twFrob, frobenius_def, w3]; ring

theorem twFrob2_isPt {Q : (curve (3 / F2.xi)).Point} {a : TwistPoint} (h : IsPt Q a.x.val a.y.val) :
    IsPt (-twFrob.hom (twFrob.hom Q)) (millerMinusQ2 a).x.val (millerMinusQ2 a).y.val := by
  have hp : ∀ z : F2, (z ^ bnPn) ^ bnPn = z := by
    intro z
    obtain ⟨g, rfl⟩ := GfP2.val_surjective z
    rw [← GfP2.val_conj, ← GfP2.val_conj]
    simp [GfP2.val_def, GfP2.conj]
  have hw : ∀ k m : Nat, (bnPn - 1) / 6 * (k + k * bnPn) = m →
      xiToPMinus1Over6.val ^ k * (xiToPMinus1Over6.val ^ k) ^ bnPn = F2.xi ^ m := by
    intro k m e
    rw [← xi_pow_sixth, ← e, pow_mul, pow_add, pow_mul _ k bnPn]
  have w2 := hw 2 ((bnPn ^ 2 - 1) / 3) (by decide +kernel)
  have w3 := hw 3 ((bnPn ^ 2 - 1) / 2) (by decide +kernel)
  rw [xi_pow_p2_third] at w2
  rw [xi_pow_p2_half] at w3
  refine (twFrob.isPt (twFrob.isPt h)).neg.congr ?_ ?_
  · simp only [millerMinusQ2, GfP2.val_mulScalar, twFrob, frobenius_def, mul_pow, hp]
    linear_combination a.x.val * w2
  · simp only [millerMinusQ2, twFrob, frobenius_def, mul_pow, hp]
    linear_combination (-a.y.val) * w3

/-- The curve group behind `BG2`. -/
abbrev CP2 := (curve (3 / F2.xi)).Point

/-- The curve group behind `BG1`. -/
abbrev CP1 := (curve (3 : BF)).Point

/-- The generator of `G2`, in the curve group. -/
noncomputable def g2c : CP2 := bnG2

theorem g2c_order : bnNn • g2c = 0 := bnG2_order
theorem g2c_ne : g2c ≠ 0 := bnG2_ne_zero

/-- `p` modulo `Order`. -/
def bnL : Nat := bnPn % bnNn

theorem twFrob_gen : twFrob.hom g2c = bnL • g2c := by
  have h1 : IsPt (twFrob.hom g2c) (millerQ1 .gen).x.val (millerQ1 .gen).y.val := twFrob_isPt ⟨_, rfl⟩
  have h2 := TwistPoint.mul_rep rep2_gen (k := (bnL : Int)) (by decide +kernel)
  rw [natCast_zsmul] at h2
  have h0 : bnL • bnG2 ≠ 0 := by
    rw [Ne, ← h2.isInfinity]; decide +kernel
  have h3 : IsPt (bnL • g2c) _ _ := h2.affine h0
  refine (h1.inj h3).2 ⟨?_, ?_⟩
  · rw [GfP2.val_eq_iff]; decide +kernel
  · rw [GfP2.val_eq_iff]; decide +kernel

/-- Membership in the subgroup of `G2`. -/
def InG2 (Q : CP2) : Prop := ∃ k : Int, Q = k • g2c

theorem InG2.add {Q R : CP2} (hQ : InG2 Q) (hR : InG2 R) : InG2 (Q + R) := by
  obtain ⟨k, rfl⟩ := hQ; obtain ⟨l, rfl⟩ := hR; exact ⟨k + l, (add_zsmul _ _ _).symm⟩

theorem InG2.frob {Q : CP2} (h : InG2 Q) : twFrob.hom Q = bnL • Q := by
  obtain ⟨k, rfl⟩ := h
  rw [map_zsmul, twFrob_gen, smul_comm]

theorem InG2.order {Q : CP2} (h : InG2 Q) : bnNn • Q = 0 := by
  obtain ⟨k, rfl⟩ := h
  rw [smul_comm, g2c_order, zsmul_zero]

theorem InG2.ordN {Q : CP2} (h : InG2 Q) (h0 : Q ≠ 0) : OrdN Q := by
  intro k hk
  have : addOrderOf Q = bnNn := addOrderOf_eq_prime h.order h0
  rw [← this]
  exact addOrderOf_dvd_iff_zsmul_eq_zero.2 hk

theorem InG2.zsmul_eq {Q : CP2} (h : InG2 Q) {k : Int} (hk : (bnNn : Int) ∣ k) : k • Q = 0 := by
  obtain ⟨m, rfl⟩ := hk
  rw [mul_comm, mul_zsmul, natCast_zsmul, h.order, zsmul_zero]

theorem InG2.ateRel {Q : CP2} (h : InG2 Q) : AteRel twFrob.hom bnS Q := by
  unfold AteRel
  rw [h.frob, map_nsmul, h.frob, map_nsmul, map_nsmul, h.frob]
  have e : ((bnS : Int) + bnL - bnL * bnL + bnL * (bnL * bnL)) • Q = 0 := h.zsmul_eq (by decide +kernel)
  have key : ∀ s l : Nat, ((s : Int) + l - l * l + l * (l * l)) • Q = 0 →
      s • Q + l • Q - l • l • Q + l • l • l • Q = 0 := by
    intro s l e
    rw [add_zsmul, sub_zsmul, add_zsmul, mul_zsmul, mul_zsmul, mul_zsmul, natCast_zsmul, natCast_zsmul] at e
    rw [sub_eq_add_neg]; exact e
  exact key _ _ e

/-! ## `miller` -/

/-- The cached coordinate `t` of an element with `z = 1` is correct, as `miller` assumes. -/
def PairOk (a : TwistPoint) : Prop := a.z.isOne = true → a.t.val = 1

theorem makeAffine_twPt {a : TwistPoint} {Q : CP2} (ha : Rep2 a Q) (hQ : Q ≠ 0) (hok : PairOk a) :
    TwPt a.makeAffine Q := by
  refine ⟨(TwistPoint.makeAffine_rep ha hQ).1, ?_⟩
  rw [TwistPoint.makeAffine_z a ha, GfP2.val_one, one_pow]
  unfold TwistPoint.makeAffine
  split
  · rename_i h; exact hok h
  · exact GfP2.val_one

theorem miller_spec {a : TwistPoint} {b : CurvePoint} {Q : CP2} {P : CP1} (ha : Rep2 a Q) (hb : Rep1 b P)
    (hok : PairOk a) (hG : InG2 Q) (hQ : Q ≠ 0) (hP : P ≠ 0) :
    (miller a b).val ≠ 0 ∧ cls (miller a b).val = ateV P Q := by
  have hP' := hb.affine hP
  have hQ' := ha.affine hQ
  have hO := hG.ordN hQ
  have hT := makeAffine_twPt ha hQ hok
  have h0 : MInv P Q 1 ⟨.one, a.makeAffine⟩ := by
    refine ⟨by simp, ?_, ?_⟩
    · simp only [GfP12.val_one]
      rw [cls_one, (cocycle_ateC P).millerF_one]
    · rw [one_nsmul]; exact hT
  have hL := millerLoop_spec hP' hQ' hO _ true _ 1 naf_ok (fun _ => by simp) h0
  rw [naf_val] at hL
  obtain ⟨l0, l1, lT⟩ := hL
  have key : ∀ k : Int, ¬ (bnNn : Int) ∣ k → k • Q ≠ 0 := fun k hk h => hk (hO k h)
  have f1 := hG.frob
  have f2 : twFrob.hom (twFrob.hom Q) = (bnL * bnL) • Q := by
    rw [f1, map_nsmul, f1, mul_smul]
  have n0 : bnS • Q ≠ 0 := by
    have := key bnS (by decide +kernel)
    rwa [natCast_zsmul] at this
  have n1 : bnS • Q ≠ twFrob.hom Q := by
    rw [f1, ← sub_ne_zero]
    have := key (bnS - bnL) (by decide +kernel)
    rwa [sub_zsmul, natCast_zsmul, natCast_zsmul] at this
  have n2 : bnS • Q + twFrob.hom Q ≠ 0 := by
    rw [f1]
    have := key (bnS + bnL) (by decide +kernel)
    rwa [add_zsmul, natCast_zsmul, natCast_zsmul] at this
  have n3 : bnS • Q + twFrob.hom Q ≠ -twFrob.hom (twFrob.hom Q) := by
    rw [Ne, ← add_eq_zero_iff_eq_neg, f2, f1]
    have := key (bnS + bnL + (bnL * bnL : Nat)) (by decide +kernel)
    rwa [add_zsmul, add_zsmul, natCast_zsmul, natCast_zsmul, natCast_zsmul] at this
  have n4 : bnS • Q + twFrob.hom Q + -twFrob.hom (twFrob.hom Q) ≠ 0 := by
    rw [f2, f1, ← sub_eq_add_neg]
    have := key (bnS + bnL - (bnL * bnL : Nat)) (by decide +kernel)
    rwa [sub_zsmul, add_zsmul, natCast_zsmul, natCast_zsmul, natCast_zsmul] at this
  obtain ⟨k, hk, hl, hT1⟩ := lineFunctionAdd_spec (q := b.makeAffine) lT n0 (twFrob_isPt hQ')
    (GfP2.val_square _) n1 n2
  obtain ⟨g1, g2⟩ := mulLine_chord hP' _ _ hk l0 hl
  obtain ⟨k', hk', hl', _⟩ := lineFunctionAdd_spec (q := b.makeAffine) hT1 n2 (twFrob2_isPt hQ')
    (GfP2.val_square _) n3 n4
  obtain ⟨g3, g4⟩ := mulLine_chord hP' _ _ hk' g1 hl'
  rw [g2, l1] at g4
  exact ⟨g3, g4⟩

theorem ateV_zero_left (Q : CP2) : ateV 0 Q = 0 := by
  have h : ∀ m, millerF (ateC 0) Q m = 0 := by
    intro m
    induction m with
    | zero => rfl
    | succ m ih => rw [millerF, ih, ateC_zero, add_zero]
  rw [ateV, ateF, h, ateC_zero, ateC_zero, add_zero, add_zero]

theorem inG2_zero : InG2 0 := ⟨0, (zero_zsmul _).symm⟩

theorem ateV_zero_right (P : CP1) : ateV P (0 : CP2) = 0 := by
  have := ateV_add_right P inG2_zero.ateRel inG2_zero.ateRel
  rw [add_zero (0 : CP2)] at this
  exact left_eq_add.1 this

theorem pair_val {a : TwistPoint} {b : CurvePoint} {Q : CP2} {P : CP1} (ha : Rep2 a Q) (hb : Rep1 b P)
    (hok : PairOk a) (hG : InG2 Q) : (pair b a).val = ((ateV P Q).toMul : F12) := by
  unfold pair optimalAte
  by_cases hQ : Q = 0
  · rw [if_pos (by simp [ha.isInfinity.2 hQ]), hQ, ateV_zero_right, GfP12.val_one]; rfl
  by_cases hP : P = 0
  · rw [if_pos (by simp [hb.isInfinity.2 hP]), hP, ateV_zero_left, GfP12.val_one]; rfl
  have h1 : a.isInfinity = false := by rw [Bool.eq_false_iff]; exact fun h => hQ (ha.isInfinity.1 h)
  have h2 : b.isInfinity = false := by rw [Bool.eq_false_iff]; exact fun h => hP (hb.isInfinity.1 h)
  obtain ⟨g1, g2⟩ := miller_spec ha hb hok hG hQ hP
  rw [if_neg (by simp [h1, h2]), finalExponentiation_val, ← g2, cls_val g1]
  rfl

end Verif

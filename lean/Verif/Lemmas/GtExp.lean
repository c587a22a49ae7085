import Verif.Props.BnPair
import Verif.Props.BnBytes
import Verif.Model.Ccs

/-! # Exponents: the values of the protocols as powers of the generators -/

namespace Verif

/-- The pairing of the two generators. -/
noncomputable def gtGen : F12ˣ := (ateV (bnG1 : CP1) g2c).toMul

theorem pair_gtGen {b : CurvePoint} {a : TwistPoint} {k l : Int} (hb : Rep1 b (k • bnG1))
    (ha : Rep2 a (l • bnG2)) (hok : PairOk a) : (pair b a).val = ((gtGen ^ (k * l) : F12ˣ) : F12) := by
  have e1 : (pair .gen .gen).val = (gtGen : F12) :=
    pair_val (Q := g2c) rep2_gen rep1_gen (fun _ => GfP2.val_one) ⟨1, by rw [one_zsmul]⟩
  have h := (C62_scalars .gen b .gen a bnG1 1 k l rep1_gen hb (by rw [one_zsmul]; exact rep2_gen)
    (by rw [one_zsmul]; exact ha) (fun _ => GfP2.val_one) hok).1
  rw [h, e1, Units.val_zpow_eq_zpow_val]

theorem bnNn_cast : (bnNn : Int) = bnOrder := by decide +kernel

theorem bnOrder_pos : (0 : Int) < bnOrder := by decide +kernel

theorem gtGen_order : orderOf gtGen = bnNn := by
  have e1 : (pair .gen .gen).val = (gtGen : F12) :=
    pair_val (Q := g2c) rep2_gen rep1_gen (fun _ => GfP2.val_one) ⟨1, by rw [one_zsmul]⟩
  have h := (C62_scalars .gen .gen .gen .gen bnG1 1 1 1 rep1_gen (by rw [one_zsmul]; exact rep1_gen)
    (by rw [one_zsmul]; exact rep2_gen)
    (by rw [one_zsmul, one_zsmul]; exact rep2_gen) (fun _ => GfP2.val_one) (fun _ => GfP2.val_one)).2
  have hp : gtGen ^ bnNn = 1 := by
    have e2 : bnOrder.toNat = bnNn := by decide +kernel
    rcases C46_order .gen .gen with h0 | h0
    · exact absurd (e1 ▸ h0) (Units.ne_zero _)
    · rw [e1, e2] at h0
      exact Units.ext (by rw [Units.val_pow_eq_pow_val, h0]; rfl)
  refine orderOf_eq_prime hp ?_
  intro hc
  rw [e1, hc] at h
  rcases h.1 rfl with h | h
  · exact bnG1_ne_zero h
  · rw [one_zsmul] at h; exact bnG2_ne_zero h

theorem gtGen_zpow_eq (k l : Int) : gtGen ^ k = gtGen ^ l ↔ k ≡ l [ZMOD bnOrder] := by
  rw [zpow_eq_zpow_iff_modEq, gtGen_order, bnNn_cast]

/-- The `GT` element is the `k`-th power of the pairing of the generators. -/
def GExp (x : GfP12) (k : Int) : Prop := x.val = ((gtGen ^ k : F12ˣ) : F12)

theorem GExp.mul {x y : GfP12} {k l : Int} (hx : GExp x k) (hy : GExp y l) : GExp (x.mul y) (k + l) := by
  rw [GExp, GfP12.val_mul, hx, hy, zpow_add, Units.val_mul]

theorem GExp.invert {x : GfP12} {k : Int} (hx : GExp x k) : GExp x.invert (-k) := by
  rw [GExp, GfP12.val_invert, hx, zpow_neg, Units.val_inv_eq_inv_val]

theorem GExp.scalarMult {x : GfP12} {k n : Int} (hx : GExp x k) (hn : 0 ≤ n) :
    GExp (GT.scalarMult x n) (k * n) := by
  lift n to Nat using hn
  rw [GExp, C43_scalarMult, hx, zpow_mul, zpow_natCast, Units.val_pow_eq_pow_val]

theorem GExp.val_eq {x y : GfP12} {k l : Int} (hx : GExp x k) (hy : GExp y l) :
    x.val = y.val ↔ k ≡ l [ZMOD bnOrder] := by
  rw [hx, hy, Units.val_inj, gtGen_zpow_eq]

theorem GExp.isOne {x : GfP12} {k : Int} (hx : GExp x k) : x.isOne = true ↔ k ≡ 0 [ZMOD bnOrder] := by
  rw [GfP12.isOne_iff, hx, ← gtGen_zpow_eq, zpow_zero, Units.val_eq_one]

theorem GExp.marshal_eq {x y : GfP12} {k l : Int} (hx : GExp x k) (hy : GExp y l) :
    (GT.marshal x).1 = (GT.marshal y).1 ↔ k ≡ l [ZMOD bnOrder] := by
  rw [(C40_marshal x y).2.2.2.2, hx.val_eq hy]

theorem GExp.pair {b : CurvePoint} {a : TwistPoint} {k l : Int} (hb : Rep1 b (k • bnG1))
    (ha : Rep2 a (l • bnG2)) (hok : PairOk a) : GExp (pair b a) (k * l) := pair_gtGen hb ha hok

/-! ## Multiples of the generators -/

theorem bnG1_zsmul_eq (k l : Int) : k • bnG1 = l • bnG1 ↔ k ≡ l [ZMOD bnOrder] :=
  (C37_scalars k l).1 bnG1 bnG1_ne_zero

theorem bnG2_zsmul_eq (k l : Int) : k • bnG2 = l • bnG2 ↔ k ≡ l [ZMOD bnOrder] := by
  have h := (C37_scalars k l).2 1 (by rw [one_zsmul]; exact bnG2_ne_zero)
  rwa [one_zsmul] at h

theorem bnG1_zsmul_zero (k : Int) : k • bnG1 = 0 ↔ k ≡ 0 [ZMOD bnOrder] := by
  rw [← bnG1_zsmul_eq, zero_zsmul]

theorem bnG2_zsmul_zero (k : Int) : k • bnG2 = 0 ↔ k ≡ 0 [ZMOD bnOrder] := by
  rw [← bnG2_zsmul_eq, zero_zsmul]

/-- In-place addition in `G2` in terms of exponents. -/
theorem addSelf_exp2 {a b : TwistPoint} {k l : Int} (ha : Rep2 a (k • bnG2)) (hb : Rep2 b (l • bnG2))
    (h : k ≡ 0 [ZMOD bnOrder] ∨ ¬ k ≡ l [ZMOD bnOrder]) : Rep2 (a.addSelf b) ((k + l) • bnG2) := by
  rw [add_zsmul]
  refine C35_distinct2 a b _ _ ha hb ?_
  rw [ne_eq, bnG2_zsmul_eq, bnG2_zsmul_zero]
  exact h.symm

theorem addSelf_exp1 {a b : CurvePoint} {k l : Int} (ha : Rep1 a (k • bnG1)) (hb : Rep1 b (l • bnG1))
    (h : k ≡ 0 [ZMOD bnOrder] ∨ ¬ k ≡ l [ZMOD bnOrder]) : Rep1 (a.addSelf b) ((k + l) • bnG1) := by
  rw [add_zsmul]
  refine C35_distinct a b _ _ ha hb ?_
  rw [ne_eq, bnG1_zsmul_eq, bnG1_zsmul_zero]
  exact h.symm

theorem scalarMult_exp2 {a : TwistPoint} {k : Int} (ha : Rep2 a (k • bnG2)) (n : Int) (hn : 0 ≤ n) :
    Rep2 (G2.scalarMult a n) ((k * n) • bnG2) := by
  have h := C36_scalarMult a _ ha n hn
  rwa [← mul_zsmul'] at h

theorem marshal_exp2 {a b : TwistPoint} {k l : Int} (ha : Rep2 a (k • bnG2)) (hb : Rep2 b (l • bnG2)) :
    (G2.marshal a).1 = (G2.marshal b).1 ↔ k ≡ l [ZMOD bnOrder] := by
  rw [C39_injective a b _ _ ha hb, bnG2_zsmul_eq]

theorem rep2_congr {a : TwistPoint} {k l : Int} (h : k ≡ l [ZMOD bnOrder]) (ha : Rep2 a (k • bnG2)) :
    Rep2 a (l • bnG2) := by rwa [← (bnG2_zsmul_eq k l).2 h]

theorem rep1_congr {a : CurvePoint} {k l : Int} (h : k ≡ l [ZMOD bnOrder]) (ha : Rep1 a (k • bnG1)) :
    Rep1 a (l • bnG1) := by rwa [← (bnG1_zsmul_eq k l).2 h]

/-! ## The constants of `util` -/

theorem rep1_utilG1 : Rep1 utilG1 ((1 : Int) • bnG1) := C34_scalarBaseMult _ _

theorem gexp_utilE : GExp utilE 1 :=
  GExp.pair (k := 1) (l := 1) rep1_utilG1 (C36_scalarBaseMult 1 (by decide)) (by
    unfold PairOk
    rw [← GfP2.val_one, GfP2.val_eq_iff]
    decide +kernel)

end Verif

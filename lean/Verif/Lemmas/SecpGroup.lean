import Verif.Lemmas.Secp
import Verif.Lemmas.ScalarCert
import Mathlib.Algebra.Module.ZMod
import Mathlib.LinearAlgebra.Dimension.Finrank

/-!
# The group of secp256k1 points: order, scalars, and the model's scalar multiplication
-/

namespace Verif

/-- If `(-b)^((p-1)/3) ≠ 1` then `-b` is not a cube. -/
theorem no_cube_root {p : Nat} [hp : Fact p.Prime] (c : Nat) (b : ZMod p) (hb : b ≠ 0)
    (hc : (c : ZMod p) = -b) (h3 : 3 ∣ p - 1) (hlt : (p - 1) / 3 < 2 ^ 256)
    (hpow : powMod p 256 c ((p - 1) / 3) 1 % p ≠ 1) (x : ZMod p) : x ^ 3 + b ≠ 0 := by
  intro h
  have hx3 : x ^ 3 = -b := by linear_combination h
  have hx : x ≠ 0 := by
    rintro rfl
    apply hb
    linear_combination h
  apply hpow
  have hs := powMod_spec p 256 c ((p - 1) / 3) 1 hlt
  rw [Nat.cast_one, one_mul, hc, ← hx3, ← pow_mul, Nat.mul_div_cancel' h3,
    ZMod.pow_card_sub_one_eq_one hx, ← Nat.cast_one (R := ZMod p), ZMod.natCast_eq_natCast_iff,
    Nat.ModEq, Nat.mod_eq_of_lt hp.out.one_lt] at hs
  exact hs

theorem secpG_eqn : ((secpGy : Int) : SF) ^ 2 = ((secpGx : Int) : SF) ^ 3 + 7 := by
  have : ((secpGy ^ 2 : Int) : SF) = ((secpGx ^ 3 + 7 : Int) : SF) := by
    rw [sf_eq_iff]; show secpGy ^ 2 % secpP = _ % secpP; decide +kernel
  simpa using this

/-- The base point. -/
def secpG : Secp := .some _ _ (curve_nonsingular sf_two sf_three sf_seven secpG_eqn)

theorem isPt_secpG : IsPt secpG ((secpGx : Int) : SF) ((secpGy : Int) : SF) := ⟨_, rfl⟩

theorem secpG_ne_zero : secpG ≠ 0 := isPt_secpG.ne_zero

theorem orderCheck_secp : orderCheck secpPn secpGx secpGy secpNn = true := by decide +kernel

theorem secp_nG : secpNn • secpG = 0 := orderCheck_spec sf_two isPt_secpG _ orderCheck_secp

theorem secp_no_cube (x : SF) : x ^ 3 + 7 ≠ 0 := by
  refine no_cube_root (secpPn - 7) 7 sf_seven ?_ (by decide +kernel) (by decide +kernel)
    (by decide +kernel) x
  have h : ((secpPn - 7 + 7 : Nat) : SF) = 0 := by
    rw [show secpPn - 7 + 7 = secpPn by decide +kernel]; exact ZMod.natCast_self _
  push_cast at h
  linear_combination h

theorem secp_card : Nat.card Secp = secpNn :=
  card_point_eq secpNn (Fact.out) secpG secpG_ne_zero secp_nG (by decide +kernel) secp_no_cube
    (by decide +kernel)

theorem secp_nsmul (Q : Secp) : secpNn • Q = 0 := by
  rw [← secp_card]; exact card_nsmul_eq_zero'

/-- Points form a vector space over the scalar field. -/
noncomputable instance : Module (ZMod secpNn) Secp := AddCommGroup.zmodModule secp_nsmul

theorem zmod_smul_natCast (k : Nat) (Q : Secp) : (k : ZMod secpNn) • Q = k • Q :=
  Nat.cast_smul_eq_nsmul _ k Q

theorem zmod_smul_intCast (k : Int) (Q : Secp) : (k : ZMod secpNn) • Q = k • Q :=
  Int.cast_smul_eq_zsmul _ k Q

theorem zmod_zero_smul (Q : Secp) : (0 : ZMod secpNn) • Q = 0 := by
  rw [← Nat.cast_zero, zmod_smul_natCast, zero_nsmul]

theorem zmod_smul_zero (k : ZMod secpNn) : k • (0 : Secp) = 0 := by
  rw [← ZMod.natCast_zmod_val k, zmod_smul_natCast, nsmul_zero]

theorem emod_smul (n : Int) (Q : Secp) : (n % ORDER).toNat • Q = n • Q := by
  rw [← zmod_smul_natCast, ← zmod_smul_intCast, ← Int.cast_natCast (R := ZMod secpNn),
    Int.toNat_of_nonneg (Int.emod_nonneg _ (by decide)), ORDER_eq, ZMod.intCast_mod]

/-- Every point is a multiple of any finite point. -/
theorem secp_generator (H : Secp) (hH : H ≠ 0) (Q : Secp) : ∃ k : ZMod secpNn, k • H = Q := by
  have h : (⊤ : AddSubgroup Secp) = AddSubgroup.zmultiples H := by
    have : Fact (Nat.card Secp).Prime := ⟨by rw [secp_card]; exact Fact.out⟩
    exact (zmultiples_eq_top_of_prime_card rfl hH).symm
  have hQ : Q ∈ AddSubgroup.zmultiples H := h ▸ AddSubgroup.mem_top Q
  obtain ⟨k, hk⟩ := AddSubgroup.mem_zmultiples_iff.1 hQ
  exact ⟨(k : ZMod secpNn), by rw [zmod_smul_intCast, hk]⟩

theorem scalarMult_rep {E : Ext} (hE : E.Ok) {a : P256} {Q : Secp} (ha : Rep a Q) (n : Int) :
    Rep (a.scalarMult E n) (n • Q) := by
  rw [P256.scalarMult]
  by_cases h1 : Q = 0
  · rw [if_pos ((ha.isZero_iff).2 h1), h1, zsmul_zero]; exact rep_infinity
  · rw [if_neg (fun h => h1 ((ha.isZero_iff).1 h))]
    split
    · rename_i h; rw [h, zero_zsmul]; exact rep_infinity
    · have fa := ha.fin h1
      rw [← emod_smul]
      have hlt : (n % ORDER).toNat < secpNn := by
        have := Int.emod_lt_of_pos n ORDER_pos
        have h0 := Int.emod_nonneg n (by decide : ORDER ≠ 0)
        have := ORDER_eq
        omega
      by_cases hk : (n % ORDER).toNat = 0
      · rw [hk, hE.scalarMult_zero, zero_nsmul]; exact rep_infinity
      · exact hE.scalarMult_fin _ _ _ _ (by rw [← fa.eq_mk]; exact fa) (Nat.pos_of_ne_zero hk) hlt

theorem repFin_base : RepFin ⟨some secpGx, some secpGy⟩ secpG :=
  ⟨secpGx, secpGy, rfl, by decide, by decide, by decide, by decide, isPt_secpG⟩

theorem scalarBaseMult_rep {E : Ext} (hE : E.Ok) (n : Int) :
    Rep (P256.scalarBaseMult E n) (n • secpG) := by
  have h := scalarMult_rep hE (Or.inr repFin_base) n
  rwa [P256.scalarMult, if_neg (by decide)] at h

theorem order_sub_one_smul (Q : Secp) : (ORDER - 1) • Q = -Q := by
  rw [sub_smul, one_smul, ORDER_eq, natCast_zsmul, secp_nsmul, zero_sub]

/-! ### An instance of the assumptions -/

/-- Canonical Go representation of a point. -/
def canonP : Secp → P256
  | .zero => P256.infinity
  | .some x y _ => ⟨some x.val, some y.val⟩

theorem sf_val_lt (x : SF) : (x.val : Int) < secpP := by
  rw [secpP_eq]; exact_mod_cast ZMod.val_lt x

theorem sf_val (x : SF) : ((x.val : Int) : SF) = x := by
  rw [Int.cast_natCast]; exact ZMod.natCast_zmod_val x

theorem rep_canonP (Q : Secp) : Rep (canonP Q) Q := by
  cases Q with
  | zero => exact rep_infinity
  | some x y h =>
    refine Or.inr ⟨x.val, y.val, rfl, by omega, sf_val_lt x, by omega, sf_val_lt y, ?_⟩
    rw [sf_val, sf_val]
    exact ⟨h, rfl⟩

/-- The finite point with given coordinates. -/
def secpPt (x y : SF) (h : y ^ 2 = x ^ 3 + 7) : Secp :=
  WeierstrassCurve.Affine.Point.some _ _ (curve_nonsingular sf_two sf_three sf_seven h)

theorem isPt_secpPt (x y : SF) (h : y ^ 2 = x ^ 3 + 7) : IsPt (secpPt x y h) x y := ⟨_, rfl⟩

/-- The point with the given coordinates (infinity if there is none). -/
noncomputable def pointAt (x y : Int) : Secp :=
  open Classical in
  if h : (y : SF) ^ 2 = (x : SF) ^ 3 + 7 then secpPt _ _ h else 0

theorem pointAt_eq {x y : Int} {Q : Secp} (h : RepFin ⟨some x, some y⟩ Q) : pointAt x y = Q := by
  obtain ⟨x', y', he, _, _, _, _, hp⟩ := h
  injection he with h1 h2
  injection h1 with h1
  injection h2 with h2
  subst h1 h2
  rw [pointAt, dif_pos hp.eqn]
  exact (IsPt.inj (isPt_secpPt _ _ _) hp).2 ⟨rfl, rfl⟩

/-- The external functions as they should be, with a given hash function. -/
noncomputable def idealExt (sha : List UInt8 → List UInt8) : Ext where
  scalarMult x y k := if k = 0 then ⟨none, none⟩ else canonP (k • pointAt x y)
  double x y := canonP (pointAt x y + pointAt x y)
  modSqrt a := open Classical in
    if h : ∃ r : SF, r * r = (a : SF) then some h.choose.val else none
  sha256 := sha

/-- The assumptions `Ext.Ok` are satisfiable, for every 32-byte hash function. -/
theorem idealExt_ok (sha : List UInt8 → List UInt8) (hs : ∀ s, (sha s).length = 32) :
    (idealExt sha).Ok where
  scalarMult_zero _ _ := by simp [idealExt]
  scalarMult_fin x y Q k h hk _ := by
    simp only [idealExt, Nat.ne_of_gt hk, if_false, pointAt_eq h]
    exact rep_canonP _
  double_fin x y Q h := by
    simp only [idealExt, pointAt_eq h]
    exact rep_canonP _
  modSqrt_some a r h := by
    simp only [idealExt] at h
    split at h
    · rename_i hex
      injection h with h
      subst h
      refine ⟨by omega, sf_val_lt _, ?_⟩
      rw [← sf_eq_iff]
      rw [Int.cast_mul, sf_val]
      exact hex.choose_spec
    · cases h
  modSqrt_none a h := by
    rintro ⟨r, hr⟩
    simp only [idealExt] at h
    rw [dif_pos ⟨(r : SF), by rw [← Int.cast_mul, sf_eq_iff]; exact hr⟩] at h
    cases h
  sha_len := hs

end Verif

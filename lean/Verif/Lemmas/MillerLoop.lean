import Verif.Lemmas.MillerVal

/-!
# The Miller loop and the reduced pairing
-/

namespace Verif
open WeierstrassCurve WeierstrassCurve.Affine

theorem cls_chord {P : (curve (3 : BF)).Point} {x y : Int} (hP : IsPt P (x : BF) (y : BF))
    (A B : (curve (3 / F2.xi)).Point) {k : F2} (hk : k ≠ 0) {z : F12}
    (h : z = e2 k * line (untwist.app A) (untwist.app B) (e1 (x : BF)) (e1 (y : BF))) :
    z ≠ 0 ∧ cls z = ateC P A B := by
  have h1 : e2 k ≠ 0 := (map_ne_zero e2).2 hk
  have h2 := (line_ne hP A B).1
  rw [h]
  refine ⟨mul_ne_zero h1 h2, ?_⟩
  rw [cls_mul h1 h2, ateC_of_pt hP, show cls (e2 k) = 0 from cls_f6 _, zero_add]

/-- A chord multiplied into the accumulator. -/
theorem mulLine_chord {P : (curve (3 : BF)).Point} {x y : Int} (hP : IsPt P (x : BF) (y : BF))
    (A B : (curve (3 / F2.xi)).Point) {k : F2} (hk : k ≠ 0) {ret : GfP12} {a b c : GfP2}
    (hret : ret.val ≠ 0)
    (h : lineVal a.val b.val c.val = e2 k * line (untwist.app A) (untwist.app B) (e1 (x : BF)) (e1 (y : BF))) :
    (mulLine ret a b c).val ≠ 0 ∧ cls (mulLine ret a b c).val = cls ret.val + ateC P A B := by
  obtain ⟨h1, h2⟩ := cls_chord hP A B hk h
  rw [mulLine_val]
  exact ⟨mul_ne_zero hret h1, by rw [cls_mul hret h1, h2]⟩

/-- Loop invariant: the accumulator holds the Miller function of `j`, the point is `jQ`. -/
def MInv (P : (curve (3 : BF)).Point) (Q : (curve (3 / F2.xi)).Point) (j : Nat) (s : MillerState) : Prop :=
  s.ret.val ≠ 0 ∧ cls s.ret.val = millerF (ateC P) Q j ∧ TwPt s.r (j • Q)

/-- `Q` has the order of the group. -/
def OrdN (Q : (curve (3 / F2.xi)).Point) : Prop := ∀ k : Int, k • Q = 0 → (bnNn : Int) ∣ k

theorem OrdN.ne {Q : (curve (3 / F2.xi)).Point} (h : OrdN Q) {k : Nat} (h1 : 0 < k) (h2 : k < bnNn) :
    k • Q ≠ 0 := by
  intro hc
  have := h k (by rw [natCast_zsmul]; exact hc)
  exact absurd (Nat.le_of_dvd h1 (Int.natCast_dvd_natCast.1 this)) (by omega)

section
variable {P : (curve (3 : BF)).Point} {Q : (curve (3 / F2.xi)).Point} {a : TwistPoint} {b : CurvePoint}
  (hP : IsPt P (b.x : BF) (b.y : BF)) (hQ : IsPt Q a.x.val a.y.val) (hO : OrdN Q)
include hP hQ hO

theorem millerStep_spec {first : Bool} {digit : Int} (hd : digit = 0 ∨ digit = 1 ∨ digit = -1)
    {s : MillerState} {j : Nat} (hj : 0 < j) (hj' : 2 * j + 1 < bnNn)
    (hf : first = true → s.ret.val = 1) (h : MInv P Q j s) :
    MInv P Q (2 * j + digit).toNat (millerStep a a.neg b a.y.square first digit s) := by
  obtain ⟨hr0, hr, hR⟩ := h
  have hc := cocycle_ateC P
  have e2j : j • Q + j • Q = (2 * j) • Q := by rw [two_mul, add_nsmul]
  have hne : j • Q + j • Q ≠ 0 := by rw [e2j]; exact hO.ne (by omega) (by omega)
  obtain ⟨k, hk, hl, hT⟩ := lineFunctionDouble_spec (q := b) hR hne
  have hsq : (if first = true then s.ret else s.ret.square).val = s.ret.val ^ 2 := by
    split
    · rename_i hh; rw [hf hh]; simp
    · rw [GfP12.val_square]
  obtain ⟨g1, g2⟩ := mulLine_chord (ret := if first = true then s.ret else s.ret.square) hP _ _ hk
    (by rw [hsq]; exact pow_ne_zero 2 hr0) hl
  rw [hsq, cls_pow hr0, hr] at g2
  have g3 : 2 • millerF (ateC P) Q j + ateC P (j • Q) (j • Q) = millerF (ateC P) Q (2 * j) := by
    rw [two_mul, hc.millerF_add, two_nsmul]
  rw [g3] at g2
  rw [e2j] at hT
  rcases hd with rfl | rfl | rfl
  · have : (2 * (j : Int) + 0).toNat = 2 * j := by omega
    rw [this]
    exact ⟨g1, g2, hT⟩
  · have : (2 * (j : Int) + 1).toNat = 2 * j + 1 := by omega
    rw [this]
    have n1 : (2 * j) • Q ≠ Q := by
      intro h
      have e : (2 * j - 1) • Q = 0 := by
        have : 2 * j = (2 * j - 1) + 1 := by omega
        rw [this, succ_nsmul] at h
        exact add_eq_right.1 h
      exact hO.ne (by omega) (by omega) e
    have n2 : (2 * j) • Q + Q ≠ 0 := by
      rw [← succ_nsmul]; exact hO.ne (by omega) (by omega)
    obtain ⟨k', hk', hl', hT'⟩ := lineFunctionAdd_spec (q := b) (p := a) (r2 := a.y.square) hT
      (hO.ne (by omega) (by omega)) hQ (by rw [GfP2.val_square]) n1 n2
    obtain ⟨f1, f2⟩ := mulLine_chord hP _ _ hk' g1 hl'
    rw [g2] at f2
    rw [← succ_nsmul] at hT'
    exact ⟨f1, f2, hT'⟩
  · have : (2 * (j : Int) + -1).toNat = 2 * j - 1 := by omega
    rw [this]
    have e : 2 * j = (2 * j - 1) + 1 := by omega
    have n1 : (2 * j) • Q ≠ -Q := by
      rw [Ne, ← add_eq_zero_iff_eq_neg, ← succ_nsmul]; exact hO.ne (by omega) (by omega)
    have e' : (2 * j) • Q + -Q = (2 * j - 1) • Q := by
      conv_lhs => rw [e, succ_nsmul]
      rw [add_neg_cancel_right]
    have n2 : (2 * j) • Q + -Q ≠ 0 := by rw [e']; exact hO.ne (by omega) (by omega)
    have hQ' : IsPt (-Q) a.neg.x.val a.neg.y.val := by
      refine hQ.neg.congr rfl ?_
      simp [TwistPoint.neg, GfP2.val_sub]
    obtain ⟨k', hk', hl', hT'⟩ := lineFunctionAdd_spec (q := b) (p := a.neg) (r2 := a.y.square) hT
      (hO.ne (by omega) (by omega)) hQ' (by
        simp [TwistPoint.neg, GfP2.val_sub, GfP2.val_square]) n1 n2
    obtain ⟨f1, f2⟩ := mulLine_chord hP _ _ hk' g1 hl'
    rw [g2] at f2
    rw [e'] at hT'
    refine ⟨f1, ?_, hT'⟩
    rw [hc.millerF_sub Q (2 * j - 1), ← e]
    exact f2

/-- The multiplier reached from `j` by the digits. -/
def digitsVal : Nat → List Int → Nat
  | j, [] => j
  | j, d :: ds => digitsVal (2 * (j : Int) + d).toNat ds

/-- The digits stay in the range in which no chord degenerates. -/
def digitsOk : Nat → List Int → Bool
  | _, [] => true
  | j, d :: ds => decide (0 < j) && decide (2 * j + 1 < bnNn) && decide (d = 0 ∨ d = 1 ∨ d = -1) &&
    digitsOk (2 * (j : Int) + d).toNat ds

theorem millerLoop_spec (ds : List Int) : ∀ (first : Bool) (s : MillerState) (j : Nat), digitsOk j ds = true →
    (first = true → s.ret.val = 1) → MInv P Q j s →
    MInv P Q (digitsVal j ds) (millerLoop a a.neg b a.y.square first ds s) := by
  induction ds with
  | nil => intro _ s j _ _ h; exact h
  | cons d ds ih =>
    intro first s j hok hf h
    simp only [digitsOk, Bool.and_eq_true, decide_eq_true_eq] at hok
    obtain ⟨⟨⟨h1, h2⟩, h3⟩, h5⟩ := hok
    exact ih false _ _ h5 (fun h => absurd h (by simp))
      (millerStep_spec hP hQ hO h3 h1 h2 hf h)

end

theorem naf_val : digitsVal 1 sixuPlus2NAF.dropLast.reverse = bnS := by decide +kernel
theorem naf_ok : digitsOk 1 sixuPlus2NAF.dropLast.reverse = true := by decide +kernel

end Verif

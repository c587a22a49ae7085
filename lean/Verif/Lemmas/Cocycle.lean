import Mathlib.Algebra.Module.Basic
import Mathlib.Tactic.Abel
import Mathlib.Tactic.LinearCombination
import Mathlib.Tactic.Module

/-!
# Miller functions from a symmetric 2-cocycle

`G` is a group of points, `V` the group the reduced line values live in, and `c A B` the class of the
chord through `A` and `B` at a fixed point.
-/

namespace Verif

variable {G V : Type*} [AddCommGroup G] [AddCommGroup V]

/-- A normalised symmetric 2-cocycle. -/
structure Cocycle (c : G → G → V) : Prop where
  symm : ∀ A B, c A B = c B A
  zero : ∀ A, c 0 A = 0
  neg : ∀ A, c A (-A) = 0
  assoc : ∀ A B D, c A B + c (A + B) D = c B D + c A (B + D)

/-- The Miller function `f_m(Q)`. -/
def millerF (c : G → G → V) (Q : G) : Nat → V
  | 0 => 0
  | m + 1 => millerF c Q m + c (m • Q) Q

namespace Cocycle
variable {c : G → G → V} (hc : Cocycle c)
include hc

theorem four (A B C D : G) :
    c A B + c C D + c (A + B) (C + D) = c A C + c B D + c (A + C) (B + D) := by
  have h1 := hc.assoc A B (C + D)
  have h2 := hc.assoc B C D
  have h3 := hc.assoc A C (B + D)
  have h4 := hc.assoc C B D
  have h5 := hc.symm B C
  rw [show B + (C + D) = B + C + D by abel] at h1
  rw [show C + (B + D) = B + C + D by abel] at h3
  rw [show C + B = B + C by abel] at h4
  have e1 : c (A + B) (C + D) = c B (C + D) + c A (B + C + D) - c A B := by rw [← h1]; abel
  have e2 : c (A + C) (B + D) = c C (B + D) + c A (B + C + D) - c A C := by rw [← h3]; abel
  have e3 : c B (C + D) = c B C + c (B + C) D - c C D := by rw [h2]; abel
  have e4 : c C (B + D) = c C B + c (B + C) D - c B D := by rw [h4]; abel
  rw [e1, e2, e3, e4, h5]; abel

theorem neg_neg (A B : G) : c (-A) (-B) = -c A B := by
  have h := hc.four A B (-A) (-B)
  rw [hc.neg, hc.neg, show A + -A = 0 by abel, show B + -B = 0 by abel, hc.zero,
    show -A + -B = -(A + B) by abel, hc.neg] at h
  rw [eq_neg_iff_add_eq_zero, add_comm]; simpa using h

theorem millerF_one (Q : G) : millerF c Q 1 = 0 := by
  simp [millerF, hc.zero]

theorem millerF_add (Q : G) (m n : Nat) :
    millerF c Q (m + n) = millerF c Q m + millerF c Q n + c (m • Q) (n • Q) := by
  induction n with
  | zero => simp [millerF, hc.symm _ 0, hc.zero]
  | succ n ih =>
    rw [← add_assoc, millerF, ih, millerF, add_smul, succ_nsmul]
    have h := hc.assoc (m • Q) (n • Q) Q
    have e : c (m • Q + n • Q) Q = c (n • Q) Q + c (m • Q) (n • Q + Q) - c (m • Q) (n • Q) := by
      rw [← h]; abel
    rw [e]; abel

theorem millerF_sub (Q : G) (m : Nat) :
    millerF c Q m = millerF c Q (m + 1) + c ((m + 1) • Q) (-Q) := by
  rw [millerF]
  have h := hc.assoc ((m + 1) • Q) (-Q) Q
  rw [show (m + 1) • Q + -Q = m • Q by rw [succ_nsmul]; abel, show -Q + Q = 0 by abel, hc.symm (-Q) Q,
    hc.neg, hc.symm _ 0, hc.zero, add_zero] at h
  rw [add_assoc, add_comm (c (m • Q) Q), h, add_zero]

theorem millerF_sum (Q R : G) (m : Nat) :
    millerF c (Q + R) m + m • c Q R = millerF c Q m + millerF c R m + c (m • Q) (m • R) := by
  induction m with
  | zero => simp [millerF, hc.zero]
  | succ m ih =>
    rw [millerF, millerF, millerF, succ_nsmul, succ_nsmul, succ_nsmul, smul_add]
    have h := hc.four (m • Q) (m • R) Q R
    have e : c (m • Q + m • R) (Q + R) = c (m • Q) Q + c (m • R) R + c (m • Q + Q) (m • R + R)
        - c (m • Q) (m • R) - c Q R := by rw [← h]; abel
    rw [e]
    have e2 : millerF c (Q + R) m = millerF c Q m + millerF c R m + c (m • Q) (m • R) - m • c Q R := by
      rw [← ih]; abel
    rw [e2]; abel
end Cocycle

/-- The optimal ate value: the Miller function of `s` and two further chords. -/
def ateF (c : G → G → V) (φ : G →+ G) (s : Nat) (Q : G) : V :=
  millerF c Q s + c (s • Q) (φ Q) + c (s • Q + φ Q) (-φ (φ Q))

/-- The relation behind the optimal ate pairing. -/
def AteRel (φ : G →+ G) (s : Nat) (Q : G) : Prop := s • Q + φ Q - φ (φ Q) + φ (φ (φ Q)) = 0

theorem AteRel.add {φ : G →+ G} {s : Nat} {Q R : G} (hQ : AteRel φ s Q) (hR : AteRel φ s R) :
    AteRel φ s (Q + R) := by
  unfold AteRel at *
  have : s • (Q + R) + φ (Q + R) - φ (φ (Q + R)) + φ (φ (φ (Q + R))) =
    (s • Q + φ Q - φ (φ Q) + φ (φ (φ Q))) + (s • R + φ R - φ (φ R) + φ (φ (φ R))) := by
    simp only [map_add, smul_add]; abel
  rw [this, hQ, hR, add_zero]

/-- Linearity in the point the chords are taken through. -/
theorem ateF_add {c : G → G → V} (hc : Cocycle c) (φ : G →+ G) (p s : Nat)
    (hφ : ∀ A B, c (φ A) (φ B) = p • c A B)
    (hk : ∀ A B, ((s : Int) + p - p ^ 2 + p ^ 3) • c A B = 0)
    {Q R : G} (hQ : AteRel φ s Q) (hR : AteRel φ s R) :
    ateF c φ s (Q + R) = ateF c φ s Q + ateF c φ s R := by
  have e1 := hc.millerF_sum Q R s
  have e2 := hc.four (s • Q) (s • R) (φ Q) (φ R)
  have e3 := hc.four (s • Q + φ Q) (s • R + φ R) (-φ (φ Q)) (-φ (φ R))
  have q : s • Q + φ Q + -φ (φ Q) = -φ (φ (φ Q)) := by
    rw [← add_eq_zero_iff_eq_neg, ← sub_eq_add_neg]; exact hQ
  have r : s • R + φ R + -φ (φ R) = -φ (φ (φ R)) := by
    rw [← add_eq_zero_iff_eq_neg, ← sub_eq_add_neg]; exact hR
  rw [q, r, hc.neg_neg, hc.neg_neg, hφ, hφ, hφ, hφ, hφ] at e3
  rw [hφ] at e2
  have hk' := hk Q R
  unfold ateF
  simp only [map_add, smul_add, neg_add]
  rw [show s • Q + s • R + (φ Q + φ R) = s • Q + φ Q + (s • R + φ R) by abel]
  have f1 : millerF c (Q + R) s = millerF c Q s + millerF c R s + c (s • Q) (s • R) - s • c Q R := by
    rw [← e1]; abel
  have f2 : c (s • Q + s • R) (φ Q + φ R) = c (s • Q) (φ Q) + c (s • R) (φ R) + c (s • Q + φ Q) (s • R + φ R)
      - c (s • Q) (s • R) - p • c Q R := by rw [← e2]; abel
  have f3 : c (s • Q + φ Q + (s • R + φ R)) (-φ (φ Q) + -φ (φ R)) =
      c (s • Q + φ Q) (-φ (φ Q)) + c (s • R + φ R) (-φ (φ R)) - p • p • p • c Q R
      - c (s • Q + φ Q) (s • R + φ R) + p • p • c Q R := by
    rw [eq_comm, ← sub_eq_zero] at e3 ⊢
    rw [← e3]; abel
  rw [f1, f2, f3]
  have : s • c Q R + p • c Q R - p • p • c Q R + p • p • p • c Q R = 0 := by
    rw [← hk']
    simp only [add_smul, sub_smul, natCast_zsmul, pow_succ, pow_zero, one_mul, mul_smul]
  rw [← sub_eq_zero]
  rw [← neg_eq_zero, ← this]
  abel

/-- Additivity in the evaluation point: the cocycles differ by the coboundary of `d`. -/
theorem ateF_coboundary {c c₁ c₂ : G → G → V} (d : G → V) (φ : G →+ G) (p s : Nat)
    (h : ∀ A B, c₁ A B + c₂ A B = c A B + (d A + d B - d (A + B)))
    (h0 : d 0 = 0) (hn : ∀ A, d (-A) = -d A) (hφ : ∀ A, d (φ A) = p • d A)
    (hk : ∀ A, ((s : Int) + p - p ^ 2 + p ^ 3) • d A = 0) {Q : G} (hQ : AteRel φ s Q) :
    ateF c φ s Q = ateF c₁ φ s Q + ateF c₂ φ s Q := by
  have hm : ∀ m : Nat, millerF c₁ Q m + millerF c₂ Q m = millerF c Q m + (m • d Q - d (m • Q)) := by
    intro m
    induction m with
    | zero => simp [millerF, h0]
    | succ m ih =>
      have e : millerF c₁ Q (m + 1) + millerF c₂ Q (m + 1) =
        (millerF c₁ Q m + millerF c₂ Q m) + (c₁ (m • Q) Q + c₂ (m • Q) Q) := by simp only [millerF]; abel
      rw [e, ih, h, millerF, succ_nsmul, succ_nsmul]; abel
  have q : s • Q + φ Q + -φ (φ Q) = -φ (φ (φ Q)) := by
    rw [← add_eq_zero_iff_eq_neg, ← sub_eq_add_neg]; exact hQ
  have e : ateF c₁ φ s Q + ateF c₂ φ s Q = (millerF c₁ Q s + millerF c₂ Q s) +
      (c₁ (s • Q) (φ Q) + c₂ (s • Q) (φ Q)) + (c₁ (s • Q + φ Q) (-φ (φ Q)) + c₂ (s • Q + φ Q) (-φ (φ Q))) := by
    unfold ateF; abel
  rw [e, hm, h, h, q, hn, hn, hφ, hφ, hφ, hφ, hφ, hφ]
  have : s • d Q + p • d Q - p • p • d Q + p • p • p • d Q = 0 := by
    rw [← hk Q]
    simp only [add_smul, sub_smul, natCast_zsmul, pow_succ, pow_zero, one_mul, mul_smul]
  unfold ateF
  rw [← sub_eq_zero, ← neg_eq_zero, ← this]
  abel

end Verif

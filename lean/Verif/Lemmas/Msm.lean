import Mathlib.Algebra.Module.Basic
import Mathlib.Algebra.BigOperators.Group.List.Basic
import Mathlib.Tactic.Module
import Mathlib.Tactic.Abel
import Mathlib.Tactic.LinearCombination
import Mathlib.Tactic.FieldSimp

/-!
# Multi-scalar sums over lists, in an arbitrary module
-/

namespace Verif

section
variable {F M : Type*} [CommRing F] [AddCommGroup M] [Module F M]

/-- `Σ aᵢ • gᵢ`. -/
def msm (a : List F) (g : List M) : M := (List.zipWith (· • ·) a g).sum

@[simp] theorem msm_nil_left (g : List M) : msm ([] : List F) g = 0 := by simp [msm]
@[simp] theorem msm_nil_right (a : List F) : msm a ([] : List M) = 0 := by simp [msm]
@[simp] theorem msm_cons (a : F) (as : List F) (g : M) (gs : List M) :
    msm (a :: as) (g :: gs) = a • g + msm as gs := by simp [msm]

theorem msm_append (a a' : List F) (g g' : List M) (h : a.length = g.length) :
    msm (a ++ a') (g ++ g') = msm a g + msm a' g' := by
  induction a generalizing g with
  | nil => cases g with
    | nil => simp
    | cons _ _ => simp at h
  | cons x a ih => cases g with
    | nil => simp at h
    | cons y g =>
      simp only [List.cons_append, msm_cons]
      rw [ih g (by simpa using h), add_assoc]

theorem msm_take_drop (a : List F) (g : List M) (h : a.length = g.length) (k : Nat) :
    msm a g = msm (a.take k) (g.take k) + msm (a.drop k) (g.drop k) := by
  conv_lhs => rw [← List.take_append_drop k a, ← List.take_append_drop k g]
  exact msm_append _ _ _ _ (by simp [h])

/-- Componentwise linear combination of two lists. -/
def lin {F M : Type*} [Semiring F] [AddCommMonoid M] [Module F M] (x y : F) (v w : List M) : List M :=
  List.zipWith (fun p q => x • p + y • q) v w

@[simp] theorem lin_cons (x y : F) (p q : M) (v w : List M) :
    lin x y (p :: v) (q :: w) = (x • p + y • q) :: lin x y v w := by simp [lin]

@[simp] theorem lin_length (x y : F) (v w : List M) : (lin x y v w).length = min v.length w.length := by
  simp [lin]

/-- The folding identity. -/
theorem msm_fold (x xi : F) (hx : x * xi = 1) (a₁ a₂ : List F) (g₁ g₂ : List M)
    (h₁ : a₂.length = a₁.length) (h₂ : g₁.length = a₁.length) (h₃ : g₂.length = a₁.length) :
    msm (lin x xi a₁ a₂) (lin xi x g₁ g₂) =
      msm a₁ g₁ + msm a₂ g₂ + (x * x) • msm a₁ g₂ + (xi * xi) • msm a₂ g₁ := by
  induction a₁ generalizing a₂ g₁ g₂ with
  | nil =>
    rw [List.length_nil, List.length_eq_zero_iff] at h₁
    simp [lin, h₁]
  | cons p a₁ ih =>
    cases a₂ with
    | nil => simp at h₁
    | cons q a₂ =>
    cases g₁ with
    | nil => simp at h₂
    | cons r g₁ =>
    cases g₂ with
    | nil => simp at h₃
    | cons s g₂ =>
      simp only [lin_cons, msm_cons]
      rw [ih a₂ g₁ g₂ (by simpa using h₁) (by simpa using h₂) (by simpa using h₃)]
      simp only [smul_eq_mul, smul_add, add_smul, smul_smul, mul_add, add_mul]
      have e1 : (x * p * xi) • r = p • r := by rw [show x * p * xi = x * xi * p by ring, hx, one_mul]
      have e2 : (xi * q * x) • s = q • s := by rw [show xi * q * x = x * xi * q by ring, hx, one_mul]
      rw [e1, e2]
      module

theorem msm_smul_right (c : F) (a : List F) (g : List M) :
    msm a (g.map (c • ·)) = c • msm a g := by
  induction a generalizing g with
  | nil => simp
  | cons x a ih => cases g with
    | nil => simp
    | cons y g =>
      simp only [List.map_cons, msm_cons, ih, smul_add, smul_smul, mul_comm]

theorem msm_smul_left (c : F) (a : List F) (g : List M) :
    msm (a.map (c * ·)) g = c • msm a g := by
  induction a generalizing g with
  | nil => simp
  | cons x a ih => cases g with
    | nil => simp
    | cons y g =>
      simp only [List.map_cons, msm_cons, ih, smul_add, smul_smul]

theorem msm_smul_const (a b : List F) (u : M) : msm a (b.map (· • u)) = (msm a b) • u := by
  induction a generalizing b with
  | nil => simp
  | cons x a ih => cases b with
    | nil => simp
    | cons y b => simp only [List.map_cons, msm_cons, ih, add_smul, smul_smul, smul_eq_mul]

theorem msm_add_left (a a' : List F) (g : List M) (h : a.length = a'.length) :
    msm (List.zipWith (· + ·) a a') g = msm a g + msm a' g := by
  induction a generalizing a' g with
  | nil => cases a' with
    | nil => simp
    | cons _ _ => simp at h
  | cons x a ih => cases a' with
    | nil => simp at h
    | cons x' a' => cases g with
      | nil => simp
      | cons y g =>
        simp only [List.zipWith_cons_cons, msm_cons, ih a' g (by simpa using h), add_smul]
        abel

theorem msm_add_right (a : List F) (g g' : List M) (h : g.length = g'.length) :
    msm a (List.zipWith (· + ·) g g') = msm a g + msm a g' := by
  induction a generalizing g g' with
  | nil => simp
  | cons x a ih => cases g with
    | nil => cases g' with
      | nil => simp
      | cons _ _ => simp at h
    | cons y g => cases g' with
      | nil => simp at h
      | cons y' g' =>
        simp only [List.zipWith_cons_cons, msm_cons, ih g g' (by simpa using h), smul_add]
        abel

/-- What is missing for the statement `P = <a,g> + <b,h> + <a,b>·u` to hold. -/
def discrepancy (a b : List F) (g h : List M) (u P : M) : M :=
  P - (msm a g + msm b h + (msm a b) • u)

/-- One folding round does not change the discrepancy. -/
theorem discrepancy_fold (x xi : F) (hx : x * xi = 1) (a₁ a₂ b₁ b₂ : List F) (g₁ g₂ h₁ h₂ : List M)
    (u P : M) (m : Nat) (la₁ : a₁.length = m) (la₂ : a₂.length = m) (lb₁ : b₁.length = m)
    (lb₂ : b₂.length = m) (lg₁ : g₁.length = m) (lg₂ : g₂.length = m) (lh₁ : h₁.length = m)
    (lh₂ : h₂.length = m) :
    discrepancy (lin x xi a₁ a₂) (lin xi x b₁ b₂) (lin xi x g₁ g₂) (lin x xi h₁ h₂) u
      (P + (x * x) • (msm a₁ g₂ + msm b₂ h₁ + (msm a₁ b₂) • u)
        + (xi * xi) • (msm a₂ g₁ + msm b₁ h₂ + (msm a₂ b₁) • u)) =
    discrepancy (a₁ ++ a₂) (b₁ ++ b₂) (g₁ ++ g₂) (h₁ ++ h₂) u P := by
  have hx' : xi * x = 1 := by rw [mul_comm]; exact hx
  unfold discrepancy
  rw [msm_fold x xi hx a₁ a₂ g₁ g₂ (by omega) (by omega) (by omega),
    msm_fold xi x hx' b₁ b₂ h₁ h₂ (by omega) (by omega) (by omega),
    msm_fold x xi hx a₁ a₂ b₁ b₂ (by omega) (by omega) (by omega),
    msm_append _ _ _ _ (by omega), msm_append _ _ _ _ (by omega), msm_append _ _ _ _ (by omega)]
  simp only [smul_eq_mul]
  module

end
end Verif

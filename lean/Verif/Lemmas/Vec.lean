import Verif.Lemmas.BipVerify

/-! # Vectors given by a function of the index -/

namespace Verif
open Finset

/-- The list `f 0, …, f (n-1)`. -/
def vec {α : Type*} (n : Nat) (f : Nat → α) : List α := (List.range n).map f

@[simp] theorem vec_length {α : Type*} (n : Nat) (f : Nat → α) : (vec n f).length = n := by simp [vec]

theorem vec_congr {α : Type*} {n : Nat} {f g : Nat → α} (h : ∀ i < n, f i = g i) : vec n f = vec n g := by
  simp only [vec]
  exact List.map_congr_left fun i hi => h i (List.mem_range.1 hi)

theorem eq_vec {α : Type*} (d : α) (l : List α) {n : Nat} (h : l.length = n) :
    l = vec n (fun i => l.getD i d) := by
  subst h
  refine List.ext_getElem (by simp) fun i h1 h2 => ?_
  simp [vec, List.getD, h1]

theorem zipWith_vec {α β γ : Type*} (op : α → β → γ) (n : Nat) (f : Nat → α) (g : Nat → β) :
    List.zipWith op (vec n f) (vec n g) = vec n (fun i => op (f i) (g i)) := by
  refine List.ext_getElem (by simp) fun i h1 h2 => ?_
  simp [vec]

theorem sum_vec {M : Type*} [AddCommMonoid M] (n : Nat) (f : Nat → M) :
    (vec n f).sum = ∑ i ∈ range n, f i := by
  induction n with
  | zero => rfl
  | succ n ih =>
    rw [vec, List.range_succ, List.map_append, List.sum_append, sum_range_succ]
    simp only [List.map_cons, List.map_nil, List.sum_cons, List.sum_nil, add_zero]
    rw [← ih]; rfl

theorem msm_vec {F M : Type*} [Field F] [AddCommGroup M] [Module F M] (n : Nat) (f : Nat → F) (P : Nat → M) :
    msm (vec n f) (vec n P) = ∑ i ∈ range n, f i • P i := by
  rw [msm, zipWith_vec, sum_vec]

theorem castL_inj_length {a : List Int} {n : Nat} {f : Nat → Fn} (h : castL a = vec n f) : a.length = n := by
  have := congrArg List.length h
  simpa using this

theorem castL_eq_vec (a : List Int) {n : Nat} (h : a.length = n) :
    castL a = vec n (fun i => ((a.getD i 0 : Int) : Fn)) := by
  conv_lhs => rw [eq_vec 0 a h]
  simp only [castL, vec, List.map_map]
  rfl

theorem castL_vectorAdd {a b : List Int} {n : Nat} {f g : Nat → Fn} (ha : castL a = vec n f)
    (hb : castL b = vec n g) : castL ((vectorAdd a b).getD []) = vec n (fun i => f i + g i) := by
  have la := castL_inj_length ha
  have lb := castL_inj_length hb
  rw [vectorAdd, if_neg (by omega), Option.getD_some]
  have : castL (List.zipWith (fun x y => (x + y) % ORDER) a b) = List.zipWith (· + ·) (castL a) (castL b) := by
    simp only [castL, List.map_zipWith, List.zipWith_map, fn_emod, Int.cast_add]
  rw [this, ha, hb, zipWith_vec]

theorem castL_vectorSub {a b : List Int} {n : Nat} {f g : Nat → Fn} (ha : castL a = vec n f)
    (hb : castL b = vec n g) : castL ((vectorSub a b).getD []) = vec n (fun i => f i - g i) := by
  have la := castL_inj_length ha
  have lb := castL_inj_length hb
  rw [vectorSub, if_neg (by omega), Option.getD_some]
  have : castL (List.zipWith (fun x y => (x - y) % ORDER) a b) = List.zipWith (· - ·) (castL a) (castL b) := by
    simp only [castL, List.map_zipWith, List.zipWith_map, fn_emod, Int.cast_sub]
  rw [this, ha, hb, zipWith_vec]

theorem castL_vectorMul {a b : List Int} {n : Nat} {f g : Nat → Fn} (ha : castL a = vec n f)
    (hb : castL b = vec n g) : castL ((vectorMul a b).getD []) = vec n (fun i => f i * g i) := by
  have la := castL_inj_length ha
  have lb := castL_inj_length hb
  rw [vectorMul, if_neg (by omega), Option.getD_some]
  have : castL (List.zipWith (fun x y => (x * y) % ORDER) a b) = List.zipWith (· * ·) (castL a) (castL b) := by
    simp only [castL, List.map_zipWith, List.zipWith_map, fn_emod, Int.cast_mul]
  rw [this, ha, hb, zipWith_vec]

theorem castL_vectorScalarMul {a : List Int} {n : Nat} {f : Nat → Fn} (ha : castL a = vec n f) (c : Int) :
    castL (vectorScalarMul a c) = vec n (fun i => f i * (c : Fn)) := by
  have : castL (vectorScalarMul a c) = (castL a).map (· * (c : Fn)) := by
    simp only [castL, vectorScalarMul, List.map_map]
    apply List.map_congr_left
    intro x _
    simp only [Function.comp, fn_emod, Int.cast_mul]
  rw [this, ha, vec, vec, List.map_map]; rfl

theorem castL_powerOf (x : Int) (n : Nat) :
    castL ((List.range n).map (fun i => x ^ i % ORDER)) = vec n (fun i => (x : Fn) ^ i) := by
  simp only [castL, vec, List.map_map]
  apply List.map_congr_left
  intro i _
  simp only [Function.comp, fn_emod, Int.cast_pow]

theorem castL_replicate (c : Int) (n : Nat) : castL (List.replicate n c) = vec n (fun _ => (c : Fn)) := by
  simp only [castL, vec, List.map_replicate, List.map_const', List.length_range]

theorem vectorCopy_eq (c : Int) (n : Nat) : vectorCopy c (n : Int) = .ok (List.replicate n c) := by
  rw [vectorCopy, if_neg (by omega), Int.toNat_natCast]

theorem vectorConvertToBig_eq (a : List Int) (n : Nat) (h : a.length = n) :
    vectorConvertToBig a (n : Int) = .ok a := by
  subst h
  rw [vectorConvertToBig, if_neg (by omega), Int.toNat_natCast, List.take_length]

theorem scalarProduct_vec {a b : List Int} {n : Nat} {f g : Nat → Fn} (ha : castL a = vec n f)
    (hb : castL b = vec n g) : ∃ c, scalarProduct a b = some c ∧ (c : Fn) = ∑ i ∈ range n, f i * g i := by
  have la := castL_inj_length ha
  have lb := castL_inj_length hb
  refine ⟨_, scalarProduct_eq a b (by omega), ?_⟩
  rw [fn_emod, ← msm_castL_dot, ha, hb, msm_vec]
  rfl

end Verif

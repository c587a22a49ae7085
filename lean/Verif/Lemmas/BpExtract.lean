import Verif.Spec.BpExtract
import Verif.Lemmas.IpExtract
import Mathlib.LinearAlgebra.Vandermonde
import Mathlib.Tactic.LinearCombination
import Mathlib.Tactic.Module
import Mathlib.Tactic.FieldSimp

/-! # Correctness of the extractor for the range proof -/

namespace Verif.Spec
open Finset

section
variable {F : Type*} [Field F]

/-- A quadratic polynomial with three roots. -/
theorem quad_zero {a b c : F} {z : Fin 3 → F} (hz : ∀ j j', z j = z j' → j = j')
    (h : ∀ j, a * z j ^ 2 + b * z j + c = 0) : a = 0 ∧ b = 0 ∧ c = 0 := by
  have d01 : z 0 - z 1 ≠ 0 := sub_ne_zero.2 fun e => absurd (hz _ _ e) (by decide)
  have d02 : z 0 - z 2 ≠ 0 := sub_ne_zero.2 fun e => absurd (hz _ _ e) (by decide)
  have d12 : z 1 - z 2 ≠ 0 := sub_ne_zero.2 fun e => absurd (hz _ _ e) (by decide)
  have e1 : a * (z 0 + z 1) + b = 0 := by
    apply mul_left_cancel₀ d01
    linear_combination h 0 - h 1
  have e2 : a * (z 0 + z 2) + b = 0 := by
    apply mul_left_cancel₀ d02
    linear_combination h 0 - h 2
  have ha : a = 0 := by
    apply mul_left_cancel₀ d12
    linear_combination e1 - e2
  have hb : b = 0 := by rw [ha] at e1; linear_combination e1
  refine ⟨ha, hb, ?_⟩
  have := h 0
  rw [ha, hb] at this
  linear_combination this

/-- A polynomial of degree less than `n` with `n` roots. -/
theorem pow_sum_zero {n : Nat} {c : Nat → F} {y : Fin n → F} (hy : ∀ i i', y i = y i' → i = i')
    (h : ∀ i, ∑ m ∈ range n, c m * y i ^ m = 0) : ∀ m < n, c m = 0 := by
  have := Matrix.eq_zero_of_forall_index_sum_pow_mul_eq_zero (f := y) (v := fun i : Fin n => c i) (fun i i' e => hy i i' e)
    (fun i => by
      have e := h i
      rw [← Fin.sum_univ_eq_sum_range (fun m => c m * y i ^ m)] at e
      rw [← e]
      exact sum_congr rfl fun j _ => mul_comm _ _)
  intro m hm
  exact congrFun this ⟨m, hm⟩

section
variable {k : Nat} (nd : ZNode F k) (hd : ∀ l l', (nd.xs l).x = (nd.xs l').x → l = l')

theorem at0_smul {M : Type*} [AddCommGroup M] [Module F M] (hd : ∀ l l', (nd.xs l).x = (nd.xs l').x → l = l')
    {f g : XNode F k → F} {G H P T1 T2 : M}
    (h : ∀ l, f (nd.xs l) • G + g (nd.xs l) • H = P + (nd.xs l).x • T1 + (nd.xs l).x ^ 2 • T2) :
    nd.at0 f • G + nd.at0 g • H = P := by
  have d01 : (nd.xs 0).x - (nd.xs 1).x ≠ 0 := sub_ne_zero.2 fun e => absurd (hd _ _ e) (by decide)
  have d02 : (nd.xs 0).x - (nd.xs 2).x ≠ 0 := sub_ne_zero.2 fun e => absurd (hd _ _ e) (by decide)
  have d12 : (nd.xs 1).x - (nd.xs 2).x ≠ 0 := sub_ne_zero.2 fun e => absurd (hd _ _ e) (by decide)
  have d10 : (nd.xs 1).x - (nd.xs 0).x ≠ 0 := sub_ne_zero.2 fun e => absurd (hd _ _ e) (by decide)
  have d20 : (nd.xs 2).x - (nd.xs 0).x ≠ 0 := sub_ne_zero.2 fun e => absurd (hd _ _ e) (by decide)
  have d21 : (nd.xs 2).x - (nd.xs 1).x ≠ 0 := sub_ne_zero.2 fun e => absurd (hd _ _ e) (by decide)
  have h0 := h 0
  have h1 := h 1
  have h2 := h 2
  simp only [ZNode.at0]
  generalize (nd.xs 0).x = x0 at *
  generalize (nd.xs 1).x = x1 at *
  generalize (nd.xs 2).x = x2 at *
  have s0 : x1 * x2 / ((x1 - x0) * (x2 - x0)) + x0 * x2 / ((x0 - x1) * (x2 - x1)) + x0 * x1 / ((x0 - x2) * (x1 - x2)) = 1 := by
    rw [← neg_sub x0 x1, ← neg_sub x0 x2, ← neg_sub x1 x2]; field_simp; ring
  have s1 : x1 * x2 / ((x1 - x0) * (x2 - x0)) * x0 + x0 * x2 / ((x0 - x1) * (x2 - x1)) * x1 +
      x0 * x1 / ((x0 - x2) * (x1 - x2)) * x2 = 0 := by
    rw [← neg_sub x0 x1, ← neg_sub x0 x2, ← neg_sub x1 x2]; field_simp; ring
  have s2 : x1 * x2 / ((x1 - x0) * (x2 - x0)) * x0 ^ 2 + x0 * x2 / ((x0 - x1) * (x2 - x1)) * x1 ^ 2 +
      x0 * x1 / ((x0 - x2) * (x1 - x2)) * x2 ^ 2 = 0 := by
    rw [← neg_sub x0 x1, ← neg_sub x0 x2, ← neg_sub x1 x2]; field_simp; ring
  generalize x1 * x2 / ((x1 - x0) * (x2 - x0)) = w0 at *
  generalize x0 * x2 / ((x0 - x1) * (x2 - x1)) = w1 at *
  generalize x0 * x1 / ((x0 - x2) * (x1 - x2)) = w2 at *
  linear_combination (norm := module) w0 • h0 + w1 • h1 + w2 • h2 + s0 • P + s1 • T1 + s2 • T2

end

/-- The constant term of `t`. -/
theorem t_const (n : Nat) (a b : Nat → F) {y z : F} :
    ∑ i ∈ range n, (a i - z) * (y ^ i * (b i + z) + z ^ 2 * 2 ^ i) =
      z ^ 2 * ∑ i ∈ range n, a i * 2 ^ i + z * ∑ i ∈ range n, (a i - 1 - b i) * y ^ i +
        ∑ i ∈ range n, a i * b i * y ^ i + delta n y z := by
  have hg : ∑ i ∈ range n, (2 : F) ^ i = 2 ^ n - 1 := by
    induction n with
    | zero => simp
    | succ n ih => rw [sum_range_succ, ih]; ring
  rw [delta, ← hg, mul_sum, mul_sum, mul_sum, mul_sum, ← sum_sub_distrib, ← sum_add_distrib, ← sum_add_distrib,
    ← sum_add_distrib]
  refine sum_congr rfl fun i _ => ?_
  ring

/-- `t(x)` as a quadratic polynomial. -/
theorem t_poly (n : Nat) (a b s r : Nat → F) (x y z : F) :
    ∑ i ∈ range n, (a i + x * s i - z) * (y ^ i * (b i + x * r i + z) + z ^ 2 * 2 ^ i) =
      ∑ i ∈ range n, (a i - z) * (y ^ i * (b i + z) + z ^ 2 * 2 ^ i) +
      x * ∑ i ∈ range n, ((a i - z) * (y ^ i * r i) + s i * (y ^ i * (b i + z) + z ^ 2 * 2 ^ i)) +
      x ^ 2 * ∑ i ∈ range n, s i * (y ^ i * r i) := by
  rw [mul_sum, mul_sum, ← sum_add_distrib, ← sum_add_distrib]
  refine sum_congr rfl fun i _ => ?_
  ring

end

section
variable {F : Type*} [Field F] {M : Type*} [AddCommGroup M] [Module F M]

theorem reval_add (n : Nat) (G H u : M) (g h : Nat → M) (c d : RCoeffs F) :
    reval n G H u g h (c + d) = reval n G H u g h c + reval n G H u g h d := by
  simp only [reval, Prod.fst_add, Prod.snd_add, Pi.add_apply, add_smul, sum_add_distrib]
  abel

theorem reval_smul (n : Nat) (G H u : M) (g h : Nat → M) (r : F) (c : RCoeffs F) :
    reval n G H u g h (r • c) = r • reval n G H u g h c := by
  simp only [reval, Prod.smul_fst, Prod.smul_snd, Pi.smul_apply, smul_eq_mul, mul_smul, smul_add, smul_sum]

theorem reval_sub (n : Nat) (G H u : M) (g h : Nat → M) (c d : RCoeffs F) :
    reval n G H u g h (c - d) = reval n G H u g h c - reval n G H u g h d := by
  have := reval_add n G H u g h (c - d) d
  rw [sub_add_cancel] at this
  rw [this, add_sub_cancel_right]

theorem not_nontrivial {n : Nat} {c : RCoeffs F} (h : ¬ Nontrivial n c) :
    c.1 = 0 ∧ c.2.1 = 0 ∧ c.2.2.1 = 0 ∧ ∀ i < n, c.2.2.2.1 i = 0 ∧ c.2.2.2.2 i = 0 := by
  simp only [Nontrivial, not_or, not_not, not_exists, not_and] at h
  exact h

variable [DecidableEq F] {k : Nat}

omit [Field F] [DecidableEq F] in
theorem mem_leaves (T : RTree F k) (i : Fin (2 ^ k)) (j l : Fin 3) :
    ((T i).y, ((T i).zs j).z, ((T i).zs j).xs l) ∈ T.leaves := by
  simp only [RTree.leaves, List.mem_flatMap, List.mem_map, List.mem_finRange, true_and]
  exact ⟨i, j, l, rfl⟩

omit [Field F] [DecidableEq F] in
theorem of_mem_leaves {T : RTree F k} {q : F × F × XNode F k} (h : q ∈ T.leaves) :
    ∃ i j l, q = ((T i).y, ((T i).zs j).z, ((T i).zs j).xs l) := by
  simp only [RTree.leaves, List.mem_flatMap, List.mem_map, List.mem_finRange, true_and] at h
  obtain ⟨i, j, l, rfl⟩ := h
  exact ⟨i, j, l, rfl⟩

omit [Field F] [DecidableEq F] in
theorem mem_nodes (T : RTree F k) (i : Fin (2 ^ k)) (j : Fin 3) : ((T i).y, (T i).zs j) ∈ T.nodes := by
  simp only [RTree.nodes, List.mem_flatMap, List.mem_map, List.mem_finRange, true_and]
  exact ⟨i, j, rfl⟩

omit [Field F] [DecidableEq F] in
theorem of_mem_nodes {T : RTree F k} {q : F × ZNode F k} (h : q ∈ T.nodes) : ∃ i j, q = ((T i).y, (T i).zs j) := by
  simp only [RTree.nodes, List.mem_flatMap, List.mem_map, List.mem_finRange, true_and] at h
  obtain ⟨i, j, rfl⟩ := h
  exact ⟨i, j, rfl⟩

/-- A relation found by the inner-product extractor. -/
theorem XNode.rel_valid {nd : XNode F k} {y z : F} {G H u : M} {g h : Nat → M} {V A S T1 T2 : M} (hy : y ≠ 0)
    (hv : nd.Valid y z G H u g h V A S T1 T2) {c : RCoeffs F} (hc : nd.rel y = some c) :
    Nontrivial (2 ^ k) c ∧ reval (2 ^ k) G H u g h c = 0 := by
  obtain ⟨C, _, _, he, ht⟩ := hv
  have := extractProduct_valid he (ht 0) (ht 1)
  rw [XNode.rel] at hc
  cases hx : extractProduct nd.tprime (nd.e 0) (nd.e 1) (nd.t 0) (nd.t 1) with
  | opening a b => rw [hx] at hc; cases hc
  | relation v =>
    rw [hx] at hc
    simp only [hx] at this
    cases hc
    refine ⟨?_, ?_⟩
    · rcases this.1 with ⟨i, hi, h1 | h1⟩ | h1
      · exact Or.inr (Or.inr (Or.inr ⟨i, hi, Or.inl h1⟩))
      · exact Or.inr (Or.inr (Or.inr ⟨i, hi, Or.inr (mul_ne_zero (pow_ne_zero _ (inv_ne_zero hy)) h1)⟩))
      · exact Or.inr (Or.inr (Or.inl h1))
    · have e : ∑ i ∈ range (2 ^ k), (y⁻¹ ^ i * v.2.1 i) • h i = ∑ i ∈ range (2 ^ k), v.2.1 i • y⁻¹ ^ i • h i :=
        sum_congr rfl fun i _ => by rw [smul_smul, mul_comm]
      rw [reval]
      simp only [e]
      linear_combination (norm := module) this.2

/-- The opening of `A + x·S`, and the product. -/
theorem XNode.coeffs_valid {nd : XNode F k} {y z : F} {G H u : M} {g h : Nat → M} {V A S T1 T2 : M} (hy : y ≠ 0)
    (hv : nd.Valid y z G H u g h V A S T1 T2) (hc : nd.rel y = none) :
    reval (2 ^ k) G H u g h (nd.coeffs y z) = A + nd.x • S ∧
      ∑ i ∈ range (2 ^ k), nd.lr.1 i * nd.lr.2 i = nd.tprime := by
  obtain ⟨C, _, h67, he, ht⟩ := hv
  have := extractProduct_valid he (ht 0) (ht 1)
  rw [XNode.rel] at hc
  cases hx : extractProduct nd.tprime (nd.e 0) (nd.e 1) (nd.t 0) (nd.t 1) with
  | relation v => rw [hx] at hc; cases hc
  | opening a b =>
    simp only [hx] at this
    have hlr : nd.lr = (a, b) := by rw [XNode.lr, hx]
    refine ⟨?_, by rw [hlr]; exact this.2⟩
    have e1 : ∑ i ∈ range (2 ^ k), (a i + z) • g i = ∑ i ∈ range (2 ^ k), a i • g i + z • ∑ i ∈ range (2 ^ k), g i := by
      rw [smul_sum, ← sum_add_distrib]
      exact sum_congr rfl fun i _ => add_smul _ _ _
    have e2 : ∑ i ∈ range (2 ^ k), (y⁻¹ ^ i * (b i - z ^ 2 * 2 ^ i) - z) • h i =
        ∑ i ∈ range (2 ^ k), b i • y⁻¹ ^ i • h i -
          ∑ i ∈ range (2 ^ k), (y ^ i * z + 2 ^ i * z ^ 2) • (y⁻¹ ^ i • h i) := by
      rw [← sum_sub_distrib]
      refine sum_congr rfl fun i _ => ?_
      rw [smul_smul, smul_smul, ← sub_smul]
      congr 1
      have : y ^ i * y⁻¹ ^ i = 1 := by rw [← mul_pow, mul_inv_cancel₀ hy, one_pow]
      linear_combination z * this
    rw [reval, XNode.coeffs, hlr]
    simp only [e1, e2]
    linear_combination (norm := module) -h67 - this.1

/-- The extractor finds an opening by bits, or a relation. -/
theorem RTree.extract_valid (T : RTree F k) {G H u : M} {g h : Nat → M} {V : M} (hT : T.Valid G H u g h V) :
    T.extract.Valid (2 ^ k) G H u g h V := by
  obtain ⟨hy0, hyi, A, S, hT⟩ := hT
  rw [RTree.extract]
  cases hf : T.leaves.findSome? (fun q => q.2.2.rel q.1) with
  | some c =>
    obtain ⟨q, hq, hc⟩ := List.exists_of_findSome?_eq_some hf
    obtain ⟨i, j, l, rfl⟩ := of_mem_leaves hq
    obtain ⟨_, _, hz⟩ := hT i
    obtain ⟨T1, T2, _, hx⟩ := hz j
    exact XNode.rel_valid (hy0 i) (hx l) hc
  | none =>
    rw [List.findSome?_eq_none_iff] at hf
    have hrel : ∀ i j l, (((T i).zs j).xs l).rel (T i).y = none := fun i j l => hf _ (mem_leaves T i j l)
    have hAS : ∀ i j l, reval (2 ^ k) G H u g h ((((T i).zs j).xs l).coeffs (T i).y ((T i).zs j).z) =
        A + (((T i).zs j).xs l).x • S := by
      intro i j l
      obtain ⟨_, _, hz⟩ := hT i
      obtain ⟨T1, T2, _, hx⟩ := hz j
      exact (XNode.coeffs_valid (hy0 i) (hx l) (hrel i j l)).1
    have hprod : ∀ i j l, ∑ m ∈ range (2 ^ k), (((T i).zs j).xs l).lr.1 m * (((T i).zs j).xs l).lr.2 m =
        (((T i).zs j).xs l).tprime := by
      intro i j l
      obtain ⟨_, _, hz⟩ := hT i
      obtain ⟨T1, T2, _, hx⟩ := hz j
      exact (XNode.coeffs_valid (hy0 i) (hx l) (hrel i j l)).2
    have hV : ∀ i j, ((T i).zs j).at0 (·.tprime) • G + ((T i).zs j).at0 (·.taux) • H =
        ((T i).zs j).z ^ 2 • V + delta (2 ^ k) (T i).y ((T i).zs j).z • G := by
      intro i j
      obtain ⟨_, _, hz⟩ := hT i
      obtain ⟨T1, T2, hd, hx⟩ := hz j
      refine at0_smul _ hd (T1 := T1) (T2 := T2) fun l => ?_
      obtain ⟨C, h65, _⟩ := hx l
      exact h65
    have hxd : ∀ i j, ∀ l l', (((T i).zs j).xs l).x = (((T i).zs j).xs l').x → l = l' := by
      intro i j
      obtain ⟨_, _, hz⟩ := hT i
      obtain ⟨T1, T2, hd, hx⟩ := hz j
      exact hd
    have hz0 : ∀ i j, ((T i).zs j).z ≠ 0 := fun i => (hT i).1
    have hzi : ∀ i j j', ((T i).zs j).z = ((T i).zs j').z → j = j' := fun i => (hT i).2.1
    clear hT hf
    simp only
    set i0 : Fin (2 ^ k) := ⟨0, Nat.two_pow_pos k⟩ with hi0
    set nd := (T i0).zs 0 with hnd
    set p0 := (nd.xs 0).coeffs (T i0).y nd.z with hp0
    set p1 := (nd.xs 1).coeffs (T i0).y nd.z with hp1
    set S' := ((nd.xs 0).x - (nd.xs 1).x)⁻¹ • (p0 - p1) with hS'
    set A' := p0 - (nd.xs 0).x • S' with hA'
    set v := (nd.at0 (·.tprime) - delta (2 ^ k) (T i0).y nd.z) / nd.z ^ 2 with hv
    set gamma := nd.at0 (·.taux) / nd.z ^ 2 with hgamma
    have d01 : (nd.xs 0).x - (nd.xs 1).x ≠ 0 := sub_ne_zero.2 fun e => absurd (hxd _ _ _ _ e) (by decide)
    have eS : reval (2 ^ k) G H u g h S' = S := by
      rw [hS', reval_smul, reval_sub, hp0, hp1, hAS, hAS, inv_smul_eq_iff₀ d01]
      module
    have eA : reval (2 ^ k) G H u g h A' = A := by
      rw [hA', reval_sub, reval_smul, eS, hp0, hAS, add_sub_cancel_right]
    have eV : V = v • G + gamma • H := by
      have hz : nd.z ^ 2 ≠ 0 := pow_ne_zero _ (hz0 i0 0)
      have hi : nd.z ^ 2 * (nd.z ^ 2)⁻¹ = 1 := mul_inv_cancel₀ hz
      have := hV i0 0
      rw [hv, hgamma, div_eq_mul_inv, div_eq_mul_inv]
      linear_combination (norm := module) -(((nd.z ^ 2)⁻¹) • this) - (hi • V)
    split
    · rename_i c hc
      refine ⟨by simpa using List.find?_some hc, ?_⟩
      have hm := List.mem_of_find?_eq_some hc
      rw [List.mem_append, List.mem_map, List.mem_map] at hm
      rcases hm with ⟨q, hq, rfl⟩ | ⟨q, hq, rfl⟩
      · obtain ⟨i, j, l, rfl⟩ := of_mem_leaves hq
        rw [reval_sub, reval_add, reval_smul, eS, eA]
        simp only [hAS, sub_self]
      · obtain ⟨i, j, rfl⟩ := of_mem_nodes hq
        have := hV i j
        rw [eV] at this
        simp only [reval, Pi.zero_apply, zero_smul, sum_const_zero, add_zero]
        linear_combination (norm := module) -this
    · rename_i hc
      rw [List.find?_eq_none] at hc
      have c1 : ∀ i j l, ∀ m < 2 ^ k,
          (((T i).zs j).xs l).lr.1 m = A'.2.2.2.1 m + (((T i).zs j).xs l).x * S'.2.2.2.1 m - ((T i).zs j).z ∧
          (((T i).zs j).xs l).lr.2 m = (T i).y ^ m * (A'.2.2.2.2 m + (((T i).zs j).xs l).x * S'.2.2.2.2 m +
            ((T i).zs j).z) + ((T i).zs j).z ^ 2 * 2 ^ m := by
        intro i j l m hm
        have h1 := hc _ (List.mem_append_left _ (List.mem_map.2 ⟨_, mem_leaves T i j l, rfl⟩))
        simp only [decide_eq_true_eq] at h1
        obtain ⟨_, _, _, h1⟩ := not_nontrivial h1
        obtain ⟨h1, h2⟩ := h1 m hm
        simp only [Prod.snd_sub, Prod.fst_sub, Prod.snd_add, Prod.fst_add, Prod.smul_snd, Prod.smul_fst, Pi.sub_apply,
          Pi.add_apply, Pi.smul_apply, smul_eq_mul, XNode.coeffs] at h1 h2
        refine ⟨by linear_combination h1, ?_⟩
        have hi : (T i).y ^ m * (T i).y⁻¹ ^ m = 1 := by rw [← mul_pow, mul_inv_cancel₀ (hy0 i), one_pow]
        linear_combination (T i).y ^ m * h2 - ((((T i).zs j).xs l).lr.2 m - ((T i).zs j).z ^ 2 * 2 ^ m) * hi
      have c2 : ∀ i j, ((T i).zs j).z ^ 2 * v + delta (2 ^ k) (T i).y ((T i).zs j).z - ((T i).zs j).at0 (·.tprime) = 0 := by
        intro i j
        have h1 := hc _ (List.mem_append_right _ (List.mem_map.2 ⟨_, mem_nodes T i j, rfl⟩))
        simp only [decide_eq_true_eq] at h1
        exact (not_nontrivial h1).1
      have ht : ∀ i j l, (((T i).zs j).xs l).tprime =
          ∑ m ∈ range (2 ^ k), (A'.2.2.2.1 m + (((T i).zs j).xs l).x * S'.2.2.2.1 m - ((T i).zs j).z) *
            ((T i).y ^ m * (A'.2.2.2.2 m + (((T i).zs j).xs l).x * S'.2.2.2.2 m + ((T i).zs j).z) +
              ((T i).zs j).z ^ 2 * 2 ^ m) := by
        intro i j l
        rw [← hprod i j l]
        refine sum_congr rfl fun m hm => ?_
        obtain ⟨e1, e2⟩ := c1 i j l m (mem_range.1 hm)
        rw [e1, e2]
      have hat : ∀ i j, ((T i).zs j).at0 (·.tprime) =
          ∑ m ∈ range (2 ^ k), (A'.2.2.2.1 m - ((T i).zs j).z) *
            ((T i).y ^ m * (A'.2.2.2.2 m + ((T i).zs j).z) + ((T i).zs j).z ^ 2 * 2 ^ m) := by
        intro i j
        have := at0_smul (M := F) ((T i).zs j) (hxd i j) (f := (·.tprime)) (g := fun _ => 0) (G := 1) (H := 0)
          (P := ∑ m ∈ range (2 ^ k), (A'.2.2.2.1 m - ((T i).zs j).z) *
            ((T i).y ^ m * (A'.2.2.2.2 m + ((T i).zs j).z) + ((T i).zs j).z ^ 2 * 2 ^ m))
          (T1 := ∑ m ∈ range (2 ^ k), ((A'.2.2.2.1 m - ((T i).zs j).z) * ((T i).y ^ m * S'.2.2.2.2 m) +
            S'.2.2.2.1 m * ((T i).y ^ m * (A'.2.2.2.2 m + ((T i).zs j).z) + ((T i).zs j).z ^ 2 * 2 ^ m)))
          (T2 := ∑ m ∈ range (2 ^ k), S'.2.2.2.1 m * ((T i).y ^ m * S'.2.2.2.2 m))
          (fun l => by
            simp only [smul_eq_mul, mul_one, mul_zero, add_zero]
            rw [ht i j l, t_poly])
        simpa using this
      have key : ∀ i, (∑ m ∈ range (2 ^ k), A'.2.2.2.1 m * 2 ^ m - v = 0) ∧
          (∑ m ∈ range (2 ^ k), (A'.2.2.2.1 m - 1 - A'.2.2.2.2 m) * (T i).y ^ m = 0) ∧
          (∑ m ∈ range (2 ^ k), A'.2.2.2.1 m * A'.2.2.2.2 m * (T i).y ^ m = 0) := by
        intro i
        refine quad_zero (z := fun j => ((T i).zs j).z) (hzi i) fun j => ?_
        have h1 := hat i j
        rw [t_const] at h1
        linear_combination -h1 - c2 i j
      have k1 := pow_sum_zero hyi (fun i => (key i).2.1)
      have k2 := pow_sum_zero (c := fun m => A'.2.2.2.1 m * A'.2.2.2.2 m) hyi (fun i => (key i).2.2)
      refine ⟨fun m hm => ?_, ?_⟩
      · have e1 := k1 m hm
        rcases mul_eq_zero.1 (k2 m hm) with h0 | h0
        · exact Or.inl h0
        · refine Or.inr ?_
          rw [h0] at e1
          linear_combination e1
      · rw [eV, sub_eq_zero.1 (key i0).1]

end

end Verif.Spec

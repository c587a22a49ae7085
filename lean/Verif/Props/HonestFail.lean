import Mathlib.Algebra.Polynomial.Roots
import Verif.Props.Bp
import Verif.Props.CcsSound

/-!
# C79: how rarely honest proofs are rejected

The exceptions in C24 and C51 are counted.  The quantifiers follow the order in which the numbers are chosen.
-/

namespace Verif
open Finset

/-- A polynomial whose coefficients are points, not all infinite, has at most as many roots as its degree. -/
theorem point_roots (n : Nat) (f : Nat → Secp) (j : Nat) (hj : j ≤ n) (h : f j ≠ 0) :
    ∃ B : Finset Fn, B.card ≤ n ∧ ∀ x : Fn, ∑ i ∈ range (n + 1), x ^ i • f i = 0 → x ∈ B := by
  choose a ha using fun i => secp_generator secpG secpG_ne_zero (f i)
  obtain ⟨p, hp⟩ : ∃ p : Polynomial Fn, p = ∑ i ∈ range (n + 1), Polynomial.monomial i (a i) := ⟨_, rfl⟩
  have hc : p.coeff j = a j := by
    rw [hp, Polynomial.finsetSum_coeff]
    simp only [Polynomial.coeff_monomial]
    rw [Finset.sum_ite_eq' (range (n + 1)) j (fun i => a i), if_pos (mem_range.2 (by omega))]
  have haj : a j ≠ 0 := by
    intro h0
    refine h ?_
    rw [← ha j, h0, zmod_zero_smul]
  have hp0 : p ≠ 0 := by
    intro h0
    rw [h0, Polynomial.coeff_zero] at hc
    exact haj hc.symm
  have hdeg : p.natDegree ≤ n := by
    rw [hp]
    refine Polynomial.natDegree_sum_le_of_forall_le _ _ fun i hi => ?_
    exact (Polynomial.natDegree_monomial_le (a i)).trans (by have := mem_range.1 hi; omega)
  refine ⟨p.roots.toFinset, (Multiset.toFinset_card_le _).trans ((Polynomial.card_roots' p).trans hdeg), fun x hx => ?_⟩
  rw [Multiset.mem_toFinset, Polynomial.mem_roots hp0, Polynomial.IsRoot.def, hp, Polynomial.eval_finsetSum]
  have e : (∑ i ∈ range (n + 1), (Polynomial.monomial i (a i)).eval x) • secpG = 0 := by
    rw [← hx, Finset.sum_smul]
    refine sum_congr rfl fun i _ => ?_
    rw [Polynomial.eval_monomial, mul_comm, mul_smul, ha]
  rwa [smul_eq_zero, or_iff_left secpG_ne_zero] at e

theorem linear_roots (P Q : Secp) (h : Q ≠ 0) : ∃ B : Finset Fn, B.card ≤ 1 ∧ ∀ x : Fn, P + x • Q = 0 → x ∈ B := by
  obtain ⟨B, h1, h2⟩ := point_roots 1 (fun i => if i = 0 then P else Q) 1 le_rfl (by simpa using h)
  refine ⟨B, h1, fun x hx => h2 x ?_⟩
  rw [sum_range_succ, sum_range_one]
  simpa using hx

theorem quadratic_roots (P Q R : Secp) (h : R ≠ 0) :
    ∃ B : Finset Fn, B.card ≤ 2 ∧ ∀ x : Fn, P + x • Q + x ^ 2 • R = 0 → x ∈ B := by
  obtain ⟨B, h1, h2⟩ := point_roots 2 (fun i => if i = 0 then P else if i = 1 then Q else R) 2 le_rfl (by simpa using h)
  refine ⟨B, h1, fun x hx => h2 x ?_⟩
  rw [sum_range_succ, sum_range_succ, sum_range_one]
  simpa using hx

/-- For a given point and generator, at most two scalars make an exceptional pair of operands. -/
theorem addOk_scalars (P H : Secp) (hH : H ≠ 0) : ∃ B : Finset Fn, B.card ≤ 2 ∧ 0 ∈ B ∧ ∀ t : Fn, t ∉ B → P ≠ t • H := by
  classical
  obtain ⟨k, hk⟩ := secp_generator H hH P
  refine ⟨{0, k}, Finset.card_le_two, by simp, fun t ht h => ht ?_⟩
  rw [← hk] at h
  have := smul_left_injective Fn hH h
  simp [this]

/-- The exponents of `h'` in `Verify` vanish for few challenges only. -/
theorem challenge_roots (n : Nat) (hn : 1 ≤ n) (Hh : Nat → Secp) (h : Hh 0 ≠ 0) :
    ∃ B : Finset Fn, B.card ≤ n + 1 ∧ 0 ∈ B ∧ ∀ z : Fn, z ∉ B →
      ∑ i ∈ range n, (z ^ i * z + 2 ^ i * z ^ 2) • (z⁻¹ ^ i • Hh i) ≠ 0 := by
  classical
  obtain ⟨B, h1, h2⟩ := point_roots n
    (fun j => (if j = 1 then ∑ i ∈ range n, Hh i else 0) + (if j < n then (2 : Fn) ^ j • Hh j else 0)) 0 (by omega) (by
      simpa [show 0 < n by omega] using h)
  refine ⟨insert 0 (B.image fun u => u⁻¹), (Finset.card_insert_le _ _).trans
    (Nat.succ_le_succ (Finset.card_image_le.trans h1)), Finset.mem_insert_self _ _, fun z hz hs => hz ?_⟩
  rw [Finset.mem_insert, or_iff_not_imp_left]
  intro hz0
  refine Finset.mem_image.2 ⟨z⁻¹, h2 _ ?_, inv_inv z⟩
  have e : ∑ i ∈ range (n + 1), z⁻¹ ^ i • ((if i = 1 then ∑ i ∈ range n, Hh i else 0) +
      (if i < n then (2 : Fn) ^ i • Hh i else 0)) =
      (z⁻¹ ^ 2) • ∑ i ∈ range n, (z ^ i * z + 2 ^ i * z ^ 2) • (z⁻¹ ^ i • Hh i) := by
    simp only [smul_add, smul_ite, smul_zero]
    rw [sum_add_distrib, Finset.sum_ite_eq' (range (n + 1)) 1 (fun i => z⁻¹ ^ i • ∑ i ∈ range n, Hh i),
      if_pos (mem_range.2 (by omega)), sum_range_succ, if_neg (lt_irrefl n), add_zero, pow_one, Finset.smul_sum, Finset.smul_sum,
      ← sum_add_distrib]
    refine sum_congr rfl fun i hi => ?_
    rw [if_pos (mem_range.1 hi), ← mul_smul, ← mul_smul, ← mul_smul, ← add_smul]
    congr 1
    rw [inv_pow, inv_pow]
    field_simp
  rw [e, hs, zmod_smul_zero]

/-- C79: range proofs.  For generators as in C24 (`H`, the first `h` and the sum of the `g` finite) and every secret in
range: at most 2 blinding factors `γ` and `n + 1` values of the challenge `z = y` are bad; for other ones and every `sL`,
`sR` at most one `ρ` is bad; then at most 2 values of `τ₁` and of `τ₂`; and then at most 8 values of the challenge `x`.
Whenever all these are avoided, `Verify` accepts the proof that `Prove` returns, whatever the hash function. -/
theorem C79_range {params : BPParams} {n k : Nat} (hk : n = 2 ^ k) {G Hh : Nat → Secp} {H : Secp}
    (hgen : Generators params n G Hh H) (hH : H ≠ 0) (hGs : ∑ i ∈ range n, G i ≠ 0) (hHh : Hh 0 ≠ 0) (secret : Int)
    (h0 : 0 ≤ secret) (hlt : secret < 2 ^ n) :
    ∃ Bγ Bz : Finset Fn, Bγ.card ≤ 2 ∧ Bz.card ≤ n + 1 ∧
    ∀ (γ α : Int) (sL sR : List Int), (γ : Fn) ∉ Bγ → sL.length = n → sR.length = n →
    ∃ Bρ : Finset Fn, Bρ.card ≤ 1 ∧ ∀ ρ z : Int, (ρ : Fn) ∉ Bρ → (z : Fn) ∉ Bz →
    ∃ B₁ B₂ : Finset Fn, B₁.card ≤ 2 ∧ B₂.card ≤ 2 ∧ ∀ τ₁ τ₂ : Int, (τ₁ : Fn) ∉ B₁ → (τ₂ : Fn) ∉ B₂ →
    ∃ Bx : Finset Fn, Bx.card ≤ 8 ∧ ∀ (E : Ext) (proof : BPProof), E.Ok →
      prove E ⟨γ, α, sL, sR, ρ, τ₁, τ₂⟩ secret params = .ok (some proof) → hashBP E proof.A proof.S = (z, z) →
      (((hashBP E proof.T1 proof.T2).1 : Int) : Fn) ∉ Bx → ∃ P', bpVerify E proof = .ok (true, P') := by
  classical
  have hn : 1 ≤ n := by rw [hk]; exact Nat.one_le_two_pow
  obtain ⟨Bγ, g1, g2, g3⟩ := addOk_scalars ((secret : Fn) • secpG) H hH
  obtain ⟨Bz, z1, z2, z3⟩ := challenge_roots n hn Hh hHh
  refine ⟨Bγ, Bz, g1, z1, fun γ α sL sR hγ lsL lsR => ?_⟩
  obtain ⟨Bρ, r1, r2⟩ := linear_roots
    (∑ i ∈ range n, ((sL.getD i 0 : Fn) • G i + (sR.getD i 0 : Fn) • Hh i)) H hH
  refine ⟨Bρ, r1, fun ρ z hρ hz => ?_⟩
  have hS : (ρ : Fn) • H + ∑ i ∈ range n, ((sL.getD i 0 : Fn) • G i + (sR.getD i 0 : Fn) • Hh i) ≠ 0 := by
    intro h
    rw [add_comm] at h
    exact hρ (r2 _ h)
  have hz0 : (z : Fn) ≠ 0 := fun h => hz (by rw [h]; exact z2)
  have hW := z3 _ hz
  obtain ⟨A, hA⟩ : ∃ A : Secp, A = (α : Fn) • H +
    ∑ i ∈ range n, ((Spec.bit secret i : Fn) • G i + ((Spec.bit secret i : Fn) - 1) • Hh i) := ⟨_, rfl⟩
  obtain ⟨S, eS⟩ : ∃ S : Secp, S = (ρ : Fn) • H + ∑ i ∈ range n, ((sL.getD i 0 : Fn) • G i + (sR.getD i 0 : Fn) • Hh i) :=
    ⟨_, rfl⟩
  obtain ⟨W, eW⟩ : ∃ W : Secp, W = ∑ i ∈ range n, ((z : Fn) ^ i * z + 2 ^ i * (z : Fn) ^ 2) • ((z : Fn)⁻¹ ^ i • Hh i) := ⟨_, rfl⟩
  rw [← eS] at hS
  rw [← eW] at hW
  obtain ⟨t0, e0⟩ : ∃ t, t = Spec.t0 n secret (z : Fn) (z : Fn) := ⟨_, rfl⟩
  obtain ⟨t1, e1⟩ : ∃ t, t = Spec.t1 n secret (z : Fn) (z : Fn) (fun i => (sL.getD i 0 : Fn)) (fun i => (sR.getD i 0 : Fn)) :=
    ⟨_, rfl⟩
  obtain ⟨t2, e2⟩ : ∃ t, t = Spec.t2 n (z : Fn) (fun i => (sL.getD i 0 : Fn)) (fun i => (sR.getD i 0 : Fn)) := ⟨_, rfl⟩
  obtain ⟨B₁, a1, a2, a3⟩ := addOk_scalars (t1 • secpG) H hH
  obtain ⟨B₂, b1, b2, b3⟩ := addOk_scalars (t2 • secpG) H hH
  refine ⟨B₁, B₂, a1, b1, fun τ₁ τ₂ h1 h2 => ?_⟩
  have tau1 : (τ₁ : Fn) ≠ 0 := fun h => h1 (by rw [h]; exact a2)
  have tau2 : (τ₂ : Fn) ≠ 0 := fun h => h2 (by rw [h]; exact b2)
  have smulH : ∀ {a : Fn}, a ≠ 0 → a • H ≠ 0 := fun ha h => by
    rw [smul_eq_zero] at h
    exact h.elim ha hH
  obtain ⟨C₁, c1, d1⟩ := quadratic_roots (((z : Fn) ^ 2 * γ) • H) ((τ₁ : Fn) • H) ((τ₂ : Fn) • H) (smulH tau2)
  obtain ⟨C₂, c2, d2⟩ := quadratic_roots (t0 • secpG - ((z : Fn) ^ 2 * γ) • H) (t1 • secpG - (τ₁ : Fn) • H)
    (t2 • secpG - (τ₂ : Fn) • H) (sub_ne_zero.2 (b3 _ h2))
  obtain ⟨C₃, c3, d3⟩ := linear_roots (-A) S hS
  obtain ⟨C₄, c4, d4⟩ := linear_roots (A + (z : Fn) • ∑ i ∈ range n, G i) S hS
  obtain ⟨C₅, c5, d5⟩ := linear_roots (A - (z : Fn) • (∑ i ∈ range n, G i) - W) S hS
  refine ⟨{0} ∪ C₁ ∪ C₂ ∪ C₃ ∪ C₄ ∪ C₅, ?_, fun E proof hE hp hh hx => ?_⟩
  · have u1 := Finset.card_union_le ({0} : Finset Fn) C₁
    have u2 := Finset.card_union_le ({0} ∪ C₁) C₂
    have u3 := Finset.card_union_le ({0} ∪ C₁ ∪ C₂) C₃
    have u4 := Finset.card_union_le ({0} ∪ C₁ ∪ C₂ ∪ C₃) C₄
    have u5 := Finset.card_union_le ({0} ∪ C₁ ∪ C₂ ∪ C₃ ∪ C₄) C₅
    have u0 := Finset.card_singleton (0 : Fn)
    omega
  obtain ⟨x, y, z', h⟩ := prove_spec hE hk hgen.N hgen.Gg hgen.Hh hgen.H (castL_eq_vec _ lsL) (castL_eq_vec _ lsR) hp
  have eyz := h.hyz.trans hh
  obtain rfl : y = z := (Prod.mk.inj eyz).1
  obtain rfl : z' = y := (Prod.mk.inj eyz).2
  rw [← h.hx] at hx
  simp only [Finset.mem_union, Finset.mem_singleton, not_or] at hx
  obtain ⟨⟨⟨⟨⟨x0, x1⟩, x2⟩, x3⟩, x4⟩, x5⟩ := hx
  have hVr := h.V
  rw [addOf_eq (Or.inr ⟨smulH (fun h => hγ (by rw [h]; exact g2)), g3 _ hγ⟩)] at hVr
  have ht := h.Tprime
  rw [t_expand, ← e0, ← e1, ← e2] at ht
  obtain ⟨v, P', f1, f2⟩ := honest_verdict hE hn hgen.N hgen.Gg hgen.Hh hgen.H h h.A h.S hVr
    (by rw [← e1]; exact Or.inr ⟨smulH tau1, a3 _ h1⟩) (by rw [← e2]; exact Or.inr ⟨smulH tau2, b3 _ h2⟩)
    (by
      refine Or.inr ⟨?_, ?_⟩
      · refine smulH fun h0 => x1 (d1 _ ?_)
        rw [h.Taux] at h0
        rw [← mul_smul, ← mul_smul, ← add_smul, ← add_smul]
        rw [show (z' : Fn) ^ 2 * γ + x * τ₁ + x ^ 2 * τ₂ = 0 by rw [← h0]; ring, zmod_zero_smul]
      · intro h0
        refine x2 (d2 _ ?_)
        rw [ht, h.Taux, ← sub_eq_zero] at h0
        rw [← h0]
        module)
    (by
      rw [← hA, ← eS]
      refine Or.inr ⟨?_, ?_⟩
      · rw [Ne, smul_eq_zero, not_or]
        exact ⟨x0, hS⟩
      · intro h0
        refine x3 (d3 _ ?_)
        rw [← h0]
        abel)
    (by
      rw [← hA, ← eS]
      refine Or.inr ⟨?_, ?_⟩
      · rw [Ne, neg_eq_zero, smul_eq_zero, not_or]
        exact ⟨hz0, hGs⟩
      · intro h0
        refine x4 (d4 _ ?_)
        rw [show A + (z' : Fn) • (∑ i ∈ range n, G i) + (x : Fn) • S = A + (x : Fn) • S + (z' : Fn) • ∑ i ∈ range n, G i by abel, h0]
        abel)
    (by
      rw [← hA, ← eS, ← eW]
      refine Or.inr ⟨hW, fun h0 => x5 (d5 _ ?_)⟩
      rw [← sub_eq_zero] at h0
      rw [← h0]
      abel)
  have hv : v = true := by
    rw [f2, Int.emod_eq_of_lt h0 hlt]
  exact ⟨P', by rw [f1, hv]⟩

/-- The generators of the instance of C24 meet the conditions. -/
example : (1000 : Fn) • secpG ≠ 0 ∧ ∑ i ∈ range 2, exGg i ≠ 0 ∧ exHh 0 ≠ 0 := by
  have key : ∀ a : Fn, a ≠ 0 → a • secpG ≠ 0 := fun a ha h => by
    rw [smul_eq_zero] at h
    exact h.elim ha secpG_ne_zero
  refine ⟨key _ (by decide +kernel), ?_, key _ (by decide +kernel)⟩
  rw [sum_range_succ, sum_range_one, exGg, exGg, ← add_smul]
  exact key _ (by decide +kernel)

/-! ## ccs08 -/

theorem residue_unique {a b : Int} (ha : ¬ a ≡ 0 [ZMOD bnOrder]) :
    ∃ c₀, ∀ c, 0 ≤ c → c < bnOrder → a * c ≡ b [ZMOD bnOrder] → c = c₀ := by
  obtain ⟨i, _, _, hi⟩ := order_inverse ha
  refine ⟨i * b % bnOrder, fun c h0 h1 h => ?_⟩
  have h2 := h.mul_left i
  have h3 := hi.mul_right c
  rw [one_mul, mul_assoc] at h3
  have h4 : c % bnOrder = i * b % bnOrder := h3.symm.trans h2
  rwa [Int.emod_eq_of_lt h0 h1] at h4

/-- C79: set membership.  For every set, element, key and all random numbers (with the conditions of C51 that do not
involve the challenge, and `x + 2hr ≢ 0`) there are two numbers such that every other challenge gives an accepted proof,
as long as `V` has no stale coordinate. -/
theorem C79_set (S : List Int) (x r sk m v s t : Int) (hS : ∀ m ∈ S, ¬ m + sk ≡ 0 [ZMOD bnOrder]) (hx : x ∈ S)
    (hx0 : 0 ≤ x) (hr : 0 ≤ r) (hm : 0 ≤ m) (hv : 0 ≤ v) (hs : 0 ≤ s) (ht : 0 ≤ t)
    (h1 : NoClash (ccsH * m) [s]) (h2 : NoClash x [ccsH * r]) (h3 : ¬ x + 2 * (ccsH * r) ≡ 0 [ZMOD bnOrder]) :
    ∃ c₁ c₂ p, setupSet S (some sk) = .ok p ∧ ∀ sha : List UInt8 → List UInt8, (∀ b, (sha b).length = 32) →
      ∃ pr, proveSet sha x r p m v s t = .ok (some pr) ∧
        (pr.c ≠ c₁ → pr.c ≠ c₂ → PairOk pr.V → ∃ pr', verifySet pr p = .ok (true, pr')) := by
  obtain ⟨c₁, hc₁⟩ := residue_unique (b := ccsH * m) h3
  obtain ⟨c₂, hc₂⟩ : ∃ c₂, ∀ c, 0 ≤ c → c < bnOrder → ¬ x * c + ccsH * m ≡ 0 [ZMOD bnOrder] →
      x * c + ccsH * m ≡ s - x * c [ZMOD bnOrder] → c = c₂ := by
    by_cases h0 : x ≡ 0 [ZMOD bnOrder]
    · refine ⟨0, fun c _ _ k1 k2 => ?_⟩
      exfalso
      have e1 : x * c ≡ 0 [ZMOD bnOrder] := by simpa using h0.mul_right c
      have e2 : ccsH * m ≡ x * c + ccsH * m [ZMOD bnOrder] := by simpa using e1.symm.add_right (ccsH * m)
      have e3 : s - x * c ≡ s [ZMOD bnOrder] := by have := e1.sub_left s; rwa [sub_zero] at this
      rcases h1.1 with h | h
      · exact k1 (e2.symm.trans h)
      · exact h (e2.trans (k2.trans e3))
    · have h0' : ¬ 2 * x ≡ 0 [ZMOD bnOrder] := by
        intro h
        rcases order_prime.dvd_or_dvd (Int.modEq_zero_iff_dvd.1 h) with hd | hd
        · exact absurd hd (by decide +kernel)
        · exact h0 (Int.modEq_zero_iff_dvd.2 hd)
      obtain ⟨c₂, hc⟩ := residue_unique (b := s - ccsH * m) h0'
      refine ⟨c₂, fun c k0 k1 _ k3 => hc c k0 k1 ?_⟩
      have := k3.add_right (x * c - ccsH * m)
      generalize ccsH * m = y at *
      ring_nf at this ⊢
      exact this
  obtain ⟨p, _, e1, _, _, e4, e5, _⟩ := C51_setup S sk hS
  refine ⟨c₁, c₂, p, e1, fun sha hsha => ?_⟩
  obtain ⟨p', pr, f1, f2, f3⟩ := C51_complete sha hsha S x r sk m v s t hS hx hx0 hr hm hv hs ht h1 h2
  obtain rfl : p = p' := Res.ok.inj (e1.symm.trans f1)
  obtain ⟨o, ho, hsig⟩ := e5 x hx
  obtain ⟨pr', _, g1, _, _, _, _, _, _, _, _, g10, g11, g12, g13, _⟩ :=
    C51_proof sha hsha x r ccsH sk p m v s t o ho hsig e4 hm hv hs ht h1
  obtain rfl : pr = pr' := Option.some.inj (Res.ok.inj (f2.symm.trans g1))
  refine ⟨pr, f2, fun k1 k2 hV => f3 hV ?_⟩
  have z1 : pr.zr ≡ m - r * pr.c [ZMOD bnOrder] := by rw [g12]; exact Int.mod_modEq _ _
  have z2 : pr.zsig ≡ s - x * pr.c [ZMOD bnOrder] := by rw [g13]; exact Int.mod_modEq _ _
  clear f3 g12 g13 hsig e4 h1 h2 h3
  generalize ccsH = h at *
  generalize pr.c = c at *
  have e : (x + h * r) * c + h * pr.zr ≡ x * c + h * m [ZMOD bnOrder] := by
    refine ((z1.mul_left h).add_left _).trans ?_
    ring_nf
    rfl
  refine ⟨Or.inr fun hb => k1 (hc₁ c g10 g11 ?_), ?_, trivial⟩
  · have := (hb.trans (z1.mul_left h)).add_right (h * r * c)
    ring_nf at this ⊢
    exact this
  · by_cases hz : (x + h * r) * c + h * pr.zr ≡ 0 [ZMOD bnOrder]
    · exact Or.inl hz
    · exact Or.inr fun hb => k2 (hc₂ c g10 g11 (fun h0 => hz (e.trans h0)) (e.symm.trans (hb.trans z2)))

/-- The conditions hold in the example of C51. -/
example : NoClash (ccsH * 11) [17] ∧ NoClash 5 [ccsH * 3] ∧ ¬ 5 + 2 * (ccsH * 3) ≡ 0 [ZMOD bnOrder] := by decide +kernel

end Verif

import Verif.Lemmas.Pairing
import Verif.Props.BnField
import Verif.Props.BnGroup

/-! # C46, C58, C61, C62: the optimal ate pairing -/

namespace Verif

/-! ## C46 -/

/-- C46: `Pair` gives 1 when one of its arguments is infinity. -/
theorem C46_infinity (b : CurvePoint) (a : TwistPoint) (P : BG1) (Q : BG2) (hb : Rep1 b P) (ha : Rep2 a Q)
    (h : P = 0 ∨ Q = 0) : pair b a = .one := by
  unfold pair optimalAte
  rw [if_pos]
  rcases h with h | h
  · simp [hb.isInfinity.2 h]
  · simp [ha.isInfinity.2 h]

example : Rep1 .gen bnG1 ∧ Rep2 .new (0 : BG2) ∧ bnG1 ≠ 0 := ⟨rep1_gen, rep2_infinity rfl, bnG1_ne_zero⟩

/-- C46: every value of `Pair`, for any stored coordinates, is 0 or has order dividing `Order`. -/
theorem C46_order (b : CurvePoint) (a : TwistPoint) :
    (pair b a).val = 0 ∨ (pair b a).val ^ bnOrder.toNat = 1 := by
  have e2 : bnOrder.toNat = bnNn := by decide +kernel
  by_cases h : (pair b a).val = 0
  · exact Or.inl h
  refine Or.inr ?_
  rw [e2]
  unfold pair optimalAte at *
  dsimp only at *
  split at h
  · rename_i hc; rw [if_pos hc, GfP12.val_one, one_pow]
  · rename_i hc
    rw [if_neg hc]
    rw [finalExponentiation_val] at h ⊢
    have hm : (miller a b).val ≠ 0 := by
      intro hz
      rw [hz, zero_pow (by decide +kernel)] at h
      exact h rfl
    have := (C45_order (miller a b) hm).2
    rw [finalExponentiation_val] at this
    exact this

/-- C46: for elements of the two groups the value is never 0. -/
theorem C46_nonzero (b : CurvePoint) (a : TwistPoint) (P : BG1) (k : Int) (hb : Rep1 b P)
    (ha : Rep2 a (k • bnG2)) (hok : a.z.isOne = true → a.t.val = 1) : (pair b a).val ≠ 0 := by
  rw [pair_val ha hb hok ⟨k, rfl⟩]
  exact Units.ne_zero _

/-- The hypotheses hold for the generators. -/
example : Rep1 .gen bnG1 ∧ Rep2 .gen ((1 : Int) • bnG2) ∧
    (TwistPoint.gen.z.isOne = true → TwistPoint.gen.t.val = 1) :=
  ⟨rep1_gen, by rw [one_zsmul]; exact rep2_gen, fun _ => GfP2.val_one⟩

/-! ## C62 -/

theorem bilinear_zsmul {A B V : Type*} [AddCommGroup A] [AddCommGroup B] [AddCommGroup V] (e : A →+ B →+ V)
    (k l : Int) (P : A) (Q : B) : e (k • P) (l • Q) = (k * l) • e P Q := by
  rw [map_zsmul, map_zsmul, AddMonoidHom.zsmul_apply, smul_smul, mul_comm]

/-- C62: `Pair` computes a bilinear, non-degenerate map.  There is one map `e`, additive in both
arguments, such that `Pair` returns `e(P,Q)` for all stored coordinates of a point `P` of `G1` and
of a point `Q` of the subgroup generated by the `G2` generator (with a correct cached `t`), and
`e(P,Q)` is trivial only if `P` or `Q` is. -/
theorem C62_pairing : ∃ e : BG1 →+ AddSubgroup.zmultiples bnG2 →+ Additive F12ˣ,
    (∀ P Q, e P Q = 0 ↔ P = 0 ∨ Q = 0) ∧ (∀ P Q, bnNn • e P Q = 0) ∧
    ∀ (b : CurvePoint) (a : TwistPoint) (P : BG1) (Q : AddSubgroup.zmultiples bnG2),
      Rep1 b P → Rep2 a Q → PairOk a → (pair b a).val = ((e P Q).toMul : F12) := by
  have hin : ∀ Q : AddSubgroup.zmultiples bnG2, InG2 Q.1 := fun Q => by
    obtain ⟨k, hk⟩ := AddSubgroup.mem_zmultiples_iff.1 Q.2
    exact ⟨k, hk.symm⟩
  let e : BG1 →+ AddSubgroup.zmultiples bnG2 →+ Additive F12ˣ :=
    AddMonoidHom.mk' (fun P => AddMonoidHom.mk' (fun Q => ateV P Q.1)
      (fun Q R => ateV_add_right P (hin Q).ateRel (hin R).ateRel))
      (fun P R => AddMonoidHom.ext fun Q => ateV_add_left P R (hin Q).ateRel)
  have hval : ∀ (b : CurvePoint) (a : TwistPoint) (P : BG1) (Q : AddSubgroup.zmultiples bnG2),
      Rep1 b P → Rep2 a Q → PairOk a → (pair b a).val = ((e P Q).toMul : F12) :=
    fun b a P Q hb ha hok => pair_val ha hb hok (hin Q)
  have hn : ∀ P Q, bnNn • e P Q = 0 := by
    intro P Q
    have : bnNn • e P = e (bnNn • P) := (map_nsmul e bnNn P).symm
    rw [← AddMonoidHom.nsmul_apply, this, bg1_nsmul, map_zero]; rfl
  refine ⟨e, ?_, hn, hval⟩
  let g : AddSubgroup.zmultiples bnG2 := ⟨bnG2, AddSubgroup.mem_zmultiples _⟩
  have hne : e bnG1 g ≠ 0 := by
    intro h
    have h1 := hval .gen .gen bnG1 g rep1_gen rep2_gen (fun _ => GfP2.val_one)
    rw [h] at h1
    have h2 : (pair .gen .gen).isOne = true := (GfP12.isOne_iff _).2 h1
    revert h2
    decide +kernel
  intro P Q
  constructor
  · intro h
    obtain ⟨k, _, rfl⟩ := C37_cyclic P
    obtain ⟨l, hl⟩ := AddSubgroup.mem_zmultiples_iff.1 Q.2
    have hQ : Q = l • g := Subtype.ext hl.symm
    have h' : ((k : Int) * l) • e bnG1 g = 0 := by
      rw [hQ, ← natCast_zsmul, bilinear_zsmul] at h
      exact h
    have ho : addOrderOf (e bnG1 g) = bnNn := addOrderOf_eq_prime (hn _ _) hne
    rw [← addOrderOf_dvd_iff_zsmul_eq_zero, ho] at h'
    have hp : Prime (bnNn : Int) := Nat.prime_iff_prime_int.1 Fact.out
    rcases hp.dvd_or_dvd h' with ⟨m, hm⟩ | ⟨m, hm⟩
    · left
      rw [← natCast_zsmul, hm, mul_comm, mul_zsmul', natCast_zsmul, bg1_nsmul]
    · right
      rw [hQ, hm, mul_comm, mul_zsmul, natCast_zsmul]
      have : bnNn • g = 0 := Subtype.ext bnG2_order
      rw [this, zsmul_zero]
  · rintro (rfl | rfl)
    · rw [map_zero]; rfl
    · rw [map_zero]

/-- C62 with scalars: `e(kP, lQ) = e(P, Q)^(kl)`, for all integers `k`, `l`, and `e(P, Q)` is 1
only if `P` or `Q` is infinity. -/
theorem C62_scalars (b b' : CurvePoint) (a a' : TwistPoint) (P : BG1) (m k l : Int)
    (hb : Rep1 b P) (hb' : Rep1 b' (k • P)) (ha : Rep2 a (m • bnG2)) (ha' : Rep2 a' (l • m • bnG2))
    (hok : PairOk a) (hok' : PairOk a') :
    (pair b' a').val = (pair b a).val ^ (k * l) ∧ ((pair b a).val = 1 ↔ P = 0 ∨ m • bnG2 = 0) := by
  obtain ⟨e, h1, h2, h3⟩ := C62_pairing
  let Q : AddSubgroup.zmultiples bnG2 := ⟨m • bnG2, AddSubgroup.zsmul_mem_zmultiples _ _⟩
  have e1 := h3 b a P Q hb ha hok
  have e2 := h3 b' a' (k • P) (l • Q) hb' ha' hok'
  refine ⟨?_, ?_⟩
  · rw [e1, e2, bilinear_zsmul, toMul_zsmul, Units.val_zpow_eq_zpow_val]
  · rw [e1]
    have := h1 P Q
    rw [show Q = 0 ↔ m • bnG2 = 0 from Subtype.ext_iff] at this
    rw [← this, Units.val_eq_one]
    rfl

/-- The generators, and `3·g` and `2·h`. -/
example := C62_scalars .gen (G1.scalarBaseMult .new 3) .gen (G2.scalarBaseMult 2) bnG1 1 3 2 rep1_gen (C34_scalarBaseMult .new 3)
  (by rw [one_zsmul]; exact rep2_gen) (by rw [one_zsmul]; exact C36_scalarBaseMult 2 (by decide)) (fun _ => GfP2.val_one)
  fun h => absurd h (by decide +kernel)

/-- C62 with sums: `e(P + R, Q) = e(P, Q)·e(R, Q)` and `e(P, Q + S) = e(P, Q)·e(P, S)`. -/
theorem C62_sums (b c d : CurvePoint) (x y z : TwistPoint) (P R : BG1) (m n : Int)
    (hb : Rep1 b P) (hc : Rep1 c R) (hd : Rep1 d (P + R))
    (hx : Rep2 x (m • bnG2)) (hy : Rep2 y (n • bnG2)) (hz : Rep2 z (m • bnG2 + n • bnG2))
    (hx' : PairOk x) (hy' : PairOk y) (hz' : PairOk z) :
    (pair d x).val = (pair b x).val * (pair c x).val ∧ (pair b z).val = (pair b x).val * (pair b y).val := by
  obtain ⟨e, _, _, h3⟩ := C62_pairing
  let Q : AddSubgroup.zmultiples bnG2 := ⟨m • bnG2, AddSubgroup.zsmul_mem_zmultiples _ _⟩
  let S : AddSubgroup.zmultiples bnG2 := ⟨n • bnG2, AddSubgroup.zsmul_mem_zmultiples _ _⟩
  rw [h3 d x (P + R) Q hd hx hx', h3 b x P Q hb hx hx', h3 c x R Q hc hx hx', h3 b z P (Q + S) hb hz hz',
    h3 b y P S hb hy hy', map_add, map_add, AddMonoidHom.add_apply]
  exact ⟨rfl, rfl⟩

/-- Multiples of the generators meet the hypotheses: `e(3 g1, 2 g2) = e(g1, g2)^6`. -/
example : Rep1 .gen bnG1 ∧ Rep1 (G1.scalarBaseMult .new 3) ((3 : Int) • bnG1) ∧
    Rep2 .gen ((1 : Int) • bnG2) ∧ Rep2 (G2.scalarBaseMult 2) ((2 : Int) • (1 : Int) • bnG2) ∧
    PairOk .gen ∧ PairOk (G2.scalarBaseMult 2) ∧ PairOk (G2.scalarBaseMult 1) ∧ PairOk (TwistPoint.neg (G2.scalarBaseMult 2)) := by
  refine ⟨rep1_gen, C34_scalarBaseMult _ _, ?_, ?_, fun _ => GfP2.val_one, ?_, fun _ => GfP2.val_one, ?_⟩
  · rw [one_zsmul]; exact rep2_gen
  · rw [one_zsmul]; exact C36_scalarBaseMult _ (by decide)
  · intro h; exact absurd h (by decide +kernel)
  · intro h; exact absurd h (by decide +kernel)

/-! ## C61 -/

/-- The pairings of two lists, multiplied. -/
noncomputable def pairProd (l : List (CurvePoint × TwistPoint)) : F12 :=
  (l.map fun q => (pair q.1 q.2).val).prod

theorem pairingCheckLoop_spec : ∀ (a : List CurvePoint) (b : List TwistPoint) (acc : GfP12),
    a.length ≤ b.length → ∃ r, pairingCheckLoop a b acc = .ok r ∧
      (finalExponentiation r).val = (finalExponentiation acc).val * pairProd (a.zip b)
  | [], b, acc, _ => ⟨acc, rfl, by simp [pairProd]⟩
  | p :: a, [], acc, h => absurd h (by simp)
  | p :: a, q :: b, acc, h => by
    have h' : a.length ≤ b.length := by simpa using h
    rw [pairingCheckLoop]
    by_cases hc : (p.isInfinity || q.isInfinity) = true
    · rw [if_pos hc]
      obtain ⟨r, h1, h2⟩ := pairingCheckLoop_spec a b acc h'
      refine ⟨r, h1, ?_⟩
      have : (pair p q).val = 1 := by
        unfold pair optimalAte
        rw [if_pos (by rw [Bool.or_comm]; exact hc), GfP12.val_one]
      rw [h2, List.zip_cons_cons, pairProd, pairProd, List.map_cons, List.prod_cons, this, one_mul]
    · rw [if_neg hc]
      obtain ⟨r, h1, h2⟩ := pairingCheckLoop_spec a b (acc.mul (miller q p)) h'
      refine ⟨r, h1, ?_⟩
      have : (pair p q).val = (finalExponentiation (miller q p)).val := by
        unfold pair optimalAte
        rw [if_neg (by rw [Bool.or_comm]; exact hc)]
      rw [h2, C45_mul, List.zip_cons_cons, pairProd, pairProd, List.map_cons, List.prod_cons, this, mul_assoc]

/-- C61: for all lists, with at least as many elements of `G2` as of `G1`, `PairingCheck` says
whether the product of the pairings is 1. -/
theorem C61_product (a : List CurvePoint) (b : List TwistPoint) (h : a.length ≤ b.length) :
    ∃ r, pairingCheck a b = .ok r ∧
      (r = true ↔ ((a.zip b).map fun q => (pair q.1 q.2).val).prod = 1) := by
  obtain ⟨r, h1, h2⟩ := pairingCheckLoop_spec a b .one h
  refine ⟨(finalExponentiation r).isOne, ?_, ?_⟩
  · simp only [pairingCheck, h1]; rfl
  · rw [GfP12.isOne_iff, h2, finalExponentiation_val, GfP12.val_one, one_pow, one_mul]; rfl

example := C61_product [.gen, .new] [.gen, .gen] (by decide)

/-- C61: with too few elements of `G2`, `PairingCheck` panics exactly when one of the surplus
elements of `G1` is finite. -/
theorem C61_panic (a : List CurvePoint) (b : List TwistPoint) (h : b.length ≤ a.length) :
    pairingCheck a b = .panic ↔ ∃ p ∈ a.drop b.length, p.isInfinity = false := by
  have hnil : ∀ (l : List CurvePoint) (acc : GfP12),
      ((∃ p ∈ l, p.isInfinity = false) → pairingCheckLoop l [] acc = .panic) ∧
      ((¬ ∃ p ∈ l, p.isInfinity = false) → pairingCheckLoop l [] acc = .ok acc) := by
    intro l
    induction l with
    | nil => intro acc; simp [pairingCheckLoop]
    | cons p l ih =>
      intro acc
      rw [pairingCheckLoop]
      cases hp : p.isInfinity
      · simp [hp]
      · simpa [hp] using ih acc
  have hl : ∀ (b : List TwistPoint) (a : List CurvePoint) (acc : GfP12), b.length ≤ a.length →
      ∃ acc', pairingCheckLoop a b acc = pairingCheckLoop (a.drop b.length) [] acc' := by
    intro b
    induction b with
    | nil => intro a acc _; exact ⟨acc, rfl⟩
    | cons q b ih =>
      intro a acc h
      cases a with
      | nil => simp at h
      | cons p a =>
        have h' : b.length ≤ a.length := by simpa using h
        rw [pairingCheckLoop]
        split
        · exact ih a _ h'
        · exact ih a _ h'
  obtain ⟨acc', e⟩ := hl b a .one h
  unfold pairingCheck
  rw [e]
  by_cases hx : ∃ p ∈ a.drop b.length, p.isInfinity = false
  · rw [(hnil _ _).1 hx]; exact iff_of_true rfl hx
  · rw [(hnil _ _).2 hx]
    refine iff_of_false ?_ hx
    intro hc; cases hc

/-- A list of two generators against one. -/
example : pairingCheck [.gen, .gen] [.gen] = .panic := (C61_panic _ _ (by decide)).2 ⟨.gen, by decide, by decide⟩

/-- C61 in exponents: for points `kᵢ g1` and `lᵢ g2`, `PairingCheck` is true exactly when
`Σ kᵢ lᵢ = 0` modulo `Order`. -/
theorem C61_exponents (n : Nat) (k l : Fin n → Int) (a : Fin n → CurvePoint) (b : Fin n → TwistPoint)
    (ha : ∀ i, Rep1 (a i) (k i • bnG1)) (hb : ∀ i, Rep2 (b i) (l i • bnG2)) (hok : ∀ i, PairOk (b i)) :
    ∃ r, pairingCheck (List.ofFn a) (List.ofFn b) = .ok r ∧
      (r = true ↔ bnOrder ∣ ∑ i, k i * l i) := by
  obtain ⟨r, h1, h2⟩ := C61_product (List.ofFn a) (List.ofFn b) (by simp)
  refine ⟨r, h1, h2.trans ?_⟩
  have hz : (List.ofFn a).zip (List.ofFn b) = List.ofFn fun i => (a i, b i) := by
    apply List.ext_getElem <;> simp
  obtain ⟨e, g1, g2, g3⟩ := C62_pairing
  let g : AddSubgroup.zmultiples bnG2 := ⟨bnG2, AddSubgroup.mem_zmultiples _⟩
  have hp : ∀ i, (pair (a i) (b i)).val = (((k i * l i) • e bnG1 g).toMul : F12) := by
    intro i
    rw [g3 _ _ _ (l i • g) (ha i) (hb i) (hok i), bilinear_zsmul]
  rw [hz, List.map_ofFn, List.prod_ofFn]
  simp only [Function.comp_apply, hp]
  rw [← Units.coe_prod, Units.val_eq_one, ← toMul_sum, ← Finset.sum_smul]
  have hne : e bnG1 g ≠ 0 := by
    rw [Ne, g1]
    rintro (h | h)
    · exact bnG1_ne_zero h
    · exact bnG2_ne_zero (congrArg Subtype.val h)
  have ho : addOrderOf (e bnG1 g) = bnNn := addOrderOf_eq_prime (g2 _ _) hne
  rw [bnOrder_eq, ← ho, addOrderOf_dvd_iff_zsmul_eq_zero]
  rfl

/-- `e(g1, 2 g2)·e(-2 g1, g2) = 1`, and the check says so; with one factor alone it says no. -/
example : pairingCheck [.gen, G1.scalarBaseMult .new (-2)] [G2.scalarBaseMult 2, .gen] = .ok true ∧
    pairingCheck [.gen] [G2.scalarBaseMult 2] = .ok false ∧
    pairingCheck [.gen, .gen] [.gen] = .panic ∧ pairingCheck [.gen, .new] [.gen] = .ok false := by
  decide +kernel

/-! ## C58 -/

/-- C58: which elements have a usable cached `t`: the result of `Neg` exactly when it is not
stored with `z = 1`; the results of `Unmarshal`, always; a non-affine element after `MakeAffine`
(that is, after `Marshal`). -/
theorem C58_invariant (a : TwistPoint) (m : List UInt8) :
    (PairOk a.neg ↔ a.z.isOne = false) ∧ (G2.unmarshal m = some a → PairOk a) ∧
    (a.z.isOne = false → PairOk a.makeAffine) ∧ (a.z.isOne = true → a.makeAffine = a) := by
  refine ⟨?_, ?_, ?_, ?_⟩
  · have hz : a.neg.z = a.z := rfl
    have ht : a.neg.t.val = 0 := GfP2.val_zero
    rw [PairOk, hz, ht]
    constructor
    · intro h
      rw [Bool.eq_false_iff]
      intro hc
      exact zero_ne_one (h hc)
    · intro h hc
      rw [h] at hc; cases hc
  · intro h _
    unfold G2.unmarshal at h
    split at h
    · cases h
    · dsimp only at h
      split at h
      · rename_i hz
        cases h
        rename_i h1
        exact absurd (show GfP2.zero.isOne = true from h1) (by decide)
      · split at h
        · cases h
        · cases h; exact GfP2.val_one
  · intro h _
    rw [TwistPoint.makeAffine, if_neg (by rw [h]; decide)]
    exact GfP2.val_one
  · intro h
    rw [TwistPoint.makeAffine, if_pos h]

/-- C58: the pairing of a negated element is the inverse whenever the element is not stored with
`z = 1`. -/
theorem C58_neg_ok (b : CurvePoint) (a : TwistPoint) (P : BG1) (k : Int) (hb : Rep1 b P)
    (ha : Rep2 a (k • bnG2)) (hz : a.z.isOne = false) :
    (pair b a.neg).val = (pair b a).val⁻¹ := by
  have h := (C62_scalars b b a a.neg P k 1 (-1) hb (by rw [one_zsmul]; exact hb) ha
    (by rw [neg_one_zsmul]; exact C36_neg _ _ ha) (fun h => by rw [hz] at h; cases h)
    ((C58_invariant a []).1.2 hz)).1
  rw [h, mul_neg_one, zpow_neg, zpow_one]

example : Rep2 (G2.scalarBaseMult 2) ((2 : Int) • bnG2) ∧ (G2.scalarBaseMult 2).z.isOne = false :=
  ⟨C36_scalarBaseMult 2 (by decide), by decide +kernel⟩

/-- C58: but `Pair(g1, Neg(g2))` and `Pair(g1, ScalarBaseMult(-1))` are not `Pair(g1, g2)⁻¹`, and
the verdict of `PairingCheck` on `e(g1, g2)·e(g1, -g2)` is false. -/
theorem C58_neg_wrong :
    (pair .gen (TwistPoint.gen.neg)).val ≠ (pair .gen .gen).val⁻¹ ∧
    (pair .gen (G2.scalarBaseMult (-1))).val ≠ (pair .gen .gen).val⁻¹ ∧
    pairingCheck [.gen, .gen] [.gen, .neg .gen] = .ok false := by
  have key : ∀ a : TwistPoint, ((pair .gen a).mul (pair .gen .gen)).isOne = false →
      (pair .gen a).val ≠ (pair .gen .gen).val⁻¹ := by
    intro a ha h
    have h2 : ((pair .gen a).mul (pair .gen .gen)).isOne = true := by
      rw [GfP12.isOne_iff, GfP12.val_mul, h, inv_mul_cancel₀]
      exact C46_nonzero _ _ _ 1 rep1_gen (by rw [one_zsmul]; exact rep2_gen) (fun _ => GfP2.val_one)
    rw [ha] at h2
    cases h2
  exact ⟨key _ (by decide +kernel), key _ (by decide +kernel), by decide +kernel⟩

/-- C58: a negative scalar also goes wrong when `z ≠ 1`: `Pair(g1, ScalarBaseMult(-2))` is not
`Pair(g1, g2)⁻²`. -/
theorem C58_negative_scalar :
    (G2.scalarBaseMult (-2)).z.isOne = false ∧
    (pair .gen (G2.scalarBaseMult (-2))).val ≠ (pair .gen .gen).val ^ (-2 : Int) := by
  refine ⟨by decide +kernel, fun h => ?_⟩
  have h2 : ((pair .gen (G2.scalarBaseMult (-2))).mul (pair .gen .gen).square).isOne = true := by
    have hne : (pair .gen .gen).val ≠ 0 :=
      C46_nonzero _ _ _ 1 rep1_gen (by rw [one_zsmul]; exact rep2_gen) (fun _ => GfP2.val_one)
    rw [GfP12.isOne_iff, GfP12.val_mul, h, GfP12.val_square, zpow_neg,
      show (2 : Int) = ((2 : Nat) : Int) from rfl, zpow_natCast, inv_mul_cancel₀ (pow_ne_zero 2 hne)]
  revert h2
  decide +kernel

end Verif

import Verif.Lemmas.BnTraceOps

/-! Normal forms of the scalar multiplications, and integers given by their bits. -/

namespace Verif

theorem emod_eq_of_bits {k k' : Int} : ∀ {n : Nat}, (∀ i < n, intBit k i = intBit k' i) → k % 2 ^ n = k' % 2 ^ n
  | 0, _ => by simp
  | n + 1, h => by
    have h1 := emod_two_pow_succ k n
    have h2 := emod_two_pow_succ k' n
    rw [h n (by omega), emod_eq_of_bits (n := n) fun i hi => h i (by omega), ← h2] at h1
    have p1 := Int.emod_nonneg k (b := 2 ^ (n + 1)) (by positivity)
    have p2 := Int.emod_nonneg k' (b := 2 ^ (n + 1)) (by positivity)
    omega

theorem bits_of_emod_eq {k k' : Int} {n : Nat} (h : k % 2 ^ n = k' % 2 ^ n) {i : Nat} (hi : i < n) :
    intBit k i = intBit k' i := by
  have e : ∀ k : Int, k / 2 ^ i % 2 = k % 2 ^ n / 2 ^ i % 2 := by
    intro k
    obtain ⟨m, rfl⟩ : ∃ m, n = i + 1 + m := ⟨n - (i + 1), by omega⟩
    have h1 := Int.emod_add_mul_ediv k (2 ^ (i + 1 + m))
    conv_lhs => rw [← h1]
    rw [show (2 : Int) ^ (i + 1 + m) * (k / 2 ^ (i + 1 + m)) = 2 ^ i * (2 * (2 ^ m * (k / 2 ^ (i + 1 + m)))) by
      rw [pow_add, pow_succ]; ring, Int.add_mul_ediv_left _ _ (by positivity), Int.add_mul_emod_self_left]
  unfold intBit
  rw [e k, e k', h]

theorem eq_of_bits {k k' : Int} (hk : 0 ≤ k) (hk' : 0 ≤ k') (h : bitLen k = bitLen k')
    (hb : ∀ i < bitLen k, intBit k i = intBit k' i) : k = k' := by
  have e := emod_eq_of_bits hb
  have h1 := emod_bitLen_of_nonneg hk
  have h2 := emod_bitLen_of_nonneg hk'
  rw [← h, ← e] at h2
  omega

theorem withPool_then {γ : Type} (q : Option (List Cell)) (m : BigP Unit) (r : BigP γ) (p : Option (List Cell)) :
    (BigP.withPool q m >>= fun _ => r) p = (m >>= fun _ => (fun _ => r p : BigP γ)) q := BProg.bind_assoc _ _ _

theorem fill_noPanic (e : Option Inter.CurveP) : (Inter.G1H.fill e).NoPanic := by
  cases e with
  | none => exact .withPool Inter.CurveP.np_new
  | some p => exact .pure _

theorem fill_noPanic2 (e : Option Inter.TwistP) : (Inter.G2H.fill e).NoPanic := by
  cases e with
  | none => exact .withPool Inter.TwistP.np_new
  | some p => exact .pure _

theorem fill_noPanicT (e : Option Inter.Gf12) : (Inter.GTH.fill e).NoPanic := by
  cases e with
  | none => exact .withPool Inter.Gf12.np_new
  | some p => exact .pure _

theorem Inter.G1H.scalarMult_eq (e : Option Inter.CurveP) (a : Inter.CurveP) (k : Int) : Inter.G1H.scalarMult e a k = (Inter.G1H.fill e >>= fun p =>
    if k = 0 then BigP.withPool none (Inter.CurveP.setInfinity p) >>= fun _ => pure p
    else BigP.withPool (some []) (Inter.CurveP.mul p a k.natAbs) >>= fun _ =>
      if k < 0 then BigP.withPool none (Inter.CurveP.neg p p) >>= fun _ => pure p else pure p) := by
  unfold Inter.G1H.scalarMult
  congr 1
  funext p
  by_cases h0 : k = 0
  · subst h0; rfl
  · by_cases h : k ≥ 0
    · have hn : ((k.natAbs : Nat) : Int) = k := by omega
      rw [if_pos h, if_neg h0, if_neg h0, hn]
      simp only [if_neg (show ¬ k < 0 by omega)]
      try rfl
    · rw [if_neg h, if_neg h0]
      simp only [if_pos (show k < 0 by omega), BigP.bind_assoc]
      try rfl

theorem Inter.G2H.scalarMult_eq (e : Option Inter.TwistP) (a : Inter.TwistP) (k : Int) : Inter.G2H.scalarMult e a k = (Inter.G2H.fill e >>= fun p =>
    BigP.withPool (some []) (Inter.TwistP.mul p a k.natAbs) >>= fun _ =>
      if k < 0 then BigP.withPool (some []) (Inter.TwistP.neg p p) >>= fun _ => pure p else pure p) := by
  unfold Inter.G2H.scalarMult
  congr 1
  funext p
  by_cases h : k ≥ 0
  · have hn : ((k.natAbs : Nat) : Int) = k := by omega
    rw [if_pos h, hn]
    simp only [if_neg (show ¬ k < 0 by omega)]
    try rfl
  · rw [if_neg h]
    simp only [if_pos (show k < 0 by omega), BigP.bind_assoc]
    try rfl

theorem bitLoop_congr {D A S : BigP Unit} {k k' : Int} : ∀ {n : Nat}, (∀ i < n, intBit k i = intBit k' i) →
    bitLoop D A S k n = bitLoop D A S k' n
  | 0, _ => rfl
  | n + 1, h => by
    rw [bitLoop, bitLoop, h n (by omega), bitLoop_congr fun i hi => h i (by omega)]

end Verif

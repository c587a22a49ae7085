import Verif.Lemmas.BnTraceScalar

/-!
# C99: the objects used by a scalar multiplication tell the scalar
-/

namespace Verif

/-- C99: in `G1`, somebody who sees which objects `ScalarMult` reads and writes knows the scalar. -/
theorem C99_G1 (e : Option Inter.CurveP) (a : Inter.CurveP) (p : Option (List Cell)) (mem : Cell → Int) (next : Nat) (k k' : Int) :
    (Inter.G1H.scalarMult e a k p).trace mem next = (Inter.G1H.scalarMult e a k' p).trace mem next ↔ k = k' := by
  refine ⟨fun h => ?_, fun h => by rw [h]⟩
  rw [Inter.G1H.scalarMult_eq, Inter.G1H.scalarMult_eq] at h
  obtain ⟨c, p, mem, next, h⟩ := BigP.trace_cancel (fill_noPanic e) h
  by_cases h0 : k = 0 <;> by_cases h0' : k' = 0
  · omega
  · rw [if_pos h0, if_neg h0'] at h
    cases h
  · rw [if_neg h0, if_pos h0'] at h
    cases h
  · rw [if_neg h0, if_neg h0', withPool_then, withPool_then] at h
    obtain ⟨h1, h2, p', mem', next', h3⟩ := Inter.CurveP.mul_trace _ _ _ _ _ _ _ _ h
    have := eq_of_bits (by omega) (by omega) h1 fun i hi => h2 i (by omega)
    by_cases hn : k < 0 <;> by_cases hn' : k' < 0
    · omega
    · rw [if_pos hn, if_neg hn'] at h3
      cases h3
    · rw [if_neg hn, if_pos hn'] at h3
      cases h3
    · omega

/-- Multiplying by 5, by 6 (as many bits) and by -5 are told apart, also when the result goes into a given point. -/
example (c a : Inter.CurveP) (mem : Cell → Int) (next : Nat) :
    (Inter.G1H.scalarMult (some c) a 5 none).trace mem next ≠ (Inter.G1H.scalarMult (some c) a 6 none).trace mem next ∧
    (Inter.G1H.scalarMult (some c) a 5 none).trace mem next ≠ (Inter.G1H.scalarMult (some c) a (-5) none).trace mem next := by
  simp only [Ne, C99_G1]
  decide

/-- C99: the same for multiples of the base point of `G1`. -/
theorem C99_G1_base (gen : Inter.CurveP) (e : Option Inter.CurveP) (p : Option (List Cell)) (mem : Cell → Int) (next : Nat) (k k' : Int) :
    (Inter.G1H.scalarBaseMult gen e k p).trace mem next = (Inter.G1H.scalarBaseMult gen e k' p).trace mem next ↔ k = k' :=
  C99_G1 e gen p mem next k k'

/-- C99: in `G2`. -/
theorem C99_G2 (e : Option Inter.TwistP) (a : Inter.TwistP) (p : Option (List Cell)) (mem : Cell → Int) (next : Nat) (k k' : Int) :
    (Inter.G2H.scalarMult e a k p).trace mem next = (Inter.G2H.scalarMult e a k' p).trace mem next ↔ k = k' := by
  refine ⟨fun h => ?_, fun h => by rw [h]⟩
  rw [Inter.G2H.scalarMult_eq, Inter.G2H.scalarMult_eq] at h
  obtain ⟨c, p, mem, next, h⟩ := BigP.trace_cancel (fill_noPanic2 e) h
  rw [withPool_then, withPool_then] at h
  obtain ⟨h1, h2, p', mem', next', h3⟩ := Inter.TwistP.mul_trace _ _ _ _ _ _ _ _ h
  have := eq_of_bits (by omega) (by omega) h1 fun i hi => h2 i (by omega)
  by_cases hn : k < 0 <;> by_cases hn' : k' < 0
  · omega
  · rw [if_pos hn, if_neg hn'] at h3
    cases h3
  · rw [if_neg hn, if_pos hn'] at h3
    cases h3
  · omega

/-- C99: the same for multiples of the base point of `G2`. -/
theorem C99_G2_base (gen : Inter.TwistP) (e : Option Inter.TwistP) (p : Option (List Cell)) (mem : Cell → Int) (next : Nat) (k k' : Int) :
    (Inter.G2H.scalarBaseMult gen e k p).trace mem next = (Inter.G2H.scalarBaseMult gen e k' p).trace mem next ↔ k = k' :=
  C99_G2 e gen p mem next k k'

/-- C99: in `GT` the accesses determine the length of the exponent and as many of its low bits, and nothing else … -/
theorem C99_GT (e : Option Inter.Gf12) (a : Inter.Gf12) (p : Option (List Cell)) (mem : Cell → Int) (next : Nat) (k k' : Int) :
    (Inter.GTH.scalarMult e a k p).trace mem next = (Inter.GTH.scalarMult e a k' p).trace mem next ↔
      bitLen k = bitLen k' ∧ k % 2 ^ bitLen k = k' % 2 ^ bitLen k := by
  constructor
  · intro h
    unfold Inter.GTH.scalarMult at h
    obtain ⟨c, p, mem, next, h⟩ := BigP.trace_cancel (fill_noPanicT e) h
    rw [withPool_then, withPool_then] at h
    obtain ⟨h1, h2, _⟩ := Inter.Gf12.exp_trace _ _ _ _ _ _ _ _ h
    exact ⟨h1, emod_eq_of_bits h2⟩
  · rintro ⟨h1, h2⟩
    have : ∀ c : Inter.Gf12, Inter.Gf12.exp c a k = Inter.Gf12.exp c a k' := by
      intro c
      unfold Inter.Gf12.exp
      simp only [Inter.Gf12.expLoop_eq]
      rw [← h1]
      simp only [bitLoop_congr fun i hi => bits_of_emod_eq h2 hi]
    unfold Inter.GTH.scalarMult
    simp only [this]

/-- C99: … which is the whole exponent unless it is negative. -/
theorem C99_GT_nonneg (e : Option Inter.Gf12) (a : Inter.Gf12) (p : Option (List Cell)) (mem : Cell → Int) (next : Nat) {k k' : Int}
    (hk : 0 ≤ k) (hk' : 0 ≤ k') :
    (Inter.GTH.scalarMult e a k p).trace mem next = (Inter.GTH.scalarMult e a k' p).trace mem next ↔ k = k' := by
  rw [C99_GT]
  refine ⟨fun ⟨h1, h2⟩ => eq_of_bits hk hk' h1 fun i hi => bits_of_emod_eq h2 hi, fun h => by rw [h]; exact ⟨rfl, rfl⟩⟩

/-- The exponents 5 and 6 are told apart, 1 and -1 are not. -/
example (a : Inter.Gf12) (mem : Cell → Int) (next : Nat) :
    (Inter.GTH.scalarMult none a 5 none).trace mem next ≠ (Inter.GTH.scalarMult none a 6 none).trace mem next ∧
    (Inter.GTH.scalarMult none a 1 none).trace mem next = (Inter.GTH.scalarMult none a (-1) none).trace mem next := by
  constructor
  · rw [Ne, C99_GT_nonneg _ _ _ _ _ (by decide) (by decide)]
    decide
  · rw [C99_GT]
    decide

/-- C99: `GT.Exp`, whose exponent may be negative. -/
theorem C99_GT_exp (e : Option Inter.Gf12) (a : Inter.Gf12) (p : Option (List Cell)) (mem : Cell → Int) (next : Nat) (k k' : Int) :
    (Inter.GTH.exp e a k p).trace mem next = (Inter.GTH.exp e a k' p).trace mem next ↔ k = k' := by
  refine ⟨fun h => ?_, fun h => by rw [h]⟩
  have hx : ∀ k : Int, Inter.GTH.exp e a k = (BigP.withPool (some []) (Inter.Gf12.exp a a k.natAbs) >>= fun _ =>
      if k < 0 then Inter.GTH.invert (some a) a else pure a) := by
    intro k
    unfold Inter.GTH.exp
    by_cases h : k ≥ 0
    · have hn : ((k.natAbs : Nat) : Int) = k := by omega
      rw [if_pos h, hn, if_neg (by omega)]
      rfl
    · rw [if_neg h, if_pos (by omega)]
      unfold Inter.GTH.scalarMult
      simp only [Inter.GTH.fill, BigP.pure_bind, BigP.bind_assoc]
  rw [hx, hx, withPool_then, withPool_then] at h
  obtain ⟨h1, h2, p', mem', next', h3⟩ := Inter.Gf12.exp_trace _ _ _ _ _ _ _ _ h
  have := eq_of_bits (by omega) (by omega) h1 h2
  by_cases hn : k < 0 <;> by_cases hn' : k' < 0
  · omega
  · rw [if_pos hn, if_neg hn'] at h3
    cases h3
  · rw [if_neg hn, if_pos hn'] at h3
    cases h3
  · omega

end Verif

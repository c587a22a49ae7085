import Verif.Lemmas.BnBytes

/-! # C38-C41, C60: encodings of `G1`, `G2`, `GT` -/

namespace Verif

/-! ## C38 -/

/-- C38: `Marshal` returns 64 bytes, and leaves the element the same point. -/
theorem C38_length (a : CurvePoint) (Q : BG1) (ha : Rep1 a Q) :
    (G1.marshal a).1.length = 64 ∧ Rep1 (G1.marshal a).2 Q := by
  refine ⟨?_, CurvePoint.makeAffine_rep ha⟩
  obtain ⟨h1, _, h2⟩ := emod_range a.makeAffine.x
  obtain ⟨h3, _, h4⟩ := emod_range a.makeAffine.y
  simp only [G1.marshal, List.length_append, be32_length h1 h2, be32_length h3 h4]

example : (G1.marshal (G1.scalarBaseMult .new 5)).1.length = 64 ∧ Rep1 (G1.marshal (G1.scalarBaseMult .new 5)).2 ((5 : Int) • bnG1) :=
  C38_length _ _ (C34_scalarBaseMult .new 5)

/-- C38: `Unmarshal(Marshal(a))` is the same point, for every element including infinity. -/
theorem C38_roundtrip (a : CurvePoint) (Q : BG1) (ha : Rep1 a Q) :
    ∃ p, G1.unmarshal (G1.marshal a).1 = some p ∧ Rep1 p Q := by
  obtain ⟨h1, _, h2⟩ := emod_range a.makeAffine.x
  obtain ⟨h3, _, h4⟩ := emod_range a.makeAffine.y
  simp only [G1.marshal, G1.unmarshal_words h1 h2 h3 h4]
  by_cases hQ : Q = 0
  · subst hQ
    rw [CurvePoint.makeAffine_infinity ha]
    refine ⟨⟨0, 1, 0, 0⟩, by decide +kernel, rep1_infinity rfl⟩
  · have hp := ha.affine hQ
    have hp' : IsPt Q ((a.makeAffine.x % bnP : Int) : BF) ((a.makeAffine.y % bnP : Int) : BF) :=
      hp.congr (by simp) (by simp)
    rw [if_neg (onCurve_not_infinity hp'.eqn), if_neg (by
      rw [not_not, CurvePoint.isOnCurve_iff]; exact hp'.eqn)]
    refine ⟨_, rfl, ?_, Int.one_nonneg, fun h => absurd h (by simp)⟩
    simp only [Int.cast_one]
    exact Jac.of_affine hp'

example : (∃ p, G1.unmarshal (G1.marshal (G1.scalarBaseMult .new (-5))).1 = some p ∧ Rep1 p ((-5 : Int) • bnG1)) ∧
    ∃ p, G1.unmarshal (G1.marshal .new).1 = some p ∧ Rep1 p 0 :=
  ⟨C38_roundtrip _ _ (C34_scalarBaseMult .new (-5)), C38_roundtrip _ _ (rep1_infinity rfl)⟩

/-- C38: two elements have the same encoding exactly when they are the same point. -/
theorem C38_injective (a b : CurvePoint) (Q R : BG1) (ha : Rep1 a Q) (hb : Rep1 b R) :
    (G1.marshal a).1 = (G1.marshal b).1 ↔ Q = R := by
  constructor
  · intro h
    obtain ⟨p, hp, hQ⟩ := C38_roundtrip a Q ha
    obtain ⟨q, hq, hR⟩ := C38_roundtrip b R hb
    rw [h, hq] at hp
    cases hp
    exact hQ.unique hR
  · rintro rfl
    by_cases hQ : Q = 0
    · subst hQ
      simp only [G1.marshal, CurvePoint.makeAffine_infinity ha, CurvePoint.makeAffine_infinity hb]
    · obtain ⟨e1, e2⟩ := ((ha.affine hQ).inj (hb.affine hQ)).1 rfl
      simp only [G1.marshal, (bf_eq_iff _ _).1 e1, (bf_eq_iff _ _).1 e2]

/-- `5·g₁` computed in two ways. -/
example : (G1.marshal (G1.scalarBaseMult .new 5)).1 = (G1.marshal (CurvePoint.add .new (G1.scalarBaseMult .new 3) (G1.scalarBaseMult .new 2))).1 :=
  (C38_injective _ _ _ _ (C34_scalarBaseMult .new 5) (C34_add .new _ _ _ _ (C34_scalarBaseMult .new 3) (C34_scalarBaseMult .new 2))).2
    (by rw [← add_smul]; rfl)

/-- C38: what `Unmarshal` accepts: 64 bytes holding `(0,0)`, `(0,1)` (read as infinity) or a
solution of the curve equation modulo `p`; everything else is rejected. -/
theorem C38_accepts (m : List UInt8) :
    G1.unmarshal m ≠ none ↔ m.length = 64 ∧
      let x : Int := ((setBytes (m.take 32) : Nat) : Int)
      let y : Int := ((setBytes (m.drop 32) : Nat) : Int)
      (x = 0 ∧ (y = 0 ∨ y = 1)) ∨ y ^ 2 ≡ x ^ 3 + 3 [ZMOD bnP] := by
  unfold G1.unmarshal
  by_cases hl : m.length = 64
  · rw [if_neg (by simpa using hl)]
    simp only [hl, true_and]
    set x : Int := ((setBytes (m.take 32) : Nat) : Int)
    set y : Int := ((setBytes (m.drop 32) : Nat) : Int)
    have hc : (⟨x, y, 1, 1⟩ : CurvePoint).isOnCurve = true ↔ y ^ 2 ≡ x ^ 3 + 3 [ZMOD bnP] := by
      rw [CurvePoint.isOnCurve_iff, Int.ModEq, ← bf_eq_iff]; push_cast; rfl
    by_cases h0 : (x = 0 ∧ y = 0) ∨ (x = 0 ∧ y = 1)
    · rw [if_pos h0]
      simp only [ne_eq, reduceCtorEq, not_false_eq_true, true_iff]
      left; tauto
    · rw [if_neg h0, ← hc]
      have h0' : ¬ (x = 0 ∧ (y = 0 ∨ y = 1)) := by tauto
      simp only [h0', false_or]
      split <;> simp_all
  · rw [if_pos (by simpa using hl)]; simp [hl]

/-- C38: every accepted string denotes an element of the group, namely the one with the
coordinates read. -/
theorem C38_sound (m : List UInt8) (p : CurvePoint) (h : G1.unmarshal m = some p) :
    ∃ Q : BG1, Rep1 p Q ∧
      (Q ≠ 0 → p.z = 1 ∧ p.x = (setBytes (m.take 32) : Nat) ∧ p.y = (setBytes (m.drop 32) : Nat)) := by
  unfold G1.unmarshal at h
  split at h
  · cases h
  · simp only at h
    split at h
    · cases h
      exact ⟨0, rep1_infinity rfl, fun h => absurd rfl h⟩
    · split at h
      · cases h
      · rename_i hc
        cases h
        rw [not_not, CurvePoint.isOnCurve_iff] at hc
        obtain ⟨Q, _, hQ⟩ := rep1_of_onCurve hc
        exact ⟨Q, hQ, fun _ => ⟨rfl, rfl, rfl⟩⟩

/-- Both a finite element and infinity go through `Marshal`. -/
example : Rep1 .gen bnG1 ∧ Rep1 (G1.scalarBaseMult .new 0) 0 ∧
    (G1.marshal .gen).1 ≠ (G1.marshal (G1.scalarBaseMult .new 0)).1 :=
  ⟨rep1_gen, rep1_infinity rfl, by decide +kernel⟩

/-! ## C39 -/

/-- C39: `Marshal` returns 128 bytes and keeps every finite element, but an infinite element is
overwritten: afterwards it is reported as finite, and represents no element at all. -/
theorem C39_length (a : TwistPoint) (Q : BG2) (ha : Rep2 a Q) :
    (G2.marshal a).1.length = 128 ∧ (Q ≠ 0 → Rep2 (G2.marshal a).2 Q) ∧
    (Q = 0 → a.isInfinity = true ∧ (G2.marshal a).2.isInfinity = false ∧
      ∀ R : BG2, ¬ Rep2 (G2.marshal a).2 R) := by
  refine ⟨?_, fun hQ => TwistPoint.makeAffine_rep ha hQ, fun hQ => ⟨ha.isInfinity.2 hQ, ?_, ?_⟩⟩
  · obtain ⟨h1, _, h2⟩ := emod_range a.makeAffine.x.x
    obtain ⟨h3, _, h4⟩ := emod_range a.makeAffine.x.y
    obtain ⟨h5, _, h6⟩ := emod_range a.makeAffine.y.x
    obtain ⟨h7, _, h8⟩ := emod_range a.makeAffine.y.y
    simp only [G2.marshal, List.length_append, be32_length h1 h2, be32_length h3 h4, be32_length h5 h6,
      be32_length h7 h8]
  · simp only [G2.marshal, TwistPoint.makeAffine_infinity ha hQ]; rfl
  · intro R hR
    simp only [G2.marshal, TwistPoint.makeAffine_infinity ha hQ] at hR
    have hR0 : R ≠ 0 := by
      intro hc
      exact absurd (hR.isInfinity.2 hc) (by decide)
    have := (hR.1.finite (hR.z_ne hR0)).eqn
    simp only [GfP2.val_zero, zero_div] at this
    apply twist_ne
    linear_combination -this

example : (G2.marshal (G2.scalarBaseMult 5)).1.length = 128 ∧ (G2.marshal .new).2.isInfinity = false :=
  ⟨(C39_length _ _ (C36_scalarBaseMult 5 (by decide))).1, ((C39_length .new 0 (rep2_infinity rfl)).2.2 rfl).2.1⟩

/-- C39: the round trip, including infinity. -/
theorem C39_roundtrip (a : TwistPoint) (Q : BG2) (ha : Rep2 a Q) :
    ∃ p, G2.unmarshal (G2.marshal a).1 = some p ∧ Rep2 p Q := by
  obtain ⟨h1, _, h2⟩ := emod_range a.makeAffine.x.x
  obtain ⟨h3, _, h4⟩ := emod_range a.makeAffine.x.y
  obtain ⟨h5, _, h6⟩ := emod_range a.makeAffine.y.x
  obtain ⟨h7, _, h8⟩ := emod_range a.makeAffine.y.y
  simp only [G2.marshal, G2.unmarshal_words h1 h2 h3 h4 h5 h6 h7 h8]
  by_cases hQ : Q = 0
  · subst hQ
    rw [TwistPoint.makeAffine_infinity ha rfl]
    exact ⟨⟨⟨0, 0⟩, .one, .zero, .zero⟩, by decide +kernel, rep2_infinity rfl⟩
  · have hp := ha.affine hQ
    have ex : (⟨a.makeAffine.x.x % bnP, a.makeAffine.x.y % bnP⟩ : GfP2).val = a.makeAffine.x.val := by
      rw [← GfP2.minimal_eq, GfP2.val_minimal]
    have ey : (⟨a.makeAffine.y.x % bnP, a.makeAffine.y.y % bnP⟩ : GfP2).val = a.makeAffine.y.val := by
      rw [← GfP2.minimal_eq, GfP2.val_minimal]
    rw [if_neg ?_, if_neg ?_]
    · refine ⟨_, rfl, ?_, Int.one_nonneg, fun h => absurd h (by simp)⟩
      simp only [GfP2.val_one]
      exact Jac.of_affine (hp.congr ex.symm ey.symm)
    · rw [not_not, TwistPoint.isOnCurve_iff]
      simp only [ex, ey]
      exact hp.eqn
    · rintro ⟨z1, z2, z3, z4⟩
      have hx : a.makeAffine.x.val = 0 := by rw [← ex, z1, z2]; exact GfP2.val_zero
      have hy : a.makeAffine.y.val = 0 := by rw [← ey, z3, z4]; exact GfP2.val_zero
      have := hp.eqn
      rw [hx, hy] at this
      apply twist_ne
      linear_combination -this

example : (∃ p, G2.unmarshal (G2.marshal (G2.scalarBaseMult 5)).1 = some p ∧ Rep2 p ((5 : Int) • bnG2)) ∧
    ∃ p, G2.unmarshal (G2.marshal .new).1 = some p ∧ Rep2 p 0 :=
  ⟨C39_roundtrip _ _ (C36_scalarBaseMult 5 (by decide)), C39_roundtrip _ _ (rep2_infinity rfl)⟩

/-- C39: equal encodings exactly for equal points. -/
theorem C39_injective (a b : TwistPoint) (Q R : BG2) (ha : Rep2 a Q) (hb : Rep2 b R) :
    (G2.marshal a).1 = (G2.marshal b).1 ↔ Q = R := by
  constructor
  · intro h
    obtain ⟨p, hp, hQ⟩ := C39_roundtrip a Q ha
    obtain ⟨q, hq, hR⟩ := C39_roundtrip b R hb
    rw [h, hq] at hp
    cases hp
    exact hQ.unique hR
  · rintro rfl
    by_cases hQ : Q = 0
    · simp only [G2.marshal, TwistPoint.makeAffine_infinity ha hQ, TwistPoint.makeAffine_infinity hb hQ]
    · obtain ⟨e1, e2⟩ := ((ha.affine hQ).inj (hb.affine hQ)).1 rfl
      rw [GfP2.val_eq_iff] at e1 e2
      simp only [G2.marshal, e1.1, e1.2, e2.1, e2.2]

/-- `5·g₂` computed in two ways. -/
example : (G2.marshal (G2.scalarBaseMult 5)).1 = (G2.marshal (TwistPoint.add .new (G2.scalarBaseMult 3) (G2.scalarBaseMult 2))).1 :=
  (C39_injective _ _ _ _ (C36_scalarBaseMult 5 (by decide))
    (C36_add .new _ _ _ _ (C36_scalarBaseMult 3 (by decide)) (C36_scalarBaseMult 2 (by decide)))).2 (by rw [← add_smul]; rfl)

/-- C39: the encoding of a point that is not on the curve (the result of `ScalarMult` by a negative
number, say) is rejected by `Unmarshal`, or consists of zeros; so it is the encoding of no finite
element. -/
theorem C39_off (a : TwistPoint) (ha : OffTwist a) :
    (G2.unmarshal (G2.marshal a).1 = none ∨ (G2.marshal a).1 = List.replicate 128 0) ∧
    ∀ (b : TwistPoint) (R : BG2), Rep2 b R → R ≠ 0 → (G2.marshal a).1 ≠ (G2.marshal b).1 := by
  have hz := ha.1
  have hc : a.makeAffine.y.val ^ 2 ≠ a.makeAffine.x.val ^ 3 + 3 / F2.xi := by
    intro hc
    apply ha.2.2
    rw [TwistPoint.makeAffine] at hc
    split at hc
    · rename_i h1
      rw [TwistPoint.isOne_val ha.2.1 h1, GfP2.val_one, one_pow, mul_one]
      exact hc
    · simp only [GfP2.val_mul, GfP2.val_square, GfP2.val_invert] at hc
      generalize 3 / F2.xi = β at *
      have e1 : a.y.val ^ 2 = (a.y.val * a.z.val⁻¹ * (a.z.val⁻¹) ^ 2) ^ 2 * a.z.val ^ 6 := by
        field_simp
      rw [e1, hc]
      field_simp
  obtain ⟨h1, _, h2⟩ := emod_range a.makeAffine.x.x
  obtain ⟨h3, _, h4⟩ := emod_range a.makeAffine.x.y
  obtain ⟨h5, _, h6⟩ := emod_range a.makeAffine.y.x
  obtain ⟨h7, _, h8⟩ := emod_range a.makeAffine.y.y
  have ex : (⟨a.makeAffine.x.x % bnP, a.makeAffine.x.y % bnP⟩ : GfP2).val = a.makeAffine.x.val := by
    rw [← GfP2.minimal_eq, GfP2.val_minimal]
  have ey : (⟨a.makeAffine.y.x % bnP, a.makeAffine.y.y % bnP⟩ : GfP2).val = a.makeAffine.y.val := by
    rw [← GfP2.minimal_eq, GfP2.val_minimal]
  have key : G2.unmarshal (G2.marshal a).1 = none ∨ (G2.marshal a).1 = List.replicate 128 0 := by
    simp only [G2.marshal, G2.unmarshal_words h1 h2 h3 h4 h5 h6 h7 h8]
    split
    · rename_i h0
      right
      rw [h0.1, h0.2.1, h0.2.2.1, h0.2.2.2]
      decide +kernel
    · left
      rw [if_pos]
      rw [TwistPoint.isOnCurve_iff]
      simp only [ex, ey]
      exact hc
  refine ⟨key, fun b R hb hR h => ?_⟩
  obtain ⟨q, hq, hr⟩ := C39_roundtrip b R hb
  rw [← h] at hq
  rcases key with h0 | h0
  · rw [h0] at hq; cases hq
  · rw [h0] at hq
    have h9 : G2.unmarshal (List.replicate 128 0) = some ⟨⟨0, 0⟩, .one, .zero, .zero⟩ := by decide +kernel
    rw [h9] at hq
    cases hq
    exact hR (hr.zero_iff.2 GfP2.val_zero)

/-- `ScalarBaseMult(-1)` is such a value. -/
example : (G2.marshal (G2.scalarBaseMult (-1))).1 ≠ (G2.marshal .gen).1 :=
  (C39_off _ ((C36_scalarBaseMult_negative (-1) (by decide)).2 (by decide +kernel)).1).2 _ _ rep2_gen bnG2_ne_zero

/-- C39: what `Unmarshal` accepts: 128 zero bytes (infinity) or a solution of the twist equation. -/
theorem C39_accepts (m : List UInt8) :
    G2.unmarshal m ≠ none ↔ m.length = 128 ∧
      let x : GfP2 := ⟨(setBytes (m.take 32) : Nat), (setBytes ((m.drop 32).take 32) : Nat)⟩
      let y : GfP2 := ⟨(setBytes ((m.drop 64).take 32) : Nat), (setBytes (m.drop 96) : Nat)⟩
      (x = ⟨0, 0⟩ ∧ y = ⟨0, 0⟩) ∨ y.val ^ 2 = x.val ^ 3 + 3 / F2.xi := by
  unfold G2.unmarshal
  by_cases hl : m.length = 128
  · rw [if_neg (by simpa using hl)]
    simp only [hl, true_and, GfP2.mk.injEq]
    generalize ((setBytes (m.take 32) : Nat) : Int) = a
    generalize ((setBytes ((m.drop 32).take 32) : Nat) : Int) = b
    generalize ((setBytes ((m.drop 64).take 32) : Nat) : Int) = c
    generalize ((setBytes (m.drop 96) : Nat) : Int) = d
    have hc := TwistPoint.isOnCurve_iff ⟨⟨a, b⟩, ⟨c, d⟩, .one, .one⟩
    simp only at hc
    rw [← hc]
    by_cases h0 : a = 0 ∧ b = 0 ∧ c = 0 ∧ d = 0
    · rw [if_pos h0]
      simp [h0]
    · rw [if_neg h0]
      have h0' : ¬ ((a = 0 ∧ b = 0) ∧ c = 0 ∧ d = 0) := by tauto
      simp only [h0', false_or]
      split <;> simp_all
  · rw [if_pos (by simpa using hl)]; simp [hl]

/-- C39: every accepted string denotes a point of the twist. -/
theorem C39_sound (m : List UInt8) (p : TwistPoint) (h : G2.unmarshal m = some p) : ∃ Q : BG2, Rep2 p Q := by
  unfold G2.unmarshal at h
  split at h
  · cases h
  · simp only at h
    split at h
    · cases h
      exact ⟨0, rep2_infinity rfl⟩
    · split at h
      · cases h
      · rename_i hc
        cases h
        rw [not_not, TwistPoint.isOnCurve_iff] at hc
        obtain ⟨Q, _, hQ⟩ := rep2_of_onCurve hc
        exact ⟨Q, hQ⟩

/-- `ScalarBaseMult(-1)` is such a point. -/
example : OffTwist (G2.scalarBaseMult (-1)) ∧ G2.unmarshal (G2.marshal (G2.scalarBaseMult (-1))).1 = none :=
  ⟨((C36_scalarBaseMult_negative (-1) (by decide)).2 (by decide +kernel)).1, by decide +kernel⟩

example : Rep2 .gen bnG2 ∧ bnG2 ≠ 0 ∧ Rep2 .new 0 ∧ (G2.marshal .new).2.isInfinity = false :=
  ⟨rep2_gen, bnG2_ne_zero, rep2_infinity rfl, by decide +kernel⟩

/-! ## C40 -/

/-- C40: 384 bytes; the encoding depends on the field element only and determines it; the round trip
gives back the reduced form. -/
theorem C40_marshal (a b : GfP12) :
    (GT.marshal a).1.length = 384 ∧ GT.unmarshal (GT.marshal a).1 = some a.minimal ∧
    a.minimal.val = a.val ∧ (GT.marshal a).2.val = a.val ∧
    ((GT.marshal a).1 = (GT.marshal b).1 ↔ a.val = b.val) := by
  have r : ∀ c : GfP12, GT.unmarshal (GT.marshal c).1 = some c.minimal := fun c => by
    rw [GT.marshal_eq, GT.unmarshal_coords _ c.minimal_coords]
  refine ⟨?_, r a, GfP12.val_minimal a, GfP12.val_minimal a, ?_⟩
  · rw [GT.marshal_eq, words_length a.minimal_coords]; rfl
  · constructor
    · intro h
      have := r a
      rw [h, r b, Option.some.injEq] at this
      exact ((GfP12.minimal_eq_iff a b).1 this.symm)
    · intro h
      rw [GT.marshal_eq, GT.marshal_eq, (GfP12.minimal_eq_iff a b).2 h]

/-- C40: `Unmarshal` accepts exactly the strings of 384 bytes, zero and elements outside the group
of order `Order` included. -/
theorem C40_accepts (m : List UInt8) : GT.unmarshal m ≠ none ↔ m.length = 384 := by
  unfold GT.unmarshal
  split <;> simp_all

example : (GT.unmarshal (List.replicate 384 0)).map GfP12.isZero = some true ∧
    (GT.unmarshal (List.replicate 384 255)).map (fun a => (a.exp bnOrder).isOne) = some false := by
  decide +kernel

/-! ## C41 -/

/-- C41: every finite `G1` element has 25 accepted encodings: both coordinates may be increased by
up to four times `p`. -/
theorem C41_malleable (a : CurvePoint) (Q : BG1) (ha : Rep1 a Q) (hQ : Q ≠ 0) :
    ∃ x y : Int, 0 ≤ x ∧ x < bnP ∧ 0 ≤ y ∧ y < bnP ∧ (G1.marshal a).1 = G1.be32 x ++ G1.be32 y ∧
      (∀ i j : Nat, i ≤ 4 → j ≤ 4 →
        ∃ p, G1.unmarshal (G1.be32 (x + i * bnP) ++ G1.be32 (y + j * bnP)) = some p ∧ Rep1 p Q) ∧
      (∀ i j i' j' : Nat, i ≤ 4 → j ≤ 4 → i' ≤ 4 → j' ≤ 4 →
        G1.be32 (x + i * bnP) ++ G1.be32 (y + j * bnP) = G1.be32 (x + i' * bnP) ++ G1.be32 (y + j' * bnP) →
        i = i' ∧ j = j') := by
  obtain ⟨h1, h2, _⟩ := emod_range a.makeAffine.x
  obtain ⟨h3, h4, _⟩ := emod_range a.makeAffine.y
  have hp := ha.affine hQ
  refine ⟨a.makeAffine.x % bnP, a.makeAffine.y % bnP, h1, h2, h3, h4, rfl, ?_, ?_⟩
  · intro i j hi hj
    have b5 : 5 * bnP < 2 ^ 256 := by decide
    have bi : (i : Int) * bnP ≤ 4 * bnP := Int.mul_le_mul_of_nonneg_right (by omega) bnP_pos.le
    have bj : (j : Int) * bnP ≤ 4 * bnP := Int.mul_le_mul_of_nonneg_right (by omega) bnP_pos.le
    have bi0 : 0 ≤ (i : Int) * bnP := Int.mul_nonneg (by omega) bnP_pos.le
    have bj0 : 0 ≤ (j : Int) * bnP := Int.mul_nonneg (by omega) bnP_pos.le
    have hP : ((bnP : Int) : BF) = 0 := by rw [bf_eq_zero]
    rw [G1.unmarshal_words (by omega) (by omega) (by omega) (by omega)]
    have hp' : IsPt Q ((a.makeAffine.x % bnP + i * bnP : Int) : BF) ((a.makeAffine.y % bnP + j * bnP : Int) : BF) :=
      hp.congr (by rw [Int.cast_add, Int.cast_mul, hP]; simp) (by rw [Int.cast_add, Int.cast_mul, hP]; simp)
    rw [if_neg (onCurve_not_infinity hp'.eqn), if_neg (by
      rw [not_not, CurvePoint.isOnCurve_iff]; exact hp'.eqn)]
    refine ⟨_, rfl, ?_, Int.one_nonneg, fun h => absurd h (by simp)⟩
    simp only [Int.cast_one]
    exact Jac.of_affine hp'
  · intro i j i' j' hi hj hi' hj' h
    have b5 : 5 * bnP < 2 ^ 256 := by decide
    have bound : ∀ k : Nat, k ≤ 4 → 0 ≤ (k : Int) * bnP ∧ (k : Int) * bnP ≤ 4 * bnP := fun k hk =>
      ⟨Int.mul_nonneg (by omega) bnP_pos.le, Int.mul_le_mul_of_nonneg_right (by omega) bnP_pos.le⟩
    have bi := bound i hi
    have bj := bound j hj
    have bi' := bound i' hi'
    have bj' := bound j' hj'
    have l1 := be32_length (n := a.makeAffine.x % bnP + i * bnP) (by omega) (by omega)
    have l2 := be32_length (n := a.makeAffine.x % bnP + i' * bnP) (by omega) (by omega)
    obtain ⟨e1, e2⟩ := List.append_inj h (l1.trans l2.symm)
    have e1 := be32_inj (by omega) (by omega) e1
    have e2 := be32_inj (by omega) (by omega) e2
    have c1 : (i : Int) = i' := mul_right_cancel₀ (ne_of_gt bnP_pos) (by omega : (i : Int) * bnP = i' * bnP)
    have c2 : (j : Int) = j' := mul_right_cancel₀ (ne_of_gt bnP_pos) (by omega : (j : Int) * bnP = j' * bnP)
    omega

/-- The generator `(1, -2)` with both coordinates increased by `p`. -/
example : ∃ x y p, (G1.marshal .gen).1 = G1.be32 x ++ G1.be32 y ∧
    G1.unmarshal (G1.be32 (x + (1 : Nat) * bnP) ++ G1.be32 (y + (1 : Nat) * bnP)) = some p ∧ Rep1 p bnG1 := by
  obtain ⟨x, y, -, -, -, -, h1, h2, -⟩ := C41_malleable .gen bnG1 rep1_gen bnG1_ne_zero
  obtain ⟨p, h3, h4⟩ := h2 1 1 (by decide) (by decide)
  exact ⟨x, y, p, h1, h3, h4⟩

/-- C41: infinity has two encodings. -/
theorem C41_infinity :
    ∃ p q, G1.unmarshal (G1.be32 0 ++ G1.be32 0) = some p ∧ Rep1 p 0 ∧
      G1.unmarshal (G1.be32 0 ++ G1.be32 1) = some q ∧ Rep1 q 0 ∧
      G1.be32 0 ++ G1.be32 0 ≠ G1.be32 0 ++ G1.be32 1 :=
  ⟨⟨0, 1, 0, 0⟩, ⟨0, 1, 0, 0⟩, by decide +kernel, rep1_infinity rfl, by decide +kernel, rep1_infinity rfl,
    by decide +kernel⟩

example : Rep1 .gen bnG1 ∧ bnG1 ≠ 0 := ⟨rep1_gen, bnG1_ne_zero⟩

/-! ## C60 -/

/-- The point of the twist with abscissa 1 (a solution of the curve equation, see C60). -/
def offSubgroup : List UInt8 :=
  G1.be32 0 ++ G1.be32 1 ++
  G1.be32 5912654199736721486680175016176231956195085055698687135131307249486702594212 ++
  G1.be32 18278151005453108793778860132295291098363647455926340152056652516292830556603

/-- C60: `G2.Unmarshal` checks the curve equation only: it accepts a point of the twist that is not
annihilated by `Order`, so not a multiple of the generator; no sum of multiples of the generator
equals it. -/
theorem C60_no_subgroup_check :
    ∃ (p : TwistPoint) (Q : BG2), G2.unmarshal offSubgroup = some p ∧ Rep2 p Q ∧
      bnOrder • Q ≠ 0 ∧ ∀ k : Int, Q ≠ k • bnG2 := by
  have hm : (G2.unmarshal offSubgroup).map (fun p => (G2.scalarMult p bnOrder).isInfinity) = some false := by
    decide +kernel
  obtain ⟨p, hp, hm⟩ := Option.map_eq_some_iff.1 hm
  obtain ⟨Q, hQ⟩ := C39_sound _ p hp
  have h0 : bnOrder • Q ≠ 0 := by
    intro h
    rw [(C36_scalarMult p Q hQ bnOrder (by decide)).isInfinity.2 h] at hm
    cases hm
  refine ⟨p, Q, hp, hQ, h0, ?_⟩
  rintro k rfl
  apply h0
  rw [smul_comm, bnOrder_eq, natCast_zsmul, bnG2_order, smul_zero]

end Verif

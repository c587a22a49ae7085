import Verif.Props.CcsRace

/-!
# Accepted proofs as instances of C64

The proofs of `Props/CcsRace.lean` are honest and accepted, and `Verify` changes them.
-/

namespace Verif

private theorem z_one {a : GfP2} (h : ¬ a.isOne = false) : a.val ^ 6 = 1 := by
  simp only [GfP2.isOne, Bool.not_eq_false] at h
  split at h
  · cases h
  next h1 =>
  have h2 : a.y.natAbs = 1 := by simpa using h
  have h1 : a.x = 0 := by simpa using h1
  rcases Int.natAbs_eq a.y with e | e <;> rw [h2] at e <;> simp [GfP2.val, h1, e]
  exact Even.neg_one_pow (by decide)

/-- C64: an accepted proof of set membership which the verification changes is accepted again, and no longer changes. -/
example : ∃ p q q', setupSet [1, 5, 9] (some 1234) = .ok p ∧ verifySet q p = .ok (true, q') ∧ verifySet q' p = .ok (true, q') ∧
    q'.D.z.isOne = true ∧ q.D.z.isOne = false := by
  obtain ⟨p, q, q', Q, h1, -, h3, -, -, hz⟩ := setExample_race
  refine ⟨p, q, q', h1, h3, C64_set _ _ _ _ h3, (C64_set_after _ _ _ _ h3).2.1, ?_⟩
  by_contra h
  exact hz (z_one h)

/-- C64: the same for an interval. -/
example : ∃ p q q', setupUL 2 2 (some 1234) = .ok p ∧ verifyUL q p = .ok (true, q') ∧ verifyUL q' p = .ok (true, q') ∧
    q'.D.z.isOne = true ∧ q.D.z.isOne = false := by
  obtain ⟨p, q, q', Q, h1, -, h3, -, -, hz⟩ := ulExample_race
  refine ⟨p, q, q', h1, h3, C64_ul _ _ _ _ h3, (C64_ul_after _ _ _ _ h3).2.1, ?_⟩
  by_contra h
  exact hz (z_one h)

/-- C64: and for a range. -/
example : ∃ p q q', ccsSetup 0 10 (some 1234) = .ok (some p) ∧ ccsVerify q (some p) = .ok (true, q') ∧
    ccsVerify q' (some p) = .ok (true, q') := by
  obtain ⟨p, q1, q2, q', Q, h1, -, h3, -⟩ := rangeExample_race
  exact ⟨p, _, q', h1, h3, C64_range _ _ _ _ h3⟩

end Verif

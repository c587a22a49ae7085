import Verif.Spec.Sha256
import Verif.Lemmas.BpHonest
import Mathlib.NumberTheory.LegendreSymbol.Basic

/-! # Evaluating `MapToGroup` with SHA-256 -/

namespace Verif

namespace Sha256

theorem rounds_length : ∀ (l : List (Nat × Nat)) (s : List Nat), s.length = 8 → (rounds l s).length = 8
  | [], s, h => by rw [rounds]; exact h; simp
  | (k, w) :: r, s, h => by
    match s, h with
    | [a, b, c, d, e, f, g, i], _ => rw [rounds]; exact rounds_length r _ rfl

theorem blocks_length : ∀ (n : Nat) (w s : List Nat), s.length = 8 → (blocks n w s).length = 8
  | 0, _, _, h => h
  | n + 1, w, s, h => by
    rw [blocks]
    refine blocks_length n _ _ ?_
    rw [compress, List.length_zipWith, rounds_length _ _ h, h, min_self]

/-- The digest has 32 bytes. -/
theorem sha256_length (m : List UInt8) : (sha256 m).length = 32 := by
  have h : ∀ l : List Nat, (l.flatMap wordBytes).length = 4 * l.length := by
    intro l
    induction l with
    | nil => rfl
    | cons a l ih => rw [List.flatMap_cons, List.length_append, ih, List.length_cons, wordBytes]; simp; ring
  rw [sha256, h, blocks_length _ _ _ rfl]

end Sha256

/-- The first abscissa `MapToGroup` with SHA-256 finds on the curve (`none` also if a right-hand side is 0). -/
def firstX (m : List UInt8) : Nat → Nat → Option Nat
  | 0, _ => none
  | fuel + 1, i =>
    let x := (Spec.twos (Sha256.sha256 (Spec.decNat i ++ m)) % secpP).toNat
    let r := powMod secpPn 256 ((x ^ 3 + 7) % secpPn) (secpPn / 2) 1
    if r = 1 then some x else if r = secpPn - 1 then firstX m fuel (i + 1) else none

theorem firstX_spec {m : List UInt8} {X : Nat → Int}
    (hX : ∀ i, X i = Spec.twos (Sha256.sha256 (Spec.decNat i ++ m)) % secpP) :
    ∀ fuel i x, firstX m fuel i = some x → ∃ j, i ≤ j ∧ j < i + fuel ∧ (x : Int) = X j ∧
      (∃ y : SF, y ^ 2 = (X j : SF) ^ 3 + 7) ∧ ∀ k, i ≤ k → k < j → ¬ ∃ y : SF, y ^ 2 = (X k : SF) ^ 3 + 7 := by
  intro fuel
  induction fuel with
  | zero => intro i x h; cases h
  | succ fuel ih =>
    intro i x h
    have hx0 : ((Spec.twos (Sha256.sha256 (Spec.decNat i ++ m)) % secpP).toNat : Int) = X i := by
      rw [hX, Int.toNat_of_nonneg (Int.emod_nonneg _ (by decide))]
    have hpow : ∀ a : Nat, ((powMod secpPn 256 ((a ^ 3 + 7) % secpPn) (secpPn / 2) 1 : Nat) : SF) =
        (((a : Int) : SF) ^ 3 + 7) ^ (secpPn / 2) := by
      intro a
      rw [powMod_spec _ _ _ _ _ (by decide +kernel), Nat.cast_one, one_mul, ZMod.natCast_mod]
      push_cast
      rfl
    rw [firstX] at h
    have h1 := hpow (Spec.twos (Sha256.sha256 (Spec.decNat i ++ m)) % secpP).toNat
    rw [hx0] at h1
    split at h
    · rename_i hr
      injection h with h
      rw [hr, Nat.cast_one] at h1
      refine ⟨i, le_rfl, by omega, by rw [← h, hx0], ?_, fun k h2 h3 => by omega⟩
      have hne : (X i : SF) ^ 3 + 7 ≠ 0 := by
        intro h0
        rw [h0, zero_pow (by decide +kernel)] at h1
        exact one_ne_zero h1
      obtain ⟨y, hy⟩ := (ZMod.euler_criterion secpPn hne).2 h1.symm
      exact ⟨y, by rw [hy, sq]⟩
    · split at h
      · rename_i hr
        obtain ⟨j, j1, j2, j3, j4, j5⟩ := ih _ _ h
        refine ⟨j, by omega, by omega, j3, j4, fun k k1 k2 => ?_⟩
        rcases Nat.eq_or_lt_of_le k1 with hk | hk
        · subst hk
          rintro ⟨y, hy⟩
          rw [hr] at h1
          have hm1 : ((secpPn - 1 : Nat) : SF) = -1 := by decide +kernel
          rw [hm1] at h1
          have hne : (X i : SF) ^ 3 + 7 ≠ 0 := by
            intro h0
            rw [h0, zero_pow (by decide +kernel)] at h1
            revert h1
            decide +kernel
          have := (ZMod.euler_criterion secpPn hne).1 ⟨y, by rw [← hy, sq]⟩
          rw [this] at h1
          revert h1
          decide +kernel
        · exact j5 k hk k2
      · cases h

theorem mapToGroup_firstX {E : Ext} (hE : E.Ok) (hs : E.sha256 = Sha256.sha256) {m : List UInt8} {x : Nat}
    (h : firstX m 256 0 = some x) :
    ∃ p Q, mapToGroup E m = .ok (some p) ∧ p.X = some (x : Int) ∧ RepFin p Q := by
  obtain ⟨j, _, j2, j3, j4, j5⟩ := firstX_spec (X := fun i => Spec.twos (Sha256.sha256 (Spec.decNat i ++ m)) % secpP)
    (fun _ => rfl) _ _ _ h
  rcases mapToGroupLoop_spec hE m 256 0 (fun i => Spec.twos (Sha256.sha256 (Spec.decNat i ++ m)) % secpP)
    (fun i => by rw [hs]) with ⟨_, h1⟩ | ⟨i, p, _, i2, h3, h4, ⟨Q, h5⟩, h6⟩
  · exact absurd j4 (h1 j (Nat.zero_le _) j2)
  · refine ⟨p, Q, h3, ?_, h5⟩
    have : i = j := by
      rcases lt_trichotomy i j with h | h | h
      · exfalso
        refine j5 i (Nat.zero_le _) h ?_
        obtain ⟨x', y', rfl, _, _, _, _, hp⟩ := h5
        have hx : x' = Spec.twos (Sha256.sha256 (Spec.decNat i ++ m)) % secpP := by simpa using h4
        have := hp.eqn
        refine ⟨(y' : SF), ?_⟩
        rw [← hx]; exact this
      · exact h
      · exact absurd j4 (h6 j (Nat.zero_le _) h)
    rw [h4, j3, this]

end Verif

import Verif.Lemmas.SecpGroup
import Verif.Model.Group
import Verif.Lemmas.Parse
import Mathlib.Data.List.Forall2
import Mathlib.Algebra.BigOperators.Group.List.Basic

/-! # Group vectors -/

namespace Verif

/-- Componentwise representation of a vector of points. -/
abbrev Reps (a : List P256) (Q : List Secp) : Prop := List.Forall₂ Rep a Q

theorem vectorExpLoop_rep {E : Ext} (hE : E.Ok) {a : List P256} {Q : List Secp} (h : Reps a Q)
    (b : List Int) (acc : P256) (R : Secp) (hacc : Rep acc R) :
    Rep (vectorExpLoop E a b acc) (R + (List.zipWith (fun (n : Int) P => n • P) b Q).sum) := by
  induction h generalizing b acc R with
  | nil => cases b <;> simpa [vectorExpLoop] using hacc
  | @cons p P a Q hp _ ih =>
    cases b with
    | nil => simpa [vectorExpLoop] using hacc
    | cons n b =>
      have := ih b _ _ (multiply_rep hE hacc (scalarMult_rep hE hp n))
      simpa [vectorExpLoop, add_assoc] using this

theorem vectorExp_rep {E : Ext} (hE : E.Ok) {a : List P256} {Q : List Secp} (h : Reps a Q)
    (b : List Int) (hl : a.length = b.length) :
    ∃ r, vectorExp E a b = some r ∧ Rep r (List.zipWith (fun (n : Int) P => n • P) b Q).sum := by
  refine ⟨_, by rw [vectorExp, if_neg (by simpa using hl)], ?_⟩
  simpa using vectorExpLoop_rep hE h b _ _ rep_infinity

theorem vectorScalarExp_rep {E : Ext} (hE : E.Ok) {a : List P256} {Q : List Secp} (h : Reps a Q)
    (n : Int) : Reps (vectorScalarExp E a n) (Q.map (fun P => n • P)) := by
  induction h with
  | nil => exact .nil
  | cons hp _ ih => exact .cons (scalarMult_rep hE hp n) ih

theorem vectorECAdd_rep {E : Ext} (hE : E.Ok) {a b : List P256} {Q R : List Secp} (h : Reps a Q)
    (h' : Reps b R) (hl : a.length = b.length) :
    ∃ r, vectorECAdd E a b = some r ∧ Reps r (List.zipWith (· + ·) Q R) := by
  refine ⟨_, by rw [vectorECAdd, if_neg (by simpa using hl)], ?_⟩
  induction h generalizing b R with
  | nil => cases h' with
    | nil => exact .nil
    | cons _ _ => simp at hl
  | cons hp _ ih => cases h' with
    | nil => simp at hl
    | cons hq hqs => exact .cons (multiply_rep hE hp hq) (ih hqs (by simpa using hl))

theorem commitG1_rep {E : Ext} (hE : E.Ok) (x r : Int) {h : P256} {H : Secp} (hh : Rep h H) :
    Rep (commitG1 E x r h) (if x • secpG = 0 then r • H else if r • H = 0 then 0 else
      if x • secpG = r • H then 0 else x • secpG + r • H) :=
  add_rep (scalarBaseMult_rep hE x) (scalarMult_rep hE hh r)

/-- `MapToGroup`'s loop: first index whose candidate abscissa is on the curve. -/
theorem mapToGroupLoop_spec {E : Ext} (hE : E.Ok) (m : List UInt8) (fuel i : Nat)
    (X : Nat → Int) (hX : ∀ i, X i = Spec.twos (E.sha256 (Spec.decNat i ++ m)) % secpP) :
    (mapToGroupLoop E m fuel i = .ok none ∧
      ∀ j, i ≤ j → j < i + fuel → ¬ ∃ y : SF, y ^ 2 = (X j : SF) ^ 3 + 7) ∨
    (∃ j p, i ≤ j ∧ j < i + fuel ∧ mapToGroupLoop E m fuel i = .ok (some p) ∧ p.X = some (X j) ∧
      (∃ Q, RepFin p Q) ∧ ∀ k, i ≤ k → k < j → ¬ ∃ y : SF, y ^ 2 = (X k : SF) ^ 3 + 7) := by
  induction fuel generalizing i with
  | zero => left; exact ⟨rfl, fun j h1 h2 => by omega⟩
  | succ fuel ih =>
    have hne : E.sha256 (decimalNat i ++ m) ≠ [] := by
      intro h
      have := hE.sha_len (decimalNat i ++ m)
      rw [h] at this; simp at this
    have hx : hashToInt E (decimalNat i ++ m) =
        .ok (some (Spec.twos (E.sha256 (Spec.decNat i ++ m)))) := by
      obtain ⟨b, bs, hb⟩ := List.exists_cons_of_ne_nil hne
      have hd : decimalNat i = Spec.decNat i := rfl
      rw [← hd, hashToInt, hb, fromByteArray_cons]
    rw [mapToGroupLoop, hx]
    simp only [Res.ok_bind, Res.ofOption_some]
    rw [← hX i]
    have hf : ((curveF (X i) % secpP : Int) : SF) = (X i : SF) ^ 3 + 7 := by
      simp only [curveF, sf_emod, Int.cast_add, Int.cast_mul, Int.cast_ofNat]; ring
    have hstep : ∀ (hno : ¬ ∃ y : SF, y ^ 2 = (X i : SF) ^ 3 + 7),
        (mapToGroupLoop E m fuel (i + 1) = .ok none ∧
          ∀ j, i ≤ j → j < i + (fuel + 1) → ¬ ∃ y : SF, y ^ 2 = (X j : SF) ^ 3 + 7) ∨
        (∃ j p, i ≤ j ∧ j < i + (fuel + 1) ∧ mapToGroupLoop E m fuel (i + 1) = .ok (some p) ∧
          p.X = some (X j) ∧ (∃ Q, RepFin p Q) ∧
          ∀ k, i ≤ k → k < j → ¬ ∃ y : SF, y ^ 2 = (X k : SF) ^ 3 + 7) := by
      intro hno
      rcases ih (i + 1) with ⟨h1, h2⟩ | ⟨j, p, h1, h2, h3, h4, h5, h6⟩
      · left
        refine ⟨h1, fun j hj1 hj2 => ?_⟩
        rcases Nat.eq_or_lt_of_le hj1 with h | h
        · rw [← h]; exact hno
        · exact h2 j h (by omega)
      · right
        refine ⟨j, p, by omega, by omega, h3, h4, h5, fun k hk1 hk2 => ?_⟩
        rcases Nat.eq_or_lt_of_le hk1 with h | h
        · rw [← h]; exact hno
        · exact h6 k h hk2
    cases hs : E.modSqrt (curveF (X i) % secpP) with
    | none =>
      have := hE.modSqrt_none _ hs
      apply hstep
      rintro ⟨y, hy⟩
      apply this
      refine ⟨y.val, ?_⟩
      rw [← sf_eq_iff, Int.cast_mul, sf_val, hf, ← hy]; ring
    | some y =>
      obtain ⟨y0, y1, hy⟩ := hE.modSqrt_some _ _ hs
      rw [← sf_eq_iff, hf] at hy
      have heq : (y : SF) ^ 2 = (X i : SF) ^ 3 + 7 := by rw [← hy]; push_cast; ring
      have x0 : 0 ≤ X i := by rw [hX]; exact Int.emod_nonneg _ secpP_pos.ne'
      have x1 : X i < secpP := by rw [hX]; exact Int.emod_lt_of_pos _ secpP_pos
      have hrep : RepFin ⟨some (X i), some y⟩ (secpPt _ _ heq) :=
        ⟨X i, y, rfl, x0, x1, y0, y1, isPt_secpPt _ _ _⟩
      have hon : (X i * X i * X i + 7) % secpP = (y * y) % secpP := by
        have : (X i * X i * X i + 7) ≡ (y * y) [ZMOD secpP] := by
          rw [← sf_eq_iff]; push_cast; linear_combination -heq
        exact this
      right
      refine ⟨i, ⟨some (X i), some y⟩, le_refl _, by omega, ?_, rfl, ⟨_, hrep⟩, fun k h1 h2 => by omega⟩
      simp [P256.isOnCurve, hon, hrep.isZero]

end Verif

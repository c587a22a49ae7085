import Verif.Lemmas.BipVerify

/-! # When the inner-product verifier panics -/

namespace Verif

/-- Round challenges of a list of pairs are invertible modulo `ORDER`. -/
def Invertible (E : Ext) (Ls Rs : List P256) : Prop :=
  ∀ (i : Nat) (L R : P256), Ls[i]? = some L → Rs[i]? = some R → ¬ ORDER ∣ (hashBP E L R).1

/-- Size conditions: without rounds the lists are non-empty; with `r > 0` rounds both have length
`2^r·m` for some `m ≥ 1` and half the recorded size is half of that. -/
def SizesOk (r lg lh : Nat) (n : Int) : Prop :=
  if r = 0 then 1 ≤ lg ∧ 1 ≤ lh
  else ∃ m : Nat, 1 ≤ m ∧ lg = 2 ^ r * m ∧ lh = 2 ^ r * m ∧ n.tdiv 2 = ((2 ^ (r - 1) * m : Nat) : Int)

theorem tdiv_two (k : Nat) : ((2 * k : Nat) : Int).tdiv 2 = (k : Int) := by
  push_cast
  rw [mul_comm, Int.mul_tdiv_cancel _ (by decide)]

theorem foldPoints_length' {E : Ext} (a₁ a₂ : List P256) (x y : Int) :
    ((vectorECAdd E (vectorScalarExp E a₁ x) (vectorScalarExp E a₂ y)).getD []).length =
      if a₁.length = a₂.length then a₁.length else 0 := by
  split
  · rename_i h; exact foldPoints_length a₁ a₂ h x y
  · rename_i h
    rw [vectorECAdd, if_pos (by simpa [vectorScalarExp] using h)]; rfl

theorem ipVerifyLoop_ok_iff {E : Ext} (Ls : List P256) :
    ∀ (Rs g h : List P256) (P : P256) (n : Int),
      (∃ g1 h1 P1, ipVerifyLoop E Ls Rs g h P n = .ok (g1, h1, P1) ∧ g1 ≠ [] ∧ h1 ≠ []) ↔
      Ls.length ≤ Rs.length ∧ Invertible E Ls Rs ∧ SizesOk Ls.length g.length h.length n := by
  induction Ls with
  | nil =>
    intro Rs g h P n
    have : Invertible E [] Rs := by intro i L R hL; simp at hL
    simp only [ipVerifyLoop, Res.ok.injEq, Prod.mk.injEq, List.length_nil, Nat.zero_le, true_and, this,
      SizesOk, if_true]
    constructor
    · rintro ⟨_, _, _, ⟨rfl, rfl, rfl⟩, h1, h2⟩
      exact ⟨List.length_pos_iff.2 h1, List.length_pos_iff.2 h2⟩
    · rintro ⟨h1, h2⟩
      exact ⟨_, _, _, ⟨rfl, rfl, rfl⟩, List.length_pos_iff.1 h1, List.length_pos_iff.1 h2⟩
  | cons L Ls ih =>
    intro Rs g h P n
    cases Rs with
    | nil => simp [ipVerifyLoop]
    | cons R Rs =>
      have hinv : Invertible E (L :: Ls) (R :: Rs) ↔ ¬ ORDER ∣ (hashBP E L R).1 ∧ Invertible E Ls Rs := by
        constructor
        · intro hi
          exact ⟨hi 0 L R rfl rfl, fun i L' R' h1 h2 => hi (i + 1) L' R' h1 h2⟩
        · rintro ⟨h1, h2⟩ i L' R' e1 e2
          cases i with
          | zero =>
            simp only [List.getElem?_cons_zero, Option.some.injEq] at e1 e2
            subst e1 e2; exact h1
          | succ i => exact h2 i L' R' e1 e2
      rw [hinv, ipVerifyLoop]
      set x := (hashBP E L R).1
      by_cases hx : ORDER ∣ x
      · rw [modInverse_order_none.2 hx]
        simp [hx]
      obtain ⟨xinv, hxi⟩ := modInverse_order_exists hx
      obtain ⟨x2inv, hx2⟩ := modInverse_order_exists (not_dvd_mul_self hx)
      simp only [hxi, hx2, Res.ofOption_some, Res.ok_bind]
      by_cases hn : n.tdiv 2 < 0 ∨ (g.length : Int) < n.tdiv 2 ∨ (h.length : Int) < n.tdiv 2
      · -- a slice panics; the sizes are wrong
        have hpanic : ∀ (k : List P256 → List P256 → List P256 → List P256 → Res (List P256 × List P256 × P256)),
            (do let gL ← sliceTo g (n.tdiv 2)
                let gR ← sliceFrom g (n.tdiv 2)
                let hL ← sliceTo h (n.tdiv 2)
                let hR ← sliceFrom h (n.tdiv 2)
                k gL gR hL hR) = .panic := by
          intro k
          by_cases h1 : n.tdiv 2 < 0 ∨ (g.length : Int) < n.tdiv 2
          · rw [sliceTo, if_pos h1]; rfl
          · rw [sliceTo, if_neg h1, sliceFrom, if_neg h1]
            simp only [Res.ok_bind]
            rw [sliceTo, if_pos (by omega)]; rfl
        rw [hpanic (fun gL gR hL hR => ipVerifyLoop E Ls Rs _ _ _ _)]
        constructor
        · rintro ⟨_, _, _, hc, _⟩; cases hc
        · rintro ⟨_, _, hs⟩
          rw [SizesOk, if_neg (by simp)] at hs
          obtain ⟨m, hm, e1, e2, e3⟩ := hs
          simp only [List.length_cons, Nat.add_sub_cancel] at e1 e2 e3
          rw [pow_succ] at e1 e2
          rw [e3] at hn
          have h1 : 2 ^ Ls.length * 2 * m = 2 * (2 ^ Ls.length * m) := by ring
          omega
      · have hn0 : 0 ≤ n.tdiv 2 := by omega
        obtain ⟨k, hk⟩ := Int.eq_ofNat_of_zero_le hn0
        rw [hk] at hn ⊢
        rw [sliceTo_ok (by omega), sliceFrom_ok (by omega), sliceTo_ok (by omega), sliceFrom_ok (by omega)]
        simp only [Res.ok_bind]
        rw [ih]
        simp only [List.length_cons, Nat.add_le_add_iff_right, hx, not_false_eq_true, true_and]
        refine and_congr_right fun _ => and_congr_right fun _ => ?_
        rw [foldPoints_length', foldPoints_length']
        simp only [List.length_take, List.length_drop]
        have e1 : (if min k g.length = g.length - k then min k g.length else 0) = if g.length = 2 * k then k else 0 := by
          have : min k g.length = k := by omega
          rw [this]
          split <;> split <;> omega
        have e2 : (if min k h.length = h.length - k then min k h.length else 0) = if h.length = 2 * k then k else 0 := by
          have : min k h.length = k := by omega
          rw [this]
          split <;> split <;> omega
        rw [e1, e2]
        unfold SizesOk
        rw [if_neg (Nat.succ_ne_zero Ls.length), Nat.add_sub_cancel]
        by_cases hl : Ls.length = 0
        · rw [if_pos hl, hl, hk]
          constructor
          · rintro ⟨h1, h2⟩
            split at h1 <;> split at h2
            · exact ⟨k, by omega, by omega, by omega, by simp⟩
            all_goals omega
          · rintro ⟨m, hm, h1, h2, h3⟩
            have : k = m := by simpa using h3
            subst this
            rw [if_pos (by omega), if_pos (by omega)]
            exact ⟨hm, hm⟩
        · rw [if_neg hl, hk]
          obtain ⟨r, hr⟩ := Nat.exists_eq_add_one_of_ne_zero hl
          rw [hr, Nat.add_sub_cancel]
          constructor
          · rintro ⟨m, hm, h1, h2, h3⟩
            have hp : 1 ≤ 2 ^ (r + 1) * m := Nat.mul_pos (Nat.two_pow_pos _) hm
            split at h1 <;> split at h2
            · refine ⟨m, hm, ?_, ?_, ?_⟩
              · rw [pow_succ (n := r + 1)]
                have : 2 ^ (r + 1) * 2 * m = 2 * (2 ^ (r + 1) * m) := by ring
                omega
              · rw [pow_succ (n := r + 1)]
                have : 2 ^ (r + 1) * 2 * m = 2 * (2 ^ (r + 1) * m) := by ring
                omega
              · exact_mod_cast h1
            all_goals omega
          · rintro ⟨m, hm, h1, h2, h3⟩
            have hkm : k = 2 ^ (r + 1) * m := by exact_mod_cast h3
            have h4 : 2 ^ (r + 1 + 1) * m = 2 * k := by rw [hkm, pow_succ (n := r + 1)]; ring
            refine ⟨m, hm, ?_, ?_, ?_⟩
            · rw [if_pos (by rw [h1]; exact h4)]; exact hkm
            · rw [if_pos (by rw [h2]; exact h4)]; exact hkm
            · have : k = 2 * (2 ^ r * m) := by rw [hkm, pow_succ]; ring
              rw [this, tdiv_two]

theorem ipVerify_ok_iff {E : Ext} (proof : IPProof) :
    ipVerify E proof ≠ .panic ↔
      proof.Ls.length ≤ proof.Rs.length ∧ Invertible E proof.Ls proof.Rs ∧
      SizesOk proof.Ls.length proof.Params.Gg.length proof.Params.Hh.length proof.N := by
  rw [← ipVerifyLoop_ok_iff proof.Ls proof.Rs proof.Params.Gg proof.Params.Hh proof.Params.P proof.N]
  rw [ipVerify]
  cases ipVerifyLoop E proof.Ls proof.Rs proof.Params.Gg proof.Params.Hh proof.Params.P proof.N with
  | panic =>
    simp only [Res.panic_bind, ne_eq, not_true_eq_false, false_iff]
    rintro ⟨_, _, _, hc, _⟩; cases hc
  | ok r =>
    obtain ⟨g1, h1, P1⟩ := r
    simp only [Res.ok_bind, Res.ok.injEq, Prod.mk.injEq]
    cases g1 with
    | nil => simp [idx]
    | cons g0 g1 => cases h1 with
      | nil => simp [idx]
      | cons h0 h1 => simp [idx]

end Verif

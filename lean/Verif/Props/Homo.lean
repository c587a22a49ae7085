import Verif.Props.P256
import Verif.Lemmas.Bip
import Verif.Props.CcsMisc

/-!
# C103: commitments can be added, and two openings give the logarithm
-/

namespace Verif

/-- The ideal commitment. -/
noncomputable def pedersen (x r : Int) (H : Secp) : Secp := x • secpG + r • H

/-- C103: `Multiply` of two commitments is a commitment to the sum of the values under the sum of the randomness. -/
theorem C103_sum {E : Ext} (hE : E.Ok) {x r x' r' : Int} {h : P256} {H : Secp} (hh : Rep h H)
    (h1 : AddOk (x • secpG) (r • H)) (h2 : AddOk (x' • secpG) (r' • H)) :
    Rep ((commitG1 E x r h).multiply E (commitG1 E x' r' h)) (pedersen (x + x') (r + r') H) := by
  have a : ∀ {x r : Int}, AddOk (x • secpG) (r • H) → Rep (commitG1 E x r h) (x • secpG + r • H) := by
    intro x r hx
    refine (C19_commitG1 hE x r hh).2 ?_
    rintro (⟨h1, h2⟩ | ⟨h1, h2⟩) <;> rcases hx with hx | ⟨hx1, hx2⟩
    · exact h2 hx
    · exact hx1 h1
    · exact h2 hx
    · exact hx2 h1
  have := multiply_rep hE (a h1) (a h2)
  rw [pedersen, add_zsmul, add_zsmul]
  rwa [show x • secpG + r • H + (x' • secpG + r' • H) = x • secpG + x' • secpG + (r • H + r' • H) by abel] at this

/-- Commitments to 1 and 2 for `H = G`: no exceptional addition. -/
example : AddOk ((1 : Int) • secpG) ((3 : Int) • secpG) ∧ AddOk ((2 : Int) • secpG) ((5 : Int) • secpG) ∧
    AddOk (((1 : Int) + 2) • secpG) (((3 : Int) + 5) • secpG) ∧ pedersen (1 + 2) (3 + 5) secpG ≠ 0 := by
  have z : ∀ k : Int, k • secpG = 0 ↔ ORDER ∣ k := fun k => by
    rw [← zmod_smul_intCast, smul_eq_zero, or_iff_left secpG_ne_zero, fn_eq_zero]
  have d : ∀ k l : Int, ¬ ORDER ∣ k - l → k • secpG ≠ l • secpG := fun k l h e => h ((z _).1 (by rw [sub_zsmul, e, add_neg_cancel]))
  refine ⟨Or.inr ⟨?_, d _ _ (by decide)⟩, Or.inr ⟨?_, d _ _ (by decide)⟩, Or.inr ⟨?_, d _ _ (by decide)⟩, ?_⟩
  · rw [ne_eq, z]; decide
  · rw [ne_eq, z]; decide
  · rw [ne_eq, z]; decide
  · rw [pedersen, ← add_zsmul, ne_eq, z]; decide

/-- C103: … with the same coordinates as the commitment that `CommitG1` makes for the sums, unless this is infinity. -/
theorem C103_equal {E : Ext} (hE : E.Ok) {x r x' r' : Int} {h : P256} {H : Secp} (hh : Rep h H)
    (h1 : AddOk (x • secpG) (r • H)) (h2 : AddOk (x' • secpG) (r' • H)) (h3 : AddOk ((x + x') • secpG) ((r + r') • H))
    (h4 : pedersen (x + x') (r + r') H ≠ 0) :
    (commitG1 E x r h).multiply E (commitG1 E x' r' h) = commitG1 E (x + x') (r + r') h := by
  refine ((C103_sum hE hh h1 h2).fin h4).eq (Rep.fin ?_ h4)
  refine (C19_commitG1 hE _ _ hh).2 ?_
  rintro (⟨a, b⟩ | ⟨a, b⟩) <;> rcases h3 with hx | ⟨hx1, hx2⟩
  · exact b hx
  · exact hx1 a
  · exact b hx
  · exact hx2 a

/-- C103: any number of commitments, multiplied from the left starting with infinity. -/
theorem C103_many {E : Ext} (hE : E.Ok) {h : P256} {H : Secp} (hh : Rep h H) : ∀ (l : List (Int × Int)) (p : P256) (X R : Int),
    Rep p (pedersen X R H) → (∀ v ∈ l, AddOk (v.1 • secpG) (v.2 • H)) →
    Rep (l.foldl (fun p v => p.multiply E (commitG1 E v.1 v.2 h)) p) (pedersen (X + (l.map Prod.fst).sum) (R + (l.map Prod.snd).sum) H)
  | [], p, X, R, hp, _ => by simpa using hp
  | v :: l, p, X, R, hp, hl => by
    have hv := hl v (by simp)
    have a : Rep (commitG1 E v.1 v.2 h) (v.1 • secpG + v.2 • H) := by
      refine (C19_commitG1 hE _ _ hh).2 ?_
      rintro (⟨a, b⟩ | ⟨a, b⟩) <;> rcases hv with hx | ⟨hx1, hx2⟩
      · exact b hx
      · exact hx1 a
      · exact b hx
      · exact hx2 a
    have := C103_many hE hh l (p.multiply E (commitG1 E v.1 v.2 h)) (X + v.1) (R + v.2) (by
      have := multiply_rep hE hp a
      rw [pedersen, add_zsmul, add_zsmul]
      rwa [pedersen, show X • secpG + R • H + (v.1 • secpG + v.2 • H) = X • secpG + v.1 • secpG + (R • H + v.2 • H) by abel] at this)
      fun w hw => hl w (by simp [hw])
    rw [List.foldl_cons, List.map_cons, List.map_cons, List.sum_cons, List.sum_cons, ← add_assoc, ← add_assoc]
    exact this

/-- C103: `ScalarMult` of a commitment. -/
theorem C103_scale {E : Ext} (hE : E.Ok) {x r : Int} {h : P256} {H : Secp} (hh : Rep h H)
    (h1 : AddOk (x • secpG) (r • H)) (k : Int) :
    Rep ((commitG1 E x r h).scalarMult E k) (pedersen (k * x) (k * r) H) := by
  have a : Rep (commitG1 E x r h) (x • secpG + r • H) := by
    refine (C19_commitG1 hE _ _ hh).2 ?_
    rintro (⟨a, b⟩ | ⟨a, b⟩) <;> rcases h1 with hx | ⟨hx1, hx2⟩
    · exact b hx
    · exact hx1 a
    · exact b hx
    · exact hx2 a
  have := scalarMult_rep hE a k
  rwa [zsmul_add, ← mul_zsmul', ← mul_zsmul', mul_comm x, mul_comm r] at this

/-- C103: with `Add` instead of `Multiply`, the sum of a commitment and itself is infinity. -/
theorem C103_add {E : Ext} (hE : E.Ok) (x r : Int) {h : P256} {H : Secp} (hh : Rep h H) :
    ((commitG1 E x r h).add (commitG1 E x r h)).isZero = true := by
  have a := commitG1_rep hE x r hh
  generalize commitG1 E x r h = c at a
  revert a
  generalize (if x • secpG = 0 then r • H else if r • H = 0 then 0 else if x • secpG = r • H then 0 else x • secpG + r • H) = Q
  intro a
  refine ((add_rep a a).isZero_iff).2 ?_
  by_cases h : Q = 0
  · rw [if_pos h, h]
  · rw [if_neg h, if_neg h, if_pos rfl]

/-- Three commitments, a multiple of one, and one added to itself, for `H = 1000 G` and a curve library that meets the contract. -/
example : ∃ (E : Ext) (h : P256) (H : Secp), E.Ok ∧ Rep h H ∧
    (commitG1 E 1 3 h).multiply E (commitG1 E 2 5 h) = commitG1 E (1 + 2) (3 + 5) h ∧
    Rep ([(1, 3), (2, 5), (4, 4)].foldl (fun p (v : Int × Int) => p.multiply E (commitG1 E v.1 v.2 h)) P256.infinity) (pedersen 7 12 H) ∧
    Rep ((commitG1 E 2 5 h).scalarMult E (-3)) (pedersen (-6) (-15) H) ∧
    ((commitG1 E 2 5 h).add (commitG1 E 2 5 h)).isZero = true := by
  have hE := idealExt_ok (fun _ => List.replicate 32 0) (fun _ => rfl)
  have hh := rep_canonP ((1000 : Int) • secpG)
  have z : ∀ k : Int, k • secpG = 0 ↔ ORDER ∣ k := fun k => by
    rw [← zmod_smul_intCast, smul_eq_zero, or_iff_left secpG_ne_zero, fn_eq_zero]
  have d : ∀ x r : Int, ¬ ORDER ∣ r * 1000 → ¬ ORDER ∣ x - r * 1000 → AddOk (x • secpG) (r • (1000 : Int) • secpG) := fun x r h1 h2 => by
    refine Or.inr ⟨fun e => h1 ((z _).1 (by rw [mul_zsmul]; exact e)), fun e => h2 ((z _).1 ?_)⟩
    rw [sub_zsmul, e, mul_zsmul, add_neg_cancel]
  refine ⟨_, _, _, hE, hh, C103_equal hE hh (d 1 3 (by decide) (by decide)) (d 2 5 (by decide) (by decide)) (d _ _ (by decide) (by decide)) ?_,
    C103_many hE hh _ _ 0 0 ?_ ?_, C103_scale hE hh (d 2 5 (by decide) (by decide)) (-3), C103_add hE 2 5 hh⟩
  · rw [pedersen, ← mul_zsmul, ← add_zsmul, ne_eq, z]; decide
  · rw [pedersen, zero_zsmul, zero_zsmul, add_zero]; exact rep_infinity
  · simp only [List.mem_cons, List.not_mem_nil, or_false, forall_eq_or_imp, forall_eq]
    exact ⟨d 1 3 (by decide) (by decide), d 2 5 (by decide) (by decide), d 4 4 (by decide) (by decide)⟩

/-- C103: two openings of one commitment with different values determine the logarithm of `H`, and it can be computed from them. -/
theorem C103_openings {x r x' r' : Int} {H : Secp} (h : pedersen x r H = pedersen x' r' H) (hx : ¬ ORDER ∣ x - x') :
    ∃ k, modInverse (r' - r) ORDER = some k ∧ H = ((x - x') * k) • secpG := by
  have e : (x - x') • secpG = (r' - r) • H := by
    rw [sub_zsmul, sub_zsmul, ← sub_eq_add_neg, ← sub_eq_add_neg, sub_eq_sub_iff_add_eq_add]
    rw [pedersen, pedersen] at h
    rw [h, add_comm]
  have hr : ¬ ORDER ∣ r' - r := by
    intro hd
    refine hx ?_
    rw [← zmod_smul_intCast, ← zmod_smul_intCast, (fn_eq_zero _).2 hd, zero_smul, smul_eq_zero, or_iff_left secpG_ne_zero] at e
    exact (fn_eq_zero _).1 e
  obtain ⟨k, hk⟩ := modInverse_order_exists hr
  refine ⟨k, hk, ?_⟩
  have h1 := modInverse_order hk
  rw [mul_comm, mul_zsmul, e, ← mul_zsmul, ← zmod_smul_intCast, Int.cast_mul, mul_comm, h1, one_smul]

/-- With `H = 2 G` the values 5 and 3 have a common commitment. -/
example : pedersen 5 0 ((2 : Int) • secpG) = pedersen 3 1 ((2 : Int) • secpG) ∧ ¬ ORDER ∣ (5 : Int) - 3 := by
  refine ⟨?_, by decide⟩
  rw [pedersen, pedersen, ← mul_zsmul, ← mul_zsmul, ← add_zsmul, ← add_zsmul]
  rfl

/-- C103: the commitments of ccs08, with the method `Add` of G2. -/
theorem C103_ccs {x r x' r' h : Int} {H : TwistPoint} (hH : Rep2 H (h • bnG2)) (hx : 0 ≤ x) (hr : 0 ≤ r) (hx' : 0 ≤ x') (hr' : 0 ≤ r')
    (h1 : NoClash x [h * r]) (h2 : NoClash x' [h * r']) (h3 : NoClash (x + x') [h * (r + r')]) (c : TwistPoint) :
    (G2.marshal (TwistPoint.add c (commit x r H) (commit x' r' H))).1 = (G2.marshal (commit (x + x') (r + r') H)).1 := by
  have a := C36_add c _ _ _ _ (commit_exp hH hx hr h1) (commit_exp hH hx' hr' h2)
  rw [← add_zsmul] at a
  rw [marshal_exp2 a (commit_exp hH (by omega) (by omega) h3)]
  ring_nf
  rfl

example := C103_ccs (x := 5) (r := 3) (x' := 7) (r' := 4) (C36_scalarBaseMult ccsH (by decide +kernel)) (by decide) (by decide)
  (by decide) (by decide) (by decide +kernel) (by decide +kernel) (by decide +kernel) .new

end Verif

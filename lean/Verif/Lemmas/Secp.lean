import Verif.Spec.Secp
import Verif.Lemmas.Arith
import Mathlib.Data.ZMod.Basic

namespace Verif

theorem secpP_pos : 0 < secpP := by decide

theorem sf_two : (2 : SF) ≠ 0 := by
  have : ((2 : Nat) : SF) ≠ 0 := by
    rw [Ne, ZMod.natCast_eq_zero_iff]; decide
  exact_mod_cast this

theorem sf_three : (3 : SF) ≠ 0 := by
  have : ((3 : Nat) : SF) ≠ 0 := by
    rw [Ne, ZMod.natCast_eq_zero_iff]; decide
  exact_mod_cast this

theorem sf_seven : (7 : SF) ≠ 0 := by
  have : ((7 : Nat) : SF) ≠ 0 := by
    rw [Ne, ZMod.natCast_eq_zero_iff]; decide
  exact_mod_cast this

@[simp] theorem sf_emod (a : Int) : ((a % secpP : Int) : SF) = (a : SF) := by
  rw [secpP_eq]; exact ZMod.intCast_mod a secpPn

@[simp] theorem sf_P : ((secpP : Int) : SF) = 0 := by
  rw [secpP_eq]; simp

theorem sf_eq_iff (a b : Int) : (a : SF) = (b : SF) ↔ a ≡ b [ZMOD secpP] := by
  rw [secpP_eq]; exact ZMod.intCast_eq_intCast_iff a b secpPn

theorem sf_eq_zero (a : Int) : (a : SF) = 0 ↔ secpP ∣ a := by
  rw [secpP_eq]; exact ZMod.intCast_zmod_eq_zero_iff_dvd a secpPn

/-- Canonical representatives are equal iff their residues are. -/
theorem sf_inj {a b : Int} (ha : 0 ≤ a) (ha' : a < secpP) (hb : 0 ≤ b) (hb' : b < secpP) :
    (a : SF) = (b : SF) ↔ a = b := by
  rw [sf_eq_iff, Int.ModEq, Int.emod_eq_of_lt ha ha', Int.emod_eq_of_lt hb hb']

theorem modInverse_secp {z : Int} (hz : (z : SF) ≠ 0) :
    ∃ r, modInverse z secpP = some r ∧ 0 ≤ r ∧ r < secpP ∧ (r : SF) = (z : SF)⁻¹ := by
  have hn : secpP ≠ 0 := ne_of_gt secpP_pos
  have hg : Int.gcd z secpP = 1 := by
    rw [secpP_eq, Int.gcd_def, Int.natAbs_natCast]
    have hp : secpPn.Prime := Fact.out
    rw [Nat.gcd_comm]
    apply (Nat.Prime.coprime_iff_not_dvd hp).2
    intro hd
    apply hz
    rw [sf_eq_zero, secpP_eq]
    exact Int.natCast_dvd.2 hd
  obtain ⟨r, h1, h2, h3, h4⟩ := (modInverse_spec z secpP hn).1 hg
  refine ⟨r, h1, h2, by rwa [abs_of_pos secpP_pos] at h3, ?_⟩
  have : ((r * z - 1 : Int) : SF) = 0 := (sf_eq_zero _).2 h4
  push_cast at this
  apply eq_inv_of_mul_eq_one_left
  linear_combination this

/-- The nil case in `affineFromJacobian` is unreachable for reduced `z`. -/
theorem affineFromJacobian_inverse_exists (z : Int) (h0 : 0 < z) (h1 : z < secpP) :
    modInverse z secpP ≠ none := by
  have : (z : SF) ≠ 0 := by
    intro h
    have := (sf_inj h0.le h1 (le_refl 0) secpP_pos).1 (by simpa using h)
    omega
  obtain ⟨r, hr, _⟩ := modInverse_secp this
  rw [hr]; simp

theorem affineFromJacobian_spec {x y z : Int} {Q : Secp} (hz0 : 0 ≤ z) (hz1 : z < secpP)
    (h : Jac Q (x : SF) (y : SF) (z : SF)) : Rep (P256.ofPair (affineFromJacobian (x, y, z))) Q := by
  by_cases hz : z = 0
  · left
    refine ⟨by rw [affineFromJacobian, if_pos hz]; rfl, ?_⟩
    exact h.zero_iff.2 (by rw [hz]; simp)
  · have hzF : (z : SF) ≠ 0 := by
      intro hc
      exact hz ((sf_inj hz0 hz1 (le_refl 0) secpP_pos).1 (by simpa using hc))
    obtain ⟨r, hr, _, _, hrF⟩ := modInverse_secp hzF
    right
    have hdef : affineFromJacobian (x, y, z)
        = ((x * (r * r)) % secpP, (y * (r * r * r)) % secpP) := by
      simp only [affineFromJacobian, if_neg hz, hr]
    rw [hdef]
    refine ⟨_, _, rfl, Int.emod_nonneg _ (ne_of_gt secpP_pos), Int.emod_lt_of_pos _ secpP_pos,
      Int.emod_nonneg _ (ne_of_gt secpP_pos), Int.emod_lt_of_pos _ secpP_pos, ?_⟩
    refine (h.finite hzF).congr ?_ ?_
    · simp only [sf_emod]; push_cast; rw [hrF]; field_simp
    · simp only [sf_emod]; push_cast; rw [hrF]; field_simp

theorem sf_cond (a : Int) : ((if a < 0 then a + secpP else a : Int) : SF) = (a : SF) := by
  split
  · push_cast; rw [sf_P, add_zero]
  · rfl

/-- Residues of the outputs of `addJacobian`. -/
theorem addJacobian_cast (x1 y1 z1 x2 y2 z2 : Int) :
    let q := addJacobian x1 y1 z1 x2 y2 z2
    let h : SF := x2 * z1 ^ 2 - x1 * z2 ^ 2
    let r : SF := 2 * (y2 * z1 ^ 3 - y1 * z2 ^ 3)
    let v : SF := x1 * z2 ^ 2 * (4 * h ^ 2)
    let x3 : SF := r ^ 2 - 4 * h ^ 3 - 2 * v
    (q.1 : SF) = x3 ∧ (q.2.1 : SF) = r * (v - x3) - 2 * (y1 * z2 ^ 3) * (4 * h ^ 3) ∧
      (q.2.2 : SF) = 2 * z1 * z2 * h := by
  refine ⟨?_, ?_, ?_⟩ <;>
  · simp only [addJacobian, sf_emod, Int.cast_mul, Int.cast_sub, Int.cast_add, sf_cond,
      Int.cast_ofNat]
    ring

theorem addJacobian_z_range (x1 y1 z1 x2 y2 z2 : Int) :
    0 ≤ (addJacobian x1 y1 z1 x2 y2 z2).2.2 ∧ (addJacobian x1 y1 z1 x2 y2 z2).2.2 < secpP :=
  ⟨Int.emod_nonneg _ (ne_of_gt secpP_pos), Int.emod_lt_of_pos _ secpP_pos⟩

theorem RepFin.isZero {a : P256} {Q : Secp} (h : RepFin a Q) : a.isZero = false := by
  obtain ⟨x, y, rfl, hx, hx', hy, hy', hp⟩ := h
  simp only [P256.isZero]
  by_contra hc
  simp only [Bool.not_eq_false, Bool.and_eq_true, beq_iff_eq] at hc
  obtain ⟨rfl, rfl⟩ := hc
  have := hp.eqn
  apply sf_seven
  simpa using this.symm

theorem RepFin.ne_zero {a : P256} {Q : Secp} (h : RepFin a Q) : Q ≠ 0 := by
  obtain ⟨x, y, _, _, _, _, _, hp⟩ := h
  exact hp.ne_zero

theorem Rep.isZero_iff {a : P256} {Q : Secp} (h : Rep a Q) : a.isZero = true ↔ Q = 0 := by
  rcases h with ⟨h1, h2⟩ | h
  · exact ⟨fun _ => h2, fun _ => h1⟩
  · rw [h.isZero]; simp [h.ne_zero]

theorem Rep.fin {a : P256} {Q : Secp} (h : Rep a Q) (hQ : Q ≠ 0) : RepFin a Q := by
  rcases h with ⟨_, h2⟩ | h
  · exact absurd h2 hQ
  · exact h

/-- A Go value represents at most one group element. -/
theorem Rep.unique {a : P256} {Q R : Secp} (h : Rep a Q) (h' : Rep a R) : Q = R := by
  rcases h with ⟨h1, rfl⟩ | h
  · exact ((h'.isZero_iff).1 h1).symm
  · rcases h' with ⟨h1, _⟩ | h'
    · rw [h.isZero] at h1; cases h1
    · obtain ⟨x, y, rfl, _, _, _, _, hp⟩ := h
      obtain ⟨x', y', he, _, _, _, _, hp'⟩ := h'
      simp only [P256.mk.injEq, Option.some.injEq] at he
      obtain ⟨rfl, rfl⟩ := he
      exact (hp.inj hp').2 ⟨rfl, rfl⟩

/-- Finite representations are canonical. -/
theorem RepFin.eq {a b : P256} {Q : Secp} (h : RepFin a Q) (h' : RepFin b Q) : a = b := by
  obtain ⟨x, y, rfl, a1, a2, a3, a4, hp⟩ := h
  obtain ⟨x', y', rfl, b1, b2, b3, b4, hp'⟩ := h'
  obtain ⟨e1, e2⟩ := (hp.inj hp').1 rfl
  rw [(sf_inj a1 a2 b1 b2).1 e1, (sf_inj a3 a4 b3 b4).1 e2]

theorem rep_infinity : Rep P256.infinity 0 := Or.inl ⟨rfl, rfl⟩

/-- `MyBitCurve.Add` on two finite points. -/
theorem curveAdd_spec {a b : P256} {Q R : Secp} (ha : RepFin a Q) (hb : RepFin b R) :
    Rep (P256.ofPair (curveAdd a.x a.y b.x b.y)) (if Q = R then 0 else Q + R) := by
  obtain ⟨x, y, rfl, a1, a2, a3, a4, hp⟩ := ha
  obtain ⟨x', y', rfl, b1, b2, b3, b4, hp'⟩ := hb
  change Rep (P256.ofPair (affineFromJacobian (addJacobian x y 1 x' y' 1))) _
  obtain ⟨r1, r2⟩ := addJacobian_z_range x y 1 x' y' 1
  obtain ⟨c1, c2, c3⟩ := addJacobian_cast x y 1 x' y' 1
  simp only [Int.cast_one, one_pow, mul_one] at c1 c2 c3
  set q := addJacobian x y 1 x' y' 1 with hq
  have e : q = (q.1, q.2.1, q.2.2) := rfl
  rw [e]
  apply affineFromJacobian_spec r1 r2
  split
  · rename_i heq
    obtain ⟨e1, e2⟩ := (hp.inj hp').1 heq
    left
    refine ⟨?_, rfl⟩
    rw [c3, e1, sub_self, mul_zero]
  · rename_i hne
    refine Jac.add (x₁ := (x : SF)) (y₁ := (y : SF)) (z₁ := 1) (x₂ := (x' : SF)) (y₂ := (y' : SF))
      (z₂ := 1) sf_two (Jac.of_affine hp) (Jac.of_affine hp') one_ne_zero one_ne_zero hne
      rfl rfl rfl rfl ?_ ?_ ?_
    · rw [c1]; ring
    · rw [c2, c1]; ring
    · rw [c3]; ring

theorem RepFin.eq_mk {a : P256} {Q : Secp} (h : RepFin a Q) : a = ⟨some a.x, some a.y⟩ := by
  obtain ⟨x, y, rfl, _⟩ := h; rfl

theorem RepFin.coords_eq_iff {a b : P256} {Q R : Secp} (ha : RepFin a Q) (hb : RepFin b R) :
    (a.x = b.x ∧ a.y = b.y) ↔ Q = R := by
  constructor
  · rintro ⟨h1, h2⟩
    have : a = b := by rw [ha.eq_mk, hb.eq_mk, h1, h2]
    subst this
    exact Rep.unique (Or.inr ha) (Or.inr hb)
  · intro h
    subst h
    rw [ha.eq hb]; exact ⟨rfl, rfl⟩

theorem multiply_rep {E : Ext} (hE : E.Ok) {a b : P256} {Q R : Secp} (ha : Rep a Q) (hb : Rep b R) :
    Rep (a.multiply E b) (Q + R) := by
  rw [P256.multiply]
  by_cases h1 : Q = 0
  · rw [if_pos ((ha.isZero_iff).2 h1), h1, zero_add]; exact hb
  · rw [if_neg (fun h => h1 ((ha.isZero_iff).1 h))]
    by_cases h2 : R = 0
    · rw [if_pos ((hb.isZero_iff).2 h2), h2, add_zero]; exact ha
    · rw [if_neg (fun h => h2 ((hb.isZero_iff).1 h))]
      have fa := ha.fin h1
      have fb := hb.fin h2
      by_cases h3 : Q = R
      · rw [if_pos ((fa.coords_eq_iff fb).2 h3)]
        subst h3
        exact hE.double_fin _ _ _ (by rw [← fa.eq_mk]; exact fa)
      · rw [if_neg (fun h => h3 ((fa.coords_eq_iff fb).1 h))]
        have := curveAdd_spec fa fb
        rwa [if_neg h3] at this

/-- Exact behaviour of `Add`. -/
theorem add_rep {a b : P256} {Q R : Secp} (ha : Rep a Q) (hb : Rep b R) :
    Rep (a.add b) (if Q = 0 then R else if R = 0 then 0 else if Q = R then 0 else Q + R) := by
  rw [P256.add]
  by_cases h1 : Q = 0
  · rw [if_pos ((ha.isZero_iff).2 h1), if_pos h1]; exact hb
  · rw [if_neg (fun h => h1 ((ha.isZero_iff).1 h)), if_neg h1]
    by_cases h2 : R = 0
    · rw [if_pos ((hb.isZero_iff).2 h2), if_pos h2, ← h2]; exact hb
    · rw [if_neg (fun h => h2 ((hb.isZero_iff).1 h)), if_neg h2]
      exact curveAdd_spec (ha.fin h1) (hb.fin h2)

end Verif

import Verif.Lemmas.Curve
import Mathlib.Data.ZMod.Basic
import Mathlib.FieldTheory.Finite.Basic
import Mathlib.GroupTheory.Perm.Cycle.Type
import Mathlib.GroupTheory.OrderOfElement

/-!
# Kernel-evaluable scalar multiplication

`jmul` is a double-and-add on integers modulo `p` with runtime checks that no
exceptional case of the addition formula occurs; `jmul_spec` turns a successful evaluation into a
statement about Mathlib's group.
-/

namespace Verif

/-- Doubling of `(x,y,z)` modulo `p`. -/
def jdbl (p : Int) (q : Int × Int × Int) : Int × Int × Int :=
  match q with
  | (x, y, z) =>
    let yy := y * y % p
    let d := 4 * x * yy % p
    let e := 3 * x * x % p
    let x3 := (e * e - 2 * d) % p
    (x3, (e * (d - x3) - 8 * yy * yy) % p, 2 * y * z % p)

/-- Mixed addition of `(x1,y1,z1)` and the affine point `(x2,y2)`. -/
def jadd (p : Int) (q : Int × Int × Int) (x2 y2 : Int) : Int × Int × Int :=
  match q with
  | (x1, y1, z1) =>
    let zz := z1 * z1 % p
    let h := (x2 * zz - x1) % p
    let r := 2 * (y2 * z1 * zz - y1) % p
    let hh := 4 * h * h % p
    let j := h * hh % p
    let v := x1 * hh % p
    let x3 := (r * r - j - 2 * v) % p
    (x3, (r * (v - x3) - 2 * y1 * j) % p, 2 * z1 * h % p)

/-- Check that the two points are finite and distinct. -/
def jdistinct (p : Int) (q : Int × Int × Int) (x2 y2 : Int) : Bool :=
  match q with
  | (x1, y1, z1) =>
    z1 % p != 0 && ((x1 - x2 * (z1 * z1)) % p != 0 || (y1 - y2 * (z1 * z1 * z1)) % p != 0)

/-- Double-and-add over the bits (most significant first); `none` if a check fails. -/
def jmulLoop (p gx gy : Int) : List Bool → Int × Int × Int → Option (Int × Int × Int)
  | [], q => some q
  | b :: bs, q =>
    let q := jdbl p q
    match b with
    | false => jmulLoop p gx gy bs q
    | true => if jdistinct p q gx gy then jmulLoop p gx gy bs (jadd p q gx gy) else none

/-- Value of a bit list, most significant first. -/
def bitsVal (bs : List Bool) (k : Nat) : Nat := bs.foldl (fun a b => 2 * a + b.toNat) k

/-- Bits of `n`, most significant first. -/
def bitsOf : Nat → Nat → List Bool → List Bool
  | 0, _, acc => acc
  | fuel + 1, n, acc => if n = 0 then acc else bitsOf fuel (n / 2) ((n % 2 == 1) :: acc)

/-- The certificate computation: `n·(gx,gy)` ends at infinity. -/
def orderCheck (p gx gy : Int) (n : Nat) : Bool :=
  match bitsOf 256 n [] with
  | [] => false
  | b :: bs => b && (bitsVal (b :: bs) 0 == n) &&
    match jmulLoop p gx gy bs (gx, gy, 1) with
    | some (_, _, z) => z % p == 0
    | none => false

section
variable {p : Nat} [Fact p.Prime] {b : ZMod p}

/-- Jacobian triple of integers representing a point. -/
def JacI (P : (curve b).Point) (q : Int × Int × Int) : Prop :=
  Jac P (q.1 : ZMod p) (q.2.1 : ZMod p) (q.2.2 : ZMod p)

theorem jdbl_spec (h2 : (2 : ZMod p) ≠ 0) {q : Int × Int × Int} {P : (curve b).Point}
    (hP : JacI P q) : JacI (P + P) (jdbl p q) := by
  obtain ⟨x, y, z⟩ := q
  refine Jac.double h2 hP rfl rfl ?_ ?_ ?_ <;>
    simp only [jdbl, ZMod.intCast_mod, Int.cast_mul, Int.cast_sub, Int.cast_ofNat] <;> ring

theorem jadd_spec (h2 : (2 : ZMod p) ≠ 0) {q : Int × Int × Int} {P G : (curve b).Point} {gx gy : Int}
    (hP : JacI P q) (hG : IsPt G (gx : ZMod p) (gy : ZMod p)) (hd : jdistinct p q gx gy = true) :
    JacI (P + G) (jadd p q gx gy) := by
  obtain ⟨x, y, z⟩ := q
  have hzero : ∀ a : Int, a % (p : Int) = 0 ↔ (a : ZMod p) = 0 := fun a => by
    rw [ZMod.intCast_zmod_eq_zero_iff_dvd, Int.dvd_iff_emod_eq_zero]
  simp only [jdistinct, Bool.and_eq_true, bne_iff_ne, ne_eq, Bool.or_eq_true, hzero] at hd
  obtain ⟨hz, hd⟩ := hd
  have hne : P ≠ G := by
    intro he
    have := (Jac.eq_iff hP (Jac.of_affine hG) hz one_ne_zero).1 he
    obtain ⟨e1, e2⟩ := this
    simp only [one_pow, mul_one] at e1 e2
    rcases hd with hd | hd
    · apply hd; push_cast; rw [e1]; ring
    · apply hd; push_cast; rw [e2]; ring
  refine Jac.add h2 hP (Jac.of_affine hG) hz one_ne_zero hne rfl rfl rfl rfl ?_ ?_ ?_ <;>
  · simp only [jadd, ZMod.intCast_mod, Int.cast_mul, Int.cast_sub, Int.cast_ofNat]
    ring

theorem jmulLoop_spec (h2 : (2 : ZMod p) ≠ 0) {G : (curve b).Point} {gx gy : Int}
    (hG : IsPt G (gx : ZMod p) (gy : ZMod p)) (bs : List Bool) (q r : Int × Int × Int) (k : Nat)
    (hq : JacI (k • G) q) (h : jmulLoop p gx gy bs q = some r) : JacI (bitsVal bs k • G) r := by
  induction bs generalizing q k with
  | nil =>
    simp only [jmulLoop, Option.some.injEq] at h
    subst h; exact hq
  | cons c bs ih =>
    have hd := jdbl_spec h2 hq
    rw [← two_nsmul, ← mul_nsmul', mul_comm] at hd
    cases c with
    | false =>
      have := ih _ (2 * k) (by rwa [mul_comm k 2] at hd) h
      simpa [bitsVal] using this
    | true =>
      simp only [jmulLoop] at h
      split at h
      · rename_i hc
        have ha := jadd_spec h2 hd hG hc
        rw [← succ_nsmul] at ha
        have := ih _ (2 * k + 1) (by rwa [mul_comm k 2] at ha) h
        simpa [bitsVal] using this
      · cases h

theorem orderCheck_spec (h2 : (2 : ZMod p) ≠ 0) {G : (curve b).Point} {gx gy : Int}
    (hG : IsPt G (gx : ZMod p) (gy : ZMod p)) (n : Nat) (h : orderCheck p gx gy n = true) :
    n • G = 0 := by
  unfold orderCheck at h
  split at h
  · cases h
  · rename_i c bs hb
    simp only [Bool.and_eq_true, beq_iff_eq] at h
    obtain ⟨⟨hc, hv⟩, h⟩ := h
    subst hc
    split at h
    · rename_i x y z hq
      have hs := jmulLoop_spec h2 hG bs _ _ 1 
        (by rw [one_nsmul]; simpa [JacI] using Jac.of_affine hG) hq
      have hv' : bitsVal bs 1 = n := by rw [← hv]; rfl
      rw [hv'] at hs
      apply (Jac.zero_iff hs).2
      simp only [beq_iff_eq] at h
      exact (ZMod.intCast_zmod_eq_zero_iff_dvd z p).2 (Int.dvd_of_emod_eq_zero h)
    · simp at h

/-- Encoding of points as `none` or abscissa plus a choice of root. -/
noncomputable def pointCode (P : (curve b).Point) : Option (ZMod p × Bool) :=
  open Classical in
  match P with
  | .zero => none
  | .some x y _ => some (x, decide (y = if h : ∃ t : ZMod p, t ^ 2 = x ^ 3 + b then h.choose else 0))

theorem pointCode_injective : Function.Injective (pointCode (p := p) (b := b)) := by
  intro P Q h
  cases P with
  | zero => cases Q with
    | zero => rfl
    | some x y hq => simp [pointCode] at h
  | some x y hp => cases Q with
    | zero => simp [pointCode] at h
    | some x' y' hq =>
      simp only [pointCode, Option.some.injEq, Prod.mk.injEq, decide_eq_decide] at h
      obtain ⟨rfl, h⟩ := h
      have e1 := (curve_equation x y).1 hp.1
      have e2 := (curve_equation x y').1 hq.1
      have hex : ∃ t : ZMod p, t ^ 2 = x ^ 3 + b := ⟨y, e1⟩
      rw [dif_pos hex] at h
      have e3 := hex.choose_spec
      set t := hex.choose
      have hy : y = y' := by
        by_cases h1 : y = t
        · rw [h1, ← (h.1 h1)]
        · have h1' : y' ≠ t := fun hc => h1 (h.2 hc)
          have a1 := (sq_eq_sq_iff_eq_or_eq_neg.1 (e1.trans e3.symm)).resolve_left h1
          have a2 := (sq_eq_sq_iff_eq_or_eq_neg.1 (e2.trans e3.symm)).resolve_left h1'
          rw [a1, a2]
      subst hy; rfl

instance : Finite (curve b).Point :=
  Finite.of_injective _ (pointCode_injective (p := p) (b := b))

theorem card_point_le : Nat.card (curve b).Point ≤ 2 * p + 1 := by
  have := Nat.card_le_card_of_injective _ (pointCode_injective (p := p) (b := b))
  refine this.trans (le_of_eq ?_)
  rw [Nat.card_eq_fintype_card, Fintype.card_option, Fintype.card_prod, ZMod.card, Fintype.card_bool]
  ring

/-- A point of prime order `n` with `3n > 2p+1`, and no 2-torsion, force the group order. -/
theorem card_point_eq (n : Nat) (hn : n.Prime) (G : (curve b).Point) (hG : G ≠ 0) (hnG : n • G = 0)
    (hsize : 2 * p + 1 < 3 * n) (hcube : ∀ x : ZMod p, x ^ 3 + b ≠ 0) (hodd : n ≠ 2) :
    Nat.card (curve b).Point = n := by
  have hord : addOrderOf G = n :=
    (addOrderOf_eq_prime hnG hG (hp := ⟨hn⟩))
  have hdvd : n ∣ Nat.card (curve b).Point := hord ▸ addOrderOf_dvd_natCard G
  obtain ⟨k, hk⟩ := hdvd
  have hle := card_point_le (p := p) (b := b)
  have hpos : 0 < Nat.card (curve b).Point := Nat.card_pos
  have hk3 : k < 3 := by
    by_contra hc
    have : n * 3 ≤ n * k := Nat.mul_le_mul_left n (by omega)
    omega
  have hk2 : k ≠ 2 := by
    rintro rfl
    have : Fact (Nat.Prime 2) := ⟨Nat.prime_two⟩
    obtain ⟨P, hP⟩ := exists_prime_addOrderOf_dvd_card' (G := (curve b).Point) 2 (by rw [hk]; exact Dvd.intro_left n rfl)
    have hP0 : P ≠ 0 := by
      rintro rfl
      simp at hP
    have h2P : P + P = 0 := by rw [← two_nsmul, ← hP]; exact addOrderOf_nsmul_eq_zero P
    rcases isPt_or_zero P with h | ⟨x, y, hxy⟩
    · exact hP0 h
    · have hneg : P = -P := eq_neg_of_add_eq_zero_left h2P
      have := (hxy.inj hxy.neg).1 hneg
      have hy2 : (2 : ZMod p) * y = 0 := by linear_combination this.2
      rcases mul_eq_zero.1 hy2 with h2 | hy
      · -- characteristic two is impossible: p = 2 contradicts the size bound
        have hp2 : p = 2 := by
          have : ((2 : Nat) : ZMod p) = 0 := by exact_mod_cast h2
          rw [ZMod.natCast_eq_zero_iff] at this
          exact (Nat.prime_dvd_prime_iff_eq (Fact.out) Nat.prime_two).1 this
        have := hn.two_le
        omega
      · exact hcube x (by rw [← hxy.eqn, hy]; ring)
  have : k = 1 := by
    have : k ≠ 0 := by rintro rfl; omega
    omega
  rw [hk, this, mul_one]

end
end Verif

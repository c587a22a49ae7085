import Verif.Model.P256
import Verif.Lemmas.Curve
import Verif.Lemmas.Primes

/-!
# Specification: the secp256k1 group

The group is Mathlib's group of points of `y² = x³ + 7` over `ZMod p`.  `Rep a Q` says that the
Go value `a` represents the group element `Q`.  `Ext.Ok` is what is assumed about the code
outside the repository.
-/

namespace Verif

/-- Field characteristic as a natural number. -/
def secpPn : Nat := 0xFFFFFFFFFFFFFFFFFFFFFFFFFFFFFFFFFFFFFFFFFFFFFFFFFFFFFFFEFFFFFC2F

/-- Group order as a natural number. -/
def secpNn : Nat := 0xFFFFFFFFFFFFFFFFFFFFFFFFFFFFFFFEBAAEDCE6AF48A03BBFD25E8CD0364141

instance : Fact secpPn.Prime := ⟨prime_115792089237316195423570985008687907853269984665640564039457584007908834671663⟩
instance : Fact secpNn.Prime := ⟨prime_115792089237316195423570985008687907852837564279074904382605163141518161494337⟩

theorem secpP_eq : secpP = (secpPn : Int) := by decide +kernel
theorem ORDER_eq : ORDER = (secpNn : Int) := by decide +kernel

/-- The base field. -/
abbrev SF := ZMod secpPn

/-- The curve `y² = x³ + 7`. -/
def Secp : Type := (curve (7 : SF)).Point

noncomputable instance : AddCommGroup Secp := inferInstanceAs (AddCommGroup (curve (7 : SF)).Point)
noncomputable instance : DecidableEq Secp := Classical.decEq _

/-- `a` is a finite point with canonical coordinates representing `Q`. -/
def RepFin (a : P256) (Q : Secp) : Prop :=
  ∃ x y : Int, a = ⟨some x, some y⟩ ∧ 0 ≤ x ∧ x < secpP ∧ 0 ≤ y ∧ y < secpP ∧
    IsPt Q (x : SF) (y : SF)

/-- `a` represents `Q`: any value that `IsZero` reports as infinity represents the neutral element. -/
def Rep (a : P256) (Q : Secp) : Prop := (a.isZero = true ∧ Q = 0) ∨ RepFin a Q

/-- Assumptions on the external functions: SHA-256 returns 32 bytes; `ScalarMult` and `Double`
are correct on finite curve points (and `ScalarMult` by zero returns nil coordinates, as the C code
refuses a zero scalar); `ModSqrt` returns a root in `[0,p)` if there is one and nil otherwise. -/
structure Ext.Ok (E : Ext) : Prop where
  scalarMult_zero : ∀ x y, E.scalarMult x y 0 = ⟨none, none⟩
  scalarMult_fin : ∀ (x y : Int) (Q : Secp) (k : Nat), RepFin ⟨some x, some y⟩ Q → 0 < k → k < secpNn →
    Rep (E.scalarMult x y k) (k • Q)
  double_fin : ∀ (x y : Int) (Q : Secp), RepFin ⟨some x, some y⟩ Q → Rep (E.double x y) (Q + Q)
  modSqrt_some : ∀ a r, E.modSqrt a = some r → 0 ≤ r ∧ r < secpP ∧ r * r ≡ a [ZMOD secpP]
  modSqrt_none : ∀ a, E.modSqrt a = none → ¬ ∃ r : Int, r * r ≡ a [ZMOD secpP]
  sha_len : ∀ s, (E.sha256 s).length = 32

/-- What `P256.Add` computes on group elements (see C14): the sum, except that a finite point plus
infinity, and a finite point plus itself, give infinity. -/
noncomputable def addOf (P Q : Secp) : Secp :=
  if P = 0 then Q else if Q = 0 then 0 else if P = Q then 0 else P + Q

/-- The pairs on which `P256.Add` is the group law. -/
def AddOk (P Q : Secp) : Prop := P = 0 ∨ (Q ≠ 0 ∧ P ≠ Q)

end Verif

import Verif.Model.BnPair
import Verif.Lemmas.Primes
import Mathlib.RingTheory.AdjoinRoot
import Mathlib.FieldTheory.KummerPolynomial
import Mathlib.FieldTheory.Finite.Basic
import Mathlib.NumberTheory.LegendreSymbol.Basic

/-!
# The fields behind `crypto/bn256`

`F2 = GF(p)[i]/(i²+1)`, `F6 = F2[τ]/(τ³-(i+9))`, `F12 = F6[ω]/(ω²-τ)`, built with Mathlib's
`AdjoinRoot`; the field instances are in `Lemmas/Gfp.lean`.
-/

namespace Verif
open Polynomial

/-- The field characteristic as a natural number. -/
def bnPn : Nat := 21888242871839275222246405745257275088696311157297823662689037894645226208583
/-- The group order as a natural number. -/
def bnNn : Nat := 21888242871839275222246405745257275088548364400416034343698204186575808495617

instance : Fact bnPn.Prime :=
  ⟨prime_21888242871839275222246405745257275088696311157297823662689037894645226208583⟩
instance : Fact bnNn.Prime :=
  ⟨prime_21888242871839275222246405745257275088548364400416034343698204186575808495617⟩

theorem bnP_eq : bnP = (bnPn : Int) := by decide +kernel
theorem bnOrder_eq : bnOrder = (bnNn : Int) := by decide +kernel

/-- `GF(p)`. -/
abbrev BF := ZMod bnPn

/-- `GF(p)[i]/(i²+1)`. -/
def F2 : Type := AdjoinRoot (X ^ 2 - C (-1) : BF[X])
noncomputable instance : CommRing F2 := inferInstanceAs (CommRing (AdjoinRoot (X ^ 2 - C (-1) : BF[X])))
noncomputable instance : Algebra BF F2 := inferInstanceAs (Algebra BF (AdjoinRoot (X ^ 2 - C (-1) : BF[X])))

/-- The square root of `-1`. -/
noncomputable def F2.i : F2 := AdjoinRoot.root (X ^ 2 - C (-1) : BF[X])

/-- `ξ = i + 9`. -/
noncomputable def F2.xi : F2 := F2.i + 9

/-- `F2[τ]/(τ³-ξ)`. -/
def F6 : Type := AdjoinRoot (X ^ 3 - C F2.xi : F2[X])
noncomputable instance : CommRing F6 := inferInstanceAs (CommRing (AdjoinRoot (X ^ 3 - C F2.xi : F2[X])))
noncomputable instance : Algebra F2 F6 := inferInstanceAs (Algebra F2 (AdjoinRoot (X ^ 3 - C F2.xi : F2[X])))

/-- The cube root of `ξ`. -/
noncomputable def F6.tau : F6 := AdjoinRoot.root (X ^ 3 - C F2.xi : F2[X])

/-- `F6[ω]/(ω²-τ)`. -/
def F12 : Type := AdjoinRoot (X ^ 2 - C F6.tau : F6[X])
noncomputable instance : CommRing F12 := inferInstanceAs (CommRing (AdjoinRoot (X ^ 2 - C F6.tau : F6[X])))
noncomputable instance : Algebra F6 F12 := inferInstanceAs (Algebra F6 (AdjoinRoot (X ^ 2 - C F6.tau : F6[X])))

/-- The square root of `τ`. -/
noncomputable def F12.omega : F12 := AdjoinRoot.root (X ^ 2 - C F6.tau : F6[X])

/-- The field element held by a `gfP2`. -/
noncomputable def GfP2.val (a : GfP2) : F2 :=
  algebraMap BF F2 (a.x : BF) * F2.i + algebraMap BF F2 (a.y : BF)

/-- The field element held by a `gfP6`. -/
noncomputable def GfP6.val (a : GfP6) : F6 :=
  algebraMap F2 F6 a.x.val * F6.tau ^ 2 + algebraMap F2 F6 a.y.val * F6.tau + algebraMap F2 F6 a.z.val

/-- The field element held by a `gfP12`. -/
noncomputable def GfP12.val (a : GfP12) : F12 :=
  algebraMap F6 F12 a.x.val * F12.omega + algebraMap F6 F12 a.y.val

end Verif

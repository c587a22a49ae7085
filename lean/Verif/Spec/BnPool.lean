import Verif.Model.BnHeap
import Verif.Model.BnCurve
import Mathlib.Data.Set.Card

/-!
# Specification: objects taken from a pool and not given back

Methods with an argument `pool` get all their new objects from `pool.Get` (bn256.go:522-536), which makes an object if the pool is
empty.  So the calls of `Get` less the calls of `Put`, which is what `pool.Count()` (bn256.go:546-548) reports, are the objects made
less the growth of the pool.
-/

namespace Verif

/-- `Count()` after a run from `s` to `s'`, if it was 0 before. -/
def poolCount (s s' : BigHeap) : Int := ((s'.next : Int) - s.next) - (((s'.pool.getD []).length : Int) - (s.pool.getD []).length)

/-- Whenever the call, made with a pool, returns, `Count()` has changed by a number with the property `P`. -/
def Counts {α : Type} (m : BigM α) (P : Int → Prop) : Prop :=
  ∀ s r s', s.pool.isSome → m s = .ok (r, s') → s'.pool.isSome ∧ P (poolCount s s')

/-- It has changed by `n`. -/
def Keeps {α : Type} (m : BigM α) (n : Int) : Prop := Counts m (· = n)

/-- Number of the bits of `k` for which, with the bits above read as a number `m`, `2m ≡ 1` modulo `Order`: the steps of
double-and-add in which the double of the sum so far is the point itself. -/
noncomputable def lostSteps (k : Int) : Nat := {i : Nat | k / 2 ^ i % 2 = 1 ∧ bnOrder ∣ 2 * (k / 2 ^ (i + 1)) - 1}.ncard

end Verif

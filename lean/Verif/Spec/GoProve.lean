import Verif.Model.GoProve

/-!
# Random numbers in the order in which they are drawn
-/

namespace Verif.Spec
open Verif

/-- The random numbers of one `Prove` in the order in which they are drawn. -/
def bpOrder (rnd : BPRand) : List Int :=
  [rnd.gamma, rnd.alpha] ++ rnd.sL ++ rnd.sR ++ [rnd.rho, rnd.tau1, rnd.tau2]

/-- One run of `Prove` with `N = n` draws exactly these numbers. -/
def BPDrawn (rd : Draws) (n : Nat) (rnd : BPRand) : Prop :=
  rnd.sL.length = n ∧ rnd.sR.length = n ∧ ∀ i < 2 * n + 5, rd i = (bpOrder rnd)[i]?

/-- The random numbers of one `ProveSet`. -/
def SetDrawn (rd : Draws) (m v s t : Int) : Prop := ∀ i < 4, rd i = [m, v, s, t][i]?

/-- The random numbers of one `ProveUL` with `n` digits. -/
def ULDrawn (rd : Draws) (n : Nat) (w : ULRandom) : Prop :=
  rd 0 = some w.m ∧ ∀ i < n, rd (3 * i + 1) = some (w.v i) ∧ rd (3 * i + 2) = some (w.s i) ∧ rd (3 * i + 3) = some (w.t i)

end Verif.Spec

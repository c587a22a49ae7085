import Verif.Model.Bp
import Verif.Spec.Secp

/-!
# The randomness of `Prove`

`Prove` draws `2n + 5` numbers uniformly from `[0, ORDER)` (see `BPRand`).  `Rnd n` is the finite set of all
possible draws, so that probabilities become counts.
-/

namespace Verif

/-- The random numbers of one call of `Prove`, as residues. -/
structure Rnd (n : Nat) where
  gamma : ZMod secpNn
  alpha : ZMod secpNn
  rho : ZMod secpNn
  tau1 : ZMod secpNn
  tau2 : ZMod secpNn
  sL : Fin n → ZMod secpNn
  sR : Fin n → ZMod secpNn

/-- The numbers in `[0, ORDER)` which `rand.Int` returns. -/
def Rnd.toBP {n : Nat} (w : Rnd n) : BPRand where
  gamma := w.gamma.val
  alpha := w.alpha.val
  sL := List.ofFn fun i => ((w.sL i).val : Int)
  sR := List.ofFn fun i => ((w.sR i).val : Int)
  rho := w.rho.val
  tau1 := w.tau1.val
  tau2 := w.tau2.val

end Verif

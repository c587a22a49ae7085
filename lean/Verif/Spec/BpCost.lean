import Verif.Model.BpCost

/-!
# What somebody learns from a log, and how much work it stands for
-/

namespace Verif

/-- The lengths of the scalars handed to `CURVE.ScalarMult`, in order of the calls. -/
def scalarLengths : List Ev → List Nat
  | [] => []
  | .mult b :: l => b :: scalarLengths l
  | _ :: l => scalarLengths l

/-- The number of calls of the curve. -/
def curveCalls : List Ev → Nat
  | [] => 0
  | .make _ :: l => curveCalls l
  | _ :: l => curveCalls l + 1

/-- The number of slice elements asked for. -/
def requested : List Ev → Nat
  | [] => 0
  | .make n :: l => n + requested l
  | _ :: l => requested l

/-- The bits of a number, lowest first, as a sequence of lengths: 1 for a bit 1 and 32 for a bit 0. -/
def bitLengths (secret : Int) : Nat → List Nat
  | 0 => []
  | n + 1 => (if secret % 2 = 1 then 1 else 32) :: bitLengths (secret / 2) n

end Verif

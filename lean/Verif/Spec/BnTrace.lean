import Verif.Model.BnParPair

/-!
# Which objects a computation uses

What somebody sees who can tell which `big.Int` objects are read and written, in which order, but not their values.
-/

namespace Verif

/-- One access to an object. -/
inductive Access where
  | new
  | read (c : Cell)
  | write (c : Cell)
  deriving DecidableEq, Repr

/-- The accesses of a computation, in order, up to its end (or panic). -/
def BProg.trace {α : Type} : BProg α → (Cell → Int) → Nat → List Access
  | .ret _, _, _ => []
  | .panic, _, _ => []
  | .new k, mem, next => .new :: (k next).trace (fun c => if c = next then 0 else mem c) (next + 1)
  | .read c k, mem, next => .read c :: (k (mem c)).trace mem next
  | .write d v k, mem, next => .write d :: k.trace (fun c => if c = d then v else mem c) next

end Verif

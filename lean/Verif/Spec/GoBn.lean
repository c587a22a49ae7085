import Verif.Model.GoBn
import Verif.Spec.BnHeap

/-! # Specification: which variables of a `bn256` program need a value -/

namespace Verif

/-- Names of variables of the three types. -/
inductive BnVar
  | g1 (i : Nat)
  | g2 (i : Nat)
  | gt (i : Nat)
  deriving DecidableEq

/-- The variable is not the zero value any more. -/
def BnVars.Set (σ : BnVars) : BnVar → Prop
  | .g1 i => σ.g1 i ≠ none
  | .g2 i => σ.g2 i ≠ none
  | .gt i => σ.gt i ≠ none

/-- The variables whose value a call reads, by the documentation: "The zero value is suitable for use as the output of an operation,
but cannot be used as an input."  The arguments are inputs, and the receivers of methods which change nothing, or
only the representation. -/
def BnStmt.inputs : BnStmt → List BnVar
  | .g1Add _ a b => [.g1 a, .g1 b]
  | .g1Neg _ a | .g1ScalarMult _ a _ => [.g1 a]
  | .g1ScalarBaseMult _ _ | .g1SetInfinity _ | .g1Unmarshal _ _ => []
  | .g1SetZero e | .g1IsZero e | .g1CurvePoints e | .g1String e | .g1Marshal e => [.g1 e]
  | .g2Add _ a b => [.g2 a, .g2 b]
  | .g2Neg _ a | .g2ScalarMult _ a _ => [.g2 a]
  | .g2ScalarBaseMult _ _ | .g2SetInfinity _ | .g2Unmarshal _ _ => []
  | .g2IsZero e | .g2CurvePoints e | .g2String e | .g2Marshal e => [.g2 e]
  | .gtAdd _ a b => [.gt a, .gt b]
  | .gtNeg _ a | .gtInvert _ a | .gtScalarMult _ a _ | .gtExp _ a _ => [.gt a]
  | .gtIsZero e | .gtIsOne e | .gtString e | .gtMarshal e => [.gt e]
  | .gtUnmarshal _ _ => []
  | .pair _ p q => [.g1 p, .g2 q]
  | .pairingCheck a b => a.map .g1 ++ b.map .g2

/-- The variables which have a value afterwards. -/
def BnStmt.outputs : BnStmt → List BnVar
  | .g1Add e _ _ | .g1Neg e _ | .g1ScalarMult e _ _ | .g1ScalarBaseMult e _ | .g1SetInfinity e => [.g1 e]
  | .g1Unmarshal e m => if m.length = 64 then [.g1 e] else []
  | .g2Add e _ _ | .g2Neg e _ | .g2ScalarMult e _ _ | .g2ScalarBaseMult e _ | .g2SetInfinity e => [.g2 e]
  | .g2Unmarshal e m => if m.length = 128 then [.g2 e] else []
  | .gtAdd e _ _ | .gtNeg e _ | .gtInvert e _ | .gtScalarMult e _ _ => [.gt e]
  | .gtExp _ a _ => [.gt a]
  | .gtUnmarshal e m => if m.length = 384 then [.gt e] else []
  | .pair e _ _ => [.gt e]
  | _ => []

/-- The lists of `PairingCheck` fit. -/
def BnStmt.Fits : BnStmt → Prop
  | .pairingCheck a b => a.length ≤ b.length
  | _ => True

/-- Every input has a value when it is used: it is in `D` or the output of an earlier call. -/
def BnDefined : List BnVar → List BnStmt → Prop
  | _, [] => True
  | D, s :: prog => (∀ v ∈ s.inputs, v ∈ D) ∧ s.Fits ∧ BnDefined (D ++ s.outputs) prog

/-- What a call really needs: an argument which is also the receiver has been filled with a new point, and a scalar 0 reads nothing.
`GT.Exp` uses its argument as the receiver. -/
def BnStmt.needs : BnStmt → List BnVar
  | .g1Add e a b => [.g1 a, .g1 b].filter (· ≠ .g1 e)
  | .g1Neg e a => [.g1 a].filter (· ≠ .g1 e)
  | .g1ScalarMult e a k => if k = 0 then [] else [.g1 a].filter (· ≠ .g1 e)
  | .g2Add e a b => [.g2 a, .g2 b].filter (· ≠ .g2 e)
  | .g2Neg e a => [.g2 a].filter (· ≠ .g2 e)
  | .g2ScalarMult e a k => if k = 0 then [] else [.g2 a].filter (· ≠ .g2 e)
  | .gtAdd e a b => [.gt a, .gt b].filter (· ≠ .gt e)
  | .gtNeg e a | .gtInvert e a => [.gt a].filter (· ≠ .gt e)
  | .gtScalarMult e a k => if k = 0 then [] else [.gt a].filter (· ≠ .gt e)
  | .gtExp _ _ _ => []
  | s => s.inputs

/-- The call is not `PairingCheck`. -/
def BnStmt.Simple : BnStmt → Prop
  | .pairingCheck _ _ => False
  | _ => True

/-- Every `z` in `G1` is zero or has an inverse. -/
def BnVars.Ok (σ : BnVars) : Prop := ∀ i p, σ.g1 i = some p → p.Invertible

end Verif

import Verif.Model.P256Obj

/-!
# Model of programs which call the methods of `crypto/p256` on variables

The variables are structs made by `new(p256.P256)`, so their fields are nil at first.
-/

namespace Verif

open BigM PtM

/-- A call of an exported method; the first number is the receiver. -/
inductive P256Stmt
  | add (p a b : Nat)
  | multiply (p a b : Nat)
  | double (p a : Nat)
  | scalarMult (p a : Nat) (n : Int)
  | scalarBaseMult (p : Nat) (n : Int)
  | neg (p a : Nat)
  | setInfinity (p : Nat)
  /-- `if q, err := MapToGroup(m); err == nil { p = q }` -/
  | mapToGroup (p : Nat) (m : List UInt8)
  | isZero (p : Nat)
  | isOnCurve (p : Nat)
  | string (p : Nat)

/-- What a call returns, besides its receiver. -/
inductive P256Out
  | nothing
  | bool (b : Bool)
  | bytes (m : List UInt8)

/-- `x.String()` of math/big, which accepts nil. -/
def stringO : Option Cell → PtM (List UInt8)
  | none => pure (decimal none)
  | some c => do
    let v ← lift (read c)
    pure (decimal (some v))

/-- The call, crypto/p256/p256.go: `Add` 74-89, `Multiply` 145-165, `Double` 94-102, `ScalarMult` 107-121, `ScalarBaseMult` 126-137 (the
scalar is a new `big.Int`), `Neg` 60-69, `SetInfinity` 170-174, `MapToGroup` 194-218, `IsZero` 48-55, `IsOnCurve` 251-263,
`String` 180-182. -/
def P256Stmt.exec (E : Ext) : P256Stmt → PtM P256Out
  | .add p a b => do
    addO p a b
    pure .nothing
  | .multiply p a b => do
    multiplyO E p a b
    pure .nothing
  | .double p a => do
    doubleO E p a
    pure .nothing
  | .scalarMult p a n => do
    let n ← newInt (some n)
    scalarMultO E p a n
    pure .nothing
  | .scalarBaseMult p n => do
    let n ← newInt (some n)
    scalarBaseMultO E p n
    pure .nothing
  | .neg p a => do
    negO E p a
    pure .nothing
  | .setInfinity p => do
    setInfinityO p
    pure .nothing
  | .mapToGroup p m => do
    mapToGroupO E p m
    pure .nothing
  | .isZero p => do
    let b ← isZeroO p
    pure (.bool b)
  | .isOnCurve p => do
    let b ← isOnCurveO (← fields p)
    pure (.bool b)
  | .string p => do
    let q ← fields p
    let x ← stringO q.1
    let y ← stringO q.2
    pure (.bytes ([80, 50, 53, 54, 40] ++ x ++ [44] ++ y ++ [41]))

/-- The calls of a program, one after the other. -/
def p256Run (E : Ext) : List P256Stmt → PtM (List P256Out)
  | [] => pure []
  | s :: prog => do
    let o ← s.exec E
    let os ← p256Run E prog
    pure (o :: os)

/-- Before the first call: the constants of the curve (crypto/p256/mycurve.go:122-123), and variables made by `new`. -/
def PtHeap.start : PtHeap := ⟨⟨fun c => if c = curveP then secpP else if c = curveN then ORDER else 0, 2, none⟩, fun _ => (none, none)⟩

end Verif

import Verif.Model.BnHeapPair

/-!
# Specification: calls of `crypto/bn256` on objects in memory

What a caller sees of a call: the value of the result, which objects it consists of, and that every other number that existed
before the call has kept its value.
-/

namespace Verif

/-- `MakeAffine` (curve.go:261-292) succeeds: `z` has an inverse modulo `p`, or none is computed as `z` is 0 or ±1 (or the
point is infinite). -/
def CurvePoint.Invertible (v : CurvePoint) : Prop :=
  v.z.natAbs = 1 ∨ v.isInfinity = true ∨ (modInverse v.z bnP).isSome = true

/-- Objects in memory: the `big.Int` objects they consist of, and their value. -/
class HeapObj (A : Type) (V : outParam Type) where
  cells : A → List Cell
  val : (Cell → Int) → A → V

instance : HeapObj Gf2 GfP2 := ⟨fun p => [p.x, p.y], fun m p => ⟨m p.x, m p.y⟩⟩

instance : HeapObj Gf6 GfP6 :=
  ⟨fun p => HeapObj.cells p.x ++ HeapObj.cells p.y ++ HeapObj.cells p.z,
   fun m p => ⟨HeapObj.val m p.x, HeapObj.val m p.y, HeapObj.val m p.z⟩⟩

instance : HeapObj Gf12 GfP12 :=
  ⟨fun p => HeapObj.cells p.x ++ HeapObj.cells p.y, fun m p => ⟨HeapObj.val m p.x, HeapObj.val m p.y⟩⟩

instance : HeapObj CurveP CurvePoint :=
  ⟨fun p => [p.x, p.y, p.z, p.t], fun m p => ⟨m p.x, m p.y, m p.z, m p.t⟩⟩

instance : HeapObj TwistP TwistPoint :=
  ⟨fun p => HeapObj.cells p.x ++ HeapObj.cells p.y ++ HeapObj.cells p.z ++ HeapObj.cells p.t,
   fun m p => ⟨HeapObj.val m p.x, HeapObj.val m p.y, HeapObj.val m p.z, HeapObj.val m p.t⟩⟩

/-- The cells of the package variables of constants.go. -/
def BnGlobals.cells (g : BnGlobals) : List Cell :=
  HeapObj.cells g.p6 ++ HeapObj.cells g.p3 ++ HeapObj.cells g.p2 ++ HeapObj.cells g.p23 ++ [g.s3, g.s23, g.s6]

/-- The package variables hold their constants. -/
def BnGlobals.Intact (m : Cell → Int) (g : BnGlobals) : Prop :=
  HeapObj.val m g.p6 = xiToPMinus1Over6 ∧ HeapObj.val m g.p3 = xiToPMinus1Over3 ∧ HeapObj.val m g.p2 = xiToPMinus1Over2 ∧
  HeapObj.val m g.p23 = xiTo2PMinus2Over3 ∧ m g.s3 = xiToPSquaredMinus1Over3 ∧ m g.s23 = xiTo2PSquaredMinus2Over3 ∧
  m g.s6 = xiToPSquaredMinus1Over6

/-- The cells exist and are different from each other. -/
def LiveCells (s : BigHeap) (l : List Cell) : Prop := l.Nodup ∧ ∀ c ∈ l, c < s.next

/-- The object exists in the heap; its parts are different. -/
def Live {A V : Type} [HeapObj A V] (s : BigHeap) (a : A) : Prop := LiveCells s (HeapObj.cells a)

/-- No common parts. -/
def Disj (l l' : List Cell) : Prop := ∀ c ∈ l, c ∉ l'

/-- Two objects of the same type are the same, or have no parts in common. -/
def SameOrDisj {A V : Type} [HeapObj A V] (a b : A) : Prop := a = b ∨ Disj (HeapObj.cells a) (HeapObj.cells b)

/-- The same for a receiver, which may be nil. -/
def SameOrDisj? {A V : Type} [HeapObj A V] (e : Option A) (b : A) : Prop := ∀ p, e = some p → SameOrDisj p b

/-- The receiver exists, if it is not nil. -/
def Live? {A V : Type} [HeapObj A V] (s : BigHeap) (e : Option A) : Prop := ∀ p, e = some p → Live s p

/-- The cells of a receiver. -/
def recvCells {A V : Type} [HeapObj A V] (e : Option A) : List Cell := e.elim [] HeapObj.cells

/-- The old value of a receiver, or `v0` if it was nil. -/
def recvVal {A V : Type} [HeapObj A V] (s : BigHeap) (v0 : V) (e : Option A) : V := e.elim v0 (HeapObj.val s.mem)

/-- The call succeeds, of the cells that existed before it changes at most those in `W`, and `Q` holds of the result and of the
heap afterwards. -/
def Effect {α : Type} (m : BigM α) (s : BigHeap) (W : List Cell) (Q : α → BigHeap → Prop) : Prop :=
  ∃ r s', m s = .ok (r, s') ∧ s'.pool = none ∧ s.next ≤ s'.next ∧ (∀ c < s.next, c ∉ W → s'.mem c = s.mem c) ∧ Q r s'

/-- The result `r` of a method with receiver `e`: it has the value `v`; it is the receiver, or made of new objects if the receiver
was nil. -/
def IsResult {A V : Type} [HeapObj A V] (s : BigHeap) (e : Option A) (v : V) (r : A) (s' : BigHeap) : Prop :=
  Live s' r ∧ HeapObj.val s'.mem r = v ∧ (∀ p, e = some p → r = p) ∧ (e = none → ∀ c ∈ HeapObj.cells r, s.next ≤ c)

/-- A method with receiver `e` computes `v` and changes nothing else. -/
def Gives {A V : Type} [HeapObj A V] (m : BigM A) (s : BigHeap) (e : Option A) (v : V) : Prop :=
  Effect m s (recvCells e) (IsResult s e v)

/-- The call returns `b` and changes nothing. -/
def Returns {α : Type} (m : BigM α) (s : BigHeap) (b : α) : Prop := Effect m s [] fun r _ => r = b

end Verif

import Verif.Model.GoP256
import Verif.Lemmas.SecpGroup
import Verif.Spec.Text

/-!
# Specification: what a program of `crypto/p256` computes in the group
-/

namespace Verif

/-- The value of a variable. -/
def PtHeap.val (σ : PtHeap) (i : Nat) : P256 := ⟨(σ.pt i).1.map σ.big.mem, (σ.pt i).2.map σ.big.mem⟩

/-- The constants of the curve are there, and pointers point to existing objects. -/
structure PtHeap.Ok (σ : PtHeap) : Prop where
  two : 2 ≤ σ.big.next
  P : σ.big.mem curveP = secpP
  N : σ.big.mem curveN = ORDER
  x : ∀ i c, (σ.pt i).1 = some c → c < σ.big.next
  y : ∀ i c, (σ.pt i).2 = some c → c < σ.big.next

/-- The variables hold these group elements. -/
def PtHeap.Have (σ : PtHeap) (α : Nat → Secp) : Prop := ∀ i, Rep (σ.val i) (α i)

/-- `c` is a coordinate of the variable `i`. -/
def PtHeap.Uses (σ : PtHeap) (i : Nat) (c : Cell) : Prop := (σ.pt i).1 = some c ∨ (σ.pt i).2 = some c

/-- Variables with a common object have both coordinates in common, no object is both coordinates, and `CURVE.P` and `CURVE.N` are no
coordinates. -/
structure PtHeap.Apart (σ : PtHeap) : Prop where
  same : ∀ i j c, σ.Uses i c → σ.Uses j c → σ.pt i = σ.pt j
  ne : ∀ i c, (σ.pt i).1 = some c → (σ.pt i).2 ≠ some c
  own : ∀ i c, σ.Uses i c → c ≠ curveP ∧ c ≠ curveN

/-- `α` with `Q` for `p`. -/
noncomputable def letPt (α : Nat → Secp) (p : Nat) (Q : Secp) : Nat → Secp := fun i => if i = p then Q else α i

/-- What the variables hold after the call; `hp` is the point to which a string is mapped.  `Add` is not the group law if the second
argument is infinity or the arguments are equal, `Neg` inverts its receiver. -/
noncomputable def P256Stmt.mean (hp : List UInt8 → Option Secp) : P256Stmt → (Nat → Secp) → Nat → Secp
  | .add p a b, α => letPt α p (if α a ≠ 0 ∧ (α b = 0 ∨ α a = α b) then 0 else α a + α b)
  | .multiply p a b, α => letPt α p (α a + α b)
  | .double p a, α => letPt α p (2 • α a)
  | .scalarMult p a n, α => letPt α p (n • α a)
  | .scalarBaseMult p n, α => letPt α p (n • secpG)
  | .neg p a, α => letPt α p (if α a = 0 then 0 else -α p)
  | .setInfinity p, α => letPt α p 0
  | .mapToGroup p m, α => letPt α p ((hp m).getD (α p))
  | _, α => α

/-- The variable a call assigns. -/
def P256Stmt.target : P256Stmt → Option Nat
  | .add p _ _ | .multiply p _ _ | .double p _ | .scalarMult p _ _ | .scalarBaseMult p _ | .neg p _ | .setInfinity p | .mapToGroup p _ => some p
  | _ => none

/-- The variable whose coordinates the assigned variable has after the call; if there is none, its coordinates are new objects. -/
noncomputable def P256Stmt.source (hp : List UInt8 → Option Secp) : P256Stmt → (Nat → Secp) → Option Nat
  | .add _ a b, α => if α a = 0 ∨ α b = 0 then some b else none
  | .multiply _ a b, α => if α a = 0 then some b else if α b = 0 then some a else none
  | .mapToGroup p m, _ => if (hp m).isSome then none else some p
  | _, _ => none

/-- What a call may return.  Infinity has several texts. -/
def P256Stmt.Answers : P256Stmt → (Nat → Secp) → P256Out → Prop
  | .isZero p, α, o => o = .bool (decide (α p = 0))
  | .isOnCurve p, α, o => o = .bool (decide (α p ≠ 0))
  | .string p, α, o => α p ≠ 0 → ∃ x y : Int, 0 ≤ x ∧ x < secpP ∧ 0 ≤ y ∧ y < secpP ∧ IsPt (α p) (x : SF) (y : SF) ∧
      o = .bytes (Spec.ascii s!"P256({x},{y})")
  | _, _, o => o = .nothing

/-- The calls of a program. -/
noncomputable def p256Mean (hp : List UInt8 → Option Secp) (prog : List P256Stmt) (α : Nat → Secp) : Nat → Secp :=
  prog.foldl (fun α s => s.mean hp α) α

/-- The answers to the calls of a program. -/
def p256Answers (hp : List UInt8 → Option Secp) : List P256Stmt → (Nat → Secp) → List P256Out → Prop
  | [], _, os => os = []
  | _ :: _, _, [] => False
  | s :: prog, α, o :: os => s.Answers α o ∧ p256Answers hp prog (s.mean hp α) os

/-- `IsOnCurve` is called for points different from infinity only. -/
def p256Careful (hp : List UInt8 → Option Secp) : List P256Stmt → (Nat → Secp) → Prop
  | [], _ => True
  | s :: prog, α => (∀ p, s = .isOnCurve p → α p ≠ 0) ∧ p256Careful hp prog (s.mean hp α)

end Verif

import Verif.Spec.IpExtract
import Verif.Spec.Bulletproof
import Mathlib.Data.List.FinRange

/-!
# The extractor for the range proof

A prover that is run several times yields a tree of transcripts: first `A` and `S` are sent, then the verifier chooses
`y` and then `z`; `T1` and `T2` are sent, the verifier chooses `x`; `taux`, `mu`, `tprime` and `Commit` are sent, the
verifier chooses `e`, and the inner-product argument (`Spec/IpExtract.lean`) is run for `U = u^e`.  `RTree.extract`
computes from the scalars of such a tree an opening of `V` by bits, or a linear relation between the generators.
-/

namespace Verif.Spec
open Finset

/-- The scalars of the runs with one `x`: two challenges `e`, with a tree of the inner-product argument each. -/
structure XNode (F : Type*) (k : Nat) where
  x : F
  taux : F
  mu : F
  tprime : F
  e : Fin 2 → F
  t : Fin 2 → Tree F k

/-- The scalars of the runs with one `z`: three challenges `x`. -/
structure ZNode (F : Type*) (k : Nat) where
  z : F
  xs : Fin 3 → XNode F k

/-- The scalars of the runs with one `y`: three challenges `z`. -/
structure YNode (F : Type*) (k : Nat) where
  y : F
  zs : Fin 3 → ZNode F k

/-- The scalars of all runs: as many challenges `y` as there are bits. -/
abbrev RTree (F : Type*) (k : Nat) := Fin (2 ^ k) → YNode F k

/-- Coefficients of the generators `G`, `H`, `u`, `g` and `h`. -/
abbrev RCoeffs (F : Type*) := F × F × F × (Nat → F) × (Nat → F)

/-- What the extractor finds: bits and the blinding factor of `V`, or coefficients of a relation. -/
inductive RFound (F : Type*) where
  | opening (a : Nat → F) (gamma : F)
  | relation (c : RCoeffs F)

variable {F : Type*} [Field F]

/-- The relation is not trivial. -/
def Nontrivial (n : Nat) (c : RCoeffs F) : Prop :=
  c.1 ≠ 0 ∨ c.2.1 ≠ 0 ∨ c.2.2.1 ≠ 0 ∨ ∃ i < n, c.2.2.2.1 i ≠ 0 ∨ c.2.2.2.2 i ≠ 0

section
variable {M : Type*} [AddCommGroup M] [Module F M]

/-- The group element with the given coefficients. -/
def reval (n : Nat) (G H u : M) (g h : Nat → M) (c : RCoeffs F) : M :=
  c.1 • G + c.2.1 • H + c.2.2.1 • u + ∑ i ∈ range n, c.2.2.2.1 i • g i + ∑ i ∈ range n, c.2.2.2.2 i • h i

/-- What `RFound` says: `V` is a commitment to a number with `n` bits, or a non-trivial relation holds. -/
def RFound.Valid (n : Nat) (G H u : M) (g h : Nat → M) (V : M) : RFound F → Prop
  | .opening a gamma => (∀ i < n, a i = 0 ∨ a i = 1) ∧ V = (∑ i ∈ range n, a i * 2 ^ i) • G + gamma • H
  | .relation c => Nontrivial n c ∧ reval n G H u g h c = 0

/-- The runs with this `x` are accepting: the equations (65) and (67) of the paper, and the inner-product argument for
the generators `g`, `hᵢ^(y^-i)`, the point `Commit` and the product `tprime`. -/
def XNode.Valid {k : Nat} (nd : XNode F k) (y z : F) (G H u : M) (g h : Nat → M) (V A S T1 T2 : M) : Prop :=
  ∃ C : M,
    nd.tprime • G + nd.taux • H = z ^ 2 • V + delta (2 ^ k) y z • G + nd.x • T1 + nd.x ^ 2 • T2 ∧
    A + nd.x • S + -(z • ∑ i ∈ range (2 ^ k), g i) +
      ∑ i ∈ range (2 ^ k), (y ^ i * z + 2 ^ i * z ^ 2) • (y⁻¹ ^ i • h i) = nd.mu • H + C ∧
    nd.e 0 ≠ nd.e 1 ∧
    ∀ b, (nd.t b).Valid g (fun i => y⁻¹ ^ i • h i) (nd.e b • u) (C + (nd.e b * nd.tprime) • u)

/-- All runs are accepting: `A` and `S` are the same in all of them, `T1` and `T2` in all with the same `y` and `z`. -/
def RTree.Valid {k : Nat} (T : RTree F k) (G H u : M) (g h : Nat → M) (V : M) : Prop :=
  (∀ i, (T i).y ≠ 0) ∧ (∀ i i', (T i).y = (T i').y → i = i') ∧ ∃ A S : M, ∀ i,
    (∀ j, ((T i).zs j).z ≠ 0) ∧ (∀ j j', ((T i).zs j).z = ((T i).zs j').z → j = j') ∧ ∀ j, ∃ T1 T2 : M,
      (∀ l l', (((T i).zs j).xs l).x = (((T i).zs j).xs l').x → l = l') ∧
      ∀ l, (((T i).zs j).xs l).Valid (T i).y ((T i).zs j).z G H u g h V A S T1 T2

end

variable [DecidableEq F]

instance (n : Nat) (c : RCoeffs F) : Decidable (Nontrivial n c) := by
  unfold Nontrivial; infer_instance

/-- The relation found by the inner-product extractor, if any, in terms of the original generators. -/
def XNode.rel {k : Nat} (nd : XNode F k) (y : F) : Option (RCoeffs F) :=
  match extractProduct nd.tprime (nd.e 0) (nd.e 1) (nd.t 0) (nd.t 1) with
  | .opening _ _ => none
  | .relation v => some (0, 0, v.2.2, v.1, fun i => y⁻¹ ^ i * v.2.1 i)

/-- The vectors `l`, `r` found by the inner-product extractor. -/
def XNode.lr {k : Nat} (nd : XNode F k) : (Nat → F) × (Nat → F) :=
  match extractProduct nd.tprime (nd.e 0) (nd.e 1) (nd.t 0) (nd.t 1) with
  | .opening a b => (a, b)
  | .relation _ => 0

/-- The coefficients of `A + x·S` according to (67). -/
def XNode.coeffs {k : Nat} (nd : XNode F k) (y z : F) : RCoeffs F :=
  (0, nd.mu, 0, fun i => nd.lr.1 i + z, fun i => y⁻¹ ^ i * (nd.lr.2 i - z ^ 2 * 2 ^ i) - z)

/-- Value at 0 of the quadratic polynomial with the values `f` at the three `x`. -/
def ZNode.at0 {k : Nat} (nd : ZNode F k) (f : XNode F k → F) : F :=
  let x := fun i => (nd.xs i).x
  x 1 * x 2 / ((x 1 - x 0) * (x 2 - x 0)) * f (nd.xs 0) + x 0 * x 2 / ((x 0 - x 1) * (x 2 - x 1)) * f (nd.xs 1) +
    x 0 * x 1 / ((x 0 - x 2) * (x 1 - x 2)) * f (nd.xs 2)

/-- The runs with one `x` of the whole tree, with their `y` and `z`. -/
def RTree.leaves {k : Nat} (T : RTree F k) : List (F × F × XNode F k) :=
  (List.finRange (2 ^ k)).flatMap fun i => (List.finRange 3).flatMap fun j => (List.finRange 3).map fun l =>
    ((T i).y, ((T i).zs j).z, ((T i).zs j).xs l)

/-- The runs with one `z` of the whole tree, with their `y`. -/
def RTree.nodes {k : Nat} (T : RTree F k) : List (F × ZNode F k) :=
  (List.finRange (2 ^ k)).flatMap fun i => (List.finRange 3).map fun j => ((T i).y, (T i).zs j)

/-- The extractor. -/
def RTree.extract {k : Nat} (T : RTree F k) : RFound F :=
  match T.leaves.findSome? (fun q => q.2.2.rel q.1) with
  | some c => .relation c
  | none =>
    let y := (T ⟨0, Nat.two_pow_pos k⟩).y
    let nd := (T ⟨0, Nat.two_pow_pos k⟩).zs 0
    let p0 := (nd.xs 0).coeffs y nd.z
    let p1 := (nd.xs 1).coeffs y nd.z
    let S := ((nd.xs 0).x - (nd.xs 1).x)⁻¹ • (p0 - p1)
    let A := p0 - (nd.xs 0).x • S
    let v := (nd.at0 (·.tprime) - delta (2 ^ k) y nd.z) / nd.z ^ 2
    let gamma := nd.at0 (·.taux) / nd.z ^ 2
    let c1 : List (RCoeffs F) := T.leaves.map fun q => q.2.2.coeffs q.1 q.2.1 - (A + q.2.2.x • S)
    let c2 : List (RCoeffs F) := T.nodes.map fun q =>
      (q.2.z ^ 2 * v + delta (2 ^ k) q.1 q.2.z - q.2.at0 (·.tprime), q.2.z ^ 2 * gamma - q.2.at0 (·.taux), 0, 0, 0)
    match (c1 ++ c2).find? (fun c => Nontrivial (2 ^ k) c) with
    | some c => .relation c
    | none => .opening A.2.2.2.1 gamma

end Verif.Spec

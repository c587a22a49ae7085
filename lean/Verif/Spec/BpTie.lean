import Verif.Model.Bp

/-!
# A generic range proof whose halves belong together

`ProveGeneric` (bulletproofs/bprp.go:69-91) makes its two proofs with unrelated `gamma`.  Here is the change that
would let a verifier compare them, used in C113 only; the repository has neither function.
-/

namespace Verif

/-- `ProveGeneric` with the `gamma` of the first half used in the second half, too. -/
def proveTied (E : Ext) (r1 r2 : BPRand) (secret : Int) (params : BPRP) : Res (Option BPRPProof) :=
  proveGeneric E r1 { r2 with gamma := r1.gamma } secret params

/-- The comparison of the commitments of the halves: `V1 = V2·G^(A - B + 2^32)`. -/
def checkTied (E : Ext) (A B : Int) (V1 V2 : P256) : Bool :=
  let V := V2.multiply E (P256.scalarBaseMult E (A - B + 2 ^ 32))
  if V.isZero then V1.isZero else V = V1

/-- A pair of proofs, put together for two numbers: the first proof is the one `ProveGeneric` makes for `x1`, the second
the one it makes for `x2`. -/
def proveMixed (E : Ext) (r1 r2 : BPRand) (x1 x2 : Int) (params : BPRP) : Res (Option BPRPProof) := do
  let p1 ← prove E r1 (x1 - params.B + 2 ^ 32) params.BP1
  match p1 with
  | none => .ok none
  | some p1 => do
    let p2 ← prove E r2 (x2 - params.A) params.BP2
    match p2 with
    | none => .ok none
    | some p2 => .ok (some ⟨p1, p2⟩)

end Verif

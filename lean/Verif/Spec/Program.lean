import Verif.Model.Heap

/-!
# What a program using the interface should observe

Proofs as objects: every call of `Prove` makes a new object, a copy of the struct denotes the same object.
-/

namespace Verif.Spec

/-- The arguments of the calls of `Prove` in a program, in order. -/
def proves (prog : List Stmt) : List (BPRand × Int) :=
  prog.filterMap fun
    | .prove rnd secret => some (rnd, secret)
    | _ => none

/-- The objects on which a program calls `Verify`, in order; `made` objects exist, `hs` are the objects denoted by the proofs
which the program has. -/
def targets : List Stmt → Nat → List Nat → List Nat
  | [], _, _ => []
  | .prove _ _ :: rest, made, hs => targets rest (made + 1) (hs ++ [made])
  | .copy i :: rest, made, hs => targets rest made (hs ++ [hs.getD i 0])
  | .verify i :: rest, made, hs => hs.getD i 0 :: targets rest made hs

/-- The verdicts on object `k`, in order, from the sequence of objects and the sequence of all verdicts. -/
def verdictsOf (k : Nat) (objs : List Nat) (vs : List Bool) : List Bool :=
  ((objs.zip vs).filter (fun r => r.1 == k)).map (fun r => r.2)

/-- A program on values: object number `k` has the value `vals[k]`, which `Verify` replaces by the value after verification. -/
def run (E : Ext) (params : BPParams) : List Stmt → List BPProof → List Nat → Res (List Bool)
  | [], _, _ => .ok []
  | .prove rnd secret :: rest, vals, hs => do
    let p ← prove E rnd secret params
    let p ← Res.ofOption p
    run E params rest (vals ++ [p]) (hs ++ [vals.length])
  | .copy i :: rest, vals, hs => do
    let k ← idx hs i
    run E params rest vals (hs ++ [k])
  | .verify i :: rest, vals, hs => do
    let k ← idx hs i
    let p ← idx vals k
    let (v, P) ← bpVerify E p
    let vs ← run E params rest (vals.set k (p.afterVerify P)) hs
    .ok (v :: vs)

end Verif.Spec

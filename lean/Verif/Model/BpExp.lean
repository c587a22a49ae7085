import Verif.Model.Bp

/-!
# The integers of `updateGenerators`

`updateGenerators` once more, this time with the list of the products which `bn.Multiply` computes in line 367. The list is kept when the
function panics.
-/

namespace Verif

/-- Loop of `updateGenerators`, bulletproofs/bp.go:365-369, with the products of line 367. -/
def updateGeneratorsLoopX (E : Ext) (Hh : List P256) (yinv : Int) : Nat → Nat → Int → List Int × Res (List P256)
  | 0, _, _ => ([], .ok [])
  | fuel + 1, i, expy =>
    match idx Hh i with
    | .panic => ([], .panic)
    | .ok hi =>
      let p := hi.scalarMult E expy
      let expy := expy * yinv
      let r := updateGeneratorsLoopX E Hh yinv fuel (i + 1) expy
      (expy :: r.1, do let l ← r.2; .ok (p :: l))

/-- `updateGenerators`, bulletproofs/bp.go:354-371, with the products of line 367 (see `updateGenerators` for the panics). -/
def updateGeneratorsX (E : Ext) (Hh : List P256) (y : Int) (n : Int) : List Int × Res (List P256) :=
  if n ≤ 0 then ([], .panic)
  else
    match idx Hh 0 with
    | .panic => ([], .panic)
    | .ok h0 =>
      if n = 1 then ([], .ok [h0])
      else
        match modInverse y ORDER with
        | none => ([], .panic)
        | some yinv =>
          let r := updateGeneratorsLoopX E Hh yinv (n.toNat - 1) 1 yinv
          (r.1, do let l ← r.2; .ok (h0 :: l))

/-- The products of bulletproofs/bp.go:367 in a run of `BulletProof.Verify`, which calls `updateGenerators` once, in line 251. -/
def verifyProducts (E : Ext) (p : BPProof) : List Int :=
  (updateGeneratorsX E p.Params.Hh (hashBP E p.A p.S).1 p.Params.N).1

end Verif

import Verif.Model.BnPair
import Verif.Model.Bn

/-!
# Model of `crypto/bbsignatures/bb.go`
-/

namespace Verif

/-- Result of `Keygen`: the fields of `Keypair` (bb.go:36-39; `none` is nil) and whether the
returned error is non-nil. -/
structure KeygenResult where
  pubk : Option CurvePoint
  privk : Option Int
  err : Bool
  deriving DecidableEq, Repr

/-- `Keygen`, crypto/bbsignatures/bb.go:44-59.  The argument is the outcome of
`rand.Int(rand.Reader, bn256.Order)` (`none`: read error). -/
def keygen : Option Int → KeygenResult
  | none => ⟨none, none, true⟩
  | some k =>
    match G1.unmarshal (G1.marshal (G1.scalarBaseMult .new k)).1 with
    | some pubk => ⟨some pubk, some k, true⟩
    | none => ⟨none, some k, false⟩

/-- `Sign`, crypto/bbsignatures/bb.go:64-76 (`ok none`: error return).  `ModInverse` returns nil
when there is no inverse, and `ScalarBaseMult(nil)` panics. -/
def bbSign (m privk : Int) : Res (Option TwistPoint) := do
  let inv ← Res.ofOption (modInverse ((m + privk) % bnOrder) bnOrder)
  .ok (G2.unmarshal (G2.marshal (G2.scalarBaseMult inv)).1)

/-- `verify`, crypto/bbsignatures/bb.go:82-106 (`ok none`: error return, which is never reached
because a nil `gm` panics in `Add`).  `gm.Add(gm, pubk)` is an in-place addition. -/
def bbVerify (signature : TwistPoint) (m : Int) (pubk : CurvePoint) : Res (Option Bool) := do
  let gm ← Res.ofOption (G1.unmarshal (G1.marshal (G1.scalarBaseMult .new m)).1)
  let gm := gm.addSelf pubk
  let p1 := pair gm signature
  let g1 := G1.scalarBaseMult .new 1
  let g2 := G2.scalarBaseMult 1
  let p2 := pair g1 g2
  let p2 := p2.invert
  let p1 := p1.mul p2
  .ok (some p1.isOne)

end Verif

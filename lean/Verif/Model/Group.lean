import Verif.Model.P256

/-!
# Model of the commitment and group-vector helpers (secp256k1 side)
-/

namespace Verif

/-- `CommitG1`, util/util.go:70-75 (the returned error is always nil). -/
def commitG1 (E : Ext) (x r : Int) (h : P256) : P256 :=
  (P256.scalarBaseMult E x).add (h.scalarMult E r)

/-- Loop of `VectorExp`, bulletproofs/util.go:97-100. -/
def vectorExpLoop (E : Ext) : List P256 → List Int → P256 → P256
  | p :: a, n :: b, result => vectorExpLoop E a b (result.multiply E (p.scalarMult E n))
  | _, _, result => result

/-- `VectorExp`, bulletproofs/util.go:85-102; points are non-nil pointers. -/
def vectorExp (E : Ext) (a : List P256) (b : List Int) : Option P256 :=
  if a.length ≠ b.length then none else some (vectorExpLoop E a b P256.infinity)

/-- `VectorECAdd`, bulletproofs/vector.go:153-170. -/
def vectorECAdd (E : Ext) (a b : List P256) : Option (List P256) :=
  if a.length ≠ b.length then none else some (List.zipWith (fun x y => x.multiply E y) a b)

/-- `vectorScalarExp`, bulletproofs/bip.go:305-316. -/
def vectorScalarExp (E : Ext) (a : List P256) (b : Int) : List P256 :=
  a.map (fun p => p.scalarMult E b)

/-- `HashBP`, bulletproofs/util.go:54-80.  The second digest is fed `buffer` (line 73), not
`buffer2`; `buffer2` is built and dropped.  The nil coordinates of an infinite point print as
`<nil>`. -/
def hashBP (E : Ext) (a s : P256) : Int × Int :=
  let buffer := decimal a.X ++ decimal a.Y ++ decimal s.X ++ decimal s.Y
  let result1 := (setBytes (E.sha256 buffer) : Int)
  let result2 := (setBytes (E.sha256 buffer) : Int)
  (result1, result2)

end Verif

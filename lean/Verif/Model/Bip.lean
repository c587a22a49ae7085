import Verif.Model.Group

/-!
# Model of the inner-product argument, `bulletproofs/bip.go`

Slices are lists; a nil slice is the empty list.  Points are non-nil pointers; the only pointer
whose target is modified after creation is `Params.P` (by `Verify`), so `Verify` returns its new
value.
-/

namespace Verif

/-- Go `s[:n]` for `n` given as int64; out of range panics.  (Go allows `n` up to the capacity;
every use is followed by `s[n:]`, which panics beyond the length, so the calls agree.) -/
def sliceTo {α : Type} (s : List α) (n : Int) : Res (List α) :=
  if n < 0 ∨ (s.length : Int) < n then .panic else .ok (s.take n.toNat)

/-- Go `s[n:]`. -/
def sliceFrom {α : Type} (s : List α) (n : Int) : Res (List α) :=
  if n < 0 ∨ (s.length : Int) < n then .panic else .ok (s.drop n.toNat)

/-- `InnerProductParams`, bulletproofs/bip.go:36-44. -/
structure IPParams where
  N : Int
  Cc : Int
  Uu : P256
  H : P256
  Gg : List P256
  Hh : List P256
  P : P256
  deriving DecidableEq

/-- `InnerProductProof`, bulletproofs/bip.go:49-60. -/
structure IPProof where
  N : Int
  Ls : List P256
  Rs : List P256
  U : P256
  P : P256
  Gg : P256
  Hh : P256
  A : Int
  B : Int
  Params : IPParams
  deriving DecidableEq

/-- `P256.String`, crypto/p256/p256.go:180-182: `P256(X,Y)`. -/
def P256.string (p : P256) : List UInt8 :=
  [80, 50, 53, 54, 40] ++ decimal p.X ++ [44] ++ decimal p.Y ++ [41]

/-- Bytes written by the loop of `hashIP`, bulletproofs/bip.go:275-278. -/
def hashIPLoop (g h : List P256) : Nat → Nat → Res (List UInt8)
  | 0, _ => .ok []
  | fuel + 1, i => do
    let gi ← idx g i
    let hi ← idx h i
    let r ← hashIPLoop g h fuel (i + 1)
    .ok (gi.string ++ hi.string ++ r)

/-- The byte string hashed by `hashIP`, bulletproofs/bip.go:272-280. -/
def hashIPInput (g h : List P256) (P : P256) (c : Int) (n : Int) : Res (List UInt8) := do
  let r ← hashIPLoop g h n.toNat 0
  .ok (P.string ++ r ++ decimal (some c))

/-- `hashIP`, bulletproofs/bip.go:271-286. -/
def hashIP (E : Ext) (g h : List P256) (P : P256) (c : Int) (n : Int) : Res (Option Int) := do
  let s ← hashIPInput g h P c n
  fromByteArray (E.sha256 s)

/-- `commitInnerProduct`, bulletproofs/bip.go:291-300: a length mismatch gives a nil pointer, on
which `Multiply` panics. -/
def commitInnerProduct (E : Ext) (g h : List P256) (a b : List Int) : Res P256 := do
  let ga ← Res.ofOption (vectorExp E g a)
  let hb ← Res.ofOption (vectorExp E h b)
  .ok (ga.multiply E hb)

/-- `computeBipRecursive`, bulletproofs/bip.go:137-215, `n` a natural number, recursion bounded
by `fuel` (any `fuel ≥ n` gives the same result for `n ≥ 1`; for `n = 0` Go recurses forever or
panics, here it panics).  The result's `Params` field is filled by the caller.
An error of `ScalarProduct`/`VectorExp` is a nil pointer; the use of the nil `L` or `R` panics.
A nil inverse panics at its first use as an exponent (simplification: if all points it is
applied to are infinity, Go does not notice). A failed `VectorAdd`/`VectorECAdd` gives a nil
slice. -/
def computeBip (E : Ext) (params : IPParams) : Nat → List Int → List Int → List P256 → List P256 → P256 → P256 →
    Nat → List P256 → List P256 → Res IPProof
  | 0, _, _, _, _, _, _, _, _, _ => .panic
  | fuel + 1, a, b, g, h, u, P, n, Ls, Rs =>
    if n = 1 then do
      let a0 ← idx a 0
      let b0 ← idx b 0
      let g0 ← idx g 0
      let h0 ← idx h 0
      .ok { N := n, Ls := Ls, Rs := Rs, U := u, P := P, Gg := g0, Hh := h0, A := a0, B := b0,
            Params := params }
    else do
      let n' := n / 2
      let aL ← sliceTo a n'
      let aR ← sliceFrom a n'
      let bL ← sliceTo b n'
      let bR ← sliceFrom b n'
      let gL ← sliceTo g n'
      let gR ← sliceFrom g n'
      let hL ← sliceTo h n'
      let hR ← sliceFrom h n'
      let cL ← Res.ofOption (scalarProduct aL bR)
      let cR ← Res.ofOption (scalarProduct aR bL)
      let L ← Res.ofOption (vectorExp E gR aL)
      let Lh ← Res.ofOption (vectorExp E hL bR)
      let L := L.multiply E Lh
      let L := L.multiply E (u.scalarMult E cL)
      let R ← Res.ofOption (vectorExp E gL aR)
      let Rh ← Res.ofOption (vectorExp E hR bL)
      let R := R.multiply E Rh
      let R := R.multiply E (u.scalarMult E cR)
      let x := (hashBP E L R).1
      let xinv ← Res.ofOption (modInverse x ORDER)
      let g' := (vectorECAdd E (vectorScalarExp E gL xinv) (vectorScalarExp E gR x)).getD []
      let h' := (vectorECAdd E (vectorScalarExp E hL x) (vectorScalarExp E hR xinv)).getD []
      let x2 := (x * x) % ORDER
      let x2inv ← Res.ofOption (modInverse x2 ORDER)
      let P' := L.scalarMult E x2
      let P' := P'.multiply E P
      let P' := P'.multiply E (R.scalarMult E x2inv)
      let a' := (vectorAdd (vectorScalarMul aL x) (vectorScalarMul aR xinv)).getD []
      let b' := (vectorAdd (vectorScalarMul bL xinv) (vectorScalarMul bR x)).getD []
      let proof ← computeBip E params fuel a' b' g' h' u P' n' (Ls ++ [L]) (Rs ++ [R])
      .ok { proof with N := n }

/-- `proveInnerProduct`, bulletproofs/bip.go:105-132; `none` is the error for different lengths.
A nil hash value (empty digest) would panic. -/
def proveInnerProduct (E : Ext) (a b : List Int) (P : P256) (params : IPParams) :
    Res (Option IPProof) :=
  if a.length ≠ b.length then .ok none
  else do
    let x ← hashIP E params.Gg params.Hh P params.Cc params.N
    let x ← Res.ofOption x
    let ux := params.Uu.scalarMult E x
    let uxc := ux.scalarMult E params.Cc
    let PP := P.multiply E uxc
    let proof ← computeBip E { params with P := PP } a.length a b params.Gg params.Hh ux PP a.length [] []
    .ok (some proof)

/-- Loop of `InnerProductProof.Verify`, bulletproofs/bip.go:232-251, over the remaining `Ls` and
`Rs` (a missing `Rs[i]` panics); returns `gprime`, `hprime` and the value of `*Pprime`.  Nil
inverses as in `computeBip`. -/
def ipVerifyLoop (E : Ext) : List P256 → List P256 → List P256 → List P256 → P256 → Int →
    Res (List P256 × List P256 × P256)
  | [], _, g, h, P, _ => .ok (g, h, P)
  | _ :: _, [], _, _, _, _ => .panic
  | L :: Ls, R :: Rs, g, h, P, n => do
    let n' := n.tdiv 2
    let x := (hashBP E L R).1
    let xinv ← Res.ofOption (modInverse x ORDER)
    let gL ← sliceTo g n'
    let gR ← sliceFrom g n'
    let g' := (vectorECAdd E (vectorScalarExp E gL xinv) (vectorScalarExp E gR x)).getD []
    let hL ← sliceTo h n'
    let hR ← sliceFrom h n'
    let h' := (vectorECAdd E (vectorScalarExp E hL x) (vectorScalarExp E hR xinv)).getD []
    let x2 := (x * x) % ORDER
    let x2inv ← Res.ofOption (modInverse x2 ORDER)
    let P := P.multiply E (L.scalarMult E x2)
    let P := P.multiply E (R.scalarMult E x2inv)
    ipVerifyLoop E Ls Rs g' h' P n'

/-- `InnerProductProof.Verify`, bulletproofs/bip.go:220-266: the verdict and the value which
`*proof.Params.P` has afterwards (`Pprime`, `nP` and `proof.Params.P` are the same pointer). -/
def ipVerify (E : Ext) (proof : IPProof) : Res (Bool × P256) := do
  let (g, h, P) ← ipVerifyLoop E proof.Ls proof.Rs proof.Params.Gg proof.Params.Hh proof.Params.P proof.N
  let ab := (proof.A * proof.B) % ORDER
  let g0 ← idx g 0
  let h0 ← idx h 0
  let rhs := g0.scalarMult E proof.A
  let hb := h0.scalarMult E proof.B
  let rhs := rhs.multiply E hb
  let rhs := rhs.multiply E (proof.U.scalarMult E ab)
  let nP := P256.neg E P P
  let nP := nP.multiply E rhs
  .ok (nP.isZero, nP)

/-- The proof object after a call of `Verify`: `*Params.P` has been overwritten. -/
def IPProof.afterVerify (proof : IPProof) (P : P256) : IPProof :=
  { proof with Params := { proof.Params with P := P } }

/-- Verdicts of `k` successive calls of `Verify` on the same proof object. -/
def ipVerifyMany (E : Ext) : Nat → IPProof → Res (List Bool)
  | 0, _ => .ok []
  | k + 1, proof => do
    let (v, P) ← ipVerify E proof
    let vs ← ipVerifyMany E k (proof.afterVerify P)
    .ok (v :: vs)

end Verif

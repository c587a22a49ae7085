import Verif.Model.Bip

/-!
# Model of the range proof, `bulletproofs/bp.go`, and the generic range proof, `bulletproofs/bprp.go`

Randomness is an argument.  Points are non-nil pointers and `*big.Int` values non-nil, except in
the result of `Setup`, whose generators may be nil when `MapToGroup` fails.
-/

namespace Verif

/-- `BulletProofSetupParams`, bulletproofs/bp.go:36-51, without the field `InnerProductParams`, which
`Prove` overwrites and `Verify` ignores (see `BPProof.ParamsIP`). -/
structure BPParams where
  N : Int
  G : P256
  H : P256
  Gg : List P256
  Hh : List P256
  deriving DecidableEq

/-- `BulletProof`, bulletproofs/bp.go:57-69.  `ParamsIP` is `Params.InnerProductParams`. -/
structure BPProof where
  V : P256
  A : P256
  S : P256
  T1 : P256
  T2 : P256
  Taux : Int
  Mu : Int
  Tprime : Int
  IP : IPProof
  Commit : P256
  Params : BPParams
  ParamsIP : IPParams
  deriving DecidableEq

/-- The values which one call of `Prove` draws with `rand.Int(rand.Reader, ORDER)`,
bulletproofs/bp.go:113, 119, 123-125, 134-135 (the error of `rand.Int` is ignored by the code; failing
draws are in `Model/GoProve.lean`). -/
structure BPRand where
  gamma : Int
  alpha : Int
  sL : List Int
  sR : List Int
  rho : Int
  tau1 : Int
  tau2 : Int

/-- Loop of `commitVector`/`commitVectorBig`, bulletproofs/bp.go:393-396 and 406-411: `fuel`
iterations from index `i`. -/
def commitVectorLoop (E : Ext) (aL aR : List Int) (g h : List P256) : Nat → Nat → P256 → Res P256
  | 0, _, R => .ok R
  | fuel + 1, i, R => do
    let gi ← idx g i
    let ai ← idx aL i
    let hi ← idx h i
    let bi ← idx aR i
    let R := R.multiply E (gi.scalarMult E ai)
    let R := R.multiply E (hi.scalarMult E bi)
    commitVectorLoop E aL aR g h fuel (i + 1) R

/-- `commitVector` and `commitVectorBig`, bulletproofs/bp.go:390-413 (they differ in the type of
the scalars only). -/
def commitVector (E : Ext) (aL aR : List Int) (alpha : Int) (H : P256) (g h : List P256) (n : Int) : Res P256 :=
  commitVectorLoop E aL aR g h n.toNat 0 (H.scalarMult E alpha)

/-- Loop of `updateGenerators`, bulletproofs/bp.go:365-369: `fuel` iterations from index `i`. -/
def updateGeneratorsLoop (E : Ext) (Hh : List P256) (yinv : Int) : Nat → Nat → Int → Res (List P256)
  | 0, _, _ => .ok []
  | fuel + 1, i, expy => do
    let hi ← idx Hh i
    let r ← updateGeneratorsLoop E Hh yinv fuel (i + 1) (expy * yinv)
    .ok (hi.scalarMult E expy :: r)

/-- `updateGenerators`, bulletproofs/bp.go:354-371.  `hprime[0]` panics for `N = 0`, `make` for
`N < 0`; a nil inverse is multiplied, hence panics, as soon as the loop is entered. -/
def updateGenerators (E : Ext) (Hh : List P256) (y : Int) (n : Int) : Res (List P256) :=
  if n ≤ 0 then .panic
  else do
    let h0 ← idx Hh 0
    if n = 1 then .ok [h0]
    else do
      let yinv ← Res.ofOption (modInverse y ORDER)
      let r ← updateGeneratorsLoop E Hh yinv (n.toNat - 1) 1 yinv
      .ok (h0 :: r)

/-- The bytes of an ASCII string literal. -/
def ascii (s : String) : List UInt8 := s.toList.map (fun c => UInt8.ofNat c.toNat)

/-- `SEEDH`, bulletproofs/bulletproofs.go:32. -/
def SEEDH : List UInt8 := ascii "BulletproofsDoesNotNeedTrustedSetupH"
/-- `SEEDU`, bulletproofs/bip.go:30. -/
def SEEDU : List UInt8 := ascii "BulletproofsDoesNotNeedTrustedSetupU"

/-- `setupInnerProduct`, bulletproofs/bip.go:66-100, for non-nil `H`, `g`, `h`.  The error of
`MapToGroup(SEEDU)` is ignored; a nil `Uu` panics at its only use (`ScalarMult` in
`proveInnerProduct`), here already in this function. -/
def setupInnerProduct (E : Ext) (H : P256) (g h : List P256) (c : Int) (n : Int) : Res (Option IPParams) :=
  if n ≤ 0 then .ok none
  else do
    let u ← mapToGroup E SEEDU
    let u ← Res.ofOption u
    .ok (some { N := n, Cc := c, Uu := u, H := H, Gg := g, Hh := h, P := P256.infinity })

/-- `Prove`, bulletproofs/bp.go:104-239.  Vector operations with a length mismatch give nil
slices (`getD []`), scalar products nil pointers, whose use panics.  The error of
`proveInnerProduct` cannot occur after the scalar product of the same vectors succeeded. -/
def prove (E : Ext) (rnd : BPRand) (secret : Int) (params : BPParams) : Res (Option BPProof) := do
  let V := commitG1 E secret rnd.gamma params.H
  let aL ← decompose secret 2 params.N
  let aR := (computeAR aL).getD []
  let A ← commitVector E aL aR rnd.alpha params.H params.Gg params.Hh params.N
  let S ← commitVector E rnd.sL rnd.sR rnd.rho params.H params.Gg params.Hh params.N
  let (y, z) := hashBP E A S
  let vz ← vectorCopy z params.N
  let vy ← powerOf y params.N
  let naL ← vectorConvertToBig aL params.N
  let aLmvz := (vectorSub naL vz).getD []
  let ynsR := (vectorMul vy rnd.sR).getD []
  let sp1 ← Res.ofOption (scalarProduct aLmvz ynsR)
  let naR ← vectorConvertToBig aR params.N
  let aRzn := (vectorAdd naR vz).getD []
  let ynaRzn := (vectorMul vy aRzn).getD []
  let p2n ← powerOf 2 params.N
  let zsquared := z * z
  let z22n := vectorScalarMul p2n zsquared
  let ynaRzn := (vectorAdd ynaRzn z22n).getD []
  let sp2 ← Res.ofOption (scalarProduct rnd.sL ynaRzn)
  let t1 := (sp1 + sp2) % ORDER
  let t2 ← Res.ofOption (scalarProduct rnd.sL ynsR)
  let t2 := t2 % ORDER
  let T1 := commitG1 E t1 rnd.tau1 params.H
  let T2 := commitG1 E t2 rnd.tau2 params.H
  let x := (hashBP E T1 T2).1
  let sLx := vectorScalarMul rnd.sL x
  let bl := (vectorAdd aLmvz sLx).getD []
  let sRx := vectorScalarMul rnd.sR x
  let aRzn := (vectorAdd aRzn sRx).getD []
  let ynaRzn := (vectorMul vy aRzn).getD []
  let br := (vectorAdd ynaRzn z22n).getD []
  let tprime ← Res.ofOption (scalarProduct bl br)
  let taux := rnd.tau2 * (x * x)
  let taux := taux + rnd.tau1 * x
  let taux := taux + z * z * rnd.gamma
  let taux := taux % ORDER
  let mu := rnd.rho * x
  let mu := mu + rnd.alpha
  let mu := mu % ORDER
  let hprime ← updateGenerators E params.Hh y params.N
  let ipp ← setupInnerProduct E params.H params.Gg hprime tprime params.N
  match ipp with
  | none => .ok none
  | some ipp => do
    let commit ← commitInnerProduct E params.Gg hprime bl br
    let proofip ← proveInnerProduct E bl br commit ipp
    let proofip ← Res.ofOption proofip
    .ok (some { V := V, A := A, S := S, T1 := T1, T2 := T2, Taux := taux, Mu := mu,
                Tprime := tprime, IP := proofip, Commit := commit, Params := params,
                ParamsIP := ipp })

/-- `BulletProof.Verify`, bulletproofs/bp.go:244-334: the verdict and the value of
`*InnerProductProof.Params.P` afterwards (see `ipVerify`).  A nil `VectorExp` result panics when
used. -/
def bpVerify (E : Ext) (proof : BPProof) : Res (Bool × P256) := do
  let params := proof.Params
  let x := (hashBP E proof.T1 proof.T2).1
  let (y, z) := hashBP E proof.A proof.S
  let hprime ← updateGenerators E params.Hh y params.N
  let lhs := commitG1 E proof.Tprime proof.Taux params.H
  let z2 := (z * z) % ORDER
  let x2 := (x * x) % ORDER
  let rhs := proof.V.scalarMult E z2
  let delta ← delta params.N y z
  let gdelta := P256.scalarBaseMult E delta
  let rhs := rhs.multiply E gdelta
  let T1x := proof.T1.scalarMult E x
  let T2x2 := proof.T2.scalarMult E x2
  let rhs := rhs.multiply E T1x
  let rhs := rhs.multiply E T2x2
  let lhs := P256.neg E lhs lhs
  let rhs := rhs.multiply E lhs
  let c65 := rhs.isZero
  let Sx := proof.S.scalarMult E x
  let ASx := proof.A.add Sx
  let mz := ORDER - z
  let vmz ← vectorCopy mz params.N
  let gpmz ← Res.ofOption (vectorExp E params.Gg vmz)
  let vz ← vectorCopy z params.N
  let vy ← powerOf y params.N
  let zyn := (vectorMul vy vz).getD []
  let p2n ← powerOf 2 params.N
  let zsquared := z * z
  let z22n := vectorScalarMul p2n zsquared
  let zynz22n := (vectorAdd zyn z22n).getD []
  let lP := ASx.add gpmz
  let hprimeexp ← Res.ofOption (vectorExp E hprime zynz22n)
  let lP := lP.add hprimeexp
  let rP := params.H.scalarMult E proof.Mu
  let rP := rP.multiply E proof.Commit
  let lP := P256.neg E lP lP
  let rP := rP.add lP
  let c67 := rP.isZero
  let (ok, P) ← ipVerify E proof.IP
  .ok (c65 && c67 && ok, P)

/-- The proof object after a call of `Verify`. -/
def BPProof.afterVerify (proof : BPProof) (P : P256) : BPProof :=
  { proof with IP := proof.IP.afterVerify P }

/-- Verdicts of `k` successive calls of `Verify` on the same proof object. -/
def bpVerifyMany (E : Ext) : Nat → BPProof → Res (List Bool)
  | 0, _ => .ok []
  | k + 1, proof => do
    let (v, P) ← bpVerify E proof
    let vs ← bpVerifyMany E k (proof.afterVerify P)
    .ok (v :: vs)

/-! ### Setup -/

/-- Result of `Setup`: the generators are pointers, nil where `MapToGroup` failed. -/
structure BPSetup where
  N : Int
  G : P256
  H : Option P256
  Gg : List (Option P256)
  Hh : List (Option P256)
  deriving DecidableEq

/-- UTF-8 bytes of Go's `string(i)` for an integer `i`, bulletproofs/bp.go:93-94; only `i < 32` is
ever used, where it is the single byte `i`; the general conversion is given for `i < 128`. -/
def runeString (i : Nat) : List UInt8 := [UInt8.ofNat i]

/-- Loop of `Setup`, bulletproofs/bp.go:92-95: `fuel` iterations from index `i`. -/
def setupLoop (E : Ext) : Nat → Nat → Res (List (Option P256) × List (Option P256))
  | 0, _ => .ok ([], [])
  | fuel + 1, i => do
    let g ← mapToGroup E (SEEDH ++ ascii "g" ++ runeString i)
    let h ← mapToGroup E (SEEDH ++ ascii "h" ++ runeString i)
    let r ← setupLoop E fuel (i + 1)
    .ok (g :: r.1, h :: r.2)

/-- `int64(math.Log2(float64(b)))` for an int64 which passed `IsPowerOfTwo`,
bulletproofs/bp.go:83: `Log2` is exact on powers of two; for `b = -2^63` the argument is NaN and the
conversion of NaN to int64 is platform dependent (parameter). -/
def log2Int64 (nanToInt : Int) (b : BitVec 64) : Int :=
  if b.toInt < 0 then nanToInt else (Nat.log2 b.toNat : Int)

/-- `Setup`, bulletproofs/bp.go:75-97. -/
def setup (E : Ext) (nanToInt : Int) (b : BitVec 64) : Res (Option BPSetup) :=
  if !isPowerOfTwo b then .ok none
  else do
    let G := P256.scalarBaseMult E 1
    let H ← mapToGroup E SEEDH
    let n := log2Int64 nanToInt b
    if !isPowerOfTwo (BitVec.ofInt 64 n) then .ok none
    else if n > 32 then .ok none
    else if n < 0 then .panic
    else do
      let r ← setupLoop E n.toNat 0
      .ok (some { N := n, G := G, H := H, Gg := r.1, Hh := r.2 })

/-- Parameters with all pointers dereferenced; a nil pointer panics.  `Prove` uses every
generator. -/
def BPSetup.deref (s : BPSetup) : Res BPParams := do
  let H ← Res.ofOption s.H
  let Gg ← Res.ofOption (s.Gg.mapM id)
  let Hh ← Res.ofOption (s.Hh.mapM id)
  .ok { N := s.N, G := s.G, H := H, Gg := Gg, Hh := Hh }

/-! ### Generic ranges -/

/-- `MAX_RANGE_END`, bulletproofs/bulletproofs.go:33. -/
def MAX_RANGE_END : Int := 4294967296

/-- `bprp`, bulletproofs/bprp.go:28-33 (with dereferenced parameters). -/
structure BPRP where
  A : Int
  B : Int
  BP1 : BPParams
  BP2 : BPParams

/-- `ProofBPRP`, bulletproofs/bprp.go:38-41. -/
structure BPRPProof where
  P1 : BPProof
  P2 : BPProof
  deriving DecidableEq

/-- `SetupGeneric`, bulletproofs/bprp.go:47-61. -/
def setupGeneric (E : Ext) (nanToInt : Int) (a b : Int) : Res (Option (Int × Int × BPSetup × BPSetup)) := do
  let s1 ← setup E nanToInt (BitVec.ofInt 64 MAX_RANGE_END)
  match s1 with
  | none => .ok none
  | some s1 => do
    let s2 ← setup E nanToInt (BitVec.ofInt 64 MAX_RANGE_END)
    match s2 with
    | none => .ok none
    | some s2 => .ok (some (a, b, s1, s2))

/-- `ProveGeneric`, bulletproofs/bprp.go:69-91. -/
def proveGeneric (E : Ext) (r1 r2 : BPRand) (secret : Int) (params : BPRP) : Res (Option BPRPProof) := do
  let xb := secret - params.B
  let xb := xb + MAX_RANGE_END
  let p1 ← prove E r1 xb params.BP1
  match p1 with
  | none => .ok none
  | some p1 => do
    let xa := secret - params.A
    let p2 ← prove E r2 xa params.BP2
    match p2 with
    | none => .ok none
    | some p2 => .ok (some ⟨p1, p2⟩)

/-- `ProofBPRP.Verify`, bulletproofs/bprp.go:96-107: the verdict, and the proof afterwards (the
receiver is a copy, but the pointers `InnerProductProof.Params.P` of both halves are shared with
the caller's proof).  The second half is not evaluated when the first fails. -/
def bprpVerify (E : Ext) (proof : BPRPProof) : Res (Bool × BPRPProof) := do
  let (ok1, P1) ← bpVerify E proof.P1
  if !ok1 then .ok (false, ⟨proof.P1.afterVerify P1, proof.P2⟩)
  else do
    let (ok2, P2) ← bpVerify E proof.P2
    .ok (ok2, ⟨proof.P1.afterVerify P1, proof.P2.afterVerify P2⟩)

/-- Verdicts of `k` successive calls of `Verify` on the same generic proof. -/
def bprpVerifyMany (E : Ext) : Nat → BPRPProof → Res (List Bool)
  | 0, _ => .ok []
  | k + 1, proof => do
    let (v, proof') ← bprpVerify E proof
    let vs ← bprpVerifyMany E k proof'
    .ok (v :: vs)

end Verif

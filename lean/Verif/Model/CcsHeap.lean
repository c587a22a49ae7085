import Verif.Model.Ccs
import Verif.Model.BnHeapPair

/-!
# `ccs08/ccs08.go`, `crypto/bbsignatures/bb.go` and `Commit`, `HashSet`, `Hash` of `util/util.go` on objects in memory

`Model/Ccs.lean` treats group elements as values.  In Go the proofs and parameters contain pointers to elements, operations are
mostly done in place, and `Marshal` rewrites the element it is applied to.  Here the functions work on the heap of
`Model/BnHeap.lean`, call by call.  Scalars, challenges and responses (`*big.Int` objects which are never receivers after they were
made) are values.
-/

namespace Verif

open BigM

/-- The outcome of a computation that does not use the heap. -/
def BigM.ofRes {α : Type} (r : Res α) : BigM α := fun s => r >>= fun a => .ok (a, s)

/-- The package variables: those of crypto/bn256/constants.go, `curveGen` (curve.go:34-39), `twistGen` (twist.go:39-56), `twistB`
(twist.go:33-36), and `G1` and `E` of util/util.go:31-35 (`G2` is used only to compute `E`). -/
structure CcsGlobals where
  bn : BnGlobals
  curveGen : CurveP
  twistGen : TwistP
  twistB : Gf2
  G1 : CurveP
  E : Gf12

/-! ## Texts -/

/-- `gfP2.String`, crypto/bn256/gfp2.go:38-42. -/
def Gf2.string (e : Gf2) : BigM (List UInt8) := do
  let x ← modNew e.x
  let y ← modNew e.y
  pure ([40] ++ decimalNat x.toNat ++ [44] ++ decimalNat y.toNat ++ [41])

/-- `gfP6.String`, crypto/bn256/gfp6.go:38-40. -/
def Gf6.string (e : Gf6) : BigM (List UInt8) := do
  let x ← e.x.string
  let y ← e.y.string
  let z ← e.z.string
  pure ([40] ++ x ++ [44] ++ y ++ [44] ++ z ++ [41])

/-- `gfP12.String` and `GT.String`, crypto/bn256/gfp12.go:38-40, bn256.go:350-352. -/
def GTH.string (e : Gf12) : BigM (List UInt8) := do
  let x ← e.x.string
  let y ← e.y.string
  pure ([98, 110, 50, 53, 54, 46, 71, 84] ++ ([40] ++ x ++ [44] ++ y ++ [41]))

/-- `twistPoint.String` and `G2.String`, crypto/bn256/twist.go:67-69, bn256.go:219-221. -/
def G2H.string (c : TwistP) : BigM (List UInt8) := do
  let x ← c.x.string
  let y ← c.y.string
  let z ← c.z.string
  pure ([98, 110, 50, 53, 54, 46, 71, 50] ++ ([40] ++ x ++ [44, 32] ++ y ++ [44, 32] ++ z ++ [41]))

/-! ## `util/util.go` -/

/-- `Commit`, util/util.go:60-64. -/
def commitH (g : CcsGlobals) (x r : Int) (h : TwistP) : BigM TwistP := do
  let C ← G2H.scalarBaseMult g.twistGen none x
  let t ← G2H.scalarMult none h r
  let _ ← G2H.add (some C) C t
  pure C

/-- `HashSet`, util/util.go:80-87. -/
def hashSetH (sha : List UInt8 → List UInt8) (a : Gf12) (D : TwistP) : BigM (Option Int) := do
  let x ← GTH.string a
  let y ← G2H.string D
  ofRes (fromByteArray (sha (x ++ y)))

/-- The loop of `Hash`, util/util.go:94-96: what is written to the digest. -/
def stringsH : List Gf12 → BigM (List UInt8)
  | [] => pure []
  | a :: as => do
    let x ← GTH.string a
    let y ← stringsH as
    pure (x ++ y)

/-- `Hash`, util/util.go:92-101. -/
def hashULH (sha : List UInt8 → List UInt8) (a : List Gf12) (D : TwistP) : BigM (Option Int) := do
  let x ← stringsH a
  let y ← G2H.string D
  ofRes (fromByteArray (sha (x ++ y)))

/-! ## `crypto/bbsignatures/bb.go` -/

/-- Result of `Keygen`: the fields of `Keypair` (bb.go:36-39) and whether the returned error is non-nil. -/
structure KeygenH where
  pubk : Option CurveP
  privk : Option Int
  err : Bool

/-- `Keygen`, crypto/bbsignatures/bb.go:44-59. -/
def keygenH (g : CcsGlobals) : Option Int → BigM KeygenH
  | none => pure ⟨none, none, true⟩
  | some k => do
    let y ← G1H.scalarBaseMult g.curveGen none k
    let bs ← G1H.marshal y
    let r ← G1H.unmarshal none bs
    pure (if r.1 then ⟨r.2, some k, true⟩ else ⟨none, some k, false⟩)

/-- `Sign`, crypto/bbsignatures/bb.go:64-76. -/
def bbSignH (g : CcsGlobals) (m privk : Int) : BigM (Option TwistP) := do
  let inv ← ofRes (Res.ofOption (modInverse ((m + privk) % bnOrder) bnOrder))
  let y ← G2H.scalarBaseMult g.twistGen none inv
  let bs ← G2H.marshal y
  let r ← G2H.unmarshal g.twistB none bs
  pure (if r.1 then r.2 else none)

/-- `verify`, crypto/bbsignatures/bb.go:82-106. -/
def bbVerifyH (g : CcsGlobals) (signature : TwistP) (m : Int) (pubk : CurveP) : BigM (Option Bool) := do
  let y ← G1H.scalarBaseMult g.curveGen none m
  let bs ← G1H.marshal y
  let r ← G1H.unmarshal none bs
  let gm ← ofRes (Res.ofOption (if r.1 then r.2 else none))
  let _ ← G1H.add (some gm) gm pubk
  let p1 ← pairH g.bn gm signature
  let g1 ← G1H.scalarBaseMult g.curveGen none 1
  let g2 ← G2H.scalarBaseMult g.twistGen none 1
  let p2 ← pairH g.bn g1 g2
  let _ ← GTH.neg (some p2) p2
  let _ ← GTH.add (some p1) p1 p2
  let res ← GTH.isOne p1
  pure (if r.1 then some res else none)

/-! ## Parameters -/

/-- `paramsSet`, ccs08/ccs08.go:46-56. -/
structure ParamsSetH where
  signatures : List (Int × Option TwistP)
  H : TwistP
  kp : KeygenH

/-- `paramsUL`, ccs08/ccs08.go:62-73. -/
structure ParamsULH where
  signatures : List (Int × Option TwistP)
  H : TwistP
  kp : KeygenH
  u : Int
  l : Int

/-- Loop of `SetupSet` (ccs08.go:108-111) and `SetupUL` (ccs08.go:131-134). -/
def signLoopH (g : CcsGlobals) (privk : Option Int) :
    List Int → List (Int × Option TwistP) → BigM (List (Int × Option TwistP))
  | [], acc => pure acc
  | m :: ms, acc => do
    let sk ← ofRes (Res.ofOption privk)
    let sig ← bbSignH g m sk
    signLoopH g privk ms ((m, sig) :: acc)

/-- `SetupSet`, ccs08/ccs08.go:100-116. -/
def setupSetH (g : CcsGlobals) (s : List Int) (rnd : Option Int) : BigM ParamsSetH := do
  let kp ← keygenH g rnd
  let signatures ← signLoopH g kp.privk s []
  let H ← G2H.scalarBaseMult g.twistGen none ccsH
  pure ⟨signatures, H, kp⟩

/-- `SetupUL`, ccs08/ccs08.go:123-141. -/
def setupULH (g : CcsGlobals) (u l : Int) (rnd : Option Int) : BigM ParamsULH := do
  let kp ← keygenH g rnd
  let signatures ← signLoopH g kp.privk ((List.range u.toNat).map Int.ofNat) []
  let H ← G2H.scalarBaseMult g.twistGen none ccsH
  pure ⟨signatures, H, kp, u, l⟩

/-! ## Set membership -/

/-- `proofSet`, ccs08/ccs08.go:78-84. -/
structure ProofSetH where
  V : TwistP
  D : TwistP
  C : TwistP
  a : Gf12
  s : Int
  t : Int
  zsig : Int
  zv : Int
  c : Int
  m : Int
  zr : Int

/-- The computation of `a`, ccs08.go:172-175 and 226-229. -/
def ccsAH (g : CcsGlobals) (V : TwistP) (s t : Int) : BigM Gf12 := do
  let a ← pairH g.bn g.G1 V
  let _ ← GTH.scalarMult (some a) a s
  let _ ← GTH.invert (some a) a
  let e ← GTH.scalarMult none g.E t
  let _ ← GTH.add (some a) a e
  pure a

/-- `ProveSet`, ccs08/ccs08.go:146-192. -/
def proveSetH (g : CcsGlobals) (sha : List UInt8 → List UInt8) (x r : Int) (p : ParamsSetH) (m v s t : Int) :
    BigM (Option ProofSetH) := do
  let D0 ← G2H.setInfinity
  match p.signatures.lookup x with
  | none => pure none
  | some A => do
    let D ← G2H.scalarMult none p.H m
    let aux ← G2H.scalarBaseMult g.twistGen none s
    let _ ← G2H.add (some D) D aux
    let A ← ofRes (Res.ofOption A)
    let V ← G2H.scalarMult none A v
    let a ← ccsAH g V s t
    let _ ← G2H.add (some D0) D0 D
    let C ← commitH g x r p.H
    let c ← hashSetH sha a D0
    let c ← ofRes (Res.ofOption c)
    let c := c % bnOrder
    let zr := (m - r * c) % bnOrder
    let zsig := (s - x * c) % bnOrder
    let zv := (t - v * c) % bnOrder
    pure (some ⟨V, D0, C, a, s, t, zsig, zv, c, m, zr⟩)

/-- The right-hand side for `a`, ccs08.go:281-287 and 323-329. -/
def ccsRhsH (g : CcsGlobals) (pubk : CurveP) (V : TwistP) (c zsig zv : Int) : BigM Gf12 := do
  let p1 ← pairH g.bn pubk V
  let _ ← GTH.scalarMult (some p1) p1 c
  let p2 ← pairH g.bn g.G1 V
  let _ ← GTH.scalarMult (some p2) p2 zsig
  let _ ← GTH.invert (some p2) p2
  let _ ← GTH.add (some p1) p1 p2
  let e ← GTH.scalarMult none g.E zv
  let _ ← GTH.add (some p1) p1 e
  pure p1

/-- `VerifySet`, ccs08/ccs08.go:263-293. -/
def verifySetH (g : CcsGlobals) (pr : ProofSetH) (p : ParamsSetH) : BigM Bool := do
  let D ← G2H.scalarMult none pr.C pr.c
  let t ← G2H.scalarMult none p.H pr.zr
  let _ ← G2H.add (some D) D t
  let aux ← G2H.scalarBaseMult g.twistGen none pr.zsig
  let _ ← G2H.add (some D) D aux
  let DBytes ← G2H.marshal D
  let pDBytes ← G2H.marshal pr.D
  let r1 := DBytes == pDBytes
  let pubk ← ofRes (Res.ofOption p.kp.pubk)
  let p1 ← ccsRhsH g pubk pr.V pr.c pr.zsig pr.zv
  let pBytes ← GTH.marshal p1
  let aBytes ← GTH.marshal pr.a
  let r2 := pBytes == aBytes
  pure (r1 && r2)

/-! ## The interval `[0, u^l)` -/

/-- `proofUL`, ccs08/ccs08.go:89-95. -/
structure ProofULH where
  V : List TwistP
  D : TwistP
  C : TwistP
  a : List Gf12
  s : List Int
  t : List Int
  zsig : List Int
  zv : List Int
  c : Int
  m : Int
  zr : Int

/-- Loop of `ProveUL`, ccs08.go:219-239: the `V[i]` and the `a[i]`; `D` is changed in place. -/
def proveULLoopH (g : CcsGlobals) (p : ParamsULH) (v s t : Nat → Int) (D : TwistP) : Nat → List Int →
    BigM (Option (List TwistP × List Gf12))
  | _, [] => pure (some ([], []))
  | i, d :: ds =>
    match p.signatures.lookup d with
    | none => pure none
    | some A => do
      let A ← ofRes (Res.ofOption A)
      let V ← G2H.scalarMult none A (v i)
      let a ← ccsAH g V (s i) (t i)
      let ui := p.u ^ i
      let muisi := (s i * ui) % bnOrder
      let aux ← G2H.scalarBaseMult g.twistGen none muisi
      let _ ← G2H.add (some D) D aux
      let rest ← proveULLoopH g p v s t D (i + 1) ds
      match rest with
      | none => pure none
      | some (Vs, as) => pure (some (V :: Vs, a :: as))

/-- `ProveUL`, ccs08/ccs08.go:197-258. -/
def proveULH (g : CcsGlobals) (sha : List UInt8 → List UInt8) (x r : Int) (p : ParamsULH) (m : Int) (v s t : Nat → Int) :
    BigM (Option ProofULH) := do
  let decx ← ofRes (decompose x p.u p.l)
  let D0 ← G2H.setInfinity
  let D ← G2H.scalarMult none p.H m
  let res ← proveULLoopH g p v s t D 0 decx
  match res with
  | none => pure none
  | some (V, a) => do
    let _ ← G2H.add (some D0) D0 D
    let C ← commitH g x r p.H
    let c ← hashULH sha a D0
    let c ← ofRes (Res.ofOption c)
    let c := c % bnOrder
    let zr := (m - r * c) % bnOrder
    let n := decx.length
    let s := firsts s n
    let t := firsts t n
    let zsig := List.zipWith (fun si d => (si - d * c) % bnOrder) s decx
    let zv := List.zipWith (fun ti vi => (ti - vi * c) % bnOrder) t (firsts v n)
    pure (some ⟨V, D0, C, a, s, t, zsig, zv, c, m, zr⟩)

/-- First loop of `VerifyUL`, ccs08.go:308-314; `D` is changed in place. -/
def verifyULDH (g : CcsGlobals) (u : Int) (zsig : List Int) (D : TwistP) : Nat → Nat → BigM Unit
  | 0, _ => pure ()
  | n + 1, i => do
    let z ← ofRes (idx zsig i)
    let ui := u ^ i
    let muizsigi := (z * ui) % bnOrder
    let aux ← G2H.scalarBaseMult g.twistGen none muizsigi
    let _ ← G2H.add (some D) D aux
    verifyULDH g u zsig D n (i + 1)

/-- Second loop of `VerifyUL`, ccs08.go:321-334: the verdict `r2`. -/
def verifyULAH (g : CcsGlobals) (pubk : Option CurveP) (pr : ProofULH) : Nat → Nat → Bool → BigM Bool
  | 0, _, r2 => pure r2
  | n + 1, i, r2 => do
    let V ← ofRes (idx pr.V i)
    let pubk' ← ofRes (Res.ofOption pubk)
    let zsig ← ofRes (idx pr.zsig i)
    let zv ← ofRes (idx pr.zv i)
    let p1 ← ccsRhsH g pubk' V pr.c zsig zv
    let pBytes ← GTH.marshal p1
    let a ← ofRes (idx pr.a i)
    let aBytes ← GTH.marshal a
    verifyULAH g pubk pr n (i + 1) (r2 && pBytes == aBytes)

/-- `VerifyUL`, ccs08/ccs08.go:298-336. -/
def verifyULH (g : CcsGlobals) (pr : ProofULH) (p : ParamsULH) : BigM Bool := do
  let D ← G2H.scalarMult none pr.C pr.c
  let t ← G2H.scalarMult none p.H pr.zr
  let _ ← G2H.add (some D) D t
  verifyULDH g p.u pr.zsig D p.l.toNat 0
  let DBytes ← G2H.marshal D
  let pDBytes ← G2H.marshal pr.D
  let r1 := DBytes == pDBytes
  let r2 ← verifyULAH g p.kp.pubk pr p.l.toNat 0 true
  pure (r1 && r2)

/-! ## The range `[a, b)` -/

/-- `params`, ccs08/ccs08.go:349-352. -/
structure CcsParamsH where
  p : ParamsULH
  a : Int
  b : Int

/-- `proof`, ccs08/ccs08.go:341-343. -/
structure CcsProofH where
  p1 : Option ProofULH
  p2 : Option ProofULH

/-- `Setup`, ccs08/ccs08.go:363-398. -/
def ccsSetupH (g : CcsGlobals) (a b : Int) (rnd : Option Int) : BigM (Option CcsParamsH) :=
  if a > b then pure none
  else if b ≠ 1 then do
    let l := digitCount 64 b
    let p ← setupULH g 57 l rnd
    pure (some ⟨p, a, b⟩)
  else pure none

/-- `Prove`, ccs08/ccs08.go:403-418. -/
def ccsProveH (g : CcsGlobals) (sha : List UInt8 → List UInt8) (p : Option CcsParamsH) (x r : Int) (w1 w2 : ULRandom) :
    BigM CcsProofH := do
  let p ← ofRes (Res.ofOption p)
  let ul := p.p.u ^ p.p.l.toNat
  let xb := x - p.b
  let xb := xb + ul
  let first ← proveULH g sha xb r p.p w1.m w1.v w1.s w1.t
  let xa := x - p.a
  let second ← proveULH g sha xa r p.p w2.m w2.v w2.s w2.t
  pure ⟨first, second⟩

/-- `Verify`, ccs08/ccs08.go:423-427. -/
def ccsVerifyH (g : CcsGlobals) (pr : CcsProofH) (p : Option CcsParamsH) : BigM Bool := do
  let p ← ofRes (Res.ofOption p)
  let p1 ← ofRes (Res.ofOption pr.p1)
  let first ← verifyULH g p1 p.p
  let p2 ← ofRes (Res.ofOption pr.p2)
  let second ← verifyULH g p2 p.p
  pure (first && second)

end Verif

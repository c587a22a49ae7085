import Verif.Model.Bb
import Verif.Model.P256

/-!
# Model of `ccs08/ccs08.go` and of `Commit`, `HashSet`, `Hash` in `util/util.go`

Random numbers are arguments.  `crypto/rand` errors are ignored by the code in this file; the
model takes the values of successful calls (failures: `Model/GoProve.lean`).  The maps of signatures are lists of key/value pairs,
newest first.  The key `strconv.FormatInt(i, 10)` of `paramsUL.signatures` is represented by `i`
(different numbers have different decimal strings).
-/

namespace Verif

/-! ## `util/util.go` -/

/-- `G1`, util/util.go:32. -/
def utilG1 : CurvePoint := G1.scalarBaseMult .new 1

/-- `E`, util/util.go:34 (with `G2` of line 33). -/
def utilE : GfP12 := pair utilG1 (G2.scalarBaseMult 1)

/-- `Commit`, util/util.go:60-64; `C.Add(C, …)` is an in-place addition. -/
def commit (x r : Int) (h : TwistPoint) : TwistPoint :=
  (G2.scalarBaseMult x).addSelf (G2.scalarMult h r)

/-- `gfP2.String`, crypto/bn256/gfp2.go:38-42, as bytes. -/
def GfP2.string (e : GfP2) : List UInt8 :=
  [40] ++ decimalNat (e.x % bnP).toNat ++ [44] ++ decimalNat (e.y % bnP).toNat ++ [41]

/-- `gfP6.String`, crypto/bn256/gfp6.go:38-40. -/
def GfP6.string (e : GfP6) : List UInt8 :=
  [40] ++ e.x.string ++ [44] ++ e.y.string ++ [44] ++ e.z.string ++ [41]

/-- `gfP12.String`, crypto/bn256/gfp12.go:38-40. -/
def GfP12.string (e : GfP12) : List UInt8 := [40] ++ e.x.string ++ [44] ++ e.y.string ++ [41]

/-- `twistPoint.String`, crypto/bn256/twist.go:67-69. -/
def TwistPoint.string (c : TwistPoint) : List UInt8 :=
  [40] ++ c.x.string ++ [44, 32] ++ c.y.string ++ [44, 32] ++ c.z.string ++ [41]

/-- `GT.String`, crypto/bn256/bn256.go:350-352: "bn256.GT" and the coordinates. -/
def GT.string (g : GfP12) : List UInt8 := [98, 110, 50, 53, 54, 46, 71, 84] ++ g.string

/-- `G2.String`, crypto/bn256/bn256.go:219-221: "bn256.G2" and the coordinates. -/
def G2.string (g : TwistPoint) : List UInt8 := [98, 110, 50, 53, 54, 46, 71, 50] ++ g.string

/-- `HashSet`, util/util.go:80-87, SHA-256 a parameter (`none`: error). -/
def hashSet (sha : List UInt8 → List UInt8) (a : GfP12) (D : TwistPoint) : Res (Option Int) :=
  fromByteArray (sha (GT.string a ++ G2.string D))

/-- `Hash`, util/util.go:92-101. -/
def hashUL (sha : List UInt8 → List UInt8) (a : List GfP12) (D : TwistPoint) : Res (Option Int) :=
  fromByteArray (sha ((a.map GT.string).flatten ++ G2.string D))

/-! ## Parameters -/

/-- The constant of ccs08.go:113 and 136. -/
def ccsH : Int := 18560948149108576432482904553159745978835170526553990798435819795989606410925

/-- `paramsSet`, ccs08/ccs08.go:46-56. -/
structure ParamsSet where
  signatures : List (Int × Option TwistPoint)
  H : TwistPoint
  kp : KeygenResult
  deriving DecidableEq, Repr

/-- `paramsUL`, ccs08/ccs08.go:62-73. -/
structure ParamsUL where
  signatures : List (Int × Option TwistPoint)
  H : TwistPoint
  kp : KeygenResult
  u : Int
  l : Int
  deriving DecidableEq, Repr

/-- Loop of `SetupSet` (ccs08.go:108-111) and `SetupUL` (ccs08.go:131-134): sign the numbers of the
list.  `Sign` dereferences the private key; its error is ignored, leaving a nil signature. -/
def signLoop (privk : Option Int) :
    List Int → List (Int × Option TwistPoint) → Res (List (Int × Option TwistPoint))
  | [], acc => .ok acc
  | m :: ms, acc => do
    let sk ← Res.ofOption privk
    let sig ← bbSign m sk
    signLoop privk ms ((m, sig) :: acc)

/-- `SetupSet`, ccs08/ccs08.go:100-116; the error of `Keygen` is ignored. -/
def setupSet (s : List Int) (rnd : Option Int) : Res ParamsSet := do
  let kp := keygen rnd
  let signatures ← signLoop kp.privk s []
  .ok ⟨signatures, G2.scalarBaseMult ccsH, kp⟩

/-- `SetupUL`, ccs08/ccs08.go:123-141. -/
def setupUL (u l : Int) (rnd : Option Int) : Res ParamsUL := do
  let kp := keygen rnd
  let signatures ← signLoop kp.privk ((List.range u.toNat).map Int.ofNat) []
  .ok ⟨signatures, G2.scalarBaseMult ccsH, kp, u, l⟩

/-! ## Set membership -/

/-- `proofSet`, ccs08/ccs08.go:78-84. -/
structure ProofSet where
  V : TwistPoint
  D : TwistPoint
  C : TwistPoint
  a : GfP12
  s : Int
  t : Int
  zsig : Int
  zv : Int
  c : Int
  m : Int
  zr : Int
  deriving DecidableEq, Repr

/-- `a` of ccs08.go:172-175 and 226-229: `e(g,V)^-s · e(g,g)^t`. -/
def ccsA (V : TwistPoint) (s t : Int) : GfP12 :=
  let a := pair utilG1 V
  let a := GT.scalarMult a s
  let a := a.invert
  a.mul (GT.scalarMult utilE t)

/-- `ProveSet`, ccs08/ccs08.go:146-192 (`ok none`: error return).  `m`, `v`, `s`, `t` are the random
numbers. -/
def proveSet (sha : List UInt8 → List UInt8) (x r : Int) (p : ParamsSet) (m v s t : Int) :
    Res (Option ProofSet) :=
  match p.signatures.lookup x with
  | none => .ok none
  | some A => do
    let D := G2.scalarMult p.H m
    let aux := G2.scalarBaseMult s
    let D := D.addSelf aux
    let A ← Res.ofOption A
    let V := G2.scalarMult A v
    let a := ccsA V s t
    let D := (TwistPoint.new.setInfinity).addSelf D
    let C := commit x r p.H
    let c ← hashSet sha a D
    let c ← Res.ofOption c
    let c := c % bnOrder
    let zr := (m - r * c) % bnOrder
    let zsig := (s - x * c) % bnOrder
    let zv := (t - v * c) % bnOrder
    .ok (some ⟨V, D, C, a, s, t, zsig, zv, c, m, zr⟩)

/-- The right-hand side for `a` in ccs08.go:281-287 and 323-329:
`e(y,V)^c · e(g,V)^-zsig · e(g,g)^zv`. -/
def ccsRhs (pubk : CurvePoint) (V : TwistPoint) (c zsig zv : Int) : GfP12 :=
  let p1 := pair pubk V
  let p1 := GT.scalarMult p1 c
  let p2 := pair utilG1 V
  let p2 := GT.scalarMult p2 zsig
  let p2 := p2.invert
  let p1 := p1.mul p2
  p1.mul (GT.scalarMult utilE zv)

/-- `VerifySet`, ccs08/ccs08.go:263-293: the verdict, and the proof afterwards (`Marshal` rewrites
`D` and `a`). -/
def verifySet (pr : ProofSet) (p : ParamsSet) : Res (Bool × ProofSet) := do
  let D := G2.scalarMult pr.C pr.c
  let D := D.addSelf (G2.scalarMult p.H pr.zr)
  let aux := G2.scalarBaseMult pr.zsig
  let D := D.addSelf aux
  let DBytes := (G2.marshal D).1
  let pD := G2.marshal pr.D
  let r1 := DBytes == pD.1
  let pubk ← Res.ofOption p.kp.pubk
  let p1 := ccsRhs pubk pr.V pr.c pr.zsig pr.zv
  let pBytes := (GT.marshal p1).1
  let aM := GT.marshal pr.a
  let r2 := pBytes == aM.1
  .ok (r1 && r2, { pr with D := pD.2, a := aM.2 })

/-! ## The interval `[0, u^l)` -/

/-- `proofUL`, ccs08/ccs08.go:89-95. -/
structure ProofUL where
  V : List TwistPoint
  D : TwistPoint
  C : TwistPoint
  a : List GfP12
  s : List Int
  t : List Int
  zsig : List Int
  zv : List Int
  c : Int
  m : Int
  zr : Int
  deriving DecidableEq, Repr

/-- Loop of `ProveUL`, ccs08.go:219-239, for the digits still to be processed; `i` is the loop
variable.  Results: `D`, the `V[i]` and the `a[i]` (`ok none`: error return). -/
def proveULLoop (p : ParamsUL) (v s t : Nat → Int) : Nat → List Int → TwistPoint →
    Res (Option (TwistPoint × List TwistPoint × List GfP12))
  | _, [], D => .ok (some (D, [], []))
  | i, d :: ds, D =>
    match p.signatures.lookup d with
    | none => .ok none
    | some A => do
      let A ← Res.ofOption A
      let V := G2.scalarMult A (v i)
      let a := ccsA V (s i) (t i)
      let ui := p.u ^ i
      let muisi := (s i * ui) % bnOrder
      let aux := G2.scalarBaseMult muisi
      let rest ← proveULLoop p v s t (i + 1) ds (D.addSelf aux)
      match rest with
      | none => .ok none
      | some (D, Vs, as) => .ok (some (D, V :: Vs, a :: as))

/-- The numbers `f 0, …, f (n-1)`. -/
def firsts (f : Nat → Int) (n : Nat) : List Int := (List.range n).map f

/-- `ProveUL`, ccs08/ccs08.go:197-258 (`ok none`: error return; the partial proof returned with the
error has a nil `C`).  The random numbers of the loop are given as functions of `i`. -/
def proveUL (sha : List UInt8 → List UInt8) (x r : Int) (p : ParamsUL) (m : Int) (v s t : Nat → Int) :
    Res (Option ProofUL) := do
  let decx ← decompose x p.u p.l
  let D := G2.scalarMult p.H m
  let res ← proveULLoop p v s t 0 decx D
  match res with
  | none => .ok none
  | some (D, V, a) => do
    let D := (TwistPoint.new.setInfinity).addSelf D
    let C := commit x r p.H
    let c ← hashUL sha a D
    let c ← Res.ofOption c
    let c := c % bnOrder
    let zr := (m - r * c) % bnOrder
    let n := decx.length
    let s := firsts s n
    let t := firsts t n
    let zsig := List.zipWith (fun si d => (si - d * c) % bnOrder) s decx
    let zv := List.zipWith (fun ti vi => (ti - vi * c) % bnOrder) t (firsts v n)
    .ok (some ⟨V, D, C, a, s, t, zsig, zv, c, m, zr⟩)

/-- First loop of `VerifyUL`, ccs08.go:308-314, `n` iterations left. -/
def verifyULD (u : Int) (zsig : List Int) : Nat → Nat → TwistPoint → Res TwistPoint
  | 0, _, D => .ok D
  | n + 1, i, D => do
    let z ← idx zsig i
    let ui := u ^ i
    let muizsigi := (z * ui) % bnOrder
    let aux := G2.scalarBaseMult muizsigi
    verifyULD u zsig n (i + 1) (D.addSelf aux)

/-- Second loop of `VerifyUL`, ccs08.go:321-334, `n` iterations left: the verdict `r2` and the
rewritten `a[i]`.  `Pair` on a missing element, and a missing `a[i]`, panic. -/
def verifyULA (pubk : Option CurvePoint) (pr : ProofUL) : Nat → Nat → Bool → Res (Bool × List GfP12)
  | 0, _, r2 => .ok (r2, [])
  | n + 1, i, r2 => do
    let V ← idx pr.V i
    let pubk' ← Res.ofOption pubk
    let zsig ← idx pr.zsig i
    let zv ← idx pr.zv i
    let p1 := ccsRhs pubk' V pr.c zsig zv
    let a ← idx pr.a i
    let aM := GT.marshal a
    let r2 := r2 && (GT.marshal p1).1 == aM.1
    let rest ← verifyULA pubk pr n (i + 1) r2
    .ok (rest.1, aM.2 :: rest.2)

/-- `VerifyUL`, ccs08/ccs08.go:298-336: the verdict, and the proof afterwards. -/
def verifyUL (pr : ProofUL) (p : ParamsUL) : Res (Bool × ProofUL) := do
  let D := G2.scalarMult pr.C pr.c
  let D := D.addSelf (G2.scalarMult p.H pr.zr)
  let D ← verifyULD p.u pr.zsig p.l.toNat 0 D
  let DBytes := (G2.marshal D).1
  let pD := G2.marshal pr.D
  let r1 := DBytes == pD.1
  let res ← verifyULA p.kp.pubk pr p.l.toNat 0 true
  .ok (r1 && res.1, { pr with D := pD.2, a := res.2 ++ pr.a.drop p.l.toNat })

/-! ## The range `[a, b)` -/

/-- `params`, ccs08/ccs08.go:349-352. -/
structure CcsParams where
  p : ParamsUL
  a : Int
  b : Int
  deriving DecidableEq, Repr

/-- `proof`, ccs08/ccs08.go:341-343; a half whose `ProveUL` failed is `none`. -/
structure CcsProof where
  p1 : Option ProofUL
  p2 : Option ProofUL
  deriving DecidableEq, Repr

/-- Loop of `Setup`, ccs08.go:381-383, for `i ≤ 2^63 < 57^fuel`. -/
def digitCount : Nat → Int → Int
  | 0, _ => 0
  | fuel + 1, i => if i > 0 then digitCount fuel (i / 57) + 1 else 0

/-- `Setup`, ccs08/ccs08.go:363-398, for int64 `a`, `b` (`ok none`: error return, and `zkrp.p` is
nil).  `math.Log(float64(b))` is 0 exactly for `b = 1`: it is `-Inf` for 0, NaN for negative `b`,
and positive for `b ≥ 2`. -/
def ccsSetup (a b : Int) (rnd : Option Int) : Res (Option CcsParams) :=
  if a > b then .ok none
  else if b ≠ 1 then do
    let l := digitCount 64 b
    let p ← setupUL 57 l rnd
    .ok (some ⟨p, a, b⟩)
  else .ok none

/-- The random numbers of one `ProveUL`. -/
structure ULRandom where
  m : Int
  v : Nat → Int
  s : Nat → Int
  t : Nat → Int

/-- `Prove`, ccs08/ccs08.go:403-418.  A nil `zkrp.p` (after a failed `Setup`) panics; the errors of
`ProveUL` are ignored. -/
def ccsProve (sha : List UInt8 → List UInt8) (p : Option CcsParams) (x r : Int) (w1 w2 : ULRandom) :
    Res CcsProof := do
  let p ← Res.ofOption p
  let ul := p.p.u ^ p.p.l.toNat
  let xb := x - p.b
  let xb := xb + ul
  let first ← proveUL sha xb r p.p w1.m w1.v w1.s w1.t
  let xa := x - p.a
  let second ← proveUL sha xa r p.p w2.m w2.v w2.s w2.t
  .ok ⟨first, second⟩

/-- `Verify`, ccs08/ccs08.go:423-427.  `VerifyUL` on the partial proof of a failed `ProveUL`
dereferences the nil `C`. -/
def ccsVerify (pr : CcsProof) (p : Option CcsParams) : Res (Bool × CcsProof) := do
  let p ← Res.ofOption p
  let p1 ← Res.ofOption pr.p1
  let first ← verifyUL p1 p.p
  let p2 ← Res.ofOption pr.p2
  let second ← verifyUL p2 p.p
  .ok (first.1 && second.1, ⟨some first.2, some second.2⟩)

end Verif

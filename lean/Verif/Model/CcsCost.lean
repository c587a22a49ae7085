import Verif.Model.Ccs

/-!
# The pairings and scalar multiplications of `ccs08`

The functions of `ccs08` once more, this time with a log of the pairings and scalar multiplications they ask of `bn256`, in the order
of the calls.  The log is kept when the call panics.  Additions, encodings, hashing and arithmetic on integers are not logged.
`Lemmas/CcsCost.lean` proves that the results are those of `Model/Ccs.lean`.
-/

namespace Verif

/-- What is logged. -/
inductive CcsEv where
  /-- `bn256.Pair`, crypto/bn256/bn256.go:492-494. -/
  | pair
  /-- `G1.ScalarBaseMult`, crypto/bn256/bn256.go:88-105, with the scalar. -/
  | g1base (k : Int)
  /-- `G2.ScalarBaseMult`, crypto/bn256/bn256.go:239-249, with the scalar. -/
  | g2base (k : Int)
  /-- `G2.ScalarMult`, crypto/bn256/bn256.go:253-263, with the scalar. -/
  | g2mult (k : Int)
  /-- `GT.ScalarMult`, crypto/bn256/bn256.go:355-361, with the scalar. -/
  | gtmult (k : Int)
  deriving DecidableEq, Repr

/-- A computation with its log. -/
structure CLog (α : Type) where
  log : List CcsEv
  res : Res α

namespace CLog

/-- Sequencing: the logs are concatenated; a panic aborts. -/
def bind {α β : Type} (m : CLog α) (f : α → CLog β) : CLog β :=
  match m.res with
  | .ok a => ⟨m.log ++ (f a).log, (f a).res⟩
  | .panic => ⟨m.log, .panic⟩

instance : Monad CLog where
  pure a := ⟨[], .ok a⟩
  bind := bind

/-- A computation that logs nothing. -/
def lift {α : Type} (r : Res α) : CLog α := ⟨[], r⟩

/-- Log one call with its result. -/
def call {α : Type} (e : CcsEv) (a : α) : CLog α := ⟨[e], .ok a⟩

end CLog

open CLog

/-! ## Setup -/

/-- `Keygen`, crypto/bbsignatures/bb.go:44-59. -/
def keygenC : Option Int → CLog KeygenResult
  | none => pure (keygen none)
  | some k => call (.g1base k) (keygen (some k))

/-- `Sign`, crypto/bbsignatures/bb.go:64-76. -/
def bbSignC (m privk : Int) : CLog (Option TwistPoint) := do
  let inv ← lift (Res.ofOption (modInverse ((m + privk) % bnOrder) bnOrder))
  let g ← call (.g2base inv) (G2.scalarBaseMult inv)
  pure (G2.unmarshal (G2.marshal g).1)

/-- Loop of `SetupSet` (ccs08.go:108-111) and `SetupUL` (ccs08.go:131-134). -/
def signLoopC (privk : Option Int) : List Int → List (Int × Option TwistPoint) → CLog (List (Int × Option TwistPoint))
  | [], acc => pure acc
  | m :: ms, acc => do
    let sk ← lift (Res.ofOption privk)
    let sig ← bbSignC m sk
    signLoopC privk ms ((m, sig) :: acc)

/-- `SetupSet`, ccs08/ccs08.go:100-116. -/
def setupSetC (s : List Int) (rnd : Option Int) : CLog ParamsSet := do
  let kp ← keygenC rnd
  let signatures ← signLoopC kp.privk s []
  let H ← call (.g2base ccsH) (G2.scalarBaseMult ccsH)
  pure ⟨signatures, H, kp⟩

/-- `SetupUL`, ccs08/ccs08.go:123-141. -/
def setupULC (u l : Int) (rnd : Option Int) : CLog ParamsUL := do
  let kp ← keygenC rnd
  let signatures ← signLoopC kp.privk ((List.range u.toNat).map Int.ofNat) []
  let H ← call (.g2base ccsH) (G2.scalarBaseMult ccsH)
  pure ⟨signatures, H, kp, u, l⟩

/-! ## Proofs -/

/-- `Commit`, util/util.go:60-64. -/
def commitC (x r : Int) (h : TwistPoint) : CLog TwistPoint := do
  let C ← call (.g2base x) (G2.scalarBaseMult x)
  let t ← call (.g2mult r) (G2.scalarMult h r)
  pure (C.addSelf t)

/-- `a` of ccs08.go:172-175 and 226-229. -/
def ccsAC (V : TwistPoint) (s t : Int) : CLog GfP12 := do
  let a ← call .pair (pair utilG1 V)
  let a ← call (.gtmult s) (GT.scalarMult a s)
  let a := a.invert
  let e ← call (.gtmult t) (GT.scalarMult utilE t)
  pure (a.mul e)

/-- `ProveSet`, ccs08/ccs08.go:146-192. -/
def proveSetC (sha : List UInt8 → List UInt8) (x r : Int) (p : ParamsSet) (m v s t : Int) : CLog (Option ProofSet) :=
  match p.signatures.lookup x with
  | none => pure none
  | some A => do
    let D ← call (.g2mult m) (G2.scalarMult p.H m)
    let aux ← call (.g2base s) (G2.scalarBaseMult s)
    let D := D.addSelf aux
    let A ← lift (Res.ofOption A)
    let V ← call (.g2mult v) (G2.scalarMult A v)
    let a ← ccsAC V s t
    let D := (TwistPoint.new.setInfinity).addSelf D
    let C ← commitC x r p.H
    let c ← lift (hashSet sha a D)
    let c ← lift (Res.ofOption c)
    let c := c % bnOrder
    let zr := (m - r * c) % bnOrder
    let zsig := (s - x * c) % bnOrder
    let zv := (t - v * c) % bnOrder
    pure (some ⟨V, D, C, a, s, t, zsig, zv, c, m, zr⟩)

/-- Loop of `ProveUL`, ccs08.go:219-239. -/
def proveULLoopC (p : ParamsUL) (v s t : Nat → Int) : Nat → List Int → TwistPoint →
    CLog (Option (TwistPoint × List TwistPoint × List GfP12))
  | _, [], D => pure (some (D, [], []))
  | i, d :: ds, D =>
    match p.signatures.lookup d with
    | none => pure none
    | some A => do
      let A ← lift (Res.ofOption A)
      let V ← call (.g2mult (v i)) (G2.scalarMult A (v i))
      let a ← ccsAC V (s i) (t i)
      let ui := p.u ^ i
      let muisi := (s i * ui) % bnOrder
      let aux ← call (.g2base muisi) (G2.scalarBaseMult muisi)
      let rest ← proveULLoopC p v s t (i + 1) ds (D.addSelf aux)
      match rest with
      | none => pure none
      | some (D, Vs, as) => pure (some (D, V :: Vs, a :: as))

/-- `ProveUL`, ccs08/ccs08.go:197-258. -/
def proveULC (sha : List UInt8 → List UInt8) (x r : Int) (p : ParamsUL) (m : Int) (v s t : Nat → Int) : CLog (Option ProofUL) := do
  let decx ← lift (decompose x p.u p.l)
  let D ← call (.g2mult m) (G2.scalarMult p.H m)
  let res ← proveULLoopC p v s t 0 decx D
  match res with
  | none => pure none
  | some (D, V, a) => do
    let D := (TwistPoint.new.setInfinity).addSelf D
    let C ← commitC x r p.H
    let c ← lift (hashUL sha a D)
    let c ← lift (Res.ofOption c)
    let c := c % bnOrder
    let zr := (m - r * c) % bnOrder
    let n := decx.length
    let s := firsts s n
    let t := firsts t n
    let zsig := List.zipWith (fun si d => (si - d * c) % bnOrder) s decx
    let zv := List.zipWith (fun ti vi => (ti - vi * c) % bnOrder) t (firsts v n)
    pure (some ⟨V, D, C, a, s, t, zsig, zv, c, m, zr⟩)

/-! ## Verification -/

/-- `VerifySet`, ccs08/ccs08.go:263-293. -/
def verifySetC (pr : ProofSet) (p : ParamsSet) : CLog (Bool × ProofSet) := do
  let D ← call (.g2mult pr.c) (G2.scalarMult pr.C pr.c)
  let t ← call (.g2mult pr.zr) (G2.scalarMult p.H pr.zr)
  let D := D.addSelf t
  let aux ← call (.g2base pr.zsig) (G2.scalarBaseMult pr.zsig)
  let D := D.addSelf aux
  let DBytes := (G2.marshal D).1
  let pD := G2.marshal pr.D
  let r1 := DBytes == pD.1
  let pubk ← lift (Res.ofOption p.kp.pubk)
  let p1 ← call .pair (pair pubk pr.V)
  let p1 ← call (.gtmult pr.c) (GT.scalarMult p1 pr.c)
  let p2 ← call .pair (pair utilG1 pr.V)
  let p2 ← call (.gtmult pr.zsig) (GT.scalarMult p2 pr.zsig)
  let p2 := p2.invert
  let p1 := p1.mul p2
  let e ← call (.gtmult pr.zv) (GT.scalarMult utilE pr.zv)
  let p1 := p1.mul e
  let pBytes := (GT.marshal p1).1
  let aM := GT.marshal pr.a
  let r2 := pBytes == aM.1
  pure (r1 && r2, { pr with D := pD.2, a := aM.2 })

/-- First loop of `VerifyUL`, ccs08.go:308-314. -/
def verifyULDC (u : Int) (zsig : List Int) : Nat → Nat → TwistPoint → CLog TwistPoint
  | 0, _, D => pure D
  | n + 1, i, D => do
    let z ← lift (idx zsig i)
    let ui := u ^ i
    let muizsigi := (z * ui) % bnOrder
    let aux ← call (.g2base muizsigi) (G2.scalarBaseMult muizsigi)
    verifyULDC u zsig n (i + 1) (D.addSelf aux)

/-- Second loop of `VerifyUL`, ccs08.go:321-334; the indices are evaluated where the code does it. -/
def verifyULAC (pubk : Option CurvePoint) (pr : ProofUL) : Nat → Nat → Bool → CLog (Bool × List GfP12)
  | 0, _, r2 => pure (r2, [])
  | n + 1, i, r2 => do
    let V ← lift (idx pr.V i)
    let pubk' ← lift (Res.ofOption pubk)
    let p1 ← call .pair (pair pubk' V)
    let p1 ← call (.gtmult pr.c) (GT.scalarMult p1 pr.c)
    let p2 ← call .pair (pair utilG1 V)
    let zsig ← lift (idx pr.zsig i)
    let p2 ← call (.gtmult zsig) (GT.scalarMult p2 zsig)
    let p2 := p2.invert
    let p1 := p1.mul p2
    let zv ← lift (idx pr.zv i)
    let e ← call (.gtmult zv) (GT.scalarMult utilE zv)
    let p1 := p1.mul e
    let a ← lift (idx pr.a i)
    let aM := GT.marshal a
    let r2 := r2 && (GT.marshal p1).1 == aM.1
    let rest ← verifyULAC pubk pr n (i + 1) r2
    pure (rest.1, aM.2 :: rest.2)

/-- `VerifyUL`, ccs08/ccs08.go:298-336. -/
def verifyULC (pr : ProofUL) (p : ParamsUL) : CLog (Bool × ProofUL) := do
  let D ← call (.g2mult pr.c) (G2.scalarMult pr.C pr.c)
  let t ← call (.g2mult pr.zr) (G2.scalarMult p.H pr.zr)
  let D := D.addSelf t
  let D ← verifyULDC p.u pr.zsig p.l.toNat 0 D
  let DBytes := (G2.marshal D).1
  let pD := G2.marshal pr.D
  let r1 := DBytes == pD.1
  let res ← verifyULAC p.kp.pubk pr p.l.toNat 0 true
  pure (r1 && res.1, { pr with D := pD.2, a := res.2 ++ pr.a.drop p.l.toNat })

/-! ## The range `[a, b)` -/

/-- `Setup`, ccs08/ccs08.go:363-398. -/
def ccsSetupC (a b : Int) (rnd : Option Int) : CLog (Option CcsParams) :=
  if a > b then pure none
  else if b ≠ 1 then do
    let l := digitCount 64 b
    let p ← setupULC 57 l rnd
    pure (some ⟨p, a, b⟩)
  else pure none

/-- `Prove`, ccs08/ccs08.go:403-418. -/
def ccsProveC (sha : List UInt8 → List UInt8) (p : Option CcsParams) (x r : Int) (w1 w2 : ULRandom) : CLog CcsProof := do
  let p ← lift (Res.ofOption p)
  let ul := p.p.u ^ p.p.l.toNat
  let xb := x - p.b
  let xb := xb + ul
  let first ← proveULC sha xb r p.p w1.m w1.v w1.s w1.t
  let xa := x - p.a
  let second ← proveULC sha xa r p.p w2.m w2.v w2.s w2.t
  pure ⟨first, second⟩

/-- `Verify`, ccs08/ccs08.go:423-427. -/
def ccsVerifyC (pr : CcsProof) (p : Option CcsParams) : CLog (Bool × CcsProof) := do
  let p ← lift (Res.ofOption p)
  let p1 ← lift (Res.ofOption pr.p1)
  let first ← verifyULC p1 p.p
  let p2 ← lift (Res.ofOption pr.p2)
  let second ← verifyULC p2 p.p
  pure (first.1 && second.1, ⟨some first.2, some second.2⟩)

end Verif

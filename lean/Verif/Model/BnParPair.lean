import Verif.Model.BnParField
import Verif.Model.BnHeapPair

/-!
# `crypto/bn256` for several goroutines: optate.go and bn256.go

The text of `Model/BnHeapPair.lean` for `BigP`.
-/

namespace Verif.Inter

open BigP

/-! ### optate.go -/

/-- `lineFunctionAdd`, crypto/bn256/optate.go:20-96. -/
def lineAddH (r p : TwistP) (q : CurveP) (r2 : Gf2) : BigP (Gf2 × Gf2 × Gf2 × TwistP) := do
  let B ← Gf2.new
  B.mul p.x r.t
  let D ← Gf2.new
  D.add p.y r.z
  D.square D
  D.sub D r2
  D.sub D r.t
  D.mul D r.t
  let H ← Gf2.new
  H.sub B r.x
  let I ← Gf2.new
  I.square H
  let E ← Gf2.new
  E.add I I
  E.add E E
  let J ← Gf2.new
  J.mul H E
  let L1 ← Gf2.new
  L1.sub D r.y
  L1.sub L1 r.y
  let V ← Gf2.new
  V.mul r.x E
  let rOut ← TwistP.new
  rOut.x.square L1
  rOut.x.sub rOut.x J
  rOut.x.sub rOut.x V
  rOut.x.sub rOut.x V
  rOut.z.add r.z H
  rOut.z.square rOut.z
  rOut.z.sub rOut.z r.t
  rOut.z.sub rOut.z I
  let t ← Gf2.new
  t.sub V rOut.x
  t.mul t L1
  let t2 ← Gf2.new
  t2.mul r.y J
  t2.add t2 t2
  rOut.y.sub t t2
  rOut.t.square rOut.z
  t.add p.y rOut.z
  t.square t
  t.sub t r2
  t.sub t rOut.t
  t2.mul L1 p.x
  t2.add t2 t2
  let a ← Gf2.new
  a.sub t2 t
  let c ← Gf2.new
  c.mulScalar rOut.z q.y
  c.add c c
  let b ← Gf2.new
  b.setZero
  b.sub b L1
  b.mulScalar b q.x
  b.add b b
  B.put
  D.put
  H.put
  I.put
  E.put
  J.put
  L1.put
  V.put
  t.put
  t2.put
  pure (a, b, c, rOut)

/-- `lineFunctionDouble`, optate.go:98-165. -/
def lineDoubleH (r : TwistP) (q : CurveP) : BigP (Gf2 × Gf2 × Gf2 × TwistP) := do
  let A ← Gf2.new
  A.square r.x
  let B ← Gf2.new
  B.square r.y
  let C_ ← Gf2.new
  C_.square B
  let D ← Gf2.new
  D.add r.x B
  D.square D
  D.sub D A
  D.sub D C_
  D.add D D
  let E ← Gf2.new
  E.add A A
  E.add E A
  let G ← Gf2.new
  G.square E
  let rOut ← TwistP.new
  rOut.x.sub G D
  rOut.x.sub rOut.x D
  rOut.z.add r.y r.z
  rOut.z.square rOut.z
  rOut.z.sub rOut.z B
  rOut.z.sub rOut.z r.t
  rOut.y.sub D rOut.x
  rOut.y.mul rOut.y E
  let t ← Gf2.new
  t.add C_ C_
  t.add t t
  t.add t t
  rOut.y.sub rOut.y t
  rOut.t.square rOut.z
  t.mul E r.t
  t.add t t
  let b ← Gf2.new
  b.setZero
  b.sub b t
  b.mulScalar b q.x
  let a ← Gf2.new
  a.add r.x E
  a.square a
  a.sub a A
  a.sub a G
  t.add B B
  t.add t t
  a.sub a t
  let c ← Gf2.new
  c.mul rOut.z r.t
  c.add c c
  c.mulScalar c q.y
  A.put
  B.put
  C_.put
  D.put
  E.put
  G.put
  t.put
  pure (a, b, c, rOut)

/-- `mulLine`, optate.go:167-195. -/
def mulLineH (ret : Gf12) (a b c : Gf2) : BigP Unit := do
  let a2 ← Gf6.new
  a2.x.setZero
  a2.y.set a
  a2.z.set b
  a2.mul a2 ret.x
  let t3 ← Gf6.new
  t3.mulScalar ret.y c
  let t ← Gf2.new
  t.add b c
  let t2 ← Gf6.new
  t2.x.setZero
  t2.y.set a
  t2.z.set t
  ret.x.add ret.x ret.y
  ret.y.set t3
  ret.x.mul ret.x t2
  ret.x.sub ret.x a2
  ret.x.sub ret.x ret.y
  a2.mulTau a2
  ret.y.add ret.y a2
  a2.put
  t3.put
  t2.put
  t.put

/-- The statements after `lineFunctionAdd` and `lineFunctionDouble`, for example optate.go:232-237. -/
def lineUse (ret : Gf12) (r : TwistP) (l : Gf2 × Gf2 × Gf2 × TwistP) : BigP TwistP := do
  mulLineH ret l.1 l.2.1 l.2.2.1
  l.1.put
  l.2.1.put
  l.2.2.1.put
  r.put
  pure l.2.2.2

/-- One pass of the loop of `miller`, optate.go:226-254; the result is `r`. -/
def millerStepH (ret : Gf12) (aAffine minusA : TwistP) (bAffine : CurveP) (r2 : Gf2) (first : Bool) (digit : Int)
    (r : TwistP) : BigP TwistP := do
  let l ← lineDoubleH r bAffine
  if first then pure () else ret.square ret
  let r ← lineUse ret r l
  if digit = 1 then do
    let l ← lineAddH r aAffine bAffine r2
    lineUse ret r l
  else if digit = -1 then do
    let l ← lineAddH r minusA bAffine r2
    lineUse ret r l
  else pure r

/-- The loop of `miller`, optate.go:226-254. -/
def millerLoopH (ret : Gf12) (aAffine minusA : TwistP) (bAffine : CurveP) (r2 : Gf2) :
    Bool → List Int → TwistP → BigP TwistP
  | _, [], r => pure r
  | first, digit :: ds, r => do
    let r ← millerStepH ret aAffine minusA bAffine r2 first digit r
    millerLoopH ret aAffine minusA bAffine r2 false ds r

/-- The end of `miller`, optate.go:274-315.  The objects of `q1` and `minusQ2` are not given back. -/
def millerTail (g : BnGlobals) (ret : Gf12) (aAffine minusA : TwistP) (bAffine : CurveP) (r2 : Gf2) (r : TwistP) :
    BigP Unit := do
  let q1 ← TwistP.new
  q1.x.conj aAffine.x
  q1.x.mul q1.x g.p3
  q1.y.conj aAffine.y
  q1.y.mul q1.y g.p2
  q1.z.setOne
  q1.t.setOne
  let minusQ2 ← TwistP.new
  minusQ2.x.mulScalar aAffine.x g.s3
  minusQ2.y.set aAffine.y
  minusQ2.z.setOne
  minusQ2.t.setOne
  r2.square q1.y
  let l ← lineAddH r q1 bAffine r2
  let r ← lineUse ret r l
  r2.square minusQ2.y
  let l ← lineAddH r minusQ2 bAffine r2
  let r ← lineUse ret r l
  aAffine.put
  bAffine.put
  minusA.put
  r.put
  r2.put

/-- `miller`, optate.go:205-316. -/
def millerH (g : BnGlobals) (q : TwistP) (p : CurveP) : BigP Gf12 := do
  let ret ← Gf12.new
  ret.setOne
  let aAffine ← TwistP.new
  aAffine.set q
  aAffine.makeAffine
  let bAffine ← CurveP.new
  bAffine.set p
  bAffine.makeAffine
  let minusA ← TwistP.new
  minusA.neg aAffine
  let r ← TwistP.new
  r.set aAffine
  let r2 ← Gf2.new
  r2.square aAffine.y
  let r ← millerLoopH ret aAffine minusA bAffine r2 true sixuPlus2NAF.dropLast.reverse r
  millerTail g ret aAffine minusA bAffine r2 r
  pure ret

/-- `finalExponentiation`, optate.go:321-399. -/
def finalExponentiationH (g : BnGlobals) (inp : Gf12) : BigP Gf12 := do
  let t1 ← Gf12.new
  t1.x.neg inp.x
  t1.y.set inp.y
  let inv ← Gf12.new
  inv.invert inp
  t1.mul t1 inv
  let t2 ← Gf12.new
  t2.frobeniusP2 t1 g
  t1.mul t1 t2
  let fp ← Gf12.new
  fp.frobenius t1 g
  let fp2 ← Gf12.new
  fp2.frobeniusP2 t1 g
  let fp3 ← Gf12.new
  fp3.frobenius fp2 g
  let fu ← Gf12.new
  let fu2 ← Gf12.new
  let fu3 ← Gf12.new
  fu.exp t1 bnU
  fu2.exp fu bnU
  fu3.exp fu2 bnU
  let y3 ← Gf12.new
  y3.frobenius fu g
  let fu2p ← Gf12.new
  fu2p.frobenius fu2 g
  let fu3p ← Gf12.new
  fu3p.frobenius fu3 g
  let y2 ← Gf12.new
  y2.frobeniusP2 fu2 g
  let y0 ← Gf12.new
  y0.mul fp fp2
  y0.mul y0 fp3
  let y1 ← Gf12.new
  let y4 ← Gf12.new
  let y5 ← Gf12.new
  y1.conj t1
  y5.conj fu2
  y3.conj y3
  y4.mul fu fu2p
  y4.conj y4
  let y6 ← Gf12.new
  y6.mul fu3 fu3p
  y6.conj y6
  let t0 ← Gf12.new
  t0.square y6
  t0.mul t0 y4
  t0.mul t0 y5
  t1.mul y3 y5
  t1.mul t1 t0
  t0.mul t0 y2
  t1.square t1
  t1.mul t1 t0
  t1.square t1
  t0.mul t1 y1
  t1.mul t1 y0
  t0.square t0
  t0.mul t0 t1
  inv.put
  t1.put
  t2.put
  fp.put
  fp2.put
  fp3.put
  fu.put
  fu2.put
  fu3.put
  fu2p.put
  fu3p.put
  y0.put
  y1.put
  y2.put
  y3.put
  y4.put
  y5.put
  y6.put
  pure t0

/-- `optimalAte`, optate.go:401-410. -/
def optimalAteH (g : BnGlobals) (a : TwistP) (b : CurveP) : BigP Gf12 := do
  let e ← millerH g a b
  let ret ← finalExponentiationH g e
  e.put
  let i ← a.isInfinity
  let j ← b.isInfinity
  if i || j then ret.setOne else pure ()
  pure ret

/-- `Pair`, crypto/bn256/bn256.go:492-494. -/
def pairH (g : BnGlobals) (g1 : CurveP) (g2 : TwistP) : BigP Gf12 := withPool (some []) (optimalAteH g g2 g1)

/-- Loop of `PairingCheck`, bn256.go:503-508.  `b[i]` panics when `b` is too short, but is not evaluated when `a[i]` is infinite. -/
def pairingCheckLoopH (g : BnGlobals) (acc : Gf12) : List CurveP → List TwistP → BigP Unit
  | [], _ => pure ()
  | p :: a, [] => do if (← p.isInfinity) then pairingCheckLoopH g acc a [] else panic
  | p :: a, q :: b => do
    let i ← p.isInfinity
    let j ← q.isInfinity
    if i || j then pairingCheckLoopH g acc a b
    else do
      let e ← millerH g q p
      acc.mul acc e
      pairingCheckLoopH g acc a b

/-- `PairingCheck`, bn256.go:497-513. -/
def pairingCheckH (g : BnGlobals) (a : List CurveP) (b : List TwistP) : BigP Bool := withPool (some []) do
  let acc ← Gf12.new
  acc.setOne
  pairingCheckLoopH g acc a b
  let ret ← finalExponentiationH g acc
  acc.put
  ret.isOne

/-! ### bn256.go -/

/-- A number modulo `P` in a new object, for example `new(big.Int).Mod(n.p.x, P)`, bn256.go:147. -/
def modNew (c : Cell) : BigP Int := do
  let t ← BigP.new
  mod t c
  read t

/-- `c.SetBytes(bs)` of math/big. -/
def setBytesH (c : Cell) (bs : List UInt8) : BigP Unit := write c (setBytes bs)

namespace G1H

/-- `if e.p == nil { e.p = newCurvePoint(nil) }`, for example bn256.go:89-91. -/
def fill : Option CurveP → BigP CurveP
  | some p => pure p
  | none => withPool none CurveP.new

/-- `SetInfinity`, bn256.go:79-83: always a new point. -/
def setInfinity : BigP CurveP := do
  let p ← withPool (some []) CurveP.new
  withPool none p.setInfinity
  pure p

/-- `ScalarMult`, bn256.go:107-124.  (`Negative` has no pool argument.) -/
def scalarMult (e : Option CurveP) (a : CurveP) (k : Int) : BigP CurveP := do
  let p ← fill e
  if k ≥ 0 then
    if k = 0 then withPool none p.setInfinity else withPool (some []) (p.mul a k)
  else do
    withPool (some []) (p.mul a k.natAbs)
    withPool none (p.neg p)
  pure p

/-- `ScalarBaseMult`, bn256.go:88-103; `gen` is `curveGen`. -/
def scalarBaseMult (gen : CurveP) (e : Option CurveP) (k : Int) : BigP CurveP := scalarMult e gen k

/-- `Add`, bn256.go:126-132. -/
def add (e : Option CurveP) (a b : CurveP) : BigP CurveP := do
  let p ← fill e
  withPool (some []) (p.add a b)
  pure p

/-- `Neg`, bn256.go:135-141. -/
def neg (e : Option CurveP) (a : CurveP) : BigP CurveP := do
  let p ← fill e
  withPool none (p.neg a)
  pure p

/-- `SetZero`, bn256.go:382-384. -/
def setZero (e : CurveP) : BigP CurveP := do
  withPool none e.setInfinity
  pure e

/-- `IsZero`, bn256.go:387-389. -/
def isZero (e : CurveP) : BigP Bool := withPool none e.isInfinity

/-- `Marshal`, bn256.go:144-158. -/
def marshal (n : CurveP) : BigP (List UInt8) := withPool none do
  n.makeAffine
  let x ← modNew n.x
  let y ← modNew n.y
  pure (G1.be32 x ++ G1.be32 y)

/-- The end of `Unmarshal`, bn256.go:177-190: whether it is successful. -/
def unmarshalTail (p : CurveP) : BigP Bool := do
  let x ← read p.x
  let y ← read p.y
  if (x = 0 ∧ y = 0) ∨ (x = 0 ∧ y = 1) then do
    setInt p.y 1
    setInt p.z 0
    setInt p.t 0
    pure true
  else do
    setInt p.z 1
    setInt p.t 1
    p.isOnCurve

/-- `Unmarshal`, bn256.go:162-193: whether it is successful, and the field `p` of the receiver.  On failure the receiver has
nevertheless been written. -/
def unmarshal (e : Option CurveP) (m : List UInt8) : BigP (Bool × Option CurveP) := withPool none do
  if m.length ≠ 64 then pure (false, e)
  else do
    let p ← fill e
    setBytesH p.x (m.take 32)
    setBytesH p.y (m.drop 32)
    let r ← unmarshalTail p
    pure (r, some p)

end G1H

namespace G2H

/-- `if e.p == nil { e.p = newTwistPoint(nil) }`, for example bn256.go:240-242. -/
def fill : Option TwistP → BigP TwistP
  | some p => pure p
  | none => withPool none TwistP.new

/-- `SetInfinity`, bn256.go:230-234. -/
def setInfinity : BigP TwistP := do
  let p ← withPool (some []) TwistP.new
  withPool none p.setInfinity
  pure p

/-- `ScalarMult`, bn256.go:253-263.  `e.p.Mul` returns `e.p`. -/
def scalarMult (e : Option TwistP) (a : TwistP) (k : Int) : BigP TwistP := do
  let p ← fill e
  if k ≥ 0 then withPool (some []) (p.mul a k)
  else do
    withPool (some []) (p.mul a k.natAbs)
    withPool (some []) (p.neg p)
  pure p

/-- `ScalarBaseMult`, bn256.go:239-249; `gen` is `twistGen`. -/
def scalarBaseMult (gen : TwistP) (e : Option TwistP) (k : Int) : BigP TwistP := scalarMult e gen k

/-- `Add`, bn256.go:267-273. -/
def add (e : Option TwistP) (a b : TwistP) : BigP TwistP := do
  let p ← fill e
  withPool (some []) (p.add a b)
  pure p

/-- `Neg`, bn256.go:276-282. -/
def neg (e : Option TwistP) (a : TwistP) : BigP TwistP := do
  let p ← fill e
  withPool (some []) (p.neg a)
  pure p

/-- `IsZero`, bn256.go:392-394. -/
def isZero (e : TwistP) : BigP Bool := withPool none e.isInfinity

/-- `Marshal`, bn256.go:285-303. -/
def marshal (n : TwistP) : BigP (List UInt8) := withPool none do
  n.makeAffine
  let xx ← modNew n.x.x
  let xy ← modNew n.x.y
  let yx ← modNew n.y.x
  let yy ← modNew n.y.y
  pure (G1.be32 xx ++ G1.be32 xy ++ G1.be32 yx ++ G1.be32 yy)

/-- The end of `Unmarshal`, bn256.go:324-339; `twistB` is the package variable. -/
def unmarshalTail (twistB : Gf2) (p : TwistP) : BigP Bool := do
  let xx ← read p.x.x
  let xy ← read p.x.y
  let yx ← read p.y.x
  let yy ← read p.y.y
  if xx = 0 ∧ xy = 0 ∧ yx = 0 ∧ yy = 0 then do
    p.y.setOne
    p.z.setZero
    p.t.setZero
    pure true
  else do
    p.z.setOne
    p.t.setOne
    p.isOnCurve twistB

/-- `Unmarshal`, bn256.go:307-342. -/
def unmarshal (twistB : Gf2) (e : Option TwistP) (m : List UInt8) : BigP (Bool × Option TwistP) := withPool none do
  if m.length ≠ 128 then pure (false, e)
  else do
    let p ← fill e
    setBytesH p.x.x (m.take 32)
    setBytesH p.x.y ((m.drop 32).take 32)
    setBytesH p.y.x ((m.drop 64).take 32)
    setBytesH p.y.y (m.drop 96)
    let r ← unmarshalTail twistB p
    pure (r, some p)

end G2H

namespace GTH

/-- `if e.p == nil { e.p = newGFp12(nil) }`, for example bn256.go:356-358. -/
def fill : Option Gf12 → BigP Gf12
  | some p => pure p
  | none => withPool none Gf12.new

/-- `ScalarMult`, bn256.go:355-361. -/
def scalarMult (e : Option Gf12) (a : Gf12) (k : Int) : BigP Gf12 := do
  let p ← fill e
  withPool (some []) (p.exp a k)
  pure p

/-- `Invert`, bn256.go:373-379. -/
def invert (e : Option Gf12) (a : Gf12) : BigP Gf12 := do
  let p ← fill e
  withPool (some []) (p.invert a)
  pure p

/-- `Exp`, bn256.go:363-371: the receiver is not used, and the result is the argument. -/
def exp (_e : Option Gf12) (a : Gf12) (k : Int) : BigP Gf12 :=
  if k ≥ 0 then scalarMult (some a) a k
  else do
    let b ← scalarMult (some a) a k.natAbs
    invert (some a) b

/-- `Add`, bn256.go:407-413. -/
def add (e : Option Gf12) (a b : Gf12) : BigP Gf12 := do
  let p ← fill e
  withPool (some []) (p.mul a b)
  pure p

/-- `Neg`, bn256.go:416-422. -/
def neg (e : Option Gf12) (a : Gf12) : BigP Gf12 := invert e a

/-- `IsZero`, bn256.go:397-399. -/
def isZero (e : Gf12) : BigP Bool := withPool none e.isZero

/-- `IsOne`, bn256.go:402-404. -/
def isOne (e : Gf12) : BigP Bool := withPool none e.isOne

/-- `Marshal`, bn256.go:425-459. -/
def marshal (n : Gf12) : BigP (List UInt8) := withPool none do
  n.minimal
  let a0 ← read n.x.x.x
  let a1 ← read n.x.x.y
  let a2 ← read n.x.y.x
  let a3 ← read n.x.y.y
  let a4 ← read n.x.z.x
  let a5 ← read n.x.z.y
  let a6 ← read n.y.x.x
  let a7 ← read n.y.x.y
  let a8 ← read n.y.y.x
  let a9 ← read n.y.y.y
  let a10 ← read n.y.z.x
  let a11 ← read n.y.z.y
  pure (G1.be32 a0 ++ G1.be32 a1 ++ G1.be32 a2 ++ G1.be32 a3 ++ G1.be32 a4 ++ G1.be32 a5 ++
    G1.be32 a6 ++ G1.be32 a7 ++ G1.be32 a8 ++ G1.be32 a9 ++ G1.be32 a10 ++ G1.be32 a11)

/-- `Unmarshal`, bn256.go:463-489. -/
def unmarshal (e : Option Gf12) (m : List UInt8) : BigP (Bool × Option Gf12) := withPool none do
  if m.length ≠ 384 then pure (false, e)
  else do
    let p ← fill e
    write p.x.x.x (GT.word m 0)
    write p.x.x.y (GT.word m 1)
    write p.x.y.x (GT.word m 2)
    write p.x.y.y (GT.word m 3)
    write p.x.z.x (GT.word m 4)
    write p.x.z.y (GT.word m 5)
    write p.y.x.x (GT.word m 6)
    write p.y.x.y (GT.word m 7)
    write p.y.y.x (GT.word m 8)
    write p.y.y.y (GT.word m 9)
    write p.y.z.x (GT.word m 10)
    write p.y.z.y (GT.word m 11)
    pure (true, some p)

end GTH

end Verif.Inter

import Verif.Model.BnCurve

/-!
# Model of `crypto/bn256/optate.go` and `crypto/bn256/bn256.go`
-/

namespace Verif

/-- `lineFunctionAdd`, crypto/bn256/optate.go:20-96; result `(a, b, c, rOut)`. -/
def lineFunctionAdd (r p : TwistPoint) (q : CurvePoint) (r2 : GfP2) :
    GfP2 × GfP2 × GfP2 × TwistPoint :=
  let B := p.x.mul r.t
  let D := p.y.add r.z
  let D := D.square
  let D := D.sub r2
  let D := D.sub r.t
  let D := D.mul r.t
  let H := B.sub r.x
  let I := H.square
  let E := I.add I
  let E := E.add E
  let J := H.mul E
  let L1 := D.sub r.y
  let L1 := L1.sub r.y
  let V := r.x.mul E
  let rx := L1.square
  let rx := rx.sub J
  let rx := rx.sub V
  let rx := rx.sub V
  let rz := r.z.add H
  let rz := rz.square
  let rz := rz.sub r.t
  let rz := rz.sub I
  let t := V.sub rx
  let t := t.mul L1
  let t2 := r.y.mul J
  let t2 := t2.add t2
  let ry := t.sub t2
  let rt := rz.square
  let t := p.y.add rz
  let t := t.square
  let t := t.sub r2
  let t := t.sub rt
  let t2 := L1.mul p.x
  let t2 := t2.add t2
  let a := t2.sub t
  let c := rz.mulScalar q.y
  let c := c.add c
  let b := GfP2.zero
  let b := b.sub L1
  let b := b.mulScalar q.x
  let b := b.add b
  (a, b, c, ⟨rx, ry, rz, rt⟩)

/-- `lineFunctionDouble`, optate.go:98-165; result `(a, b, c, rOut)`. -/
def lineFunctionDouble (r : TwistPoint) (q : CurvePoint) : GfP2 × GfP2 × GfP2 × TwistPoint :=
  let A := r.x.square
  let B := r.y.square
  let C_ := B.square
  let D := r.x.add B
  let D := D.square
  let D := D.sub A
  let D := D.sub C_
  let D := D.add D
  let E := A.add A
  let E := E.add A
  let G := E.square
  let rx := G.sub D
  let rx := rx.sub D
  let rz := r.y.add r.z
  let rz := rz.square
  let rz := rz.sub B
  let rz := rz.sub r.t
  let ry := D.sub rx
  let ry := ry.mul E
  let t := C_.add C_
  let t := t.add t
  let t := t.add t
  let ry := ry.sub t
  let rt := rz.square
  let t := E.mul r.t
  let t := t.add t
  let b := GfP2.zero
  let b := b.sub t
  let b := b.mulScalar q.x
  let a := r.x.add E
  let a := a.square
  let a := a.sub A
  let a := a.sub G
  let t := B.add B
  let t := t.add t
  let a := a.sub t
  let c := rz.mul r.t
  let c := c.add c
  let c := c.mulScalar q.y
  (a, b, c, ⟨rx, ry, rz, rt⟩)

/-- `mulLine`, optate.go:167-195, the new value of `ret`. -/
def mulLine (ret : GfP12) (a b c : GfP2) : GfP12 :=
  let a2 : GfP6 := ⟨.zero, a, b⟩
  let a2 := a2.mul ret.x
  let t3 := ret.y.mulScalar c
  let t := b.add c
  let t2 : GfP6 := ⟨.zero, a, t⟩
  let rx := ret.x.add ret.y
  let ry := t3
  let rx := rx.mul t2
  let rx := rx.sub a2
  let rx := rx.sub ry
  let a2 := a2.mulTau
  let ry := ry.add a2
  ⟨rx, ry⟩

/-- `sixuPlus2NAF`, optate.go:198-201. -/
def sixuPlus2NAF : List Int :=
  [0, 0, 0, 1, 0, 1, 0, -1, 0, 0, 1, -1, 0, 0, 1, 0,
   0, 1, 1, 0, -1, 0, 0, 1, 0, -1, 0, 0, 0, 0, 1, 1,
   1, 0, 0, -1, 0, 0, 1, 0, 0, 0, 0, 0, -1, 0, 0, 1,
   1, 0, 0, -1, 0, 0, 0, 1, 1, 0, -1, 0, 0, 1, 0, 1, 1]

/-- State of the Miller loop: the accumulated value and the running point. -/
structure MillerState where
  ret : GfP12
  r : TwistPoint

/-- One pass of the loop of `miller`, optate.go:226-254, for the digit `sixuPlus2NAF[i-1]`;
`first` says that `i = len(sixuPlus2NAF)-1`. -/
def millerStep (aAffine minusA : TwistPoint) (bAffine : CurvePoint) (r2 : GfP2) (first : Bool)
    (digit : Int) (s : MillerState) : MillerState :=
  let (a, b, c, newR) := lineFunctionDouble s.r bAffine
  let ret := if first then s.ret else s.ret.square
  let ret := mulLine ret a b c
  let r := newR
  if digit = 1 then
    let (a, b, c, newR) := lineFunctionAdd r aAffine bAffine r2
    ⟨mulLine ret a b c, newR⟩
  else if digit = -1 then
    let (a, b, c, newR) := lineFunctionAdd r minusA bAffine r2
    ⟨mulLine ret a b c, newR⟩
  else ⟨ret, r⟩

/-- The loop of `miller`, optate.go:226-254, over the digits still to be processed (most
significant first); the topmost entry of `sixuPlus2NAF` is never read. -/
def millerLoop (aAffine minusA : TwistPoint) (bAffine : CurvePoint) (r2 : GfP2) :
    Bool → List Int → MillerState → MillerState
  | _, [], s => s
  | first, digit :: ds, s =>
    millerLoop aAffine minusA bAffine r2 false ds
      (millerStep aAffine minusA bAffine r2 first digit s)

/-- `q1` of `miller`, optate.go:274-280. -/
def millerQ1 (aAffine : TwistPoint) : TwistPoint :=
  ⟨aAffine.x.conj.mul xiToPMinus1Over3, aAffine.y.conj.mul xiToPMinus1Over2, .one, .one⟩

/-- `minusQ2` of `miller`, optate.go:288-292. -/
def millerMinusQ2 (aAffine : TwistPoint) : TwistPoint :=
  ⟨aAffine.x.mulScalar xiToPSquaredMinus1Over3, aAffine.y, .one, .one⟩

/-- `miller`, optate.go:205-316. -/
def miller (q : TwistPoint) (p : CurvePoint) : GfP12 :=
  let aAffine := q.makeAffine
  let bAffine := p.makeAffine
  let minusA := aAffine.neg
  let r := aAffine
  let r2 := aAffine.y.square
  let s := millerLoop aAffine minusA bAffine r2 true sixuPlus2NAF.dropLast.reverse ⟨.one, r⟩
  let q1 := millerQ1 aAffine
  let minusQ2 := millerMinusQ2 aAffine
  let r2 := q1.y.square
  let (a, b, c, newR) := lineFunctionAdd s.r q1 bAffine r2
  let ret := mulLine s.ret a b c
  let r := newR
  let r2 := minusQ2.y.square
  let (a, b, c, _) := lineFunctionAdd r minusQ2 bAffine r2
  mulLine ret a b c

/-- `finalExponentiation`, optate.go:321-399. -/
def finalExponentiation (inp : GfP12) : GfP12 :=
  let t1 : GfP12 := ⟨inp.x.neg, inp.y⟩
  let inv := inp.invert
  let t1 := t1.mul inv
  let t2 := t1.frobeniusP2
  let t1 := t1.mul t2
  let fp := t1.frobenius
  let fp2 := t1.frobeniusP2
  let fp3 := fp2.frobenius
  let fu := t1.exp bnU
  let fu2 := fu.exp bnU
  let fu3 := fu2.exp bnU
  let y3 := fu.frobenius
  let fu2p := fu2.frobenius
  let fu3p := fu3.frobenius
  let y2 := fu2.frobeniusP2
  let y0 := fp.mul fp2
  let y0 := y0.mul fp3
  let y1 := t1.conj
  let y5 := fu2.conj
  let y3 := y3.conj
  let y4 := fu.mul fu2p
  let y4 := y4.conj
  let y6 := fu3.mul fu3p
  let y6 := y6.conj
  let t0 := y6.square
  let t0 := t0.mul y4
  let t0 := t0.mul y5
  let t1 := y3.mul y5
  let t1 := t1.mul t0
  let t0 := t0.mul y2
  let t1 := t1.square
  let t1 := t1.mul t0
  let t1 := t1.square
  let t0 := t1.mul y1
  let t1 := t1.mul y0
  let t0 := t0.square
  let t0 := t0.mul t1
  t0

/-- `optimalAte`, optate.go:401-410. -/
def optimalAte (a : TwistPoint) (b : CurvePoint) : GfP12 :=
  let e := miller a b
  let ret := finalExponentiation e
  if a.isInfinity || b.isInfinity then .one else ret

/-- `Pair`, crypto/bn256/bn256.go:492-494. -/
def pair (g1 : CurvePoint) (g2 : TwistPoint) : GfP12 := optimalAte g2 g1

/-- Loop of `PairingCheck`, bn256.go:503-508.  `b[i]` panics when `b` is too short, but it is not
read when `a[i]` is infinite. -/
def pairingCheckLoop : List CurvePoint → List TwistPoint → GfP12 → Res GfP12
  | [], _, acc => .ok acc
  | p :: a, [], acc => if p.isInfinity then pairingCheckLoop a [] acc else .panic
  | p :: a, q :: b, acc =>
    if p.isInfinity || q.isInfinity then pairingCheckLoop a b acc
    else pairingCheckLoop a b (acc.mul (miller q p))

/-- `PairingCheck`, bn256.go:497-513. -/
def pairingCheck (a : List CurvePoint) (b : List TwistPoint) : Res Bool := do
  let acc ← pairingCheckLoop a b .one
  .ok (finalExponentiation acc).isOne

/-! ## `G1`, `G2`, `GT`

The objects hold a pointer to a `curvePoint`, `twistPoint` or `gfP12`; the zero object (nil
pointer) is allowed as a receiver only and is then filled with a new point. -/

namespace G1

/-- `ScalarMult`, bn256.go:107-122; `e` is the old value of the receiver. -/
def scalarMult (e a : CurvePoint) (k : Int) : CurvePoint :=
  if k ≥ 0 then
    if k = 0 then e.setInfinity else a.mul k
  else (a.mul k.natAbs).neg

/-- `ScalarBaseMult`, bn256.go:88-103. -/
def scalarBaseMult (e : CurvePoint) (k : Int) : CurvePoint := scalarMult e .gen k

/-- A non-negative number as 32 big-endian bytes: `copy(ret[i*32-len(bs):], bs)` into a zeroed
array, bn256.go:154-155.  `be32_length` shows that `len(bs) ≤ 32`, so the slice index is valid. -/
def be32 (n : Int) : List UInt8 :=
  let bs := natBytes n.natAbs
  List.replicate (32 - bs.length) 0 ++ bs

/-- `Marshal`, bn256.go:144-158: the bytes, and the new value of the element. -/
def marshal (n : CurvePoint) : List UInt8 × CurvePoint :=
  let n := n.makeAffine
  (be32 (n.x % bnP) ++ be32 (n.y % bnP), n)

/-- `Unmarshal`, bn256.go:162-193 (`none`: the result is `nil, false`). -/
def unmarshal (m : List UInt8) : Option CurvePoint :=
  if m.length ≠ 64 then none
  else
    let x : Int := setBytes (m.take 32)
    let y : Int := setBytes (m.drop 32)
    if (x = 0 ∧ y = 0) ∨ (x = 0 ∧ y = 1) then some ⟨x, 1, 0, 0⟩
    else
      let p : CurvePoint := ⟨x, y, 1, 1⟩
      if ¬ p.isOnCurve then none else some p

end G1

namespace G2

/-- `ScalarMult`, bn256.go:253-263.  `e.p.Mul` returns `e.p`, so that `Negative` works in place. -/
def scalarMult (a : TwistPoint) (k : Int) : TwistPoint :=
  if k ≥ 0 then a.mul k else (a.mul k.natAbs).negSelf

/-- `ScalarBaseMult`, bn256.go:239-249. -/
def scalarBaseMult (k : Int) : TwistPoint := scalarMult .gen k

/-- `Marshal`, bn256.go:285-303: the bytes, and the new value of the element. -/
def marshal (n : TwistPoint) : List UInt8 × TwistPoint :=
  let n := n.makeAffine
  (G1.be32 (n.x.x % bnP) ++ G1.be32 (n.x.y % bnP) ++ G1.be32 (n.y.x % bnP) ++ G1.be32 (n.y.y % bnP), n)

/-- `Unmarshal`, bn256.go:307-342. -/
def unmarshal (m : List UInt8) : Option TwistPoint :=
  if m.length ≠ 128 then none
  else
    let xx : Int := setBytes (m.take 32)
    let xy : Int := setBytes ((m.drop 32).take 32)
    let yx : Int := setBytes ((m.drop 64).take 32)
    let yy : Int := setBytes (m.drop 96)
    if xx = 0 ∧ xy = 0 ∧ yx = 0 ∧ yy = 0 then some ⟨⟨xx, xy⟩, .one, .zero, .zero⟩
    else
      let p : TwistPoint := ⟨⟨xx, xy⟩, ⟨yx, yy⟩, .one, .one⟩
      if ¬ p.isOnCurve then none else some p

end G2

namespace GT

/-- `ScalarMult`, bn256.go:355-361. -/
def scalarMult (a : GfP12) (k : Int) : GfP12 := a.exp k

/-- `Exp`, bn256.go:363-371: returned value, new value of the receiver `e`, new value of the
argument `a`.  All results are written into `a`. -/
def exp (e a : GfP12) (k : Int) : GfP12 × GfP12 × GfP12 :=
  let a' := if k ≥ 0 then scalarMult a k else (scalarMult a k.natAbs).invert
  (a', e, a')

/-- `Marshal`, bn256.go:425-459: the bytes, and the new value of the element. -/
def marshal (n : GfP12) : List UInt8 × GfP12 :=
  let n := n.minimal
  (G1.be32 n.x.x.x ++ G1.be32 n.x.x.y ++ G1.be32 n.x.y.x ++ G1.be32 n.x.y.y ++
   G1.be32 n.x.z.x ++ G1.be32 n.x.z.y ++ G1.be32 n.y.x.x ++ G1.be32 n.y.x.y ++
   G1.be32 n.y.y.x ++ G1.be32 n.y.y.y ++ G1.be32 n.y.z.x ++ G1.be32 n.y.z.y, n)

/-- `m[i*32:(i+1)*32]` read as a number. -/
def word (m : List UInt8) (i : Nat) : Int := setBytes ((m.drop (32 * i)).take 32)

/-- `Unmarshal`, bn256.go:463-489. -/
def unmarshal (m : List UInt8) : Option GfP12 :=
  if m.length ≠ 384 then none
  else some
    ⟨⟨⟨word m 0, word m 1⟩, ⟨word m 2, word m 3⟩, ⟨word m 4, word m 5⟩⟩,
     ⟨⟨word m 6, word m 7⟩, ⟨word m 8, word m 9⟩, ⟨word m 10, word m 11⟩⟩⟩

end GT

/-- `RandomG1`, bn256.go:52-67.  The stream lists the outcomes of `rand.Int(r, Order)` (`none` is
a read error); result `none` means that the loop has not ended after these outcomes, `some none`
is the error return. -/
def randomG1 : List (Option Int) → Option (Option (Int × CurvePoint))
  | [] => none
  | none :: _ => some none
  | some k :: rest => if k > 0 then some (some (k, G1.scalarBaseMult .new k)) else randomG1 rest

/-- `RandomG2`, bn256.go:202-217. -/
def randomG2 : List (Option Int) → Option (Option (Int × TwistPoint))
  | [] => none
  | none :: _ => some none
  | some k :: rest => if k > 0 then some (some (k, G2.scalarBaseMult k)) else randomG2 rest

/-- `bnPool`, bn256.go:517-520.  Cells (`*big.Int`) are numbered; `fresh` is the number of the
next cell that `new(big.Int)` creates. -/
structure BnPool where
  bns : List Nat
  count : Int
  fresh : Nat
  deriving Repr

namespace BnPool

/-- `new(bnPool)`. -/
def empty : BnPool := ⟨[], 0, 0⟩

/-- `Get`, bn256.go:522-536 (non-nil pool): the last cell of the pool, or a new one. -/
def get (p : BnPool) : Nat × BnPool :=
  match p.bns.getLast? with
  | none => (p.fresh, ⟨p.bns, p.count + 1, p.fresh + 1⟩)
  | some bn => (bn, ⟨p.bns.dropLast, p.count + 1, p.fresh⟩)

/-- `Put`, bn256.go:538-544 (non-nil pool). -/
def put (p : BnPool) (bn : Nat) : BnPool := ⟨p.bns ++ [bn], p.count - 1, p.fresh⟩

end BnPool
end Verif

import Verif.Model.Bn

/-!
# Model of `crypto/bn256/gfp2.go`, `gfp6.go` and `gfp12.go`

Coefficients are `*big.Int` values that the code does *not* keep reduced, so they are arbitrary
integers here and every `Mod` of the code appears in the model.  A method `e.Op(a, b)` is a
function of the values of `a` and `b` before the call: each method reads its arguments before it
writes the corresponding part of the receiver, so the result is the same when `e` is `a` or `b`
(proved in `Lemmas/BnHeapField` for the model with pointers, C74; `gfP12.MulScalar`, which reads its receiver, is modelled with the
receiver as argument).  Cells from the pool may hold old values; each is overwritten before it is
read, except `inv` in `gfP2.Invert`, see `GfP2.invertWith`.
-/

namespace Verif

/-- `P`, crypto/bn256/constants.go:27. -/
def bnP : Int := 21888242871839275222246405745257275088696311157297823662689037894645226208583
/-- `Order`, crypto/bn256/constants.go:30. -/
def bnOrder : Int := 21888242871839275222246405745257275088548364400416034343698204186575808495617
/-- `u`, crypto/bn256/constants.go:24. -/
def bnU : Int := 4965661367192848881

/-- `Bit(i)` of a `big.Int` (two's complement for negative numbers; math/big, trusted reading). -/
def intBit (k : Int) (i : Nat) : Bool := k / 2 ^ i % 2 == 1

/-- `BitLen()` of a `big.Int`: length of the absolute value (math/big, trusted reading). -/
def bitLen (k : Int) : Nat := if k = 0 then 0 else Nat.log2 k.natAbs + 1

/-- `gfP2`, crypto/bn256/gfp2.go:30-32: the value is `x·i + y`. -/
structure GfP2 where
  x : Int
  y : Int
  deriving DecidableEq, Repr

namespace GfP2

/-- `SetZero`, gfp2.go:55-59. -/
def zero : GfP2 := ⟨0, 0⟩
/-- `SetOne`, gfp2.go:61-65. -/
def one : GfP2 := ⟨0, 1⟩

/-- `Minimal`, gfp2.go:67-74. -/
def minimal (e : GfP2) : GfP2 :=
  ⟨if e.x < 0 ∨ e.x ≥ bnP then e.x % bnP else e.x, if e.y < 0 ∨ e.y ≥ bnP then e.y % bnP else e.y⟩

/-- `IsZero`, gfp2.go:76-78 (no reduction). -/
def isZero (e : GfP2) : Bool := e.x == 0 && e.y == 0

/-- `IsOne`, gfp2.go:80-86: `Bits()` is the absolute value, so `y = -1` counts as one. -/
def isOne (e : GfP2) : Bool := if e.x ≠ 0 then false else e.y.natAbs == 1

/-- `Conjugate`, gfp2.go:88-92. -/
def conj (a : GfP2) : GfP2 := ⟨-a.x, a.y⟩
/-- `Negative`, gfp2.go:94-98. -/
def neg (a : GfP2) : GfP2 := ⟨-a.x, -a.y⟩
/-- `Add`, gfp2.go:100-104. -/
def add (a b : GfP2) : GfP2 := ⟨a.x + b.x, a.y + b.y⟩
/-- `Sub`, gfp2.go:106-110. -/
def sub (a b : GfP2) : GfP2 := ⟨a.x - b.x, a.y - b.y⟩
/-- `Double`, gfp2.go:112-116. -/
def double (a : GfP2) : GfP2 := ⟨a.x * 2, a.y * 2⟩

/-- `Mul`, gfp2.go:142-159. -/
def mul (a b : GfP2) : GfP2 :=
  let tx := a.x * b.y
  let t := b.x * a.y
  let tx := tx + t
  let tx := tx % bnP
  let ty := a.y * b.y
  let t := a.x * b.x
  let ty := ty - t
  ⟨tx, ty % bnP⟩

/-- `MulScalar`, gfp2.go:161-165. -/
def mulScalar (a : GfP2) (b : Int) : GfP2 := ⟨a.x * b, a.y * b⟩

/-- `MulXi`, gfp2.go:168-185. -/
def mulXi (a : GfP2) : GfP2 :=
  let tx := a.x * 8
  let tx := tx + a.x
  let tx := tx + a.y
  let ty := a.y * 8
  let ty := ty + a.y
  let ty := ty - a.x
  ⟨tx, ty⟩

/-- `Square`, gfp2.go:187-206. -/
def square (a : GfP2) : GfP2 :=
  let t1 := a.y - a.x
  let t2 := a.x + a.y
  let ty := t1 * t2
  let ty := ty % bnP
  let t1 := a.x * a.y
  let t1 := t1 * 2
  ⟨t1 % bnP, ty⟩

/-- `Invert`, gfp2.go:208-232.  `ModInverse` leaves `inv` unchanged when there is no inverse;
`inv` then still holds whatever the pool cell held before, the parameter `leftover`. -/
def invertWith (leftover : Int) (a : GfP2) : GfP2 :=
  let t := a.y * a.y
  let t2 := a.x * a.x
  let t := t + t2
  let inv := (modInverse t bnP).getD leftover
  let ex := -a.x
  let ex := ex * inv
  let ex := ex % bnP
  let ey := a.y * inv
  let ey := ey % bnP
  ⟨ex, ey⟩

/-- `Invert` with a zero leftover; `invertWith_eq` shows that the leftover never matters. -/
def invert (a : GfP2) : GfP2 := invertWith 0 a

/-- Loop of `Exp`, gfp2.go:123-130, `n` bits left. -/
def expLoop (a : GfP2) (power : Int) : Nat → GfP2 → GfP2
  | 0, sum => sum
  | n + 1, sum =>
    let t := sum.square
    expLoop a power n (if intBit power n then t.mul a else t)

/-- `Exp`, gfp2.go:118-138. -/
def exp (a : GfP2) (power : Int) : GfP2 := expLoop a power (bitLen power) one

end GfP2

/-- `xiToPMinus1Over6`, crypto/bn256/constants.go:33. -/
def xiToPMinus1Over6 : GfP2 :=
  ⟨16469823323077808223889137241176536799009286646108169935659301613961712198316,
   8376118865763821496583973867626364092589906065868298776909617916018768340080⟩
/-- `xiToPMinus1Over3`, constants.go:36. -/
def xiToPMinus1Over3 : GfP2 :=
  ⟨10307601595873709700152284273816112264069230130616436755625194854815875713954,
   21575463638280843010398324269430826099269044274347216827212613867836435027261⟩
/-- `xiToPMinus1Over2`, constants.go:39. -/
def xiToPMinus1Over2 : GfP2 :=
  ⟨3505843767911556378687030309984248845540243509899259641013678093033130930403,
   2821565182194536844548159561693502659359617185244120367078079554186484126554⟩
/-- `xiToPSquaredMinus1Over3`, constants.go:42. -/
def xiToPSquaredMinus1Over3 : Int :=
  21888242871839275220042445260109153167277707414472061641714758635765020556616
/-- `xiTo2PSquaredMinus2Over3`, constants.go:45. -/
def xiTo2PSquaredMinus2Over3 : Int :=
  2203960485148121921418603742825762020974279258880205651966
/-- `xiToPSquaredMinus1Over6`, constants.go:48. -/
def xiToPSquaredMinus1Over6 : Int :=
  21888242871839275220042445260109153167277707414472061641714758635765020556617
/-- `xiTo2PMinus2Over3`, constants.go:51. -/
def xiTo2PMinus2Over3 : GfP2 :=
  ⟨19937756971775647987995932169929341994314640652964949448313374472400716661030,
   2581911344467009335267311115468803099551665605076196740867805258568234346338⟩

/-- `gfP6`, crypto/bn256/gfp6.go:30-32: the value is `x·τ² + y·τ + z`. -/
structure GfP6 where
  x : GfP2
  y : GfP2
  z : GfP2
  deriving DecidableEq, Repr

namespace GfP6

/-- `SetZero`, gfp6.go:55-60. -/
def zero : GfP6 := ⟨.zero, .zero, .zero⟩
/-- `SetOne`, gfp6.go:62-67. -/
def one : GfP6 := ⟨.zero, .zero, .one⟩
/-- `Minimal`, gfp6.go:69-73. -/
def minimal (e : GfP6) : GfP6 := ⟨e.x.minimal, e.y.minimal, e.z.minimal⟩
/-- `IsZero`, gfp6.go:75-77. -/
def isZero (e : GfP6) : Bool := e.x.isZero && e.y.isZero && e.z.isZero
/-- `IsOne`, gfp6.go:79-81. -/
def isOne (e : GfP6) : Bool := e.x.isZero && e.y.isZero && e.z.isOne
/-- `Negative`, gfp6.go:83-88. -/
def neg (a : GfP6) : GfP6 := ⟨a.x.neg, a.y.neg, a.z.neg⟩

/-- `Frobenius`, gfp6.go:90-98. -/
def frobenius (a : GfP6) : GfP6 :=
  ⟨a.x.conj.mul xiTo2PMinus2Over3, a.y.conj.mul xiToPMinus1Over3, a.z.conj⟩

/-- `FrobeniusP2`, gfp6.go:101-108. -/
def frobeniusP2 (a : GfP6) : GfP6 :=
  ⟨a.x.mulScalar xiTo2PSquaredMinus2Over3, a.y.mulScalar xiToPSquaredMinus1Over3, a.z⟩

/-- `Add`, gfp6.go:110-115. -/
def add (a b : GfP6) : GfP6 := ⟨a.x.add b.x, a.y.add b.y, a.z.add b.z⟩
/-- `Sub`, gfp6.go:117-122. -/
def sub (a b : GfP6) : GfP6 := ⟨a.x.sub b.x, a.y.sub b.y, a.z.sub b.z⟩
/-- `Double`, gfp6.go:124-129. -/
def double (a : GfP6) : GfP6 := ⟨a.x.double, a.y.double, a.z.double⟩

/-- `Mul`, gfp6.go:131-185. -/
def mul (a b : GfP6) : GfP6 :=
  let v0 := a.z.mul b.z
  let v1 := a.y.mul b.y
  let v2 := a.x.mul b.x
  let t0 := a.x.add a.y
  let t1 := b.x.add b.y
  let tz := t0.mul t1
  let tz := tz.sub v1
  let tz := tz.sub v2
  let tz := tz.mulXi
  let tz := tz.add v0
  let t0 := a.y.add a.z
  let t1 := b.y.add b.z
  let ty := t0.mul t1
  let ty := ty.sub v0
  let ty := ty.sub v1
  let t0 := v2.mulXi
  let ty := ty.add t0
  let t0 := a.x.add a.z
  let t1 := b.x.add b.z
  let tx := t0.mul t1
  let tx := tx.sub v0
  let tx := tx.add v1
  let tx := tx.sub v2
  ⟨tx, ty, tz⟩

/-- `MulScalar`, gfp6.go:187-192. -/
def mulScalar (a : GfP6) (b : GfP2) : GfP6 := ⟨a.x.mul b, a.y.mul b, a.z.mul b⟩
/-- `MulGFP`, gfp6.go:194-199. -/
def mulGFP (a : GfP6) (b : Int) : GfP6 := ⟨a.x.mulScalar b, a.y.mulScalar b, a.z.mulScalar b⟩

/-- `MulTau`, gfp6.go:202-212. -/
def mulTau (a : GfP6) : GfP6 :=
  let tz := a.x.mulXi
  let ty := a.y
  ⟨ty, a.z, tz⟩

/-- `Square`, gfp6.go:214-252. -/
def square (a : GfP6) : GfP6 :=
  let v0 := a.z.square
  let v1 := a.y.square
  let v2 := a.x.square
  let c0 := a.x.add a.y
  let c0 := c0.square
  let c0 := c0.sub v1
  let c0 := c0.sub v2
  let c0 := c0.mulXi
  let c0 := c0.add v0
  let c1 := a.y.add a.z
  let c1 := c1.square
  let c1 := c1.sub v0
  let c1 := c1.sub v1
  let xiV2 := v2.mulXi
  let c1 := c1.add xiV2
  let c2 := a.x.add a.z
  let c2 := c2.square
  let c2 := c2.sub v0
  let c2 := c2.add v1
  let c2 := c2.sub v2
  ⟨c2, c1, c0⟩

/-- `Invert`, gfp6.go:254-309. -/
def invert (a : GfP6) : GfP6 :=
  let A := a.z.square
  let t1 := a.x.mul a.y
  let t1 := t1.mulXi
  let A := A.sub t1
  let B := a.x.square
  let B := B.mulXi
  let t1 := a.y.mul a.z
  let B := B.sub t1
  let C_ := a.y.square
  let t1 := a.x.mul a.z
  let C_ := C_.sub t1
  let F := C_.mul a.y
  let F := F.mulXi
  let t1 := A.mul a.z
  let F := F.add t1
  let t1 := B.mul a.x
  let t1 := t1.mulXi
  let F := F.add t1
  let F := F.invert
  ⟨C_.mul F, B.mul F, A.mul F⟩

end GfP6

/-- `gfP12`, crypto/bn256/gfp12.go:30-32: the value is `x·ω + y`. -/
structure GfP12 where
  x : GfP6
  y : GfP6
  deriving DecidableEq, Repr

namespace GfP12

/-- `SetZero`, gfp12.go:53-57. -/
def zero : GfP12 := ⟨.zero, .zero⟩
/-- `SetOne`, gfp12.go:59-63. -/
def one : GfP12 := ⟨.zero, .one⟩
/-- `Minimal`, gfp12.go:65-68. -/
def minimal (e : GfP12) : GfP12 := ⟨e.x.minimal, e.y.minimal⟩
/-- `IsZero`, gfp12.go:70-73 (the receiver is also replaced by its `minimal`). -/
def isZero (e : GfP12) : Bool := let e := e.minimal; e.x.isZero && e.y.isZero
/-- `IsOne`, gfp12.go:75-78 (the receiver is also replaced by its `minimal`). -/
def isOne (e : GfP12) : Bool := let e := e.minimal; e.x.isZero && e.y.isOne

/-- `Conjugate`, gfp12.go:80-84, the value stored in the receiver.  The method *returns* its
argument; every call in the package ignores the returned pointer. -/
def conj (a : GfP12) : GfP12 := ⟨a.x.neg, a.y⟩
/-- `Negative`, gfp12.go:86-90. -/
def neg (a : GfP12) : GfP12 := ⟨a.x.neg, a.y.neg⟩

/-- `Frobenius`, gfp12.go:93-98. -/
def frobenius (a : GfP12) : GfP12 := ⟨a.x.frobenius.mulScalar xiToPMinus1Over6, a.y.frobenius⟩

/-- `FrobeniusP2`, gfp12.go:101-106. -/
def frobeniusP2 (a : GfP12) : GfP12 :=
  ⟨a.x.frobeniusP2.mulGFP xiToPSquaredMinus1Over6, a.y.frobeniusP2⟩

/-- `Add`, gfp12.go:108-112. -/
def add (a b : GfP12) : GfP12 := ⟨a.x.add b.x, a.y.add b.y⟩
/-- `Sub`, gfp12.go:114-118. -/
def sub (a b : GfP12) : GfP12 := ⟨a.x.sub b.x, a.y.sub b.y⟩

/-- `Mul`, gfp12.go:120-138. -/
def mul (a b : GfP12) : GfP12 :=
  let tx := a.x.mul b.y
  let t := b.x.mul a.y
  let tx := tx.add t
  let ty := a.y.mul b.y
  let t := a.x.mul b.x
  let t := t.mulTau
  ⟨tx, ty.add t⟩

/-- `MulScalar`, gfp12.go:140-144: the receiver `e` is multiplied, the argument `a` ignored. -/
def mulScalar (e _a : GfP12) (b : GfP6) : GfP12 := ⟨e.x.mul b, e.y.mul b⟩

/-- `Square`, gfp12.go:168-191. -/
def square (a : GfP12) : GfP12 :=
  let v0 := a.x.mul a.y
  let t := a.x.mulTau
  let t := a.y.add t
  let ty := a.x.add a.y
  let ty := ty.mul t
  let ty := ty.sub v0
  let t := v0.mulTau
  let ty := ty.sub t
  ⟨v0.double, ty⟩

/-- Loop of `Exp`, gfp12.go:151-158, `n` bits left. -/
def expLoop (a : GfP12) (power : Int) : Nat → GfP12 → GfP12
  | 0, sum => sum
  | n + 1, sum =>
    let t := sum.square
    expLoop a power n (if intBit power n then t.mul a else t)

/-- `Exp`, gfp12.go:146-166. -/
def exp (a : GfP12) (power : Int) : GfP12 := expLoop a power (bitLen power) one

/-- `Invert`, gfp12.go:193-213. -/
def invert (a : GfP12) : GfP12 :=
  let t1 := a.x.square
  let t2 := a.y.square
  let t1 := t1.mulTau
  let t1 := t2.sub t1
  let t2 := t1.invert
  let e : GfP12 := ⟨a.x.neg, a.y⟩
  e.mulScalar e t2

end GfP12
end Verif

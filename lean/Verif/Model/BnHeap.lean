import Verif.Model.BnPair

/-!
# `crypto/bn256` on a heap of `big.Int` objects

The other models of this package treat field elements and points as values.  In Go they are structs of pointers to `big.Int`
objects, every method writes its result into the objects of its receiver, the receiver is often one of the arguments, and
temporary objects come from a pool of used ones (`bnPool`).  Here the same methods work on cells, statement by statement: the
heap maps cells to integers, `Get` returns a cell with whatever value it had, and `Put` gives a cell back.

Cells are numbered; `next` is the first number which is not in use.  The pool is part of the state (`none` is the nil pool), since
each exported function creates one pool and passes it to all methods it calls.  The package variables of type `*big.Int`,
`*gfP2`, `*curvePoint` and `*twistPoint` are objects as well, mostly collected in `BnGlobals`; a function which uses some of them
takes them as arguments.  Only `P`, `u` and `curveB` are represented by their values, and so are exponents and scalars: they are
never receivers of a method.  Methods return their receiver; the models return nothing.
-/

namespace Verif

/-- A `*big.Int`. -/
abbrev Cell := Nat

/-- The `big.Int` objects, the number of the next new one, and the pool in use. -/
structure BigHeap where
  mem : Cell → Int
  next : Nat
  pool : Option (List Cell)

/-- A computation on this heap. -/
def BigM (α : Type) : Type := BigHeap → Res (α × BigHeap)

namespace BigM

instance : Monad BigM where
  pure a := fun s => .ok (a, s)
  bind m f := fun s => m s >>= fun r => f r.1 r.2

/-- `new(big.Int)`. -/
def new : BigM Cell := fun s =>
  .ok (s.next, { s with mem := fun c => if c = s.next then 0 else s.mem c, next := s.next + 1 })

/-- `Get`, crypto/bn256/bn256.go:522-536. -/
def get : BigM Cell := fun s =>
  match s.pool with
  | none => new s
  | some bns =>
    match bns.getLast? with
    | none => new s
    | some bn => .ok (bn, { s with pool := some bns.dropLast })

/-- `Put`, bn256.go:538-544. -/
def put (c : Cell) : BigM Unit := fun s =>
  match s.pool with
  | none => .ok ((), s)
  | some bns => .ok ((), { s with pool := some (bns ++ [c]) })

/-- The value of an object. -/
def read (a : Cell) : BigM Int := fun s => .ok (s.mem a, s)

/-- Overwrite an object. -/
def write (d : Cell) (v : Int) : BigM Unit := fun s =>
  .ok ((), { s with mem := fun c => if c = d then v else s.mem c })

/-- A run-time panic. -/
def panic {α : Type} : BigM α := fun _ => .panic

/-- Run with `new(bnPool)` or with the nil pool; the pool is dropped afterwards. -/
def withPool {α : Type} (p : Option (List Cell)) (m : BigM α) : BigM α := fun s =>
  m { s with pool := p } >>= fun r => .ok (r.1, { r.2 with pool := s.pool })

/-- `d.Add(a, b)` of math/big (trusted reading, as the following; all of them allow `d` to be `a` or `b`). -/
def add (d a b : Cell) : BigM Unit := do write d ((← read a) + (← read b))
/-- `d.Sub(a, b)`. -/
def sub (d a b : Cell) : BigM Unit := do write d ((← read a) - (← read b))
/-- `d.Mul(a, b)`. -/
def mul (d a b : Cell) : BigM Unit := do write d ((← read a) * (← read b))
/-- `d.Mod(a, P)`. -/
def mod (d a : Cell) : BigM Unit := do write d ((← read a) % bnP)
/-- `d.Neg(a)`. -/
def neg (d a : Cell) : BigM Unit := do write d (-(← read a))
/-- `d.Set(a)`. -/
def set (d a : Cell) : BigM Unit := do write d (← read a)
/-- `d.SetInt64(n)`. -/
def setInt (d : Cell) (n : Int) : BigM Unit := write d n
/-- `d.Lsh(a, 1)`. -/
def lsh1 (d a : Cell) : BigM Unit := do write d ((← read a) * 2)
/-- `d.Lsh(a, 3)`. -/
def lsh3 (d a : Cell) : BigM Unit := do write d ((← read a) * 8)
/-- `d.ModInverse(a, P)`: if there is no inverse, `d` is unchanged; the result says whether nil was returned. -/
def modInv (d a : Cell) : BigM Bool := do
  match modInverse (← read a) bnP with
  | none => pure true
  | some v => write d v; pure false
/-- The condition and statement `if e.Sign() < 0 || e.Cmp(P) >= 0 { e.Mod(e, P) }`, for example gfp2.go:68-70. -/
def reduce (e : Cell) : BigM Unit := do
  let v ← read e
  if v < 0 ∨ v ≥ bnP then mod e e else pure ()

end BigM

open BigM

/-! ### `gfP2` -/

/-- `*gfP2`, crypto/bn256/gfp2.go:30-32.  The struct is never modified, only the objects its fields point to. -/
structure Gf2 where
  x : Cell
  y : Cell

namespace Gf2

/-- `newGFp2`, gfp2.go:34-36. -/
def new : BigM Gf2 := do
  let x ← get
  let y ← get
  pure ⟨x, y⟩

/-- `Put`, gfp2.go:44-47. -/
def put (e : Gf2) : BigM Unit := do
  BigM.put e.x
  BigM.put e.y

/-- `Set`, gfp2.go:49-53. -/
def set (e a : Gf2) : BigM Unit := do
  BigM.set e.x a.x
  BigM.set e.y a.y

/-- `SetZero`, gfp2.go:55-59. -/
def setZero (e : Gf2) : BigM Unit := do
  setInt e.x 0
  setInt e.y 0

/-- `SetOne`, gfp2.go:61-65. -/
def setOne (e : Gf2) : BigM Unit := do
  setInt e.x 0
  setInt e.y 1

/-- `Minimal`, gfp2.go:67-74. -/
def minimal (e : Gf2) : BigM Unit := do
  reduce e.x
  reduce e.y

/-- `IsZero`, gfp2.go:76-78. -/
def isZero (e : Gf2) : BigM Bool := do
  let x ← read e.x
  let y ← read e.y
  pure (x == 0 && y == 0)

/-- `IsOne`, gfp2.go:80-86. -/
def isOne (e : Gf2) : BigM Bool := do
  let x ← read e.x
  let y ← read e.y
  pure (if x ≠ 0 then false else y.natAbs == 1)

/-- `Conjugate`, gfp2.go:88-92. -/
def conj (e a : Gf2) : BigM Unit := do
  BigM.set e.y a.y
  BigM.neg e.x a.x

/-- `Negative`, gfp2.go:94-98. -/
def neg (e a : Gf2) : BigM Unit := do
  BigM.neg e.x a.x
  BigM.neg e.y a.y

/-- `Add`, gfp2.go:100-104. -/
def add (e a b : Gf2) : BigM Unit := do
  BigM.add e.x a.x b.x
  BigM.add e.y a.y b.y

/-- `Sub`, gfp2.go:106-110. -/
def sub (e a b : Gf2) : BigM Unit := do
  BigM.sub e.x a.x b.x
  BigM.sub e.y a.y b.y

/-- `Double`, gfp2.go:112-116. -/
def double (e a : Gf2) : BigM Unit := do
  lsh1 e.x a.x
  lsh1 e.y a.y

/-- `Mul`, gfp2.go:142-159. -/
def mul (e a b : Gf2) : BigM Unit := do
  let tx ← get
  BigM.mul tx a.x b.y
  let t ← get
  BigM.mul t b.x a.y
  BigM.add tx tx t
  mod tx tx
  let ty ← get
  BigM.mul ty a.y b.y
  BigM.mul t a.x b.x
  BigM.sub ty ty t
  mod e.y ty
  BigM.set e.x tx
  BigM.put tx
  BigM.put ty
  BigM.put t

/-- `MulScalar`, gfp2.go:161-165. -/
def mulScalar (e a : Gf2) (b : Cell) : BigM Unit := do
  BigM.mul e.x a.x b
  BigM.mul e.y a.y b

/-- `MulXi`, gfp2.go:168-185. -/
def mulXi (e a : Gf2) : BigM Unit := do
  let tx ← get
  lsh3 tx a.x
  BigM.add tx tx a.x
  BigM.add tx tx a.y
  let ty ← get
  lsh3 ty a.y
  BigM.add ty ty a.y
  BigM.sub ty ty a.x
  BigM.set e.x tx
  BigM.set e.y ty
  BigM.put tx
  BigM.put ty

/-- `Square`, gfp2.go:187-206. -/
def square (e a : Gf2) : BigM Unit := do
  let t1 ← get
  BigM.sub t1 a.y a.x
  let t2 ← get
  BigM.add t2 a.x a.y
  let ty ← get
  BigM.mul ty t1 t2
  mod ty ty
  BigM.mul t1 a.x a.y
  lsh1 t1 t1
  mod e.x t1
  BigM.set e.y ty
  BigM.put t1
  BigM.put t2
  BigM.put ty

/-- `Invert`, gfp2.go:208-232; the result of `ModInverse` is ignored. -/
def invert (e a : Gf2) : BigM Unit := do
  let t ← get
  BigM.mul t a.y a.y
  let t2 ← get
  BigM.mul t2 a.x a.x
  BigM.add t t t2
  let inv ← get
  let _ ← modInv inv t
  BigM.neg e.x a.x
  BigM.mul e.x e.x inv
  mod e.x e.x
  BigM.mul e.y a.y inv
  mod e.y e.y
  BigM.put t
  BigM.put t2
  BigM.put inv

/-- Loop of `Exp`, gfp2.go:123-130, `n` bits left. -/
def expLoop (sum t a : Gf2) (power : Int) : Nat → BigM Unit
  | 0 => pure ()
  | n + 1 => do
    square t sum
    if intBit power n then mul sum t a else set sum t
    expLoop sum t a power n

/-- `Exp`, gfp2.go:118-138. -/
def exp (c a : Gf2) (power : Int) : BigM Unit := do
  let sum ← new
  setOne sum
  let t ← new
  expLoop sum t a power (bitLen power)
  set c sum
  put sum
  put t

end Gf2

/-! ### The package variables -/

/-- The package variables of crypto/bn256/constants.go:33-51 which point to `big.Int` objects.  (`curveGen` and `twistGen` are
arguments of `ScalarBaseMult` below.) -/
structure BnGlobals where
  /-- `xiToPMinus1Over6` -/
  p6 : Gf2
  /-- `xiToPMinus1Over3` -/
  p3 : Gf2
  /-- `xiToPMinus1Over2` -/
  p2 : Gf2
  /-- `xiTo2PMinus2Over3` -/
  p23 : Gf2
  /-- `xiToPSquaredMinus1Over3` -/
  s3 : Cell
  /-- `xiTo2PSquaredMinus2Over3` -/
  s23 : Cell
  /-- `xiToPSquaredMinus1Over6` -/
  s6 : Cell

/-! ### `gfP6` -/

/-- `*gfP6`, crypto/bn256/gfp6.go:30-32. -/
structure Gf6 where
  x : Gf2
  y : Gf2
  z : Gf2

namespace Gf6

/-- `newGFp6`, gfp6.go:34-36. -/
def new : BigM Gf6 := do
  let x ← Gf2.new
  let y ← Gf2.new
  let z ← Gf2.new
  pure ⟨x, y, z⟩

/-- `Put`, gfp6.go:42-46. -/
def put (e : Gf6) : BigM Unit := do
  e.x.put
  e.y.put
  e.z.put

/-- `Set`, gfp6.go:48-53. -/
def set (e a : Gf6) : BigM Unit := do
  e.x.set a.x
  e.y.set a.y
  e.z.set a.z

/-- `SetZero`, gfp6.go:55-60. -/
def setZero (e : Gf6) : BigM Unit := do
  e.x.setZero
  e.y.setZero
  e.z.setZero

/-- `SetOne`, gfp6.go:62-67. -/
def setOne (e : Gf6) : BigM Unit := do
  e.x.setZero
  e.y.setZero
  e.z.setOne

/-- `Minimal`, gfp6.go:69-73. -/
def minimal (e : Gf6) : BigM Unit := do
  e.x.minimal
  e.y.minimal
  e.z.minimal

/-- `IsZero`, gfp6.go:75-77. -/
def isZero (e : Gf6) : BigM Bool := do
  let x ← e.x.isZero
  let y ← e.y.isZero
  let z ← e.z.isZero
  pure (x && y && z)

/-- `IsOne`, gfp6.go:79-81. -/
def isOne (e : Gf6) : BigM Bool := do
  let x ← e.x.isZero
  let y ← e.y.isZero
  let z ← e.z.isOne
  pure (x && y && z)

/-- `Negative`, gfp6.go:83-88. -/
def neg (e a : Gf6) : BigM Unit := do
  e.x.neg a.x
  e.y.neg a.y
  e.z.neg a.z

/-- `Frobenius`, gfp6.go:90-98. -/
def frobenius (e a : Gf6) (g : BnGlobals) : BigM Unit := do
  e.x.conj a.x
  e.y.conj a.y
  e.z.conj a.z
  e.x.mul e.x g.p23
  e.y.mul e.y g.p3

/-- `FrobeniusP2`, gfp6.go:101-108. -/
def frobeniusP2 (e a : Gf6) (g : BnGlobals) : BigM Unit := do
  e.x.mulScalar a.x g.s23
  e.y.mulScalar a.y g.s3
  e.z.set a.z

/-- `Add`, gfp6.go:110-115. -/
def add (e a b : Gf6) : BigM Unit := do
  e.x.add a.x b.x
  e.y.add a.y b.y
  e.z.add a.z b.z

/-- `Sub`, gfp6.go:117-122. -/
def sub (e a b : Gf6) : BigM Unit := do
  e.x.sub a.x b.x
  e.y.sub a.y b.y
  e.z.sub a.z b.z

/-- `Double`, gfp6.go:124-129. -/
def double (e a : Gf6) : BigM Unit := do
  e.x.double a.x
  e.y.double a.y
  e.z.double a.z

/-- `Mul`, gfp6.go:131-185. -/
def mul (e a b : Gf6) : BigM Unit := do
  let v0 ← Gf2.new
  v0.mul a.z b.z
  let v1 ← Gf2.new
  v1.mul a.y b.y
  let v2 ← Gf2.new
  v2.mul a.x b.x
  let t0 ← Gf2.new
  t0.add a.x a.y
  let t1 ← Gf2.new
  t1.add b.x b.y
  let tz ← Gf2.new
  tz.mul t0 t1
  tz.sub tz v1
  tz.sub tz v2
  tz.mulXi tz
  tz.add tz v0
  t0.add a.y a.z
  t1.add b.y b.z
  let ty ← Gf2.new
  ty.mul t0 t1
  ty.sub ty v0
  ty.sub ty v1
  t0.mulXi v2
  ty.add ty t0
  t0.add a.x a.z
  t1.add b.x b.z
  let tx ← Gf2.new
  tx.mul t0 t1
  tx.sub tx v0
  tx.add tx v1
  tx.sub tx v2
  e.x.set tx
  e.y.set ty
  e.z.set tz
  t0.put
  t1.put
  tx.put
  ty.put
  tz.put
  v0.put
  v1.put
  v2.put

/-- `MulScalar`, gfp6.go:187-192. -/
def mulScalar (e a : Gf6) (b : Gf2) : BigM Unit := do
  e.x.mul a.x b
  e.y.mul a.y b
  e.z.mul a.z b

/-- `MulGFP`, gfp6.go:194-199. -/
def mulGFP (e a : Gf6) (b : Cell) : BigM Unit := do
  e.x.mulScalar a.x b
  e.y.mulScalar a.y b
  e.z.mulScalar a.z b

/-- `MulTau`, gfp6.go:202-212. -/
def mulTau (e a : Gf6) : BigM Unit := do
  let tz ← Gf2.new
  tz.mulXi a.x
  let ty ← Gf2.new
  ty.set a.y
  e.y.set a.z
  e.x.set ty
  e.z.set tz
  tz.put
  ty.put

/-- `Square`, gfp6.go:214-252. -/
def square (e a : Gf6) : BigM Unit := do
  let v0 ← Gf2.new
  v0.square a.z
  let v1 ← Gf2.new
  v1.square a.y
  let v2 ← Gf2.new
  v2.square a.x
  let c0 ← Gf2.new
  c0.add a.x a.y
  c0.square c0
  c0.sub c0 v1
  c0.sub c0 v2
  c0.mulXi c0
  c0.add c0 v0
  let c1 ← Gf2.new
  c1.add a.y a.z
  c1.square c1
  c1.sub c1 v0
  c1.sub c1 v1
  let xiV2 ← Gf2.new
  xiV2.mulXi v2
  c1.add c1 xiV2
  let c2 ← Gf2.new
  c2.add a.x a.z
  c2.square c2
  c2.sub c2 v0
  c2.add c2 v1
  c2.sub c2 v2
  e.x.set c2
  e.y.set c1
  e.z.set c0
  v0.put
  v1.put
  v2.put
  c0.put
  c1.put
  c2.put
  xiV2.put

/-- `Invert`, gfp6.go:254-309. -/
def invert (e a : Gf6) : BigM Unit := do
  let t1 ← Gf2.new
  let A ← Gf2.new
  A.square a.z
  t1.mul a.x a.y
  t1.mulXi t1
  A.sub A t1
  let B ← Gf2.new
  B.square a.x
  B.mulXi B
  t1.mul a.y a.z
  B.sub B t1
  let C_ ← Gf2.new
  C_.square a.y
  t1.mul a.x a.z
  C_.sub C_ t1
  let F ← Gf2.new
  F.mul C_ a.y
  F.mulXi F
  t1.mul A a.z
  F.add F t1
  t1.mul B a.x
  t1.mulXi t1
  F.add F t1
  F.invert F
  e.x.mul C_ F
  e.y.mul B F
  e.z.mul A F
  t1.put
  A.put
  B.put
  C_.put
  F.put

end Gf6

/-! ### `gfP12` -/

/-- `*gfP12`, crypto/bn256/gfp12.go:30-32. -/
structure Gf12 where
  x : Gf6
  y : Gf6

namespace Gf12

/-- `newGFp12`, gfp12.go:34-36. -/
def new : BigM Gf12 := do
  let x ← Gf6.new
  let y ← Gf6.new
  pure ⟨x, y⟩

/-- `Put`, gfp12.go:42-45. -/
def put (e : Gf12) : BigM Unit := do
  e.x.put
  e.y.put

/-- `Set`, gfp12.go:47-51. -/
def set (e a : Gf12) : BigM Unit := do
  e.x.set a.x
  e.y.set a.y

/-- `SetZero`, gfp12.go:53-57. -/
def setZero (e : Gf12) : BigM Unit := do
  e.x.setZero
  e.y.setZero

/-- `SetOne`, gfp12.go:59-63. -/
def setOne (e : Gf12) : BigM Unit := do
  e.x.setZero
  e.y.setOne

/-- `Minimal`, gfp12.go:65-68. -/
def minimal (e : Gf12) : BigM Unit := do
  e.x.minimal
  e.y.minimal

/-- `IsZero`, gfp12.go:70-73. -/
def isZero (e : Gf12) : BigM Bool := do
  e.minimal
  let x ← e.x.isZero
  let y ← e.y.isZero
  pure (x && y)

/-- `IsOne`, gfp12.go:75-78. -/
def isOne (e : Gf12) : BigM Bool := do
  e.minimal
  let x ← e.x.isZero
  let y ← e.y.isOne
  pure (x && y)

/-- `Conjugate`, gfp12.go:80-84. -/
def conj (e a : Gf12) : BigM Unit := do
  e.x.neg a.x
  e.y.set a.y

/-- `Negative`, gfp12.go:86-90. -/
def neg (e a : Gf12) : BigM Unit := do
  e.x.neg a.x
  e.y.neg a.y

/-- `Frobenius`, gfp12.go:93-98. -/
def frobenius (e a : Gf12) (g : BnGlobals) : BigM Unit := do
  e.x.frobenius a.x g
  e.y.frobenius a.y g
  e.x.mulScalar e.x g.p6

/-- `FrobeniusP2`, gfp12.go:101-106. -/
def frobeniusP2 (e a : Gf12) (g : BnGlobals) : BigM Unit := do
  e.x.frobeniusP2 a.x g
  e.x.mulGFP e.x g.s6
  e.y.frobeniusP2 a.y g

/-- `Add`, gfp12.go:108-112. -/
def add (e a b : Gf12) : BigM Unit := do
  e.x.add a.x b.x
  e.y.add a.y b.y

/-- `Sub`, gfp12.go:114-118. -/
def sub (e a b : Gf12) : BigM Unit := do
  e.x.sub a.x b.x
  e.y.sub a.y b.y

/-- `Mul`, gfp12.go:120-138. -/
def mul (e a b : Gf12) : BigM Unit := do
  let tx ← Gf6.new
  tx.mul a.x b.y
  let t ← Gf6.new
  t.mul b.x a.y
  tx.add tx t
  let ty ← Gf6.new
  ty.mul a.y b.y
  t.mul a.x b.x
  t.mulTau t
  e.y.add ty t
  e.x.set tx
  tx.put
  ty.put
  t.put

/-- `MulScalar`, gfp12.go:140-144; the argument `a` is not used. -/
def mulScalar (e _a : Gf12) (b : Gf6) : BigM Unit := do
  e.x.mul e.x b
  e.y.mul e.y b

/-- `Square`, gfp12.go:168-191. -/
def square (e a : Gf12) : BigM Unit := do
  let v0 ← Gf6.new
  v0.mul a.x a.y
  let t ← Gf6.new
  t.mulTau a.x
  t.add a.y t
  let ty ← Gf6.new
  ty.add a.x a.y
  ty.mul ty t
  ty.sub ty v0
  t.mulTau v0
  ty.sub ty t
  e.y.set ty
  e.x.double v0
  v0.put
  t.put
  ty.put

/-- Loop of `Exp`, gfp12.go:151-158, `n` bits left. -/
def expLoop (sum t a : Gf12) (power : Int) : Nat → BigM Unit
  | 0 => pure ()
  | n + 1 => do
    t.square sum
    if intBit power n then sum.mul t a else sum.set t
    expLoop sum t a power n

/-- `Exp`, gfp12.go:146-166. -/
def exp (c a : Gf12) (power : Int) : BigM Unit := do
  let sum ← new
  sum.setOne
  let t ← new
  expLoop sum t a power (bitLen power)
  c.set sum
  sum.put
  t.put

/-- `Invert`, gfp12.go:193-213. -/
def invert (e a : Gf12) : BigM Unit := do
  let t1 ← Gf6.new
  let t2 ← Gf6.new
  t1.square a.x
  t2.square a.y
  t1.mulTau t1
  t1.sub t2 t1
  t2.invert t1
  e.x.neg a.x
  e.y.set a.y
  e.mulScalar e t2
  t1.put
  t2.put

end Gf12

/-! ### `curvePoint` -/

/-- `*curvePoint`, crypto/bn256/curve.go:27-29. -/
structure CurveP where
  x : Cell
  y : Cell
  z : Cell
  t : Cell

namespace CurveP

/-- `newCurvePoint`, curve.go:41-48. -/
def new : BigM CurveP := do
  let x ← get
  let y ← get
  let z ← get
  let t ← get
  pure ⟨x, y, z, t⟩

/-- `Put`, curve.go:55-60. -/
def put (c : CurveP) : BigM Unit := do
  BigM.put c.x
  BigM.put c.y
  BigM.put c.z
  BigM.put c.t

/-- `Set`, curve.go:62-67. -/
def set (c a : CurveP) : BigM Unit := do
  BigM.set c.x a.x
  BigM.set c.y a.y
  BigM.set c.z a.z
  BigM.set c.t a.t

/-- `IsOnCurve`, curve.go:70-80: the objects are new ones, not from the pool; `curveB` is 3. -/
def isOnCurve (c : CurveP) : BigM Bool := do
  let yy ← BigM.new
  BigM.mul yy c.y c.y
  let xxx ← BigM.new
  BigM.mul xxx c.x c.x
  BigM.mul xxx xxx c.x
  BigM.sub yy yy xxx
  let b ← BigM.new
  setInt b 3
  BigM.sub yy yy b
  reduce yy
  let v ← read yy
  pure (v == 0)

/-- `SetInfinity`, curve.go:82-84. -/
def setInfinity (c : CurveP) : BigM Unit := setInt c.z 0

/-- `IsInfinity`, curve.go:86-88. -/
def isInfinity (c : CurveP) : BigM Bool := do
  let z ← read c.z
  pure (z == 0)

/-- `Double`, curve.go:196-239. -/
def double (c a : CurveP) : BigM Unit := do
  let A ← get
  BigM.mul A a.x a.x
  mod A A
  let B ← get
  BigM.mul B a.y a.y
  mod B B
  let C_ ← get
  BigM.mul C_ B B
  mod C_ C_
  let t ← get
  BigM.add t a.x B
  let t2 ← get
  BigM.mul t2 t t
  mod t2 t2
  BigM.sub t t2 A
  BigM.sub t2 t C_
  let d ← get
  BigM.add d t2 t2
  BigM.add t A A
  let e ← get
  BigM.add e t A
  let f ← get
  BigM.mul f e e
  mod f f
  BigM.add t d d
  BigM.sub c.x f t
  BigM.add t C_ C_
  BigM.add t2 t t
  BigM.add t t2 t2
  BigM.sub c.y d c.x
  BigM.mul t2 e c.y
  mod t2 t2
  BigM.sub c.y t2 t
  BigM.mul t a.y a.z
  mod t t
  BigM.add c.z t t
  BigM.put A
  BigM.put B
  BigM.put C_
  BigM.put t
  BigM.put t2
  BigM.put d
  BigM.put e
  BigM.put f

/-- The end of `Add`, curve.go:145-193: the operands are different. -/
def addTail (c a b : CurveP) (z1z1 z2z2 u1 u2 t s1 s2 h i j : Cell) : BigM Unit := do
  let r ← get
  BigM.add r t t
  let v ← get
  BigM.mul v u1 i
  mod v v
  let t4 ← get
  BigM.mul t4 r r
  mod t4 t4
  BigM.add t v v
  let t6 ← get
  BigM.sub t6 t4 j
  BigM.sub c.x t6 t
  BigM.sub t v c.x
  BigM.mul t4 s1 j
  mod t4 t4
  BigM.add t6 t4 t4
  BigM.mul t4 r t
  mod t4 t4
  BigM.sub c.y t4 t6
  BigM.add t a.z b.z
  BigM.mul t4 t t
  mod t4 t4
  BigM.sub t t4 z1z1
  BigM.sub t4 t z2z2
  BigM.mul c.z t4 h
  mod c.z c.z
  BigM.put z1z1
  BigM.put z2z2
  BigM.put u1
  BigM.put u2
  BigM.put t
  BigM.put s1
  BigM.put s2
  BigM.put h
  BigM.put i
  BigM.put j
  BigM.put r
  BigM.put v
  BigM.put t4
  BigM.put t6

/-- `Add`, curve.go:100-193: neither operand is infinite.  If the operands are equal, the objects taken so far are not given back
(line 142). -/
def addGeneral (c a b : CurveP) : BigM Unit := do
  let z1z1 ← get
  BigM.mul z1z1 a.z a.z
  mod z1z1 z1z1
  let z2z2 ← get
  BigM.mul z2z2 b.z b.z
  mod z2z2 z2z2
  let u1 ← get
  BigM.mul u1 a.x z2z2
  mod u1 u1
  let u2 ← get
  BigM.mul u2 b.x z1z1
  mod u2 u2
  let t ← get
  BigM.mul t b.z z2z2
  mod t t
  let s1 ← get
  BigM.mul s1 a.y t
  mod s1 s1
  BigM.mul t a.z z1z1
  mod t t
  let s2 ← get
  BigM.mul s2 b.y t
  mod s2 s2
  let h ← get
  BigM.sub h u2 u1
  let hv ← read h
  BigM.add t h h
  let i ← get
  BigM.mul i t t
  mod i i
  let j ← get
  BigM.mul j h i
  mod j j
  BigM.sub t s2 s1
  let tv ← read t
  if hv == 0 && tv == 0 then c.double a
  else c.addTail a b z1z1 z2z2 u1 u2 t s1 s2 h i j

/-- `Add`, curve.go:90-194. -/
def add (c a b : CurveP) : BigM Unit := do
  if (← a.isInfinity) then c.set b
  else if (← b.isInfinity) then c.set a
  else c.addGeneral a b

/-- Loop of `Mul`, curve.go:246-253, bits `n-1 … 0` left. -/
def mulLoop (sum t a : CurveP) (k : Int) : Nat → BigM Unit
  | 0 => pure ()
  | n + 1 => do
    t.double sum
    if intBit k n then sum.add t a else sum.set t
    mulLoop sum t a k n

/-- `Mul`, curve.go:241-259. -/
def mul (c a : CurveP) (k : Int) : BigM Unit := do
  let sum ← new
  sum.setInfinity
  let t ← new
  mulLoop sum t a k (bitLen k + 1)
  c.set sum
  sum.put
  t.put

/-- The end of `MakeAffine`, curve.go:273-291: `Mul(c.y, zInv)` panics if `ModInverse` returned nil. -/
def makeAffineTail (c : CurveP) : BigM Unit := do
  let zInv ← get
  let isNil ← modInv zInv c.z
  if isNil then panic else
    let t ← get
    BigM.mul t c.y zInv
    mod t t
    let zInv2 ← get
    BigM.mul zInv2 zInv zInv
    mod zInv2 zInv2
    BigM.mul c.y t zInv2
    mod c.y c.y
    BigM.mul t c.x zInv2
    mod t t
    BigM.set c.x t
    setInt c.z 1
    setInt c.t 1
    BigM.put zInv
    BigM.put t
    BigM.put zInv2

/-- `MakeAffine`, curve.go:261-292. -/
def makeAffine (c : CurveP) : BigM Unit := do
  let z ← read c.z
  if z.natAbs = 1 then pure ()
  else if (← c.isInfinity) then
    setInt c.x 0
    setInt c.y 1
    setInt c.z 0
    setInt c.t 0
  else c.makeAffineTail

/-- `Negative`, curve.go:294-299. -/
def neg (c a : CurveP) : BigM Unit := do
  BigM.set c.x a.x
  BigM.neg c.y a.y
  BigM.set c.z a.z
  setInt c.t 0

end CurveP

/-! ### `twistPoint` -/

/-- `*twistPoint`, crypto/bn256/twist.go:29-31. -/
structure TwistP where
  x : Gf2
  y : Gf2
  z : Gf2
  t : Gf2

namespace TwistP

/-- `newTwistPoint`, twist.go:58-65. -/
def new : BigM TwistP := do
  let x ← Gf2.new
  let y ← Gf2.new
  let z ← Gf2.new
  let t ← Gf2.new
  pure ⟨x, y, z, t⟩

/-- `Put`, twist.go:71-76. -/
def put (c : TwistP) : BigM Unit := do
  c.x.put
  c.y.put
  c.z.put
  c.t.put

/-- `Set`, twist.go:78-83. -/
def set (c a : TwistP) : BigM Unit := do
  c.x.set a.x
  c.y.set a.y
  c.z.set a.z
  c.t.set a.t

/-- `IsOnCurve`, twist.go:86-95; the last argument is `twistB`. -/
def isOnCurve (c : TwistP) (twistB : Gf2) : BigM Bool := withPool (some []) do
  let yy ← Gf2.new
  yy.square c.y
  let xxx ← Gf2.new
  xxx.square c.x
  xxx.mul xxx c.x
  yy.sub yy xxx
  yy.sub yy twistB
  yy.minimal
  let x ← read yy.x
  let y ← read yy.y
  pure (x == 0 && y == 0)

/-- `SetInfinity`, twist.go:97-99. -/
def setInfinity (c : TwistP) : BigM Unit := c.z.setZero

/-- `IsInfinity`, twist.go:101-103. -/
def isInfinity (c : TwistP) : BigM Bool := c.z.isZero

/-- `Double`, twist.go:179-215. -/
def double (c a : TwistP) : BigM Unit := do
  let A ← Gf2.new
  A.square a.x
  let B ← Gf2.new
  B.square a.y
  let C_ ← Gf2.new
  C_.square B
  let t ← Gf2.new
  t.add a.x B
  let t2 ← Gf2.new
  t2.square t
  t.sub t2 A
  t2.sub t C_
  let d ← Gf2.new
  d.add t2 t2
  t.add A A
  let e ← Gf2.new
  e.add t A
  let f ← Gf2.new
  f.square e
  t.add d d
  c.x.sub f t
  t.add C_ C_
  t2.add t t
  t.add t2 t2
  c.y.sub d c.x
  t2.mul e c.y
  c.y.sub t2 t
  t.mul a.y a.z
  c.z.add t t
  A.put
  B.put
  C_.put
  t.put
  t2.put
  d.put
  e.put
  f.put

/-- The end of `Add`, twist.go:143-176: the operands are different. -/
def addTail (c a b : TwistP) (z1z1 z2z2 u1 u2 t s1 s2 h i j : Gf2) : BigM Unit := do
  let r ← Gf2.new
  r.add t t
  let v ← Gf2.new
  v.mul u1 i
  let t4 ← Gf2.new
  t4.square r
  t.add v v
  let t6 ← Gf2.new
  t6.sub t4 j
  c.x.sub t6 t
  t.sub v c.x
  t4.mul s1 j
  t6.add t4 t4
  t4.mul r t
  c.y.sub t4 t6
  t.add a.z b.z
  t4.square t
  t.sub t4 z1z1
  t4.sub t z2z2
  c.z.mul t4 h
  z1z1.put
  z2z2.put
  u1.put
  u2.put
  t.put
  s1.put
  s2.put
  h.put
  i.put
  j.put
  r.put
  v.put
  t4.put
  t6.put

/-- `Add`, twist.go:118-176: neither operand is infinite. -/
def addGeneral (c a b : TwistP) : BigM Unit := do
  let z1z1 ← Gf2.new
  z1z1.square a.z
  let z2z2 ← Gf2.new
  z2z2.square b.z
  let u1 ← Gf2.new
  u1.mul a.x z2z2
  let u2 ← Gf2.new
  u2.mul b.x z1z1
  let t ← Gf2.new
  t.mul b.z z2z2
  let s1 ← Gf2.new
  s1.mul a.y t
  t.mul a.z z1z1
  let s2 ← Gf2.new
  s2.mul b.y t
  let h ← Gf2.new
  h.sub u2 u1
  let xEqual ← h.isZero
  t.add h h
  let i ← Gf2.new
  i.square t
  let j ← Gf2.new
  j.mul h i
  t.sub s2 s1
  let yEqual ← t.isZero
  if xEqual && yEqual then c.double a
  else c.addTail a b z1z1 z2z2 u1 u2 t s1 s2 h i j

/-- `Add`, twist.go:105-177. -/
def add (c a b : TwistP) : BigM Unit := do
  if (← a.isInfinity) then c.set b
  else if (← b.isInfinity) then c.set a
  else c.addGeneral a b

/-- Loop of `Mul`, twist.go:222-229, bits `n-1 … 0` left. -/
def mulLoop (sum t a : TwistP) (k : Int) : Nat → BigM Unit
  | 0 => pure ()
  | n + 1 => do
    t.double sum
    if intBit k n then sum.add t a else sum.set t
    mulLoop sum t a k n

/-- `Mul`, twist.go:217-235. -/
def mul (c a : TwistP) (k : Int) : BigM Unit := do
  let sum ← new
  sum.setInfinity
  let t ← new
  mulLoop sum t a k (bitLen k + 1)
  c.set sum
  sum.put
  t.put

/-- The end of `MakeAffine`, twist.go:242-255. -/
def makeAffineTail (c : TwistP) : BigM Unit := do
  let zInv ← Gf2.new
  zInv.invert c.z
  let t ← Gf2.new
  t.mul c.y zInv
  let zInv2 ← Gf2.new
  zInv2.square zInv
  c.y.mul t zInv2
  t.mul c.x zInv2
  c.x.set t
  c.z.setOne
  c.t.setOne
  zInv.put
  t.put
  zInv2.put

/-- `MakeAffine`, twist.go:237-256. -/
def makeAffine (c : TwistP) : BigM Unit := do
  if (← c.z.isOne) then pure () else c.makeAffineTail

/-- `Negative`, twist.go:258-264. -/
def neg (c a : TwistP) : BigM Unit := do
  c.x.set a.x
  c.y.setZero
  c.y.sub c.y a.y
  c.z.set a.z
  c.t.setZero

end TwistP

end Verif

import Verif.Model.Bytes

/-!
# Model of `util/bn/bn.go` and of `Decompose` in `util/util.go`
-/

namespace Verif

/-- Extended Euclid on `(r0, r1)` keeping the cofactor of the first input; `fuel` bounds the
number of division steps (`r1` decreases in each). -/
def egcdAux : Nat → Int → Int → Int → Int → Int × Int
  | 0, r0, _, s0, _ => (r0, s0)
  | fuel + 1, r0, r1, s0, s1 =>
    if r1 = 0 then (r0, s0)
    else egcdAux fuel r1 (r0 % r1) s1 (s0 - (r0 / r1) * s1)

/-- `ModInverse`, util/bn/bn.go:72-74: math/big `ModInverse(g, n)` (trusted reading): `n` is
replaced by `|n|`, negative `g` by `g mod n`, then the extended Euclidean algorithm runs; `nil`
if the gcd is not 1.  math/big normalises the cofactor into `[0,|n|)` by one conditional
addition; here by reduction modulo `n`. -/
def modInverse (g n : Int) : Option Int :=
  let r := egcdAux (n.natAbs + 2) (g % n) n.natAbs 1 0
  if r.1 = 1 then some (r.2 % n) else none

/-- math/big `Exp(x, y, m)` for `y ≥ 0` (trusted reading): `x^y mod |m|`, and `x^y` for `m = 0`
(Go and Lean agree: `Int.emod a 0 = a`, and `Int.emod a m = Int.emod a |m|`). -/
def bigExp (x y m : Int) : Int := (x ^ y.toNat) % m

/-- `ModPow`, util/bn/bn.go:42-54. -/
def modPow (base exponent modulo : Int) : Option Int :=
  if exponent ≥ 0 then some (bigExp base exponent modulo)
  else modInverse (bigExp base (exponent.natAbs : Int) modulo) modulo

/-- `CalculateHash`, util/bn/bn.go:27-37.  `H` is SHA-256 (a parameter); `b2` may be nil. -/
def calculateHash (H : List UInt8 → List UInt8) (b1 : Int) (b2 : Option Int) :
    Res (Option Int) :=
  let input := toByteArray b1 ++ (match b2 with | some b => toByteArray b | none => [])
  fromByteArray (H input)

/-- Loop of `Decompose`, util/util.go:48-52, `n` iterations left.  `big.Int.Mod`/`Div` are
Euclidean and panic for a zero divisor.  `Int64()` is exact because `0 ≤ x mod u < |u| ≤ 2^63`. -/
def decomposeLoop (u : Int) : Nat → Int → Res (List Int)
  | 0, _ => .ok []
  | n + 1, x =>
    if u = 0 then .panic
    else do
      let rest ← decomposeLoop u n (x / u)
      .ok ((x % u) :: rest)

/-- `Decompose`, util/util.go:41-54.  `u` and `l` are int64 values; `make` panics for `l < 0`. -/
def decompose (x u l : Int) : Res (List Int) :=
  if l < 0 then .panic else decomposeLoop u l.toNat x

end Verif

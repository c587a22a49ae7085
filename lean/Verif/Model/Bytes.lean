import Verif.Go
import Mathlib.Data.Nat.Digits.Defs

/-!
# Model of `util/byteconversion`
-/

namespace Verif

/-- Go `new(big.Int).SetBytes(bs)`: big-endian unsigned value (math/big, trusted reading). -/
def setBytes (bs : List UInt8) : Nat := bs.foldl (fun a b => a * 256 + b.toNat) 0

/-- Go `x.Bytes()` of a `big.Int` with absolute value `n`: big-endian, no leading zero byte,
empty for zero (math/big, trusted reading). -/
def natBytes (n : Nat) : List UInt8 := (Nat.digits 256 n).reverse.map UInt8.ofNat

/-- `FlipBytes`, util/byteconversion/conversion.go:114-123. -/
def flipBytes (bs : List UInt8) : List UInt8 := bs.map (fun b => b ^^^ 255)

/-- `FromByteArray`, util/byteconversion/conversion.go:31-62.  `ok none` is the error
return.  The slice copy in lines 52-53 rewrites `tmpBytes` in place with its flipped
version, which is the flipped list. -/
def fromByteArray (bytesIn : List UInt8) : Res (Option Int) :=
  if bytesIn.length = 0 then .ok none
  else do
    let highestByte ← idx bytesIn 0
    if highestByte &&& 128 ≠ 0 then
      let tmpInt : Int := (setBytes bytesIn : Int) - 1
      let tmpBytes := natBytes tmpInt.natAbs
      let b0 ← idx tmpBytes 0
      let convertedBytes := if b0 = 255 then (flipBytes tmpBytes).drop 1 else flipBytes tmpBytes
      let tmp : Int := setBytes convertedBytes
      .ok (some (tmp * (-1)))
    else
      .ok (some (setBytes bytesIn : Int))

/-- `ToByteArray`, util/byteconversion/conversion.go:70-108.  `bytes[0]` in line 81 is
guarded by the length test. -/
def toByteArray (x : Int) : List UInt8 :=
  match natBytes x.natAbs with
  | [] => [0]
  | highestByte :: rest =>
    let bytes := highestByte :: rest
    if ¬ x < 0 then
      if highestByte &&& 128 ≠ 0 then 0 :: bytes else bytes
    else
      let convertedBytes :=
        if highestByte &&& 128 ≠ 0 then 255 :: flipBytes bytes else flipBytes bytes
      natBytes (setBytes convertedBytes + 1)

/-- `big.Int.SetString(s, 10)` on a string consisting of an optional leading `-` (45) and
ASCII digits, as used after validation in parse.go:66-67.  When there are no digits
SetString fails and leaves the receiver (zero) unchanged.  math/big, trusted reading; the
underscore and prefix syntax of base 0 does not apply to base 10. -/
def setString10 (s : List UInt8) : Int :=
  match s with
  | [] => 0
  | c :: rest =>
    if c = 45 then
      - (rest.foldl (fun (a : Int) b => a * 10 + ((b.toNat : Int) - 48)) 0)
    else (c :: rest).foldl (fun (a : Int) b => a * 10 + ((b.toNat : Int) - 48)) 0

/-- Validation loop of `ConvertToBigInt`, parse.go:59-63, from index `index` on. -/
def validFrom (index : Nat) : List UInt8 → Bool
  | [] => true
  | e :: es =>
    ((48 ≤ e && e ≤ 57) || (index == 0 && e == 45)) && validFrom (index + 1) es

/-- `ConvertToBigInt`, util/byteconversion/parse.go:56-69 (`none` is the error return). -/
def convertToBigInt (inp : List UInt8) : Option Int :=
  if validFrom 0 inp then some (setString10 inp) else none

/-- Loop of `ParseInput`, parse.go:35-46, followed by the final conversion 48-52.  `index` and
`rest` are the loop position and the bytes still to be read; `inp` is the whole input. -/
def parseLoop (inp : List UInt8) (prevIndex index : Nat) (output : List Int) :
    List UInt8 → Option (List Int)
  | [] => do
    let newInt ← convertToBigInt (inp.drop prevIndex)
    some (output ++ [newInt])
  | element :: rest =>
    if element = 44 then do
      let newInt ← convertToBigInt ((inp.take index).drop prevIndex)
      parseLoop inp (index + 1) (index + 1) (output ++ [newInt]) rest
    else parseLoop inp prevIndex (index + 1) output rest

/-- `ParseInput`, util/byteconversion/parse.go:30-53 (`none` is the error return). -/
def parseInput (inp : List UInt8) : Option (List Int) := parseLoop inp 0 0 [] inp

end Verif

import Mathlib.Data.Nat.Digits.Defs

/-! # Independent specifications for the byte and text encodings -/

namespace Verif.Spec

/-- Unsigned big-endian value of a byte string. -/
def unsigned : List UInt8 → Nat
  | [] => 0
  | b :: bs => b.toNat * 256 ^ bs.length + unsigned bs

/-- Two's-complement value of a byte string: the first byte's top bit has weight
`-2^(8·len-1)`. -/
def twos : List UInt8 → Int
  | [] => 0
  | b :: bs => (if 128 ≤ b.toNat then (b.toNat : Int) - 256 else b.toNat) * 256 ^ bs.length
      + unsigned bs

/-- `bs` is a (non-empty) two's-complement encoding of `x`. -/
def Encodes (bs : List UInt8) (x : Int) : Prop := bs ≠ [] ∧ twos bs = x

/-- ASCII code of a decimal digit. -/
def asciiDigit (d : Nat) : UInt8 := UInt8.ofNat (48 + d)

/-- Decimal representation (what a user writes): no leading zeros, `0` for zero. -/
def decNat (n : Nat) : List UInt8 :=
  if n = 0 then [48] else (Nat.digits 10 n).reverse.map asciiDigit

/-- Decimal representation of an integer with a leading minus sign if negative. -/
def decInt (x : Int) : List UInt8 := if x < 0 then 45 :: decNat x.natAbs else decNat x.natAbs

/-- Join with commas. -/
def joinComma : List (List UInt8) → List UInt8
  | [] => []
  | [s] => s
  | s :: t :: ss => s ++ 44 :: joinComma (t :: ss)

/-- Split at every comma; always at least one piece. -/
def splitComma : List UInt8 → List (List UInt8)
  | [] => [[]]
  | c :: r =>
    if c = 44 then [] :: splitComma r
    else match splitComma r with
      | [] => [[c]]
      | h :: t => (c :: h) :: t

/-- An ASCII digit byte. -/
def IsDigit (b : UInt8) : Prop := 48 ≤ b.toNat ∧ b.toNat ≤ 57

/-- Value of a string of digits, most significant first. -/
def digitsVal : List UInt8 → Int
  | [] => 0
  | b :: bs => ((b.toNat : Int) - 48) * 10 ^ bs.length + digitsVal bs

/-- Strings accepted as one integer: every byte is a digit, except that the first may be a
minus sign. (This includes the empty string and the string `-`.) -/
def IntSyntax (s : List UInt8) : Prop :=
  ∀ i b, s[i]? = some b → IsDigit b ∨ (i = 0 ∧ b = 45)

/-- Value of an accepted string. -/
def intValue : List UInt8 → Int
  | 45 :: r => - digitsVal r
  | s => digitsVal s

end Verif.Spec

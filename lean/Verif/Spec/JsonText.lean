import Verif.Model.Json

/-!
# The grammar of JSON (RFC 8259)

Written as a grammar, without the parser of `Model/Json.lean`.
-/

namespace Verif

/-- White space. -/
def Ws (w : List UInt8) : Prop := ∀ b ∈ w, b = 32 ∨ b = 9 ∨ b = 10 ∨ b = 13

/-- A digit. -/
def Digit (b : UInt8) : Prop := 48 ≤ b ∧ b ≤ 57

/-- One or more digits. -/
def Digits (s : List UInt8) : Prop := s ≠ [] ∧ ∀ b ∈ s, Digit b

/-- `int`: zero, or digits which do not begin with zero. -/
def IntText (s : List UInt8) : Prop := s = [48] ∨ (Digits s ∧ s.head? ≠ some 48)

/-- `[ frac ]`. -/
def FracText (s : List UInt8) : Prop := s = [] ∨ ∃ d, s = 46 :: d ∧ Digits d

/-- `[ exp ]`. -/
def ExpText (s : List UInt8) : Prop :=
  s = [] ∨ ∃ e sign d, s = e :: sign ++ d ∧ (e = 69 ∨ e = 101) ∧ (sign = [] ∨ sign = [43] ∨ sign = [45]) ∧ Digits d

/-- `number = [ minus ] int [ frac ] [ exp ]`. -/
def NumText (s : List UInt8) : Prop :=
  ∃ m i f e, s = m ++ i ++ f ++ e ∧ (m = [] ∨ m = [45]) ∧ IntText i ∧ FracText f ∧ ExpText e

/-- A hexadecimal digit. -/
def HexDigit (b : UInt8) : Prop := Digit b ∨ (65 ≤ b ∧ b ≤ 70) ∨ (97 ≤ b ∧ b ≤ 102)

/-- The text between the quotes of a string. -/
inductive StrText : List UInt8 → Prop
  | nil : StrText []
  | plain {b : UInt8} {s : List UInt8} : 32 ≤ b → b ≠ 34 → b ≠ 92 → StrText s → StrText (b :: s)
  | escape {b : UInt8} {s : List UInt8} : b ∈ ([34, 92, 47, 98, 102, 110, 114, 116] : List UInt8) → StrText s → StrText (92 :: b :: s)
  | code {a b c d : UInt8} {s : List UInt8} : HexDigit a → HexDigit b → HexDigit c → HexDigit d → StrText s →
      StrText (92 :: 117 :: a :: b :: c :: d :: s)

mutual
/-- The texts of a value. -/
inductive ValText : List UInt8 → Json → Prop
  | null : ValText (ascii "null") .null
  | true : ValText (ascii "true") (.bool true)
  | false : ValText (ascii "false") (.bool false)
  | num {s : List UInt8} : NumText s → ValText s (.num s)
  | str {s : List UInt8} : StrText s → ValText (34 :: s ++ [34]) (.str s)
  | arrEmpty {w : List UInt8} : Ws w → ValText (91 :: w ++ [93]) (.arr .nil)
  | arr {s : List UInt8} {l : JsonList} : ElemsText s l → ValText (91 :: s ++ [93]) (.arr l)
  | objEmpty {w : List UInt8} : Ws w → ValText (123 :: w ++ [125]) (.obj .nil)
  | obj {s : List UInt8} {m : JsonMembers} : MembersText s m → ValText (123 :: s ++ [125]) (.obj m)
/-- The texts of one or more elements, separated by commas. -/
inductive ElemsText : List UInt8 → JsonList → Prop
  | one {w s w' : List UInt8} {v : Json} : Ws w → ValText s v → Ws w' → ElemsText (w ++ s ++ w') (.cons v .nil)
  | more {w s w' r : List UInt8} {v : Json} {l : JsonList} : Ws w → ValText s v → Ws w' → ElemsText r l →
      ElemsText (w ++ s ++ w' ++ 44 :: r) (.cons v l)
/-- The texts of one or more members, separated by commas. -/
inductive MembersText : List UInt8 → JsonMembers → Prop
  | one {w k w1 w2 s w3 : List UInt8} {v : Json} : Ws w → StrText k → Ws w1 → Ws w2 → ValText s v → Ws w3 →
      MembersText (w ++ 34 :: k ++ 34 :: w1 ++ 58 :: w2 ++ s ++ w3) (.cons k v .nil)
  | more {w k w1 w2 s w3 r : List UInt8} {v : Json} {m : JsonMembers} : Ws w → StrText k → Ws w1 → Ws w2 → ValText s v → Ws w3 →
      MembersText r m → MembersText (w ++ 34 :: k ++ 34 :: w1 ++ 58 :: w2 ++ s ++ w3 ++ 44 :: r) (.cons k v m)
end

/-- A JSON text. -/
def JsonText (s : List UInt8) (j : Json) : Prop := ∃ w t w', s = w ++ t ++ w' ∧ Ws w ∧ ValText t j ∧ Ws w'

/-- The value of a hexadecimal digit. -/
inductive HexVal : UInt8 → Nat → Prop
  | digit (n : Nat) : n < 10 → HexVal (.ofNat (48 + n)) n
  | upper (n : Nat) : n < 6 → HexVal (.ofNat (65 + n)) (10 + n)
  | lower (n : Nat) : n < 6 → HexVal (.ofNat (97 + n)) (10 + n)

/-- `\uXXXX` with the value `n`. -/
def CodeText (s : List UInt8) (n : Nat) : Prop :=
  ∃ a b c d p q r t, s = [92, 117, a, b, c, d] ∧ HexVal a p ∧ HexVal b q ∧ HexVal c r ∧ HexVal d t ∧
    n = p * 4096 + q * 256 + r * 16 + t

/-- The ways to write a character in a string: as it is, with one of the short escapes, or with one or two (UTF-16) numbers. -/
inductive CharText : Char → List UInt8 → Prop
  | plain (c : Char) : 32 ≤ c.toNat → c ≠ '"' → c ≠ '\\' → CharText c (String.utf8EncodeChar c)
  | quote : CharText '"' [92, 34]
  | backslash : CharText '\\' [92, 92]
  | slash : CharText '/' [92, 47]
  | backspace : CharText (.ofNat 8) [92, 98]
  | formFeed : CharText (.ofNat 12) [92, 102]
  | newline : CharText '\n' [92, 110]
  | return : CharText '\r' [92, 114]
  | tab : CharText '\t' [92, 116]
  | code {c : Char} {s : List UInt8} : CodeText s c.toNat → CharText c s
  | pair {c : Char} {s s' : List UInt8} (hi lo : Nat) : hi < 1024 → lo < 1024 → c.toNat = 65536 + hi * 1024 + lo →
      CodeText s (0xD800 + hi) → CodeText s' (0xDC00 + lo) → CharText c (s ++ s')

/-- The replacement character U+FFFD. -/
def replacement : Char := .ofNat 0xFFFD

/-- What stands between the quotes: characters; half of a surrogate pair without the other half, and a byte with which no
character in UTF-8 begins, each read as U+FFFD. -/
inductive CharsText : List Char → List UInt8 → Prop
  | nil : CharsText [] []
  | cons {c : Char} {cs : List Char} {s t : List UInt8} : CharText c s → CharsText cs t → CharsText (c :: cs) (s ++ t)
  | lone {n : Nat} {cs : List Char} {s t : List UInt8} : CodeText s n → 0xD800 ≤ n → n < 0xE000 →
      (∀ (m : Nat) (s' t' : List UInt8), t = s' ++ t' → CodeText s' m → n < 0xDC00 → 0xDC00 ≤ m → m < 0xE000 → False) →
      CharsText cs t → CharsText (replacement :: cs) (s ++ t)
  | bad {b : UInt8} {cs : List Char} {t : List UInt8} : 128 ≤ b → (∀ (c : Char) (t' : List UInt8), b :: t ≠ String.utf8EncodeChar c ++ t') →
      CharsText cs t → CharsText (replacement :: cs) (b :: t)

/-- The letters which are taken for each other in names: upper and lower case, the Kelvin sign as a K, the long s as an S. -/
def letters : List (List Char) :=
  [['A', 'a'], ['B', 'b'], ['C', 'c'], ['D', 'd'], ['E', 'e'], ['F', 'f'], ['G', 'g'], ['H', 'h'], ['I', 'i'],
   ['J', 'j'], ['K', 'k', .ofNat 0x212A], ['L', 'l'], ['M', 'm'], ['N', 'n'], ['O', 'o'], ['P', 'p'], ['Q', 'q'],
   ['R', 'r'], ['S', 's', .ofNat 0x17F], ['T', 't'], ['U', 'u'], ['V', 'v'], ['W', 'w'], ['X', 'x'], ['Y', 'y'],
   ['Z', 'z']]

/-- The same character up to case. -/
def SameLetter (c d : Char) : Prop := c = d ∨ ∃ g ∈ letters, c ∈ g ∧ d ∈ g

end Verif

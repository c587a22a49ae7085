import Verif.Model.Bp

/-!
# Model of the JSON transport of proofs

README.md:63-70 and the tests (bulletproofs/bp_test.go:94-105, bprp_test.go:78-105) send proofs with
Go's `encoding/json`.  The repository contributes the types only (exported fields, no tags); the
functions below are a reading of `encoding/json` and of `big.Int.MarshalJSON`/`UnmarshalJSON`.

Simplifications: elements of a slice are always decoded into fresh memory (Go may reuse memory when a
key occurs twice), nesting is not limited to 10000, and what a failed decoding leaves in its target is
not modelled here (see `Model/JsonErr.lean`).
-/

namespace Verif

mutual
/-- JSON values; numbers are kept as literals, strings and keys as the bytes between the quotes, with their escapes. -/
inductive Json where
  | null
  | bool (b : Bool)
  | num (lit : List UInt8)
  | str (s : List UInt8)
  | arr (l : JsonList)
  | obj (m : JsonMembers)
/-- Elements of an array. -/
inductive JsonList where
  | nil
  | cons (v : Json) (l : JsonList)
/-- Members of an object. -/
inductive JsonMembers where
  | nil
  | cons (key : List UInt8) (v : Json) (m : JsonMembers)
end

/-! ### Text -/

mutual
/-- Compact JSON text, as `json.Marshal` writes it (`[` = 91, `]` = 93, `{` = 123, `}` = 125,
`"` = 34, `:` = 58, `,` = 44). -/
def Json.print : Json → List UInt8
  | .null => [110, 117, 108, 108]
  | .bool true => [116, 114, 117, 101]
  | .bool false => [102, 97, 108, 115, 101]
  | .num lit => lit
  | .str s => 34 :: s ++ [34]
  | .arr .nil => [91, 93]
  | .arr (.cons v l) => 91 :: v.print ++ l.print
  | .obj .nil => [123, 125]
  | .obj (.cons k v m) => 123 :: 34 :: k ++ 34 :: 58 :: v.print ++ m.print
/-- The elements after the first, with the closing bracket. -/
def JsonList.print : JsonList → List UInt8
  | .nil => [93]
  | .cons v l => 44 :: v.print ++ l.print
/-- The members after the first, with the closing brace. -/
def JsonMembers.print : JsonMembers → List UInt8
  | .nil => [125]
  | .cons k v m => 44 :: 34 :: k ++ 34 :: 58 :: v.print ++ m.print
end

/-- JSON white space. -/
def isWs (b : UInt8) : Bool := b == 32 || b == 9 || b == 10 || b == 13

/-- Skip white space. -/
def skipWs (s : List UInt8) : List UInt8 := s.dropWhile isWs

/-- ASCII digit. -/
def isDig (b : UInt8) : Bool := 48 ≤ b && b ≤ 57

/-- Bytes of number literals: digits and `+ - . E e`. -/
def isNumByte (b : UInt8) : Bool := isDig b || b == 43 || b == 45 || b == 46 || b == 69 || b == 101

/-- A nonempty string of digits. -/
def digits1 (s : List UInt8) : Bool := !s.isEmpty && s.all isDig

/-- The exponent of a number literal: empty, or `e`, an optional sign and digits. -/
def validExp : List UInt8 → Bool
  | [] => true
  | c :: r => (c == 69 || c == 101) &&
      match r with
      | [] => false
      | d :: t => if d == 43 || d == 45 then digits1 t else digits1 (d :: t)

/-- Fraction and exponent of a number literal. -/
def validFrac : List UInt8 → Bool
  | [] => true
  | c :: r => if c == 46 then digits1 (r.takeWhile isDig) && validExp (r.dropWhile isDig) else validExp (c :: r)

/-- A number literal after the sign: `0`, or digits without leading zero, then fraction and exponent. -/
def validNat : List UInt8 → Bool
  | [] => false
  | c :: r => if c == 48 then validFrac r else isDig c && validFrac (r.dropWhile isDig)

/-- The JSON grammar of numbers. -/
def validNum : List UInt8 → Bool
  | [] => false
  | c :: r => if c == 45 then validNat r else validNat (c :: r)

/-- Bytes which may stand unescaped between quotes (everything except control characters, `"` and
`\`). -/
def isStrByte (b : UInt8) : Bool := 32 ≤ b && b != 34 && b != 92

/-- A hexadecimal digit. -/
def isHex (b : UInt8) : Bool := isDig b || (65 ≤ b && b ≤ 70) || (97 ≤ b && b ≤ 102)

/-- Bytes which may follow a backslash: `"`, `\`, `/`, `b`, `f`, `n`, `r`, `t`. -/
def isEsc (b : UInt8) : Bool := b == 34 || b == 92 || b == 47 || b == 98 || b == 102 || b == 110 || b == 114 || b == 116

/-- The bytes up to the closing quote, and the rest. -/
def parseStr : List UInt8 → Option (List UInt8 × List UInt8)
  | [] => none
  | c :: r =>
    if c = 34 then some ([], r)
    else if c = 92 then
      match r with
      | [] => none
      | e :: r =>
        if e = 117 then
          match r with
          | h1 :: h2 :: h3 :: h4 :: r =>
            if isHex h1 && isHex h2 && isHex h3 && isHex h4 then
              (parseStr r).map fun p => (92 :: 117 :: h1 :: h2 :: h3 :: h4 :: p.1, p.2)
            else none
          | _ => none
        else if isEsc e then (parseStr r).map fun p => (92 :: e :: p.1, p.2)
        else none
    else if 32 ≤ c then (parseStr r).map fun p => (c :: p.1, p.2)
    else none

mutual
/-- Parse a value (after optional white space); the result is the value and the remaining bytes.
The first argument bounds the recursion. -/
def parseVal : Nat → List UInt8 → Option (Json × List UInt8)
  | 0, _ => none
  | fuel + 1, s =>
    match skipWs s with
    | [] => none
    | c :: r =>
      if c = 123 then
        match skipWs r with
        | [] => none
        | d :: t =>
          if d = 125 then some (.obj .nil, t)
          else do
            let (m, t) ← parseMembers fuel (d :: t)
            some (.obj m, t)
      else if c = 91 then
        match skipWs r with
        | [] => none
        | d :: t =>
          if d = 93 then some (.arr .nil, t)
          else do
            let (l, t) ← parseElems fuel (d :: t)
            some (.arr l, t)
      else if c = 34 then do
        let (s, t) ← parseStr r
        some (.str s, t)
      else if c = 110 then
        if r.take 3 = [117, 108, 108] then some (.null, r.drop 3) else none
      else if c = 116 then
        if r.take 3 = [114, 117, 101] then some (.bool true, r.drop 3) else none
      else if c = 102 then
        if r.take 4 = [97, 108, 115, 101] then some (.bool false, r.drop 4) else none
      else
        let lit := (c :: r).takeWhile isNumByte
        if validNum lit then some (.num lit, (c :: r).dropWhile isNumByte) else none
/-- Elements of an array up to and including the closing bracket. -/
def parseElems : Nat → List UInt8 → Option (JsonList × List UInt8)
  | 0, _ => none
  | fuel + 1, s => do
    let (v, t) ← parseVal fuel s
    match skipWs t with
    | [] => none
    | c :: r =>
      if c = 93 then some (.cons v .nil, r)
      else if c = 44 then do
        let (l, t) ← parseElems fuel r
        some (.cons v l, t)
      else none
/-- Members of an object up to and including the closing brace. -/
def parseMembers : Nat → List UInt8 → Option (JsonMembers × List UInt8)
  | 0, _ => none
  | fuel + 1, s =>
    match skipWs s with
    | [] => none
    | c :: r =>
      if c = 34 then do
        let (k, t) ← parseStr r
        match skipWs t with
        | [] => none
        | d :: t =>
          if d = 58 then do
            let (v, t) ← parseVal fuel t
            match skipWs t with
            | [] => none
            | e :: t =>
              if e = 125 then some (.cons k v .nil, t)
              else if e = 44 then do
                let (m, t) ← parseMembers fuel t
                some (.cons k v m, t)
              else none
          else none
      else none
end

/-- A whole JSON text: one value, surrounded by white space. -/
def parseJson (s : List UInt8) : Option Json := do
  let (v, t) ← parseVal (s.length + 1) s
  if skipWs t = [] then some v else none

/-! ### Go values -/

/-- Value of a hexadecimal digit. -/
def hexVal (b : UInt8) : Nat := if b ≤ 57 then b.toNat - 48 else if b ≤ 70 then b.toNat - 55 else b.toNat - 87

/-- Four hexadecimal digits. -/
def hex4 (a b c d : UInt8) : Nat := ((hexVal a * 16 + hexVal b) * 16 + hexVal c) * 16 + hexVal d

/-- UTF-8 bytes of a code point. -/
def utf8 (n : Nat) : List UInt8 :=
  if n < 0x80 then [.ofNat n]
  else if n < 0x800 then [.ofNat (0xC0 + n / 64), .ofNat (0x80 + n % 64)]
  else if n < 0x10000 then [.ofNat (0xE0 + n / 4096), .ofNat (0x80 + n / 64 % 64), .ofNat (0x80 + n % 64)]
  else [.ofNat (0xF0 + n / 262144), .ofNat (0x80 + n / 4096 % 64), .ofNat (0x80 + n / 64 % 64), .ofNat (0x80 + n % 64)]

/-- The replacement character U+FFFD. -/
def badRune : List UInt8 := [239, 191, 189]

/-- A byte which continues a character in UTF-8. -/
def isCont (b : UInt8) : Bool := 128 ≤ b && b ≤ 191

/-- A first byte `c ≥ 128` and the bytes after it: the character, or U+FFFD for one byte if they are not UTF-8. -/
def takeRune (c : UInt8) (r : List UInt8) : List UInt8 × List UInt8 :=
  if 194 ≤ c && c ≤ 223 then
    match r with
    | x :: t => if isCont x then ([c, x], t) else (badRune, r)
    | _ => (badRune, r)
  else if 224 ≤ c && c ≤ 239 then
    match r with
    | x :: y :: t =>
      if isCont x && isCont y && (c != 224 || 160 ≤ x) && (c != 237 || x ≤ 159) then ([c, x, y], t) else (badRune, r)
    | _ => (badRune, r)
  else if 240 ≤ c && c ≤ 244 then
    match r with
    | x :: y :: z :: t =>
      if isCont x && isCont y && isCont z && (c != 240 || 144 ≤ x) && (c != 244 || x ≤ 143) then ([c, x, y, z], t) else (badRune, r)
    | _ => (badRune, r)
  else (badRune, r)

/-- What a single escape stands for. -/
def escByte (e : UInt8) : UInt8 :=
  if e = 98 then 8 else if e = 102 then 12 else if e = 110 then 10 else if e = 114 then 13 else if e = 116 then 9 else e

/-- `\uXXXX` with the value `n`, before `r`: two surrogates make one character, a lone one is U+FFFD. -/
def takeU (n : Nat) (r : List UInt8) : List UInt8 × List UInt8 :=
  if 0xD800 ≤ n && n < 0xE000 then
    match r with
    | b :: u :: h1 :: h2 :: h3 :: h4 :: t =>
      let n' := hex4 h1 h2 h3 h4
      if b == 92 && u == 117 && n < 0xDC00 && 0xDC00 ≤ n' && n' < 0xE000 then
        (utf8 (0x10000 + (n - 0xD800) * 1024 + (n' - 0xDC00)), t)
      else (badRune, r)
    | _ => (badRune, r)
  else (utf8 n, r)

/-- The first character of a string literal: its bytes, and the rest of the literal. -/
def takeChar (c : UInt8) (r : List UInt8) : List UInt8 × List UInt8 :=
  if c = 92 then
    match r with
    | e :: t =>
      if e = 117 then
        match t with
        | h1 :: h2 :: h3 :: h4 :: t => takeU (hex4 h1 h2 h3 h4) t
        | _ => ([], t)
      else ([escByte e], t)
    | [] => ([], [])
  else if c < 128 then ([c], r)
  else takeRune c r

/-- At most `n` characters of a string literal. -/
def unquoteN : Nat → List UInt8 → List UInt8
  | n + 1, c :: r => (takeChar c r).1 ++ unquoteN n (takeChar c r).2
  | _, _ => []

/-- The string which a literal stands for. -/
def unquote (s : List UInt8) : List UInt8 := unquoteN s.length s

/-- ASCII lower case. -/
def lowerByte (b : UInt8) : UInt8 := if 65 ≤ b && b ≤ 90 then b + 32 else b

/-- A key up to case.  The only letters outside ASCII which fold to an ASCII letter are `ſ` (bytes 197, 191) and
the Kelvin sign (bytes 226, 132, 170); `encoding/json` folds them to `s` and `k`. -/
def foldKey : List UInt8 → List UInt8
  | [] => []
  | 197 :: 191 :: r => 115 :: foldKey r
  | 226 :: 132 :: 170 :: r => 107 :: foldKey r
  | b :: r => lowerByte b :: foldKey r

/-- The field with which a key is matched: the one with exactly this name, otherwise the first one
with this name up to case. -/
def findField {F : Type} (fs : List (List UInt8 × F)) (key : List UInt8) : Option F :=
  match fs.find? (fun f => f.1 == key) with
  | some f => some f.2
  | none => (fs.find? (fun f => foldKey f.1 == foldKey key)).map (·.2)

/-- Decode the members of an object into a struct: unknown keys are skipped, fields which do not
occur keep their value. -/
def decFields {T : Type} (fs : List (List UInt8 × (Json → T → Option T))) : JsonMembers → T → Option T
  | .nil, t => some t
  | .cons k v m, t =>
    match findField fs (unquote k) with
    | none => decFields fs m t
    | some f => do
      let t ← f v t
      decFields fs m t

/-- Decode into a struct: `null` has no effect, other values than objects are an error. -/
def decStruct {T : Type} (fs : List (List UInt8 × (Json → T → Option T))) (j : Json) (t : T) : Option T :=
  match j with
  | .null => some t
  | .obj m => decFields fs m t
  | _ => none

/-- A field of a struct. -/
def fieldOf {T A : Type} (get : T → A) (set : A → T → T) (dec : Json → A → Option A) (j : Json) (t : T) : Option T := do
  let a ← dec j (get t)
  some (set a t)

/-- Integer value of a number literal; literals with fraction or exponent are rejected, both by
`strconv.ParseInt` and by `big.Int.UnmarshalText`. -/
def intLit (lit : List UInt8) : Option Int :=
  if lit.all (fun b => isDig b || b == 45) then some (setString10 lit) else none

/-- Decode into an `int64`. -/
def decInt64 (j : Json) (old : Int) : Option Int :=
  match j with
  | .null => some old
  | .num lit => do
    let v ← intLit lit
    if -2 ^ 63 ≤ v ∧ v < 2 ^ 63 then some v else none
  | _ => none

/-- Decode into a `*big.Int`. -/
def decBig (j : Json) (_ : Option Int) : Option (Option Int) :=
  match j with
  | .null => some none
  | .num lit => (intLit lit).map some
  | _ => none

/-- Decode into a pointer: `null` gives nil, other values are decoded into the target, which is
allocated if the pointer is nil. -/
def decPtr {T : Type} (zero : T) (dec : Json → T → Option T) (j : Json) (old : Option T) : Option (Option T) :=
  match j with
  | .null => some none
  | j => (dec j (old.getD zero)).map some

/-- Decode the elements of an array. -/
def decElems {T : Type} (dec : Json → Option T) : JsonList → Option (List T)
  | .nil => some []
  | .cons v l => do
    let a ← dec v
    let r ← decElems dec l
    some (a :: r)

/-- Decode into a slice: `null` gives nil. -/
def decSlice {T : Type} (dec : Json → Option T) (j : Json) (_ : Option (List T)) : Option (Option (List T)) :=
  match j with
  | .null => some none
  | .arr l => (decElems dec l).map some
  | _ => none

/-- A JSON number with an integer value (`strconv.AppendInt`, `big.Int.MarshalJSON`). -/
def encInt (v : Int) : Json := .num (decimal (some v))

/-- Encode a pointer. -/
def encPtr {T : Type} (enc : T → Json) : Option T → Json
  | none => .null
  | some t => enc t

/-- Array of the encoded elements. -/
def encElems {T : Type} (enc : T → Json) : List T → JsonList
  | [] => .nil
  | a :: l => .cons (enc a) (encElems enc l)

/-- Encode a slice; a nil slice is `null`. -/
def encSlice {T : Type} (enc : T → Json) : Option (List T) → Json
  | none => .null
  | some l => .arr (encElems enc l)

/-- Object with the given members. -/
def encObj : List (List UInt8 × Json) → JsonMembers
  | [] => .nil
  | (k, v) :: m => .cons k v (encObj m)

/-- `P256` as JSON, crypto/p256/p256.go:41-43. -/
def encP256 (p : P256) : Json :=
  .obj (encObj [(ascii "X", encPtr encInt p.X), (ascii "Y", encPtr encInt p.Y)])

/-- `P256` from JSON. -/
def decP256 : Json → P256 → Option P256 := decStruct
  [(ascii "X", fieldOf P256.X (fun a t => { t with X := a }) decBig),
   (ascii "Y", fieldOf P256.Y (fun a t => { t with Y := a }) decBig)]

/-- A `*P256` as JSON. -/
def encPoint : Option P256 → Json := encPtr encP256
/-- A `*P256` from JSON. -/
def decPoint : Json → Option P256 → Option (Option P256) := decPtr ⟨none, none⟩ decP256
/-- A `[]*P256` as JSON. -/
def encPoints : Option (List (Option P256)) → Json := encSlice encPoint
/-- A `[]*P256` from JSON. -/
def decPoints : Json → Option (List (Option P256)) → Option (Option (List (Option P256))) :=
  decSlice (fun j => decPoint j none)

/-- `InnerProductParams`, bulletproofs/bip.go:36-44, with all pointers and slices possibly nil. -/
structure GoIPParams where
  N : Int
  Cc : Option Int
  Uu : Option P256
  H : Option P256
  Gg : Option (List (Option P256))
  Hh : Option (List (Option P256))
  P : Option P256
  deriving DecidableEq

/-- The zero value. -/
def GoIPParams.zero : GoIPParams := ⟨0, none, none, none, none, none, none⟩

/-- `InnerProductParams` as JSON. -/
def encIPParams (p : GoIPParams) : Json :=
  .obj (encObj [(ascii "N", encInt p.N), (ascii "Cc", encPtr encInt p.Cc), (ascii "Uu", encPoint p.Uu),
    (ascii "H", encPoint p.H), (ascii "Gg", encPoints p.Gg), (ascii "Hh", encPoints p.Hh), (ascii "P", encPoint p.P)])

/-- `InnerProductParams` from JSON. -/
def decIPParams : Json → GoIPParams → Option GoIPParams := decStruct
  [(ascii "N", fieldOf GoIPParams.N (fun a t => { t with N := a }) decInt64),
   (ascii "Cc", fieldOf GoIPParams.Cc (fun a t => { t with Cc := a }) decBig),
   (ascii "Uu", fieldOf GoIPParams.Uu (fun a t => { t with Uu := a }) decPoint),
   (ascii "H", fieldOf GoIPParams.H (fun a t => { t with H := a }) decPoint),
   (ascii "Gg", fieldOf GoIPParams.Gg (fun a t => { t with Gg := a }) decPoints),
   (ascii "Hh", fieldOf GoIPParams.Hh (fun a t => { t with Hh := a }) decPoints),
   (ascii "P", fieldOf GoIPParams.P (fun a t => { t with P := a }) decPoint)]

/-- `InnerProductProof`, bulletproofs/bip.go:49-60, with all pointers and slices possibly nil. -/
structure GoIPProof where
  N : Int
  Ls : Option (List (Option P256))
  Rs : Option (List (Option P256))
  U : Option P256
  P : Option P256
  Gg : Option P256
  Hh : Option P256
  A : Option Int
  B : Option Int
  Params : GoIPParams
  deriving DecidableEq

/-- The zero value. -/
def GoIPProof.zero : GoIPProof := ⟨0, none, none, none, none, none, none, none, none, GoIPParams.zero⟩

/-- `InnerProductProof` as JSON. -/
def encIPProof (p : GoIPProof) : Json :=
  .obj (encObj [(ascii "N", encInt p.N), (ascii "Ls", encPoints p.Ls), (ascii "Rs", encPoints p.Rs),
    (ascii "U", encPoint p.U), (ascii "P", encPoint p.P), (ascii "Gg", encPoint p.Gg), (ascii "Hh", encPoint p.Hh),
    (ascii "A", encPtr encInt p.A), (ascii "B", encPtr encInt p.B), (ascii "Params", encIPParams p.Params)])

/-- `InnerProductProof` from JSON. -/
def decIPProof : Json → GoIPProof → Option GoIPProof := decStruct
  [(ascii "N", fieldOf GoIPProof.N (fun a t => { t with N := a }) decInt64),
   (ascii "Ls", fieldOf GoIPProof.Ls (fun a t => { t with Ls := a }) decPoints),
   (ascii "Rs", fieldOf GoIPProof.Rs (fun a t => { t with Rs := a }) decPoints),
   (ascii "U", fieldOf GoIPProof.U (fun a t => { t with U := a }) decPoint),
   (ascii "P", fieldOf GoIPProof.P (fun a t => { t with P := a }) decPoint),
   (ascii "Gg", fieldOf GoIPProof.Gg (fun a t => { t with Gg := a }) decPoint),
   (ascii "Hh", fieldOf GoIPProof.Hh (fun a t => { t with Hh := a }) decPoint),
   (ascii "A", fieldOf GoIPProof.A (fun a t => { t with A := a }) decBig),
   (ascii "B", fieldOf GoIPProof.B (fun a t => { t with B := a }) decBig),
   (ascii "Params", fieldOf GoIPProof.Params (fun a t => { t with Params := a }) decIPParams)]

/-- `BulletProofSetupParams`, bulletproofs/bp.go:36-51. -/
structure GoBPParams where
  N : Int
  G : Option P256
  H : Option P256
  Gg : Option (List (Option P256))
  Hh : Option (List (Option P256))
  InnerProductParams : GoIPParams
  deriving DecidableEq

/-- The zero value. -/
def GoBPParams.zero : GoBPParams := ⟨0, none, none, none, none, GoIPParams.zero⟩

/-- `BulletProofSetupParams` as JSON. -/
def encBPParams (p : GoBPParams) : Json :=
  .obj (encObj [(ascii "N", encInt p.N), (ascii "G", encPoint p.G), (ascii "H", encPoint p.H),
    (ascii "Gg", encPoints p.Gg), (ascii "Hh", encPoints p.Hh),
    (ascii "InnerProductParams", encIPParams p.InnerProductParams)])

/-- `BulletProofSetupParams` from JSON. -/
def decBPParams : Json → GoBPParams → Option GoBPParams := decStruct
  [(ascii "N", fieldOf GoBPParams.N (fun a t => { t with N := a }) decInt64),
   (ascii "G", fieldOf GoBPParams.G (fun a t => { t with G := a }) decPoint),
   (ascii "H", fieldOf GoBPParams.H (fun a t => { t with H := a }) decPoint),
   (ascii "Gg", fieldOf GoBPParams.Gg (fun a t => { t with Gg := a }) decPoints),
   (ascii "Hh", fieldOf GoBPParams.Hh (fun a t => { t with Hh := a }) decPoints),
   (ascii "InnerProductParams",
     fieldOf GoBPParams.InnerProductParams (fun a t => { t with InnerProductParams := a }) decIPParams)]

/-- `BulletProof`, bulletproofs/bp.go:57-69. -/
structure GoBPProof where
  V : Option P256
  A : Option P256
  S : Option P256
  T1 : Option P256
  T2 : Option P256
  Taux : Option Int
  Mu : Option Int
  Tprime : Option Int
  InnerProductProof : GoIPProof
  Commit : Option P256
  Params : GoBPParams
  deriving DecidableEq

/-- The zero value. -/
def GoBPProof.zero : GoBPProof :=
  ⟨none, none, none, none, none, none, none, none, GoIPProof.zero, none, GoBPParams.zero⟩

/-- `BulletProof` as JSON. -/
def encBPProof (p : GoBPProof) : Json :=
  .obj (encObj [(ascii "V", encPoint p.V), (ascii "A", encPoint p.A), (ascii "S", encPoint p.S),
    (ascii "T1", encPoint p.T1), (ascii "T2", encPoint p.T2), (ascii "Taux", encPtr encInt p.Taux),
    (ascii "Mu", encPtr encInt p.Mu), (ascii "Tprime", encPtr encInt p.Tprime),
    (ascii "InnerProductProof", encIPProof p.InnerProductProof), (ascii "Commit", encPoint p.Commit),
    (ascii "Params", encBPParams p.Params)])

/-- `BulletProof` from JSON. -/
def decBPProof : Json → GoBPProof → Option GoBPProof := decStruct
  [(ascii "V", fieldOf GoBPProof.V (fun a t => { t with V := a }) decPoint),
   (ascii "A", fieldOf GoBPProof.A (fun a t => { t with A := a }) decPoint),
   (ascii "S", fieldOf GoBPProof.S (fun a t => { t with S := a }) decPoint),
   (ascii "T1", fieldOf GoBPProof.T1 (fun a t => { t with T1 := a }) decPoint),
   (ascii "T2", fieldOf GoBPProof.T2 (fun a t => { t with T2 := a }) decPoint),
   (ascii "Taux", fieldOf GoBPProof.Taux (fun a t => { t with Taux := a }) decBig),
   (ascii "Mu", fieldOf GoBPProof.Mu (fun a t => { t with Mu := a }) decBig),
   (ascii "Tprime", fieldOf GoBPProof.Tprime (fun a t => { t with Tprime := a }) decBig),
   (ascii "InnerProductProof",
     fieldOf GoBPProof.InnerProductProof (fun a t => { t with InnerProductProof := a }) decIPProof),
   (ascii "Commit", fieldOf GoBPProof.Commit (fun a t => { t with Commit := a }) decPoint),
   (ascii "Params", fieldOf GoBPProof.Params (fun a t => { t with Params := a }) decBPParams)]

/-- `ProofBPRP`, bulletproofs/bprp.go:38-41. -/
structure GoBPRPProof where
  P1 : GoBPProof
  P2 : GoBPProof
  deriving DecidableEq

/-- The zero value. -/
def GoBPRPProof.zero : GoBPRPProof := ⟨GoBPProof.zero, GoBPProof.zero⟩

/-- `ProofBPRP` as JSON. -/
def encBPRPProof (p : GoBPRPProof) : Json :=
  .obj (encObj [(ascii "P1", encBPProof p.P1), (ascii "P2", encBPProof p.P2)])

/-- `ProofBPRP` from JSON. -/
def decBPRPProof : Json → GoBPRPProof → Option GoBPRPProof := decStruct
  [(ascii "P1", fieldOf GoBPRPProof.P1 (fun a t => { t with P1 := a }) decBPProof),
   (ascii "P2", fieldOf GoBPRPProof.P2 (fun a t => { t with P2 := a }) decBPProof)]

/-- `json.Marshal(proof)` of a `BulletProof`. -/
def marshalBP (p : GoBPProof) : List UInt8 := (encBPProof p).print
/-- `json.Unmarshal(text, &proof)` into a zero `BulletProof`; `none` is the error return. -/
def unmarshalBP (s : List UInt8) : Option GoBPProof := do
  let j ← parseJson s
  decBPProof j GoBPProof.zero

/-- `json.Marshal(proof)` of a `ProofBPRP`. -/
def marshalBPRP (p : GoBPRPProof) : List UInt8 := (encBPRPProof p).print
/-- `json.Unmarshal(text, &proof)` into a zero `ProofBPRP`; `none` is the error return. -/
def unmarshalBPRP (s : List UInt8) : Option GoBPRPProof := do
  let j ← parseJson s
  decBPRPProof j GoBPRPProof.zero

/-! ### Verification of decoded proofs -/

/-- All elements of a slice of pointers, if none is nil. -/
def derefs (l : Option (List (Option P256))) : Option (List P256) := (l.getD []).mapM id

/-- The dereferenced parameters, if no pointer is nil. -/
def GoIPParams.deref (p : GoIPParams) : Option IPParams := do
  some { N := p.N, Cc := ← p.Cc, Uu := ← p.Uu, H := ← p.H, Gg := ← derefs p.Gg, Hh := ← derefs p.Hh, P := ← p.P }

/-- The dereferenced proof, if no pointer is nil. -/
def GoIPProof.deref (p : GoIPProof) : Option IPProof := do
  some { N := p.N, Ls := ← derefs p.Ls, Rs := ← derefs p.Rs, U := ← p.U, P := ← p.P, Gg := ← p.Gg, Hh := ← p.Hh,
         A := ← p.A, B := ← p.B, Params := ← p.Params.deref }

/-- The dereferenced parameters, if no pointer is nil. -/
def GoBPParams.deref (p : GoBPParams) : Option BPParams := do
  some { N := p.N, G := ← p.G, H := ← p.H, Gg := ← derefs p.Gg, Hh := ← derefs p.Hh }

/-- The dereferenced proof, if no pointer is nil. -/
def GoBPProof.deref (p : GoBPProof) : Option BPProof := do
  some { V := ← p.V, A := ← p.A, S := ← p.S, T1 := ← p.T1, T2 := ← p.T2, Taux := ← p.Taux, Mu := ← p.Mu,
         Tprime := ← p.Tprime, IP := ← p.InnerProductProof.deref, Commit := ← p.Commit, Params := ← p.Params.deref,
         ParamsIP := ← p.Params.InnerProductParams.deref }

/-- The dereferenced proof, if no pointer is nil. -/
def GoBPRPProof.deref (p : GoBPRPProof) : Option BPRPProof := do
  some { P1 := ← p.P1.deref, P2 := ← p.P2.deref }

/-- A slice of non-nil pointers; `append` and `make` never give an empty non-nil slice in `Prove`,
an empty `Ls` or `Rs` is nil. -/
def points (l : List P256) : Option (List (Option P256)) := if l = [] then none else some (l.map some)

/-- The Go value of parameters without nil pointers. -/
def IPParams.toGo (p : IPParams) : GoIPParams :=
  ⟨p.N, some p.Cc, some p.Uu, some p.H, points p.Gg, points p.Hh, some p.P⟩

/-- The Go value of a proof without nil pointers. -/
def IPProof.toGo (p : IPProof) : GoIPProof :=
  ⟨p.N, points p.Ls, points p.Rs, some p.U, some p.P, some p.Gg, some p.Hh, some p.A, some p.B, p.Params.toGo⟩

/-- The Go value of a proof without nil pointers. -/
def BPProof.toGo (p : BPProof) : GoBPProof :=
  ⟨some p.V, some p.A, some p.S, some p.T1, some p.T2, some p.Taux, some p.Mu, some p.Tprime, p.IP.toGo,
    some p.Commit, ⟨p.Params.N, some p.Params.G, some p.Params.H, points p.Params.Gg, points p.Params.Hh,
      p.ParamsIP.toGo⟩⟩

/-- The Go value of a proof without nil pointers. -/
def BPRPProof.toGo (p : BPRPProof) : GoBPRPProof := ⟨p.P1.toGo, p.P2.toGo⟩

end Verif

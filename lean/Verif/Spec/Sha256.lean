/-!
# SHA-256

The hash function of FIPS 180-4, on byte strings of fewer than `2^61` bytes, with 32-bit words as natural numbers
(so that the kernel can evaluate it).
-/

namespace Verif.Sha256

/-- FIPS 180-4, 4.2.2: the constants `K`. -/
def K : List Nat := [
  0x428a2f98, 0x71374491, 0xb5c0fbcf, 0xe9b5dba5, 0x3956c25b, 0x59f111f1, 0x923f82a4, 0xab1c5ed5,
  0xd807aa98, 0x12835b01, 0x243185be, 0x550c7dc3, 0x72be5d74, 0x80deb1fe, 0x9bdc06a7, 0xc19bf174,
  0xe49b69c1, 0xefbe4786, 0x0fc19dc6, 0x240ca1cc, 0x2de92c6f, 0x4a7484aa, 0x5cb0a9dc, 0x76f988da,
  0x983e5152, 0xa831c66d, 0xb00327c8, 0xbf597fc7, 0xc6e00bf3, 0xd5a79147, 0x06ca6351, 0x14292967,
  0x27b70a85, 0x2e1b2138, 0x4d2c6dfc, 0x53380d13, 0x650a7354, 0x766a0abb, 0x81c2c92e, 0x92722c85,
  0xa2bfe8a1, 0xa81a664b, 0xc24b8b70, 0xc76c51a3, 0xd192e819, 0xd6990624, 0xf40e3585, 0x106aa070,
  0x19a4c116, 0x1e376c08, 0x2748774c, 0x34b0bcb5, 0x391c0cb3, 0x4ed8aa4a, 0x5b9cca4f, 0x682e6ff3,
  0x748f82ee, 0x78a5636f, 0x84c87814, 0x8cc70208, 0x90befffa, 0xa4506ceb, 0xbef9a3f7, 0xc67178f2]

/-- FIPS 180-4, 5.3.3: the initial hash value. -/
def H0 : List Nat := [
  0x6a09e667, 0xbb67ae85, 0x3c6ef372, 0xa54ff53a, 0x510e527f, 0x9b05688c, 0x1f83d9ab, 0x5be0cd19]

/-- A 32-bit word. -/
def w32 (n : Nat) : Nat := n % 4294967296

/-- FIPS 180-4, 3.2: `ROTR`. -/
def rotr (n x : Nat) : Nat := (x >>> n) ||| w32 (x <<< (32 - n))

/-- FIPS 180-4, 4.1.2: `Ch`. -/
def ch (x y z : Nat) : Nat := (x &&& y) ^^^ ((4294967295 ^^^ x) &&& z)
/-- `Maj`. -/
def maj (x y z : Nat) : Nat := (x &&& y) ^^^ (x &&& z) ^^^ (y &&& z)
/-- `Σ₀`. -/
def bsig0 (x : Nat) : Nat := rotr 2 x ^^^ rotr 13 x ^^^ rotr 22 x
/-- `Σ₁`. -/
def bsig1 (x : Nat) : Nat := rotr 6 x ^^^ rotr 11 x ^^^ rotr 25 x
/-- `σ₀`. -/
def ssig0 (x : Nat) : Nat := rotr 7 x ^^^ rotr 18 x ^^^ (x >>> 3)
/-- `σ₁`. -/
def ssig1 (x : Nat) : Nat := rotr 17 x ^^^ rotr 19 x ^^^ (x >>> 10)

/-- FIPS 180-4, 5.1.1: padding to a multiple of 64 bytes. -/
def pad (m : List UInt8) : List UInt8 :=
  m ++ [128] ++ List.replicate ((119 - m.length % 64) % 64) 0 ++
    (List.range 8).map (fun i => UInt8.ofNat (8 * m.length / 256 ^ (7 - i)))

/-- Big-endian 32-bit words. -/
def words : List UInt8 → List Nat
  | a :: b :: c :: d :: r => (a.toNat * 16777216 + b.toNat * 65536 + c.toNat * 256 + d.toNat) :: words r
  | _ => []

/-- FIPS 180-4, 6.2.2, step 1: `n` further words of the message schedule; the argument holds the last 16 words. -/
def schedule : Nat → List Nat → List Nat
  | n + 1, w0 :: w1 :: w2 :: w3 :: w4 :: w5 :: w6 :: w7 :: w8 :: w9 :: w10 :: w11 :: w12 :: w13 :: w14 :: w15 :: _ =>
    let w16 := w32 (ssig1 w14 + w9 + ssig0 w1 + w0)
    w16 :: schedule n [w1, w2, w3, w4, w5, w6, w7, w8, w9, w10, w11, w12, w13, w14, w15, w16]
  | _, _ => []

/-- FIPS 180-4, 6.2.2, step 3: the rounds, over pairs `(Kₜ, Wₜ)`. -/
def rounds : List (Nat × Nat) → List Nat → List Nat
  | (k, w) :: r, [a, b, c, d, e, f, g, h] =>
    let t1 := h + bsig1 e + ch e f g + k + w
    let t2 := bsig0 a + maj a b c
    rounds r [w32 (t1 + t2), a, b, c, w32 (d + t1), e, f, g]
  | _, s => s

/-- FIPS 180-4, 6.2.2: the compression of one block. -/
def compress (s : List Nat) (block : List Nat) : List Nat :=
  List.zipWith (fun a b => w32 (a + b)) s (rounds (K.zip (block ++ schedule 48 block)) s)

/-- All blocks, `n` of them. -/
def blocks : Nat → List Nat → List Nat → List Nat
  | 0, _, s => s
  | n + 1, w, s => blocks n (w.drop 16) (compress s (w.take 16))

/-- Big-endian bytes of a word. -/
def wordBytes (w : Nat) : List UInt8 :=
  [UInt8.ofNat (w / 16777216), UInt8.ofNat (w / 65536), UInt8.ofNat (w / 256), UInt8.ofNat w]

/-- SHA-256. -/
def sha256 (m : List UInt8) : List UInt8 :=
  let w := words (pad m)
  (blocks (w.length / 16) w H0).flatMap wordBytes

/-- Test vector: the empty string. -/
example : sha256 [] =
    [227, 176, 196, 66, 152, 252, 28, 20, 154, 251, 244, 200, 153, 111, 185, 36, 39, 174, 65, 228, 100,
     155, 147, 76, 164, 149, 153, 27, 120, 82, 184, 85] := by
  decide +kernel

/-- Test vector `abc`. -/
example : sha256 [97, 98, 99] =
    [186, 120, 22, 191, 143, 1, 207, 234, 65, 65, 64, 222, 93, 174, 34, 35, 176, 3, 97, 163, 150, 23,
     122, 156, 180, 16, 255, 97, 242, 0, 21, 173] := by
  decide +kernel

/-- A message of three blocks (150 bytes `a`). -/
example : sha256 (List.replicate 150 97) =
    [117, 149, 175, 130, 174, 47, 165, 156, 217, 191, 59, 68, 5, 211, 28, 105, 185, 141, 231, 31, 237,
     89, 69, 253, 119, 125, 138, 179, 179, 147, 168, 95] := by
  decide +kernel

/-- Padding boundary (55 bytes). -/
example : sha256 (List.replicate 55 97) =
    [159, 67, 144, 248, 211, 12, 45, 217, 46, 201, 240, 149, 182, 94, 43, 154, 233, 176, 169, 37, 165,
     37, 142, 36, 28, 159, 30, 145, 15, 115, 67, 24] := by
  decide +kernel

/-- Padding boundary (56 bytes). -/
example : sha256 (List.replicate 56 97) =
    [179, 84, 57, 164, 172, 111, 9, 72, 182, 214, 249, 227, 198, 175, 15, 95, 89, 12, 226, 15, 27, 222,
     112, 144, 239, 121, 112, 104, 110, 198, 115, 138] := by
  decide +kernel

/-- Padding boundary (64 bytes). -/
example : sha256 (List.replicate 64 97) =
    [255, 224, 84, 254, 122, 224, 203, 109, 198, 92, 58, 249, 182, 29, 82, 9, 244, 57, 133, 29, 180, 61,
     11, 165, 153, 115, 55, 223, 21, 70, 104, 235] := by
  decide +kernel

end Verif.Sha256

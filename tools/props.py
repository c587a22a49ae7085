#!/usr/bin/env python3
"""Source of /verif/properties.jsonl: run `python3 tools/props.py` from /verif to regenerate it."""
import json, pathlib
L = []
def p(id, title, statement, quantifier, why, anchors):
    L.append(dict(id=id, title=title, statement=statement, quantifier=quantifier,
                  why_tests_cant=why, anchors=anchors))

INF = "The domain is infinite (all integers / all byte strings); a test samples finitely many."
CRY = "The claim ranges over all 256-bit inputs and all randomness; a test executes one random draw."

# ---- util/byteconversion -------------------------------------------------------------
p("C01", "Two's-complement byte round trip",
  "For every integer x, FromByteArray(ToByteArray(x)) returns x with a nil error.",
  "all integers x, of any sign and any size", INF,
  ["util/byteconversion/conversion.go:FromByteArray", "util/byteconversion/conversion.go:ToByteArray"])
p("C02", "FromByteArray decodes two's complement",
  "FromByteArray returns an error exactly on the empty array; on every non-empty byte string it returns the big-endian two's-complement value of that string (unsigned value, minus 256^len when the top bit is set), and never panics.",
  "all byte strings of any length", INF,
  ["util/byteconversion/conversion.go:FromByteArray"])
p("C03", "ToByteArray length",
  "ToByteArray(x) decodes to x and is the shortest two's-complement encoding of x, except when x = -(2^(8k-1)) for some k >= 1, where it is exactly one byte longer than the shortest one (the documented minimality is violated at exactly those inputs).",
  "all integers x", INF, ["util/byteconversion/conversion.go:ToByteArray"])
p("C04", "ParseInput inverts comma-joining of decimal integers",
  "For every non-empty list of integers, ParseInput applied to their decimal representations joined by commas returns that list; on any input that is accepted, the number of results is the number of commas plus one.",
  "all non-empty lists of integers; all byte strings", INF,
  ["util/byteconversion/parse.go:ParseInput", "util/byteconversion/parse.go:ConvertToBigInt"])
p("C05", "ConvertToBigInt accepts exactly optional-minus digit strings",
  "ConvertToBigInt returns an error exactly when some byte is not an ASCII digit and is not a minus sign in first position; otherwise it returns the decimal value of the string, reading both the empty string and a lone '-' as 0 with no error.",
  "all byte strings", INF, ["util/byteconversion/parse.go:ConvertToBigInt"])
p("C06", "ModPow for every exponent sign",
  "For every base, exponent and non-zero modulus m, ModPow returns r with 0 <= r < |m| and r = base^e mod |m| for e >= 0; for e < 0 it returns r with r * base^|e| = 1 mod |m| when base^|e| is coprime to m and nil otherwise.",
  "all integers base, exponent, modulus != 0", INF, ["util/bn/bn.go:ModPow", "util/bn/bn.go:ModInverse"])
p("C07", "CalculateHash does not separate its two arguments",
  "For every hash function, CalculateHash(b1,b2) depends only on the concatenation of the two encodings; there are different argument pairs with the same result for every hash function (so it is not collision resistant as a function of the pair), while for a fixed second argument distinct first arguments always hash distinct byte strings.",
  "all hash functions, all integer pairs", INF, ["util/bn/bn.go:CalculateHash"])
p("C08", "Base-u decomposition",
  "For every x, every u >= 1 and every l >= 0, Decompose(x,u,l) returns l digits, each in [0,u), whose weighted sum with weights u^i is x mod u^l; hence the sum is x exactly when 0 <= x < u^l. For u = 0 and l >= 1 it panics.",
  "all integers x, all u, all l", INF, ["util/util.go:Decompose"])
# ---- bulletproofs helpers --------------------------------------------------------------
p("C09", "IsPowerOfTwo",
  "IsPowerOfTwo(x) is true exactly for the positive powers of two that fit in an int64 and for the smallest int64 (-2^63), and false for every other int64.",
  "all 2^64 int64 values", "2^64 inputs; the wrong answer sits at one of them.", ["bulletproofs/util.go:IsPowerOfTwo"])
p("C10", "Setup accepts exactly six range ends",
  "For every int64 b other than -2^63, Setup(b) returns without error exactly when b is 2, 4, 16, 256, 65536 or 2^32; then N satisfies 2^N = b, N is itself a power of two and there are N generators of each kind. Every other b yields an error, never a panic; b = -2^63 panics or errors depending on the platform's conversion of NaN to int64.",
  "all int64 range ends", "2^64 inputs.", ["bulletproofs/bp.go:Setup"])
p("C11", "Vector operations are componentwise arithmetic modulo the group order",
  "VectorAdd, VectorSub, VectorMul return an error exactly when lengths differ, and otherwise, like VectorScalarMul, return a vector of the same length whose i-th entry is the i-th sum/difference/product reduced into [0,ORDER).",
  "all vectors of all lengths with arbitrary (also negative or unreduced) entries", INF,
  ["bulletproofs/vector.go:VectorAdd", "bulletproofs/vector.go:VectorSub", "bulletproofs/vector.go:VectorMul", "bulletproofs/vector.go:VectorScalarMul"])
p("C12", "Inner products, power vectors and delta",
  "ScalarProduct returns an error exactly on a length mismatch and otherwise the sum of products reduced into [0,ORDER); powerOf(x,n) is the vector x^0..x^(n-1) modulo ORDER; delta(y,z) is (z-z^2)*sum(y^i) - z^3*(2^N-1) modulo ORDER.",
  "all vectors, all x, n, y, z", INF,
  ["bulletproofs/util.go:ScalarProduct", "bulletproofs/util.go:powerOf", "bulletproofs/bp.go:delta"])
# ---- p256 ---------------------------------------------------------------------------------
p("C13", "P256.Multiply is the secp256k1 group law",
  "For all points on the curve, including the point at infinity in either of its representations, equal points and opposite points, Multiply returns a representation of their elliptic-curve sum, with coordinates in [0,p).",
  "all pairs of curve points", CRY, ["crypto/p256/p256.go:Multiply", "crypto/p256/mycurve.go:Add", "crypto/p256/mycurve.go:addJacobian", "crypto/p256/mycurve.go:affineFromJacobian"])
p("C14", "P256.Add is the group law only on distinct points with a finite second operand",
  "Add returns the elliptic-curve sum when the first operand is infinity, or when both are finite and distinct; for a finite first operand and an infinite second operand it returns infinity instead of the first operand, and for two equal finite operands it returns infinity instead of the double. So Add is wrong on exactly those two cases.",
  "all pairs of curve points", CRY, ["crypto/p256/p256.go:Add"])
p("C15", "secp256k1 scalar multiplication and group order",
  "ScalarMult(a,n) and ScalarBaseMult(n) return n times the point for every integer n, negative, zero or larger than the group order; the curve has exactly N points, N is prime, and N times any point is infinity.",
  "all curve points, all integers n", CRY, ["crypto/p256/p256.go:ScalarMult", "crypto/p256/p256.go:ScalarBaseMult", "crypto/p256/mycurve.go:init"])
p("C16", "P256.Neg negates only in place",
  "p.Neg(p) sets p to the inverse point for every curve point; p.Neg(a) for a finite a and a different receiver ignores a and yields minus the receiver (infinity for a fresh receiver).",
  "all receivers and arguments", CRY, ["crypto/p256/p256.go:Neg"])
p("C17", "MapToGroup returns a valid curve point",
  "Whatever the hash function, if MapToGroup succeeds the returned point has coordinates in [0,p), satisfies y^2 = x^3 + 7 mod p and is not infinity; it returns an error exactly when none of the 256 candidate abscissae is on the curve.",
  "all input strings and all hash functions", CRY, ["crypto/p256/p256.go:MapToGroup", "crypto/p256/p256.go:F", "crypto/p256/p256.go:HashToInt"])
p("C18", "IsOnCurve decides the curve equation",
  "For all finite coordinates, IsOnCurve returns true exactly when Y^2 = X^3 + 7 modulo p.",
  "all integer coordinates", INF, ["crypto/p256/p256.go:IsOnCurve"])
p("C19", "Pedersen commitment CommitG1",
  "CommitG1(x,r,h) is x*G + r*h for all x, r unless r*h is infinity while x*G is not, or x*G and r*h are the same finite point; in these cases it is infinity. In particular CommitG1(x,0,h) is infinity for every x, so all openings with r = 0 collide (binding fails there).",
  "all x, r, h", CRY, ["util/util.go:CommitG1"])
p("C20", "VectorExp is a multi-scalar multiplication",
  "VectorExp(a,b) returns an error exactly on a length mismatch and otherwise the group sum of b[i]*a[i], for vectors of any length and any integer exponents.",
  "all vectors of curve points and integers", CRY, ["bulletproofs/util.go:VectorExp", "bulletproofs/bip.go:vectorScalarExp", "bulletproofs/vector.go:VectorECAdd"])
# ---- inner product argument ------------------------------------------------------------------
p("C21", "Inner-product argument: verdict on honest proofs",
  "For every n = 2^k, all vectors a, b of length n, all generators and every claimed product c, the proof computed for the commitment g^a h^b verifies exactly when x*(c - <a,b>)*Uu is infinity, where x is the transcript hash; in particular it always verifies when c = <a,b> mod ORDER.",
  "all powers of two n, all vectors, all generators, all hash functions whose challenges are invertible", CRY,
  ["bulletproofs/bip.go:proveInnerProduct", "bulletproofs/bip.go:computeBipRecursive", "bulletproofs/bip.go:Verify"])
p("C22", "Inner-product proof size is logarithmic",
  "For vectors of length 2^k the inner-product proof carries exactly k left and k right points and two scalars, and records N = 2^k.",
  "all k, all vectors", "Holds for every length, tests use one.", ["bulletproofs/bip.go:computeBipRecursive"])
p("C23", "Verification consumes the proof object",
  "Calling Verify repeatedly on one and the same valid inner-product proof object (whose stored P is a finite point) returns true on the odd-numbered calls and false on the even-numbered calls, for any number of calls: the verdict of a second call on the same object is not the verdict of the first. The same holds for BulletProof.Verify.",
  "all valid proofs, all numbers of repeated calls", "A history property: it quantifies over call sequences.", ["bulletproofs/bip.go:Verify", "bulletproofs/bp.go:Verify"])
# ---- bulletproof range proof --------------------------------------------------------------------
p("C24", "Range proof: verdict on honestly generated proofs",
  "For every secret, every bit length N = 2^k, all generators, all randomness and every hash function, if no challenge is zero modulo ORDER and no exceptional point addition occurs, then Verify accepts the output of Prove exactly when (secret div 2^N) is a multiple of ORDER. So every secret in [0,2^N) is accepted, and every other secret with -2^N*(ORDER-1) <= secret < 2^N*ORDER is rejected. With blinding factor 0 modulo ORDER (an exceptional addition) a valid non-zero secret is rejected.",
  "all secrets, all randomness, all hash functions, all N = 2^k", CRY, ["bulletproofs/bp.go:Prove", "bulletproofs/bp.go:Verify"])
p("C25", "Generic range proof: exact accepted interval",
  "Under the same non-degeneracy conditions, a proof made by ProveGeneric for secret x and bounds A, B is accepted exactly when max(A, B-2^32) <= x < min(B, A+2^32) (for |x|,|A|,|B| < 2^64); this equals [A,B) exactly when B - A <= 2^32.",
  "all x, A, B, all randomness", CRY, ["bulletproofs/bprp.go:SetupGeneric", "bulletproofs/bprp.go:ProveGeneric", "bulletproofs/bprp.go:Verify"])
p("C26", "The generic proof does not bind the interval",
  "ProveGeneric for secret x+d in [A+d,B+d) yields, with the same randomness, the very same proof as for secret x in [A,B), for every shift d; so a verifier cannot learn from the proof which interval was proved.",
  "all x, A, B, d, all randomness", CRY, ["bulletproofs/bprp.go:ProveGeneric", "bulletproofs/bprp.go:Verify"])
p("C27", "The two halves of a generic proof are not linked",
  "Verify on a generic proof is the conjunction of two independent verdicts: for any two secrets x1, x2 that fit each half, the combination of the halves verifies, although no single secret need lie in [A,B) (also when A >= B).",
  "all pairs of secrets, all bounds", CRY, ["bulletproofs/bprp.go:Verify"])
p("C28", "Range-proof soundness fails: any committed value can be forged",
  "For every integer v (in or out of range), every blinding factor and every N = 2^k there is a proof whose commitment V is the Pedersen commitment to v and which Verify accepts, because Verify never ties the inner-product proof to Commit, Tprime or the generators.",
  "all integers v and all blinding factors", "Existence of an accepted proof for every value; no test enumerates adversarial proofs.", ["bulletproofs/bp.go:Verify", "bulletproofs/bip.go:Verify"])
p("C29", "Both HashBP challenges are equal",
  "For all points and every hash function, the two integers returned by HashBP are equal (so the challenges y and z always coincide) and lie in [0, 2^256) for a 32-byte hash.",
  "all points, all hash functions", CRY, ["bulletproofs/util.go:HashBP"])
p("C30", "Transcript encodings",
  "The byte string hashed by hashIP determines P, the generators and c (for a fixed number of generators), whereas the byte string hashed by HashBP does not determine its two points: distinct coordinate quadruples give the same string.",
  "all transcripts", INF, ["bulletproofs/bip.go:hashIP", "bulletproofs/util.go:HashBP"])
p("C31", "Commitment check of Verify is blind to sign",
  "Condition (67) in Verify holds exactly when the left point is infinity, or equals the right point, or equals its negative; replacing the right-hand point by its inverse never changes that part of the verdict.",
  "all proofs made of curve points", CRY, ["bulletproofs/bp.go:Verify", "crypto/p256/p256.go:Add"])
p("C32", "Verify can panic on malformed proofs",
  "On proofs without nil pointers, inner-product Verify does not panic exactly when every L has an R and an invertible challenge and the list sizes fit: without rounds both generator lists are non-empty, with r rounds both have length 2^r*m and half of N is 2^(r-1)*m. BulletProof.Verify does not panic exactly when in addition N >= 1, there are exactly N generators Gg and at least N generators Hh, and the challenge y is invertible or N = 1. ProofBPRP.Verify evaluates the second proof, and panics with it, only if the first one is accepted.",
  "all proof objects without nil pointers", "Adversarial inputs; a panic is a crash of the verifier.", ["bulletproofs/bip.go:Verify", "bulletproofs/bp.go:Verify", "bulletproofs/bprp.go:Verify"])
p("C33", "Perfect hiding of Pedersen commitments",
  "When h is a finite point, for every x the map r -> x*G + r*h is a bijection from residues modulo ORDER to the curve group, so the ideal commitment is independent of x; CommitG1 agrees with it on all but at most two residues r for x != 0.",
  "all x, all h, all r", CRY, ["util/util.go:CommitG1"])
# ---- bn256 -------------------------------------------------------------------------------------------
p("C34", "G1 addition, negation and scalar multiplication",
  "Add into a fresh or distinct receiver, Neg, ScalarMult and ScalarBaseMult compute the group law of y^2 = x^3 + 3 over GF(p) for all points (including infinity, equal and opposite points) and all integers k, negative ones included.",
  "all G1 points, all integers k", CRY, ["crypto/bn256/curve.go:Add", "crypto/bn256/curve.go:Double", "crypto/bn256/curve.go:Mul", "crypto/bn256/bn256.go:G1.ScalarMult", "crypto/bn256/bn256.go:G1.Add"])
p("C35", "In-place addition of equal points is wrong",
  "e.Add(e,b) with b equal to e as a point (and e finite) returns 2e in G1 or G2 exactly when the affine doubling of the point satisfies the two equations that make the overwritten y harmless (at most 20 points of the group do); for every other point, the generators included, the result is wrong because the z-coordinate is computed from the already overwritten y. For distinct or infinite operands the in-place addition is correct.",
  "all receivers and arguments, with aliasing", "Depends on aliasing and on operand equality.", ["crypto/bn256/curve.go:Double", "crypto/bn256/twist.go:Double", "crypto/bn256/bn256.go:G2.Add"])
p("C36", "G2 addition, negation and scalar multiplication",
  "Add and Neg into a fresh or distinct receiver, and ScalarMult and ScalarBaseMult with k >= 0, compute the group law of the twist over GF(p^2) for all points. With k < 0 they do not, although bn256.go says that negative numbers are dealt with: twistPoint.Negative clears y before it reads it when receiver and argument coincide, so for k < 0 ScalarMult(a,k) is right exactly when 2k*a = 0 (for the generator: when Order divides k); in all other cases the result has y = 0, is finite and not on the curve. The same holds for e.Neg(e).",
  "all G2 points, all integers k, aliased and distinct receivers", CRY, ["crypto/bn256/twist.go:Add", "crypto/bn256/twist.go:Double", "crypto/bn256/twist.go:Mul", "crypto/bn256/twist.go:Negative", "crypto/bn256/bn256.go:G2.ScalarMult", "crypto/bn256/bn256.go:G2.ScalarBaseMult", "crypto/bn256/bn256.go:G2.Neg"])
p("C37", "Group orders of G1 and G2",
  "p and Order are prime, the curve y^2 = x^3 + 3 has exactly Order points, and Order times the G2 generator is infinity while the generator is finite; hence scalars may be reduced modulo Order for every G1 point and every multiple of the G2 generator.",
  "all G1 points, all multiples of the G2 generator", CRY, ["crypto/bn256/constants.go:Order", "crypto/bn256/constants.go:P", "crypto/bn256/twist.go:twistGen"])
p("C38", "G1 Marshal/Unmarshal",
  "Marshal returns 64 bytes; Unmarshal(Marshal(a)) succeeds and gives the same point for every G1 element including infinity; two elements marshal to the same bytes exactly when they are the same point; Unmarshal rejects every string that is not 64 bytes and every 64-byte string that is neither on the curve nor an encoding of infinity.",
  "all G1 elements, all byte strings", CRY, ["crypto/bn256/bn256.go:G1.Marshal", "crypto/bn256/bn256.go:G1.Unmarshal", "crypto/bn256/curve.go:MakeAffine"])
p("C39", "G2 Marshal/Unmarshal",
  "As C38 with 128 bytes; but Marshal on the infinite element overwrites the element with a finite value, so after Marshal it is no longer reported as infinity. The encoding of a point off the curve (see C36) is rejected by Unmarshal or all zero, and differs from that of every finite element.",
  "all G2 elements, all byte strings", CRY, ["crypto/bn256/bn256.go:G2.Marshal", "crypto/bn256/bn256.go:G2.Unmarshal", "crypto/bn256/twist.go:MakeAffine"])
p("C40", "GT Marshal/Unmarshal",
  "GT Marshal returns 384 bytes and depends only on the field element; Unmarshal(Marshal(a)) is the same field element; Unmarshal accepts every 384-byte string.",
  "all GT elements, all byte strings", CRY, ["crypto/bn256/bn256.go:GT.Marshal", "crypto/bn256/bn256.go:GT.Unmarshal"])
p("C41", "Encodings are malleable",
  "Unmarshal for G1 accepts non-canonical coordinates: every finite element has (at least) 25 different accepted strings, obtained by adding multiples of p to its coordinates, and infinity has two.",
  "all G1 elements", CRY, ["crypto/bn256/bn256.go:G1.Unmarshal"])
p("C42", "Extension-field arithmetic",
  "Add, Sub, Mul, Square, MulXi, MulTau, Conjugate of gfP2, gfP6 and gfP12 compute the operations of GF(p)[i]/(i^2+1), [tau]/(tau^3-(i+9)) and [omega]/(omega^2-tau) for all inputs; these rings are fields and Invert computes the inverse of every non-zero element (and 0 for 0).",
  "all field elements", CRY, ["crypto/bn256/gfp2.go", "crypto/bn256/gfp6.go", "crypto/bn256/gfp12.go"])
p("C43", "GT exponentiation",
  "GT.ScalarMult(a,k) is a^k for every k >= 0; for k < 0 it is a^(2^bitlen - |k|) and not the inverse power. GT.Exp returns a^k for every integer k but overwrites its argument a and leaves its receiver untouched.",
  "all GT elements, all integers k", CRY, ["crypto/bn256/gfp12.go:Exp", "crypto/bn256/bn256.go:GT.ScalarMult", "crypto/bn256/bn256.go:GT.Exp"])
p("C44", "Frobenius maps",
  "gfP12.Frobenius(a) = a^p and FrobeniusP2(a) = a^(p^2) for every a.",
  "all elements of GF(p^12)", CRY, ["crypto/bn256/gfp12.go:Frobenius", "crypto/bn256/gfp12.go:FrobeniusP2", "crypto/bn256/gfp6.go:Frobenius", "crypto/bn256/constants.go"])
p("C45", "Final exponentiation",
  "finalExponentiation(a) = a^((p^12-1)/Order) for every non-zero a, so its result always has order dividing Order.",
  "all non-zero elements of GF(p^12)", CRY, ["crypto/bn256/optate.go:finalExponentiation"])
p("C46", "Pairing with infinity and pairing order",
  "Pair(g1,g2) is 1 whenever either argument is infinity; every value of Pair, whatever coordinates are stored, is 0 or satisfies e^Order = 1; for g1 in G1 and g2 a multiple of the G2 generator (with a correct cached t) it is not 0.",
  "all stored G1 and G2 elements", CRY, ["crypto/bn256/optate.go:optimalAte", "crypto/bn256/bn256.go:Pair"])
p("C47", "Random group elements are never trivial",
  "RandomG1/RandomG2 return (k, k*g) with 0 < k < Order and a finite point for every stream of random values; they loop past zeros.",
  "all random streams", "Zero draws have probability 2^-254; no test reaches them.", ["crypto/bn256/bn256.go:RandomG1", "crypto/bn256/bn256.go:RandomG2"])
p("C48", "bnPool never hands out a cell that is in use",
  "Over any sequence of Get and Put calls in which only cells in use are put back, the cells in use are pairwise distinct and disjoint from the pool, and Count() is the number of Gets minus Puts.",
  "all call histories", "A history property.", ["crypto/bn256/bn256.go:bnPool"])
# ---- bbsignatures -------------------------------------------------------------------------------------
p("C49", "Boneh-Boyen signatures",
  "For every message m and key sk with m + sk != 0 mod Order, Sign succeeds, and verify accepts the signature for a message m' exactly when m' = m mod Order, unless m' = sk mod Order (and is not 0), where verify adds an element to itself in place and rejects even genuine signatures (witness sk = m = 1); more generally verify accepts k*g2 exactly when (m'+sk)*k = 1 mod Order. When m + sk = 0 mod Order, Sign panics.",
  "all messages, all keys, all elements of the G2 subgroup", CRY, ["crypto/bbsignatures/bb.go:Sign", "crypto/bbsignatures/bb.go:verify"])
p("C50", "Keygen reports an error exactly when it succeeds",
  "For every random private key, Keygen returns the matching public key together with a non-nil error; so the returned error is never nil, whether or not the key was generated.",
  "all private keys in [0,Order)", CRY, ["crypto/bbsignatures/bb.go:Keygen"])
# ---- ccs08 ------------------------------------------------------------------------------------------------
p("C51", "Set membership: completeness and errors",
  "ProveSet returns an error exactly when x is not in the set given to SetupSet; otherwise, for x >= 0, VerifySet accepts the proof, for all sets, keys and randomness outside an explicit list of coincidences (equal operands of an in-place addition; V stored with z = 1 and a stale t). For negative elements completeness fails: Commit(x,r) is then off the curve (C36) and VerifySet rejects the honest proof (coincidences excepted). SetupSet panics exactly when an element is congruent to -sk. The generator H of every parameter set is the same public multiple of the generator of G2. The verdict of VerifySet on an arbitrary proof made of group elements is the pair of congruences between exponents that the two equations state.",
  "all sets, all elements, all randomness, all proofs", CRY, ["ccs08/ccs08.go:SetupSet", "ccs08/ccs08.go:ProveSet", "ccs08/ccs08.go:VerifySet"])
p("C52", "Set-membership soundness fails: the challenge is taken from the proof",
  "For every parameter set and every commitment C (hence every committed value) there is a proof for C that VerifySet accepts, built without any signature; for every choice of the challenge c. The same holds for VerifyUL and the whole ccs08 range proof.",
  "all parameters, all commitments, all challenges", "Existence of forged proofs for every commitment.", ["ccs08/ccs08.go:VerifySet", "ccs08/ccs08.go:VerifyUL"])
p("C53", "Proof objects reveal the secret",
  "The proof object returned by ProveSet (and ProveUL) contains the nonces s, t, m next to the responses; whenever the challenge is non-zero modulo Order the secret x (each digit of x), and the blinding factor r modulo Order are computable from the proof object alone.",
  "all secrets, all randomness", CRY, ["ccs08/ccs08.go:proofSet", "ccs08/ccs08.go:ProveSet", "ccs08/ccs08.go:ProveUL"])
p("C54", "[0,u^l) proofs: verdict on honest proofs",
  "For every u >= 1, l, x: ProveUL never returns an error; for x >= 0 VerifyUL accepts its output exactly when c*(x - (x mod u^l)) = 0 mod Order; in particular accepts every x in [0,u^l) and, for a non-zero challenge, rejects every other x smaller than Order. For x < 0 the commitment is off the curve (C36), and VerifyUL rejects. For u <= 0 with l >= 1, and for l < 0, ProveUL returns an error or panics.",
  "all u, l, x, randomness outside the coincidences of C51", CRY, ["ccs08/ccs08.go:SetupUL", "ccs08/ccs08.go:ProveUL", "ccs08/ccs08.go:VerifyUL"])
p("C55", "ccs08 range [a,b): exact accepted interval",
  "Setup(a,b) returns an error exactly when a > b or b = 1; otherwise l is the number of base-57 digits of b (0 for b <= 0) and an honest proof for x is accepted, for non-zero challenges, exactly when max(a, b-57^l) <= x < min(b, a+57^l); for 0 <= a <= b, b >= 2 this is exactly a <= x < b. For negative a it is too short: for b <= 0 it is empty unless b = a+1, and for [-1000,10) it is empty. After a Setup error, Prove and Verify panic.",
  "all int64 a, b, all x", "2^128 parameter pairs.", ["ccs08/ccs08.go:Setup", "ccs08/ccs08.go:Prove", "ccs08/ccs08.go:Verify"])
p("C56", "Generator table of the bulletproof setup",
  "For every accepted range end, H, g_i and h_i are the results of MapToGroup on fixed seeds, so the generator table of a smaller range is a prefix of that of a larger range; and the seeds used for the generators H, g_i, h_i and u are pairwise distinct strings.",
  "all accepted range ends", "All pairs of seeds.", ["bulletproofs/bp.go:Setup", "bulletproofs/bip.go:setupInnerProduct"])
p("C57", "JSON transport preserves the verdict",
  "Encoding a BulletProof or ProofBPRP to JSON and decoding it gives a proof with identical fields, whose first verification has the verdict the original's first verification would have, for all proofs. Different proofs have different texts. In particular an honest proof is accepted after transport exactly when the secret is in the range (C24), but a proof which was verified successfully before it is encoded is rejected by the receiver (C23). Texts without a proof ({} or null) are decoded without an error. Exactly the texts of the JSON grammar are parsed, no text has two values, and a text which is not JSON is never decoded as a proof; a string stands for its characters however they are escaped.",
  "all proof values; all byte strings", INF, ["bulletproofs/bp.go:BulletProof", "bulletproofs/bprp.go:ProofBPRP", "README.md"])
p("C58", "Pairing of negated G2 elements",
  "Neg (into a distinct receiver) leaves the cached coordinate t of a G2 element zero. Pair repairs this exactly when the element is not stored with z = 1, and then Pair(g1, Neg g2) = Pair(g1,g2)^-1; for an element stored with z = 1 MakeAffine does nothing and the result is wrong: Pair(g1, Neg g2) is not Pair(g1,g2)^-1 for the generators, and PairingCheck([g1,g1],[g2,Neg g2]) is false. Results of ScalarMult with a negative scalar (C36) give wrong pairings for z = 1 and for other z: Pair(g1, ScalarBaseMult(-2)) is not Pair(g1,g2)^-2. Elements read by Unmarshal are always safe.",
  "all G2 elements; concrete witnesses for the failure", CRY, ["crypto/bn256/twist.go:Negative", "crypto/bn256/twist.go:MakeAffine", "crypto/bn256/optate.go:miller"])
p("C59", "Generic proofs verify only every fourth time",
  "Calling Verify repeatedly on one and the same accepted ProofBPRP (whose halves store a finite P) returns true, false, false, false, true, false, false, false, ... for any number of calls, because each half is consumed by its own verification and the second half is only evaluated when the first succeeds.",
  "all accepted generic proofs, all numbers of calls", CRY, ["bulletproofs/bprp.go:Verify", "bulletproofs/bip.go:Verify"])
p("C60", "G2.Unmarshal does not check the subgroup",
  "G2.Unmarshal accepts points of the twist outside the group of order Order: there is an accepted string whose point is not a multiple of the generator and is not annihilated by Order.",
  "exists a byte string; all multiples of the generator", "No test enumerates the multiples of the generator.",
  ["crypto/bn256/bn256.go:G2.Unmarshal", "crypto/bn256/twist.go:IsOnCurve"])
p("C61", "PairingCheck",
  "PairingCheck(a,b) with len(a) <= len(b) returns true exactly when the product of Pair(a[i],b[i]) is 1 (for all stored elements, infinities included); for a[i] = k_i*g1 and b[i] = l_i*g2 that is exactly when the sum of k_i*l_i is 0 modulo Order. With fewer elements in b it panics exactly when one of the surplus elements of a is finite.",
  "all lists of elements", CRY, ["crypto/bn256/bn256.go:PairingCheck", "crypto/bn256/optate.go:miller", "crypto/bn256/optate.go:finalExponentiation"])
p("C62", "Pair is bilinear and non-degenerate",
  "For all P, R in G1 and Q, S multiples of the G2 generator, in whatever coordinates they are stored (with a correct cached t): Pair depends only on the points, Pair(P+R,Q) = Pair(P,Q)*Pair(R,Q), Pair(P,Q+S) = Pair(P,Q)*Pair(P,S), Pair(kP,lQ) = Pair(P,Q)^(kl) for all integers k, l, and Pair(P,Q) = 1 only if P or Q is infinity.",
  "all points of G1, all multiples of the G2 generator, all integers, all coordinates", "The claim is an identity over about 2^508 pairs of points; a test tries a few pairs of scalars.",
  ["crypto/bn256/optate.go:miller", "crypto/bn256/optate.go:lineFunctionAdd", "crypto/bn256/optate.go:lineFunctionDouble", "crypto/bn256/optate.go:mulLine", "crypto/bn256/optate.go:finalExponentiation", "crypto/bn256/bn256.go:Pair"])
p("C63", "ccs08 commitments are not binding",
  "Commit(x,r,H) and Commit(x',r',H) are equal exactly when x + h*r = x' + h*r' mod Order, where h is the constant in SetupSet/SetupUL from which H is computed; so from h everybody can open every commitment to every value x', by a formula. (For values and factors >= 0, see C36, and outside the coincidence x = h*r, for which Commit returns coordinates off the curve.)",
  "all values, all blinding factors", CRY, ["util/util.go:Commit", "ccs08/ccs08.go:SetupSet", "ccs08/ccs08.go:SetupUL"])
p("C64", "ccs08 verification can be repeated",
  "VerifySet, VerifyUL and Verify rewrite D and a of the proof (Marshal normalises them in place), but on the proof left behind by a first call every further call returns the same verdict and leaves the proof unchanged, for all proofs, accepted or not. After the first call D has z = 1 and its old encoding, a is what decoding its encoding gives, and all other fields are unchanged.",
  "all proofs, all parameters", "All proof values, including malformed ones.", ["ccs08/ccs08.go:VerifySet", "ccs08/ccs08.go:VerifyUL", "crypto/bn256/bn256.go:G2.Marshal", "crypto/bn256/bn256.go:GT.Marshal"])
p("C65", "What the ccs08 challenge depends on",
  "The byte strings hashed by Hash and HashSet are equal exactly when the lists of GT values are equal (including their lengths) and the three stored projective coordinates of D are equal modulo p: no two different inputs collide before hashing. But the string depends on the coordinates, not on the point: the same D is hashed differently after Marshal, so the challenge cannot be recomputed from a verified or serialised proof.",
  "all lists of GT elements, all stored G2 elements", INF, ["util/util.go:Hash", "util/util.go:HashSet", "crypto/bn256/twist.go:String", "crypto/bn256/gfp12.go:String"])
p("C66", "Recomputing the challenge would not give soundness",
  "For every set, every key and every x >= 0 (in the set or not), there is a proof with V = infinity whose commitment is Commit(x,r), whose challenge is the hash of its own a and D as ProveSet computes it, and which VerifySet accepts (outside the coincidences of C51). The same holds for VerifyUL with every u and l >= 1 (all V infinite, x below u^l or not) and for Verify with every interval and every x above it.",
  "all sets, keys, values and randomness", "Existence of forged proofs for every value and every hash function.", ["ccs08/ccs08.go:VerifySet", "ccs08/ccs08.go:ProveSet", "ccs08/ccs08.go:VerifyUL", "ccs08/ccs08.go:Verify"])
p("C67", "Equal challenges break the range proof even for a verifier that ties its parts together",
  "Let a repaired verifier also compare the parameters with its own and the inner-product proof with Commit, Tprime, the generators and the hash (Prove always passes these comparisons). For every integer v, every N = 2^k >= 2 and every randomness, a prover who runs Prove with aL = 0 and aR = (-1, -1-v, -1, ..., -1) in place of the bits is still accepted with V the Pedersen commitment to v, because the challenges y and z coincide. More generally a proof made with any vectors aL, aR is accepted exactly for the value w with z^2*w = t0 - delta(y,z); as V is in no transcript, w may be chosen after everything else. (No exceptional point additions, non-zero challenges.)",
  "all values, all vectors, all randomness, all hash functions", "A forgery strategy for every value and every hash function; no test enumerates adversarial provers.",
  ["bulletproofs/bp.go:Prove", "bulletproofs/bp.go:Verify", "bulletproofs/util.go:HashBP"])
p("C68", "Setup with SHA-256 yields 66 distinct generators, and the whole chain works",
  "With SHA-256 as hash function, MapToGroup succeeds on all 66 seeds used by Setup and setupInnerProduct (so no generator is nil although the errors are ignored), and the resulting points are finite, pairwise different also up to sign, and different from the base point and its inverse. Hence for each of the six accepted range ends b, Setup(b), Prove and Verify together accept exactly the secrets with 0 <= secret < b, and SetupGeneric, ProveGeneric and Verify exactly the interval of C25 (non-zero challenges, no exceptional additions).",
  "all seeds the code uses; all secrets and all randomness", "The end-to-end claim is for all secrets and randomness; no test looks at the generators' distinctness.",
  ["crypto/p256/p256.go:MapToGroup", "bulletproofs/bp.go:Setup", "bulletproofs/bip.go:setupInnerProduct", "bulletproofs/bprp.go:SetupGeneric"])
p("C69", "A range proof does not reveal the secret",
  "For all secrets v, v' in [0, 2^N), every hash function and every set D of results (any function of the proof object an observer may compute): among the ORDER^(2N+5) equally likely draws of Prove's randomness, the number for which Prove(v) gives a result in D exceeds the number for Prove(v') by at most 22*ORDER^(2N+4) plus the number of draws for which Prove(v) fails or its challenge x is 0 modulo ORDER. The statistical distance of the two proof distributions is thus at most 22/ORDER plus the probability of a failed proof. ProveGeneric has the same property for two secrets in the accepted interval (44 instead of 22), and so do the parameters computed by Setup with SHA-256. For k proofs with the same parameters and independent randomness the bounds add up, so that proofs are not linked by their secrets either.",
  "all pairs of secrets, all observers, all randomness, all hash functions, all sizes", "Statistical indistinguishability quantifies over all observers and counts over a space of more than 2^1000 draws.",
  ["bulletproofs/bp.go:Prove", "bulletproofs/bprp.go:ProveGeneric", "bulletproofs/bp.go:sampleRandomVector"])
p("C70", "Which parts of a decoded proof Verify needs",
  "For every proof object, nil pointers allowed: Verify never looks at Params.G, Params.InnerProductParams, the fields P, Gg, Hh of the inner-product proof and N, Cc, Uu, H of its parameters. If V, A, S, T1, T2, Tprime, Commit, Params.H, one of the first N generators, or U, A, B, Params.P, an L or an R of the inner-product proof is nil (or Taux or Mu, if H is finite), Verify panics. So a JSON text in which a member V, A, S, T1, T2, Tprime, InnerProductProof, Commit or Params is missing or null (names compared up to case) never decodes to a proof which Verify rejects: if it is decoded, Verify panics. On proofs without nil pointers Verify does what the other claims say, also after JSON transport. ProofBPRP.Verify evaluates its second half exactly if the first is accepted: a text without P1 panics, one without P2 is never accepted and is rejected without panic only if the first half is.",
  "all proof objects with any pointers nil, all JSON objects, all hash functions", "A test tries single malformed texts; the claim is for every text with a member missing.",
  ["bulletproofs/bp.go:Verify", "bulletproofs/bip.go:Verify", "bulletproofs/util.go:VectorExp", "crypto/p256/p256.go:ScalarMult", "crypto/p256/p256.go:IsZero"])
p("C71", "Inner-product argument: what fresh challenges would prove, and why single proofs prove nothing",
  "Let a prover be run, for fixed generators g, h, U and point P, with four challenges of different squares in each of k rounds (L and R of a round sent before its challenge), and let InnerProductProof.Verify accept all resulting proofs. Then an explicit computation on the challenges and the numbers A, B of these proofs, which never looks at the group, yields vectors a, b with P = g^a*h^b*U^<a,b> or a non-trivial relation between the generators; two such trees for U = Uu^x with different x and P*U^c in place of P yield a, b with P = g^a*h^b and <a,b> = c, or a relation that may involve Uu. In the code, however, a round challenge is the hash of L and R only: every proof object that does not make Verify panic, with any L, R, A, B, is accepted for exactly one point in place of P, so P can be computed last and an accepted proof shows no knowledge.",
  "all numbers of rounds, all generators, all points, all accepted proofs, all hash functions", "Soundness is a statement about all provers; a test sees one proof.",
  ["bulletproofs/bip.go:Verify", "bulletproofs/bip.go:ProveInnerProduct", "bulletproofs/util.go:HashBP"])
p("C72", "Several proofs in one program",
  "Prove changes no existing point; Verify changes none except the struct InnerProductProof.Params.P points to, whatever pointers coincide; and Prove makes that struct anew, so that it is shared with no other proof, not with the parameters and not with another point of the proof. Hence in every program which makes, copies (by struct assignment) and verifies range proofs for one set of parameters in any order, the verdicts on a proof and its copies are those of repeated verification of that proof alone (C23), whatever is done with the other proofs. A copy shares the struct: verifying a copy consumes the original.",
  "all programs of Prove, copy and Verify; all heaps and aliasing patterns for the frame statements; all randomness, all hash functions", "Aliasing bugs show only in particular interleavings; the claim is for every program.",
  ["bulletproofs/bp.go:Prove", "bulletproofs/bp.go:Verify", "bulletproofs/bip.go:Verify", "crypto/p256/p256.go:Multiply"])
p("C73", "P256 methods with the receiver among the arguments",
  "p.Multiply(a,b), p.Add(a,b), p.Double(a) and p.ScalarMult(a,n) store the same result in p and change no other point, whether or not p is a, b or both. For Neg it matters: p.Neg(p) stores the inverse, but p.Neg(a) with another receiver stores the inverse of the old value of p (infinity if a is infinity).",
  "all points, all aliasing patterns, all scalars", "All combinations of points and aliasing.",
  ["crypto/p256/p256.go:Multiply", "crypto/p256/p256.go:Add", "crypto/p256/p256.go:Double", "crypto/p256/p256.go:ScalarMult", "crypto/p256/p256.go:Neg"])
p("C74", "bn256 with pointers: sharing and object pools do not change results",
  "Take the exported operations of bn256 as programs on a memory of big.Int objects, with all temporaries, nil receivers and the pool that hands out used objects with old contents. Whatever is in memory, and whichever of receiver and arguments are the same object: G1, G2 and GT Add, Neg, ScalarMult, ScalarBaseMult, Invert, IsZero, SetInfinity, Marshal, Unmarshal, Pair and PairingCheck return the value computed by the functions on numbers that the other claims are about, change no big.Int that existed before except those of the receiver, and make a new object when the receiver is nil. Sharing matters in exactly these places: e.Add(e,b) on points is the in-place addition of C35, e.Neg(e) on G2 clears y (C36; negative scalars in G2), GT.Exp writes its argument and not its receiver, GT.IsZero, IsOne and Marshal rewrite the element with reduced coefficients, Marshal on points makes the receiver affine. G1.Marshal and Pair panic exactly when z of the G1 point is neither 0 nor invertible mod p; PairingCheck on other points panics exactly when its second list is too short; the other calls never panic.",
  "all memories, all values of coordinates, all aliasing patterns of receiver and arguments, all scalars, all byte strings, all lists", "Use of a pooled object after its release, or a receiver written before an argument is read, shows only for particular aliasing and values; the claim is for all of them.",
  ["crypto/bn256/bn256.go", "crypto/bn256/curve.go", "crypto/bn256/twist.go", "crypto/bn256/gfp2.go", "crypto/bn256/gfp6.go", "crypto/bn256/gfp12.go", "crypto/bn256/optate.go"])
p("C75", "A failing randomness source never yields a proof",
  "All provers ignore the error of rand.Int and carry on with a nil number. Still none of them can return a proof made without randomness. bulletproofs.Prove panics, for every secret and all parameters, if any of its first 2N+5 calls of rand.Int fails; if all succeed it uses each number for exactly one purpose, in the order gamma, alpha, sL, sR, rho, tau1, tau2, and draws no more. ProveGeneric returns a proof only if the draws of both halves succeed. ccs08 ProveSet panics if one of its four draws (m, v, s, t) fails and the element has a signature, and its error return does not depend on the randomness. ProveUL returns a proof only if all 3l+1 draws succeed.",
  "all sequences of results of rand.Int (each a number or a failure), all secrets, all parameters, all hash functions", "crypto/rand does not fail in a test; that no path survives a nil number needs all places of failure and all parameters (a nil scalar goes unnoticed in ScalarMult of an infinite point).",
  ["bulletproofs/bp.go:113-135", "bulletproofs/bp.go:339-345", "ccs08/ccs08.go:155-171", "ccs08/ccs08.go:215-225"])
p("C76", "Four repairs make the range proof sound",
  "C28, C29 and C67 show that an accepted range proof says nothing about V. Change BulletProof.Verify as follows: x, y, z and the exponent of the inner-product argument are the verifier's, y and z independent; parameters and the generator u are the verifier's; the inner-product proof is checked against the generators, Commit and Tprime of the range proof; Multiply replaces Add. Let a prover be run for fixed parameters with n = 2^k generators and fixed V with n different non-zero y, three non-zero z for each, three x for each, two exponents for each, and four challenges with different squares in each round, every message sent before the challenge that follows it; let the repaired Verify accept all runs. Then an explicit computation on the challenges and the numbers in the proofs, which never looks at the group, yields n bits with value w and gamma such that V = G^w*H^gamma and 0 <= w < 2^n, or a non-trivial relation between the generators. The repaired Verify accepts what Prove returns for secrets in [0, 2^n), and agrees with Verify on all proofs that are tied together as in C67, outside the exceptional operands of Add.",
  "all k, all generators, all points V, all provers (given by the accepted runs), all hash functions; completeness for all secrets in range and all randomness", "Soundness is a statement about all provers; a test sees one proof.",
  ["bulletproofs/bp.go:Verify", "bulletproofs/bp.go:Prove", "bulletproofs/bip.go:Verify", "bulletproofs/util.go:HashBP"])
p("C77", "What fresh challenges would prove in ccs08, and what else is missing",
  "VerifySet and VerifyUL take the challenge from the proof (C52). Suppose instead that the verifier chooses it after V, D, C and a were sent, and that a prover answers two challenges different modulo Order so that both proofs are accepted. Then division of differences of the answers (extractRuns) yields sigma and rho such that C = G2^sigma*H^rho, for VerifyUL digits sigma_j with C = G2^(sum sigma_j*u^j)*H^rho; and for every V (every digit) either V is infinity, or sigma = -sk modulo Order, so that the private key is found, or a root of V computed from the proofs is exactly what bbsignatures.Sign(sigma, sk) returns, so only signed elements can be used. Digits in [0, u) make a value in [0, u^l). The honest prover meets the hypotheses. Two gaps remain with fresh challenges: with V at infinity one first message (V, D, a) has an accepted answer to every challenge for the commitment of every value; and since the logarithm of H is public (C63), the honest prover can be run for any element y of the set with a blinding factor that makes the commitment equal to that of any x outside the set.",
  "all sets, bases and lengths, all keys, all pairs of accepted proofs made of group elements with the same first message, all challenges different modulo Order, outside the exceptional operands of Add", "Special soundness is about all provers; a test sees one proof, and the two gaps need a prover the library does not contain.",
  ["ccs08/ccs08.go:VerifySet", "ccs08/ccs08.go:VerifyUL", "ccs08/ccs08.go:ProveSet", "crypto/bbsignatures/bb.go:Sign", "ccs08/ccs08.go:SetupSet"])
p("C78", "Which part of a ccs08 proof reveals the secret",
  "C53 reads the secret from the fields s, t and m of a proof. The other fields do not show it: for every two elements x, x' of the set and every challenge c there is an explicit bijection of the random numbers (blinding factor included), computed by moveSet, such that the proof for x and the proof for x' with the moved random numbers have the same encodings of V, D, C, a and the same c, zr, zsig, zv, provided both have the challenge c. The same holds digit by digit for ProveUL and all x, x' in [0, u^l). The proviso matters: HashSet hashes the projective coordinates of D, which depend on m and s and not only on the group element, so that the challenge computed by the code differs between x and x' although all group elements agree (a concrete case is proved).",
  "all sets, keys, elements, random numbers below Order, challenges; all bases and lengths; outside the exceptional operands of Add", "Equality of distributions is a statement about all random numbers; a test draws a few.",
  ["ccs08/ccs08.go:ProveSet", "ccs08/ccs08.go:ProveUL", "util/util.go:HashSet", "crypto/bn256/bn256.go:String"])
p("C79", "How rarely honest proofs are rejected",
  "C24 and C51 accept honest proofs outside exceptional inputs of the incomplete point additions; these exceptions are counted here, in the order in which the numbers are chosen. Range proofs with n bits, generators with H, the first h and the sum of the g finite, secret in range: at most 2 values of gamma and n+1 values of the challenge z are bad; then, for all alpha, sL, sR, at most one rho; then at most 2 values of tau1 and 2 of tau2; then at most 8 values of the challenge x. When these are avoided Verify accepts the proof of Prove whatever the hash function is. Set membership: for every set, key, element and all random numbers meeting the challenge-independent conditions of C51 (with x + 2hr not 0 mod Order) there are two numbers such that every challenge other than these gives an accepted proof, V having no stale coordinate. Proofs for [0, u^l) with 2x below Order: l+1 numbers; ranges with int64 bounds: l+1 numbers for each half.",
  "all secrets in range, generators, random numbers and hash functions; all sets, keys, elements", "The bad values are a few in about 2^256; no test meets them and none can count them.",
  ["bulletproofs/bp.go:Prove", "bulletproofs/bp.go:Verify", "crypto/p256/p256.go:Multiply", "ccs08/ccs08.go:ProveSet", "ccs08/ccs08.go:VerifySet"])
p("C80", "Every ccs08 prover holds the signing key",
  "SetupSet and SetupUL store the private key in the parameters which ProveSet and ProveUL need. For every set, every key and every x >= 0 that the key can sign, in the set or not: adding bbsignatures.Sign(x, p.kp.Privk) to the map and calling ProveSet gives a proof with commitment Commit(x,r), a challenge equal to the hash of its a and D, and V a non-trivial multiple of a signature, which VerifySet accepts for the original parameters (outside the exceptions of C51). For VerifyUL any l integers which the key can sign, of any size, can be used in place of the digits, so that every x >= 0 is accepted for [0, u^l). Repairing the verifier (C52, C66, C77) does not change this.",
  "all sets, bases, lengths, keys, values x >= 0, blinding factors, random numbers and hash functions", "A test with the parameters of Setup never looks at what else they contain, and no finite test shows that every value can be proved.",
  ["ccs08/ccs08.go:SetupSet", "ccs08/ccs08.go:SetupUL", "ccs08/ccs08.go:ProveSet", "ccs08/ccs08.go:ProveUL", "ccs08/ccs08.go:VerifySet", "ccs08/ccs08.go:VerifyUL", "crypto/bbsignatures/bb.go:Sign"])
p("C81", "bulletproofs in several goroutines",
  "Goroutines which use the same parameters, each making, copying and verifying its own proofs, do not disturb each other: in every interleaving of their memory operations none panics that would not panic alone, every verdict is the one the goroutine would observe alone, and all finish. Proofs which existed before may be used too, if no InnerProductProof.Params.P of one goroutine's proofs is a point of the parameters or of another goroutine's proofs. Verify is not safe on the same proof (or a copy of the struct): for every proof which is accepted by the first call and rejected by the second (C23), there is an interleaving of two concurrent calls in which both reject.",
  "all numbers of goroutines, all programs of Prove, copy and Verify, all schedules, all heaps and aliasing patterns allowed by the condition, all hash functions", "A race shows only in rare schedules; tests run few of them, and the race detector sees only executed interleavings.",
  ["bulletproofs/bp.go:Prove", "bulletproofs/bp.go:Verify", "bulletproofs/bip.go:Verify", "crypto/p256/p256.go:Multiply"])
p("C82", "The methods of GT form a cyclic group",
  "On the elements a program can make from pairings with Add, Neg, Invert, ScalarMult (scalar ≥ 0), Exp and Unmarshal∘Marshal, GT is exactly the group of integers modulo Order: there is a logarithm, taking every value, that is 1 on the pairing of the generators and turns Add into addition, Neg and Invert into negation, ScalarMult and Exp into multiplication by the scalar; IsOne is true exactly for logarithm 0, IsZero is never true, and Marshal and String return equal results exactly for equal logarithms. Outside the group, 384 zero bytes unmarshal to an element with IsZero true which absorbs every other element in Add.",
  "all elements reachable from pairings by the operations of GT, all scalars", "The group has about 2^254 elements, and the elements are reached by arbitrary sequences of operations.",
  ["crypto/bn256/bn256.go:344-459", "crypto/bn256/gfp12.go:65-78"])
p("C83", "Printed group elements",
  "G1.String normalises the element it prints but does not change the point; equal texts belong to equal points; infinity prints as (0, 1). The text is determined by the point exactly for elements with z ≠ 1 or reduced coordinates: the generator and negated elements print a negative y, so the same point has two texts. G2.String prints the stored projective coordinates modulo p: equal texts belong to equal points, but a point has many texts; after Marshal, finite points have equal texts exactly if they are equal.",
  "all elements of G1 and G2, in all representations", "A point has as many representations as the field has elements; a test prints a few of them.",
  ["crypto/bn256/bn256.go:69-71", "crypto/bn256/curve.go:50-53", "crypto/bn256/bn256.go:219-221", "crypto/bn256/twist.go:67-69", "crypto/bn256/gfp2.go:38-42"])
p("C84", "ccs08 and bbsignatures with pointers",
  "Keygen, Sign, verify (bbsignatures), Commit, SetupSet, SetupUL, Setup, ProveSet, ProveUL, Prove, VerifySet, VerifyUL and Verify work on big.Int objects that are changed in place and passed by pointer. Each of them returns what the computation on plain values gives, and panics when that panics. Keygen, Sign, verify, Commit, the three Setup functions and the three Prove functions change no object that existed before: not the package variables (curveGen, twistGen, twistB, util.G1, util.E, the constants of bn256), not the parameters, not the signatures in them; what they return consists of new objects only, none of them shared with the parameters. The three Verify functions change at most the numbers of D and a of the proof they are given, in the way the value model says. The keys made by Keygen can be used in Pair without a panic.",
  "all memories in which the package variables have their initial values; all parameters and proofs in memory made of distinct objects apart from the package variables; all inputs, randomness and hash functions", "whether a receiver is also an argument, or a result shares an object with its input, shows only in later calls on the other object; tests compare returned values of single runs and do not enumerate which of the objects that existed before have changed",
  ["ccs08/ccs08.go:100-427", "crypto/bbsignatures/bb.go:44-106", "util/util.go:60-101", "crypto/bn256/bn256.go"])
p("C85", "Sessions with shared ccs08 parameters",
  "Setup followed by any sequence of Prove and Verify calls with these parameters, in any order, verifying any of the proofs made so far any number of times: every verdict is the one that the proof as it was made would get, whatever was proved or verified in between; the parameters, the package variables and everything else that existed before are unchanged at the end. No such session panics, for any secrets (in or out of the range), blinding numbers and randomness.",
  "all sequences of calls; all ranges with b < 2^63 for which Setup succeeds and all private keys with which it can sign the digits; all secrets, randomness and (never empty) hash outputs", "needs all interleavings of calls sharing one parameter object and proofs that Verify rewrites in place; tests use fresh parameters for one proof and verify it once",
  ["ccs08/ccs08.go:363-427", "ccs08/ccs08.go:197-336"])
p("C86", "The exact text hashed into each challenge",
  "The challenges of all protocols are SHA-256 of these ASCII texts. Set membership (HashSet): gt ++ g2, where gt is 'bn256.GT(((a,b),(c,d),(e,f)),((g,h),(i,j),(k,l)))' of the twelve coordinates modulo p and g2 is 'bn256.G2((x,y), (x,y), (x,y))' of the stored coordinates modulo p. Range proof (Hash): all GT texts in order, then g2. Inner product (hashIP): 'P256(X,Y)' of P, then of g[0], h[0], g[1], h[1], ... up to n, then the decimal number c; with fewer than n generators it panics. HashBP: the four decimal coordinates without separators, the same unsigned number for both results. MapToGroup: the decimal round number followed by the seed. Numbers are decimal with a minus sign if negative, and nil prints as <nil>. All results except HashBP's are read as two's-complement.",
  "all group elements, numbers, generators, lengths and hash functions with non-empty output", "Another implementation interoperates only if every byte of the hashed text is the same for all inputs; a test compares single inputs.",
  ["util/util.go:HashSet", "util/util.go:Hash", "bulletproofs/bip.go:hashIP", "bulletproofs/util.go:HashBP", "crypto/p256/p256.go:String", "crypto/bn256/gfp2.go:String", "crypto/bn256/twist.go:String", "crypto/bn256/gfp12.go:String"])
p("C87", "Repository tests that pass because of defects",
  "Three of the repository's own tests pass although the tested function is wrong. TestHashBP and TestHashBPGx contain the right second challenge - the hash of buffer2, which includes the first result - but HashBP returns the first challenge twice; the tests pass since they fail only when both values differ. TestAdd (crypto/p256) passes for all scalars 0<k, 0<l, k!=l, k+l<N in place of 71 and 17: Bytes() drops the sign of -(k+l), so the test adds (k+l)G to itself, whose sum is not infinity, and Add returns infinity because it is wrong for equal points. TestNegScalarBaseMulG2 passes for every non-negative b: Add(bG, ScalarBaseMult(-b)) is always infinity, although ScalarBaseMult(-b) is not on the curve and represents no group element unless the order divides b.",
  "all scalars in the stated ranges (TestAdd, TestNegScalarBaseMulG2); the fixed points of the HashBP tests", "The tests themselves are the subject: they pass, for every input of their form, without the property they are named after holding.",
  ["bulletproofs/util_test.go:TestHashBP", "bulletproofs/util_test.go:TestHashBPGx", "bulletproofs/util.go:HashBP", "crypto/p256/p256_test.go:TestAdd", "crypto/p256/p256.go:Add", "ccs08/ccs08_test.go:TestNegScalarBaseMulG2", "crypto/bn256/twist.go:Negative"])
p("C88", "One ccs08 proof verified by two goroutines at the same time",
  "VerifySet is cut into two parts inside MakeAffine (the call of Marshal on proof_out.D), after the inverse of z is known and before x, y and z are written; the two parts one after the other are VerifySet. If a goroutine stops there, another runs VerifySet on the same valid proof, and the first goes on, then the second accepts and the first rejects, D is left with x/z^4 and y/z^6 in the place of x/z^2 and y/z^3, which is not a point of the curve, and every later VerifySet rejects the proof; so for every valid proof whose D has z^6 different from 1, with no other object changed, and in particular for an honest prover with honest parameters. The same holds of VerifyUL, and of Verify on a range proof if the two goroutines meet in its first half.",
  "All memories holding the package variables, parameters and a proof at separate places; all parameters with a valid key; all proofs that VerifySet (VerifyUL) accepts with D a group element other than zero whose z^6 is not 1; all sets, intervals, elements, keys, randomness and hash functions for the honest case.", "The outcome depends on where the scheduler stops a goroutine, which a test cannot choose; go test -race is not used, and the repository has no test with two goroutines.",
  ["ccs08/ccs08.go:VerifySet", "ccs08/ccs08.go:VerifyUL", "crypto/bn256/bn256.go:Marshal", "crypto/bn256/twist.go:MakeAffine"])
p("C89", "Field methods of bn256 on objects in memory, operands and receiver possibly the same",
  "Every method of gfP2, gfP6 and gfP12 (Set, Add, Sub, Mul, Neg, Conj, Double, Square, MulXi, MulTau, Invert, Exp, MulScalar, MulGFP, Frobenius, FrobeniusP2, SetZero, SetOne, Minimal), called as e.Op(a, b, pool) without a pool or with a new one, leaves in e the value computed from the values a and b had before the call, whichever of e, a and b are the same object, and changes no other object; IsZero and IsOne of gfP2 and gfP6 change nothing, those of gfP12 reduce the element; MulScalar of gfP12 multiplies its receiver and does not read its operand.",
  "All memories, all objects e, a, b of each type that are pairwise the same or without common parts, all exponents, pool absent or new.", "The methods write parts of the receiver while they still read the operands; whether a method may be called in place depends on the order of all its steps, for every way in which the three objects can coincide and for every pool, and tests use a few numbers in one way.",
  ["crypto/bn256/gfp2.go:Mul", "crypto/bn256/gfp6.go:Mul", "crypto/bn256/gfp12.go:Mul", "crypto/bn256/gfp12.go:MulScalar", "crypto/bn256/gfp2.go:Exp"])
p("C90", "Numbers written in the source and accessors of bn256",
  "BigFromBase10 accepts exactly an optional sign followed by at least one decimal digit, gives the number the digits denote, gives n for the decimal digits of every integer n, and otherwise nil without an error. The literals of constants.go, twist.go and ccs08.go are the constants of the model, and P and Order are the polynomials in u of their comments; u is no cube at all, contrary to its comment. Add, Sub, Mod and Multiply of util/bn compute what they are named after, Mod the remainder in [0,|m|), with a panic exactly for modulus 0. Violated: gfP2.Real returns the coefficient of i and Imag the other one, so a number of the base field has real part 0. CurvePoints returns the objects the element consists of, in projective coordinates: writing to a result changes the element.",
  "for all byte strings and integers; all elements and heaps; the constants as they stand in the source", "No test can cover all strings; a mistyped digit in a constant, or a swapped accessor which no test calls, goes unnoticed.",
  ["util/intconversion/intconversion.go:25-28", "util/bn/bn.go:56-70", "crypto/bn256/gfp2.go:234-240", "crypto/bn256/bn256.go:74-76", "crypto/bn256/bn256.go:225-227", "crypto/bn256/constants.go:24-52", "crypto/bn256/twist.go:33-56"])
p("C91", "Objects taken from a bnPool and not given back",
  "Run with a pool, every method of gfP2, gfP6 and gfP12 gives back all objects it takes, whatever its operands and aliasing, and so do Double, MakeAffine, Negative, Set and the tests of curvePoint and twistPoint: Count() is the same after the call. Violated by Add: it keeps ten objects (twenty on the twist) exactly when it adds a finite point to itself, in whatever coordinates and whether or not the operands are one object, and none otherwise. Mul keeps ten (twenty) for each bit i of the scalar k that is set while 2*(k >> (i+1)) = 1 modulo Order; there is none for k <= Order+1 and one for k = Order+2. Violated by miller: it keeps 28, the twelve of its result and sixteen (q1 and minusQ2) that nobody can give back; so does optimalAte; finalExponentiation keeps its result only. PairingCheck keeps 28 per pair it multiplies.",
  "for all operands, heaps and pools (field methods, miller, finalExponentiation); all live operands representing points of the curve and an empty pool (Add, Mul), all scalars >= 0", "The test helpers compare Count() for a few fixed operands of the field methods; that Add leaks depends on two points being equal, which random operands never are.",
  ["crypto/bn256/bn256.go:515-548", "crypto/bn256/curve.go:90-194", "crypto/bn256/curve.go:241-259", "crypto/bn256/twist.go:105-177", "crypto/bn256/twist.go:217-235", "crypto/bn256/optate.go:271-305", "crypto/bn256/optate.go:401-410", "crypto/bn256/bn256.go:497-513"])
p("C92", "Goroutines which use bn256, bbsignatures and ccs08 at the same time",
  "Any number of goroutines may set up parameters, prove, verify and sign at the same time, sharing the parameters and the package variables, as long as no two of them verify the same proof: in every order of their accesses to big.Int objects each gets the verdicts it would get alone, no goroutine panics, and no object changes except D and a of the proofs being verified, which Marshal makes affine. Every exported function writes only to objects it has made and to the receiver, except GT.Exp (its argument), Marshal and IsZero/IsOne of GT (the element), and the verifiers (D and a of the proof). For one valid, not yet verified proof of set membership given to two goroutines there is an order of the accesses in which one of them rejects it.",
  "all numbers of goroutines, all tasks and inputs, all schedules (every interleaving of single accesses to big.Int objects), all memory states with intact package variables", "The race detector and stress tests see some schedules; absence of interference is a statement about every interleaving of about 10^7 accesses per goroutine.",
  ["crypto/bn256/bn256.go", "crypto/bn256/optate.go", "crypto/bbsignatures/bb.go", "ccs08/ccs08.go:100-427"])
p("C93", "ccs08 verifiers on proofs and parameters with missing parts",
  "VerifySet panics exactly when the proof or the parameters are nil or something it needs is missing: C, c, H, zr (C and H may be elements without a value when c, zr = 0), the values of D, V, a and the public key, zsig, zv. Otherwise its verdict is that of the verification equations for the values present, and only D and a change (to the affine form); s, t and m, the secrets in the proof, are not read. VerifyUL likewise, per entry i < l: a list shorter than l panics, entries from l on are ignored. Verify needs both halves: a missing part in the second half panics even when the first is rejected. Violated expectation: none of them ever returns an error or false for an incomplete proof. The proof that ProveSet returns together with an error makes VerifySet panic, and so does Verify before Setup or Prove or after a Setup that failed.",
  "all proofs, parameters and receivers, with every pointer (and the inner pointer of every group element) nil or not, all lists of any length", "Which combinations of nil pointers and short lists crash, and that no other does, is a statement about all of them; a test tries one missing field.",
  ["ccs08/ccs08.go:263-338", "ccs08/ccs08.go:403-433", "crypto/bn256/bn256.go:259-271", "crypto/bn256/twist.go:217-235", "crypto/bn256/bn256.go:376-381"])
p("C94", "JSON loses the proofs of ccs08 and the elements of bn256",
  "Violated expectation: a proof can be sent as JSON. All proofs of set membership without nil pointers have the same text {\"V\":{},\"D\":{},\"C\":{}}, since elements of bn256 have no exported field and the other fields of the proof are not exported; for proofs of [0, u^l) the text depends on the number of elements V only, and reading it back gives that many elements without values and nothing else. Whatever text is decoded into a zero proof, VerifySet and VerifyUL panic on the result. Decoding into a variable that holds a proof leaves that proof unchanged without an error, so the receiver verifies the old proof. A bbsignatures key pair keeps its private key in the text and loses its public key, which becomes an element without a value; verification with it panics.",
  "all proofs, key pairs, texts and previous values of the target", "That no text whatsoever decodes to a usable proof is a statement about all texts; a round-trip test compares one value.",
  ["ccs08/ccs08.go:78-97", "crypto/bbsignatures/bb.go:36-39", "crypto/bn256/bn256.go:47-49", "crypto/bn256/bn256.go:197-199"])
p("C95", "The halves of a ccs08 range proof and its interval are not tied together",
  "Violated expectation: an accepted proof made of honest halves speaks about one value in [a,b). Verify does not read a and b, so the same proof is accepted for every interval with these parameters. The first half of an honest proof for x together with the second half of an honest proof for x' is accepted, for non-zero challenges, exactly when b-57^l <= x < b and a <= x' < a+57^l; for every interval with 0 <= a <= b that holds for some x < a and x' >= b, so that neither value is in the interval. A verifier that compares the commitments of the halves (they differ by G2^(a-b+57^l) exactly when x + h*r = x' + h*r' modulo Order) would not notice either: there is such an r' for every x', given by a formula.",
  "all int64 a <= b, b != 1, all |x|, |x'| < 2^250, all keys and randomness, outside the coincidences of C54", "The combination of parts of different proofs is not something the library produces; the exact set of accepted pairs is a statement about all values.",
  ["ccs08/ccs08.go:341-358", "ccs08/ccs08.go:403-427"])
p("C96", "The zero value of G1, G2 and GT: output yes, input no",
  "The documentation says that the zero value is suitable as the output of an operation but cannot be used as an input. For programs of calls on variables that begin as zero values: a program in which every argument is the result of an earlier call (and the lists of PairingCheck fit) never panics. A single call panics exactly if it reads a variable without a value: a receiver is filled before the arguments are read and a scalar 0 reads nothing, so e.Neg(e), e.ScalarMult(e,k) and e.Add(e,e) with a zero value e succeed and give infinity in G1 and G2, and GT.Exp never panics, as it fills its argument. PairingCheck panics exactly if a point of the first list has no value, or is finite with its partner absent or without a value. A sum e.Add(e,x) over several x may therefore begin with the zero value in G1 and G2; in GT the same loop does not panic and leaves the field element 0, outside the group, whatever the factors are.",
  "all programs (finite lists of 33 exported methods and functions), all variables, all values, scalars and byte strings", "The rule is about sequences of calls, and the exceptions depend on the order of nil checks inside each method; tests use a few fixed sequences.",
  ["crypto/bn256/bn256.go:43-49", "crypto/bn256/bn256.go:194-199", "crypto/bn256/bn256.go:343-348", "crypto/bn256/bn256.go:69-193", "crypto/bn256/bn256.go:219-342", "crypto/bn256/bn256.go:350-513"])
p("C97", "A program of calls of bn256 computes in the groups what the calls say",
  "There is a bilinear map e, trivial only if one of its arguments is, such that after any sequence of exported calls of bn256 on variables which may be shared between receiver and arguments, each variable has the value the group laws give: Add is the sum, Neg the inverse, ScalarMult the multiple, Unmarshal the element whose bytes they are, Pair the value of e, in GT the product, the inverse and the power. The exceptions are exact: adding equal finite elements into the first of them (C35), in G2 inverting in place, negative scalars and Marshal of infinity (the variable then has no group element at all), GT.Exp (which sets its argument, not the receiver), GT.ScalarMult with negative scalars, and Pair with an element of G2 outside the subgroup or whose cached coordinate is stale. The returned values (verdicts of IsZero, IsOne, Unmarshal and PairingCheck, bytes of Marshal) are those which the elements determine.",
  "all finite sequences of the modelled calls with any sharing of variables, all scalars and byte strings, all states of the variables", "Unit tests check single calls with separate variables on random scalars. How the values follow through sequences in which a variable is at the same time receiver and argument is a statement over all programs.",
  ["crypto/bn256/bn256.go:40-400", "crypto/bn256/curve.go", "crypto/bn256/twist.go", "crypto/bn256/optate.go"])
p("C98", "The text of a Bulletproof grows with the range, not with its logarithm",
  "The README says that the size of a proof is only logarithmic in the size of the input, and so it is for the inner-product argument (C22). The text which json.Marshal makes of the proof for n = 2^k bits nevertheless contains exactly 6n + 2k + 18 curve points, so at least 66n bytes: the generators are written three times (Params, Params.InnerProductParams and InnerProductProof.Params), although Params is the argument of Prove and the other two are a function of it and of A and S. A proof for an interval has twice as many. If the coordinates of the generators are below 2^256, as those of Setup are, the text has at most 1008n + 336k + 4200 bytes, for the largest range of Setup 38136.",
  "all powers of two n, all generators, secrets and random values for which Prove returns", "The tests transport proofs of one size and compare verdicts; how the size depends on n is a statement over all n.",
  ["bulletproofs/bp.go:36-69", "bulletproofs/bip.go:36-60", "bulletproofs/bprp.go:38-41", "README.md:35", "README.md:63-70"])
p("C99", "Scalar multiplication on bn256 uses its objects in an order that gives the scalar away",
  "Scalars are secrets: the private key of a Boneh-Boyen signer, the committed number, every random mask. Somebody who sees the order in which ScalarMult or ScalarBaseMult of G1 or G2, or Exp of GT, allocates, reads and writes its big.Int objects, but no value, knows the scalar: two scalars give the same order only when they are equal. ScalarMult of GT gives away the length of the scalar and that many of its lowest bits, which is all of a scalar that is not negative; of a negative one the order tells nothing more.",
  "all receivers, points, memories, pools and all pairs of integers as scalars", "The tests compare results; which objects are used on the way is not observed, and that different scalars always differ is a statement over all pairs.",
  ["crypto/bn256/curve.go:241-259", "crypto/bn256/twist.go:217-235", "crypto/bn256/gfp12.go:146-166", "crypto/bn256/bn256.go:88-124", "crypto/bn256/bn256.go:238-263", "crypto/bn256/bn256.go:355-371", "crypto/bbsignatures/bb.go:46-57", "util/util.go:60-64"])
p("C100", "Programs of crypto/p256 compute in the group although points share big.Int objects",
  "A point of crypto/p256 is a pair of pointers to big.Int, and Multiply and Add return with the pointers of an argument if an argument is infinity. Nevertheless a program of calls on any variables, also with the same variable as receiver and argument, leaves in each variable what the calls compute in the group (except that Add is only a sum of different points and Neg inverts its receiver), IsZero, IsOnCurve and String answer accordingly, and no big.Int that existed before the program changes, in particular not CURVE.P, CURVE.N, the scalars and the coordinates of points. Two variables have both coordinates in common or none, and which ones share is determined by the group elements; code that writes to p.X in place changes exactly the variables that share it. The only call that panics is IsOnCurve of a point with a nil coordinate. The function addJacobian by itself is right for all Jacobian coordinates, also with Z different from 1 and with the same object in several arguments, except that a sum with infinity or of a point with itself comes out as infinity.",
  "all programs of the eleven exported operations, all variables, memories, scalars and strings, and all implementations of go-ethereum's curve that meet their contract", "The tests use separate variables and compare values; that no sequence of calls writes to a shared object is a statement about all programs and all ways of sharing.",
  ["crypto/p256/p256.go:48-263", "crypto/p256/mycurve.go:31-114"])
p("C101", "The curve calls of Prove tell the secret",
  "Prove hands CURVE.ScalarMult scalars as byte slices without leading zeros. After gamma and alpha come, in the vector commitment, exactly one call per bit of the secret, from the lowest: the bit 1 gives the slice of the scalar 1 (one byte), the bit 0 the slice of ORDER - 1 (32 bytes). Therefore whoever sees the lengths of the scalars in these calls, for instance through their running time, knows the whole secret, whatever the randomness and the hash functions; two calls of Prove with different secrets in the range never have the same sequence of lengths. The number of calls in this part does not depend on the secret. The first call tells moreover whether the secret is 0, and its length in bytes otherwise. The calls of ProveGeneric start with those of Prove for secret - B + 2^32, so for one B different secrets below B never have the same sequence of lengths either.",
  "all secrets, randomness (gamma and alpha not 0), hash functions, curve libraries, and parameters with finite generators", "Tests look at results; which calls are made in between with what lengths, and that they determine the secret for all randomness, is a statement about traces of all runs.",
  ["bulletproofs/bp.go:104-239", "bulletproofs/bp.go:376-415", "crypto/p256/p256.go:107-137", "crypto/p256/p256.go:145-166", "bulletproofs/bprp.go:69-91"])
p("C102", "The work of Verify is bounded by the text of the proof, its memory by a number in the text",
  "For every proof, honest or not, Verify calls the curve at most 3|Hh| + 2|Gg| + 3|IP.Gg| + 3|IP.Hh| + 4|Ls| + 27 times, hence at most four times for eleven bytes of the proof's JSON text; for a proof by Prove for n bits this is at most 11n + 4 log n + 27, and for finite generators it is never below n - 1 multiplications. Prove itself makes at most 27n + 10 log n + 15 calls and asks for at most 34n slice elements. For generic ranges the bounds of the two halves add up (ProveGeneric: at most 1858 calls and 2176 slice elements). But the first thing Verify does is to make a slice with as many elements as the number N in the proof says: where N is at most the number of generators all slices are bounded by those, and otherwise Verify asks for N elements and then panics. For every N of an int64 there is a text of less than 700 bytes that decodes to such a proof.",
  "all proofs (any list lengths and values), hash functions and curve libraries; for the text all N from 1 to 2^63 - 1; for Prove all n", "No finite set of proofs bounds the work for all proofs, and the attack needs a text that Prove never produces.",
  ["bulletproofs/bp.go:244-336", "bulletproofs/bp.go:354-371", "bulletproofs/bip.go:105-215", "bulletproofs/bip.go:220-265", "bulletproofs/util.go:85-102", "bulletproofs/bprp.go:69-107"])
p("C103", "Commitments can be added and scaled, and two openings give away the logarithm of H",
  "The product (P256.Multiply) of commitments made by CommitG1 is a commitment to the sum of the values under the sum of the randomness, for any number of commitments, and it has the same coordinates as the commitment that CommitG1 makes for the sums; ScalarMult by k gives a commitment to k times the value. This holds where CommitG1 itself is right (no exceptional addition, C19). With Add in place of Multiply a commitment added to itself becomes infinity. Whoever opens one commitment to two values that differ modulo the order knows the logarithm of H: it is (x - x') / (r' - r). For the commitments of ccs08 the method Add of G2 with a separate receiver gives a point with the same encoding as the commitment to the sums.",
  "all values, randomness, numbers of commitments, scalars, and curve libraries that meet their contract", "Applications add commitments (balances); tests add none, and a law for all values and randomness with its exceptions is not a finite check.",
  ["util/util.go:60-75", "crypto/p256/p256.go:145-166", "crypto/p256/p256.go:74-89", "crypto/bn256/bn256.go:267-273"])
p("C104", "Accepted range proofs can be changed into other accepted proofs",
  "Verify of bulletproofs reads Taux, Mu, Tprime and the two numbers of the inner-product proof modulo the order only: any other integers with the same residues, negative ones included, give the same verdict and the same final state, whatever the proof is. Hence each accepted proof has infinitely many JSON texts that decode to accepted proofs for the same commitment. The inner-product proof of an accepted proof can be replaced by that of any other accepted proof. And everybody can change a proof, without its secret, to one for the commitment V + d*G + e*H for all d and e (with Tprime moved by z^2*d and Taux by z^2*e) and the verdict stays the same, as long as no addition is exceptional.",
  "all proofs, all integers with equal residues, all shifts d and e, and all curve libraries that meet their contract", "An application that remembers proofs (or their texts) to reject repeats relies on a proof having one form; tests verify proofs as Prove made them.",
  ["bulletproofs/bp.go:244-336", "bulletproofs/bip.go:220-265", "crypto/p256/p256.go:107-137"])
p("C105", "Accepted ccs08 proofs can be changed into proofs for other commitments",
  "VerifySet reads c, zr, zsig and zv of a proof modulo Order only, and s, t and m not at all. Everybody can add e*H to the commitment C of a proof and change zr by -c*e, and the verdict stays the same; V, D and a, hence also the challenge the hash of ProveSet gives, stay as they are, so recomputing the challenge would not help. As the logarithm of H is public, every shift of the committed number has such an e. V and a can be raised to the same power, with zv multiplied by it. The shift also works for VerifyUL, and for the two halves of a range proof with different shifts. Conditions: the points have exponents, and no addition is exceptional.",
  "all proofs whose points are multiples of the generators, all parameters with a key, all shifts e and all powers k not divisible by Order", "A proof must be tied to its commitment; tests verify proofs as the provers made them and never change the commitment together with an answer.",
  ["ccs08/ccs08.go:263-293", "ccs08/ccs08.go:298-336", "ccs08/ccs08.go:423-427", "ccs08/ccs08.go:100-116"])
p("C106", "Which points MapToGroup returns, and which messages share its hash inputs",
  "The ordinate of a result of MapToGroup is the root of x^3+7 that ModSqrt chooses, so two results with the same abscissa are the same point and no message is mapped to the inverse of the point of a message. Exactly (ORDER-1)/2 of the numbers below p are abscissae of points, and over all messages and hash functions exactly (ORDER-1)/2 points can be returned: one half of the group cannot be reached. For messages which do not begin with a digit (all seeds of bulletproofs among them) the strings hashed for different messages or different tries are different. For a message which begins with a digit they are not: try i of d||m hashes the same string as try 10i+d of m, and there are hash functions for which m and \"0\"||m have the same point.",
  "all messages, all hash functions with 32 bytes, and all curve libraries that meet their contract", "The count is over a field of 2^256 numbers; the statement on inverses and shared inputs is about all pairs of messages.",
  ["crypto/p256/p256.go:194-218", "crypto/p256/p256.go:223-234", "crypto/p256/p256.go:239-245", "bulletproofs/bp.go:82-95", "bulletproofs/bip.go:75-96"])
p("C107", "The default generators of the inner-product argument",
  "With nil H, g and h setupInnerProduct returns an error exactly for N <= 0, and otherwise parameters with N generators in each table, each of them the result of MapToGroup on its seed; with non-nil arguments they are kept. For the N of a Setup the defaults are the generators of Setup. If MapToGroup finds all points, proofs for the defaults are accepted for all vectors of a length N = 2^k whose product is c modulo the order. The seeds end in string(i), a code point and not a decimal number: two indices have the same string exactly if they are equal or both are replaced by U+FFFD. So all seeds differ for N <= 55296, and from N = 55298 on two generators of each table are the same and commitments to the vectors are not binding.",
  "all N, all products c, all vectors, all indices, all hash functions with 32 bytes and all curve libraries that meet their contract", "The test uses N = 4 and one pair of vectors; the repeated generators appear at 55298, and distinctness is about all pairs of indices.",
  ["bulletproofs/bip.go:66-100", "bulletproofs/bip_test.go:28-56", "bulletproofs/bp.go:82-95", "crypto/p256/p256.go:194-218"])
p("C108", "The integers in updateGenerators grow without bound",
  "updateGenerators computes y^-1, y^-2, ... as integers and never reduces them modulo ORDER: for n generators the results of bn.Multiply are exactly v^2, ..., v^n for the inverse v of y in [1, ORDER). The k-th power has more than k(b-1) and at most kb+1 bits, where b is the number of bits of v, and all of them together between (b-1)(n-1)(n+2)/2 and b(n-1)(n+2)/2 + n-1 bits; exactly 2^b - 1 of the ORDER - 1 possible y have an inverse of at most b < 256 bits. So the work of Prove and Verify on integers grows with the square of n. Verify does this first, with the number of generators that the proof contains: for every n there is a text of at most 168n + 4200 bytes for which it computes that many bits. A reduction after each product would give the same generators.",
  "all y, n, generators, hash functions, curve libraries and points A and S of the sender", "Results are right, so no comparison of values shows it; how the work grows is a statement over all n.",
  ["bulletproofs/bp.go:354-371", "bulletproofs/bp.go:251", "bulletproofs/bp.go:215", "crypto/p256/p256.go:115", "util/bn/bn.go:68-70"])
p("C109", "The pairings and scalar multiplications of ccs08",
  "The calls of Pair and of the scalar multiplications, with their scalars and in their order, are known exactly for SetupSet, SetupUL, ProveSet, ProveUL, VerifySet and VerifyUL. ProveUL computes l pairings and VerifyUL 2l (the comment on paramsUL says 2l and 3l), never more, not even for malformed proofs or parameters; ProveSet computes one and VerifySet two, whatever the set. SetupUL makes u + 2 scalar multiplications and no pairing. For a range [a,b) with b in int64 there are at most 11 digits; Setup makes 59 scalar multiplications, Prove two pairings for each base-57 digit of b and Verify four. VerifyUL does not stop at a failed comparison: its calls depend on c, zr, zsig, zv, u and l only, so accepted and rejected proofs with the same numbers take the same calls. The provers multiply with the secret and with the factor r themselves (in Commit), so the scalars of the calls determine both.",
  "all parameters, sets, secrets, randomness, hash functions and proofs", "Tests compare verdicts; the numbers of calls for all u, l and proofs, and that no proof makes the verifier work more, are statements over all inputs.",
  ["ccs08/ccs08.go:62-73", "ccs08/ccs08.go:100-141", "ccs08/ccs08.go:146-258", "ccs08/ccs08.go:263-336", "ccs08/ccs08.go:363-427", "util/util.go:60-64", "crypto/bbsignatures/bb.go:44-76"])
p("C110", "The program of the README",
  "With SHA-256 and int64 bounds the setup of the README's program never fails, and the prover sends a text exactly if its 138 random numbers could be drawn and both halves can be proved. Unless a challenge is zero or an exceptional addition occurs, the verifier decodes the text, Verify returns, and the message is printed exactly if max(a,b-2^32) <= x < min(b,a+2^32); for the bounds of the README exactly for the ages 18 <= x < 200. But the interval is not part of the text and not an input of the verifier: with both bounds and the secret shifted by the same number the prover sends the same text, so for every age there are bounds of the same width for which the message 'Age verified to be [18, 200)' is printed. The texts {} and null make the verifier panic.",
  "all int64 bounds, secrets, random numbers and texts", "A test runs the program with its own interval and one secret; that the printed interval is not bound to what was proved, and the exact condition of the message, are statements over all bounds, secrets and random numbers.",
  ["README.md:51-78", "bulletproofs/bprp.go:47-107"])
p("C111", "Ignoring the error of json.Unmarshal",
  "The README's verifier ignores the error of json.Unmarshal and verifies what has been decoded. Without an error this is the decoded proof. Ignoring errors lets nothing more through: for every text the value left is one which another text gives without an error, and that text gets the same verdict from a verifier that checks the error. But the message may be printed although an error was returned: the text of any proof extended by a member P2 with a number, string, boolean or array, or by a member with a string for a coordinate that Verify does not read, is refused by json.Unmarshal, and the program still gives the verdict on the proof. A text that is not JSON or not an object makes the program panic, and after an error in a number of the first half the second half is not read, so the message is not printed.",
  "all texts, all proofs, all values which a failed big.Int.UnmarshalJSON may leave", "Tests check the error of json.Unmarshal and use well-formed texts; what is left after an error is a statement over all malformed texts.",
  ["README.md:68-77", "bulletproofs/bprp.go:38-41", "bulletproofs/bprp.go:96-107", "bulletproofs/bp.go:36-69", "bulletproofs/bip.go:36-60", "crypto/p256/p256.go:41-43"])
p("C112", "An accepted text for every number, with SHA-256 and the parameters of SetupGeneric",
  "With SHA-256 there is, for all bounds a, b and for every integer x, a text for which the README's verifier prints its message: it decodes to a proof which has the parameters of SetupGeneric(a,b) in both halves and whose commitments V open to x-b+2^32 and x-a with H as in an honest proof for x, with blinding factors 1, 2 or 3. No condition on challenges or additions is left. The same holds for Setup with each of its six range ends and for every committed number. Verify does not change these proof objects, so unlike honest ones they are accepted by every call.",
  "all bounds and all integers x", "That the verifier accepts a proof for every number, in particular outside the interval, with the real hash function, is an existence statement for all x; tests only check proofs made by the library.",
  ["bulletproofs/bp.go:244-334", "bulletproofs/bip.go:220-266", "bulletproofs/bprp.go:47-107", "README.md:51-78"])
p("C113", "No verifier can tie the halves of a generic proof together; one gamma for both would do",
  "ProveGeneric draws the blinding factors gamma of its two halves independently. Therefore no test whatever on the proof (any changed Verify) can tell whether both halves are for the same number: for every secret v in the accepted interval, every x1 in [b-2^32, b) and x2 in [a, a+2^32), in particular x1 < a and x2 >= b, the honest proofs for v pass the test at most as often as the pairs of Prove(x1-b+2^32) and Prove(x2-a), up to 44/ORDER and the probability of a failed proof. If both halves used one gamma, the verifier could compare V1 with V2*G^(a-b+2^32): honest proofs pass this comparison exactly if the two gamma are equal; together with the repaired verifier of C76 for each half the extracted openings are those of one number in the interval of C25 or give a relation between G and H; and the proofs reveal no more about the secret than those of ProveGeneric (same bound as in C69).",
  "all intervals with ends below 2^64, all secrets, all tests (sets of results), all hash functions, all generators with H not infinity", "It is a statement about every possible verifier and about the distribution of proofs over all randomness.",
  ["bulletproofs/bprp.go:69-107", "bulletproofs/bp.go:104-239"])
pathlib.Path(__file__).resolve().parent.parent.joinpath("properties.jsonl").write_text(
    "".join(json.dumps(x, ensure_ascii=False) + "\n" for x in L))
print(len(L))

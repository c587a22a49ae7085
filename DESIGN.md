# Formal model of ing-bank/zkrp in Lean 4

This document says what is modelled, how each property of `properties.jsonl` is
proved, and what has to be trusted. `MANIFEST.json` maps each property to its theorems.

## Trusted base

* The Lean 4.33.0 kernel (and the axioms `propext`, `Classical.choice`, `Quot.sound`).
  No axiom is added. `native_decide`, `bv_decide`, `sorry`, `admit` are not used.
  Some concrete computations (256-bit curve constants) use `decide +kernel` or `by norm_num`,
  which are kernel evaluations.
* The reading of the Go code. Nothing is extracted or run; every model definition
  cites the file and lines it transcribes.
* Go semantics as read in: `math/big` (`Mod`, `Div` Euclidean; `ModInverse` nil when not
  coprime; `Exp` modulo `|m|`), `int64` wrap-around where it can occur.
* External code, which is *not* modelled but enters as a parameter with a stated
  specification: SHA-256 (an arbitrary function from byte strings to byte strings),
  `crypto/rand` (arbitrary values), go-ethereum's `BitCurve.ScalarMult` and `Double`
  (cgo: specified as scalar multiplication/doubling on the curve), `big.Int.ModSqrt`
  (specified as: some square root or nil if none).

## Modelling conventions

* `*big.Int` is `Int`; where `nil` is possible, `Option Int`.
* A Go panic is the explicit outcome `Res.panic` (nil dereference, index out of range,
  division by zero). `(T, error)` results are values.
* Slices are lists; a slice alias is modelled only where the code writes through it
  (`InnerProductProof.Verify` writes `*Params.P`; bn256 receivers may alias arguments). C72-C74 prove that the
  value models agree with models on a memory with pointers.
* Randomness is an argument of the model function: each theorem holds for every value.
* Curves: `P256` values are pairs of optional integers as in the code; the specification
  side is Mathlib's `WeierstrassCurve.Affine.Point` group. bn256 points are Jacobian
  quadruples `x,y,z,t` as in the code.

## Layout

* `Verif/Go.lean` – panics, Go integer primitives.
* `Verif/Model/*.lean` – transcriptions of the code.
* `Verif/Spec/*.lean` – small independent specifications.
* `Verif/Lemmas/*.lean` – auxiliary proofs.
* `Verif/Props/*.lean` – the property theorems with a non-vacuity `example` next to each.

## Properties: what is modelled, how it is proved

| id | model | method |
|----|-------|--------|
| C01-C03 | `byteconversion` on `List UInt8`/`Int` | induction on bytes; base-256 digits |
| C04-C05 | `parse.go` on byte lists | induction on the string |
| C06 | `bn.ModPow` with extended Euclid for `ModInverse` | number theory |
| C07 | `bn.CalculateHash`, hash function a parameter | explicit collision + injectivity of the encoding |
| C08 | `util.Decompose` | induction on `l` |
| C09 | `IsPowerOfTwo` on `BitVec 64` | bit lemma, all widths |
| C10, C56 | `bulletproofs.Setup` | case analysis over powers of two |
| C11, C12 | vector operations | induction on vectors |
| C13-C16, C18 | `p256.go`, `mycurve.go` over `Int` | field-level proof that the Jacobian formulas are the group law; transfer to `Int` residues; prime order proof |
| C17 | `MapToGroup`, hash and square root parameters | induction on the counter |
| C19, C33 | `CommitG1` | from C14/C15; linear algebra over `ZMod N` |
| C20 | `VectorExp` | induction |
| C21-C23, C32 | `bip.go` | folding invariant: `P - (<a,g>+<b,h>+<a,b>u)` is preserved |
| C24-C31, C59 | `bp.go`, `bprp.go` | polynomial identity in the `ZMod N`-module of points |
| C34-C37 | `curve.go`, `twist.go` | same generic Jacobian proof, over GF(p) and GF(p²) |
| C38-C41 | `Marshal`/`Unmarshal` on byte lists | base-256 digits + C34/C36 |
| C42-C46 | `gfp2/6/12.go`, `optate.go` | ring identities; irreducibility; Frobenius; exponent arithmetic |
| C47 | `RandomG1/2` over a stream | fuel/induction on the first non-zero value |
| C48 | `bnPool` as a state machine | invariant |
| C49-C50 | `bb.go` on the bn256 model | C62 and exponent arithmetic |
| C51-C55, C63, C66 | `ccs08.go`, `util.Commit` on the bn256 model | C62 and exponent arithmetic; C52 needs no group theory |
| C64 | `VerifySet/UL/Verify` with the rewritten proof as a result | `Marshal` is idempotent |
| C65 | `Hash`, `HashSet` with `String` on byte lists | unique parsing of the strings |
| C57 | JSON trees and their text, for the repository's types (`Model/Json`) | unique readability by mutual induction; C23, C24 |
| C67 | `Prove` with arbitrary vectors in place of the bits (`Lemmas/BpBits`) | the polynomial identity of C24 for arbitrary `aL`, `aR` |
| C68 | SHA-256 (`Spec/Sha256`), `MapToGroup` and `Setup` | kernel evaluation of the 66 seeds (all there are), Euler's criterion; C24, C25 |
| C69 | the finite set of draws (`Spec/Rnd`), ideal prover (`Lemmas/BpHide`) | a change of randomness that maps proofs for v to equal proofs for v'; counting exceptional draws |
| C70 | `Model/GoVerify` (`Verify` with every dereference), `Model/Json` | a successful run has dereferenced every listed pointer; an invariant of the member decoder |
| C71 | extractor (`Spec/IpExtract`), `InnerProductProof.Verify` | interpolation in the square of the challenge, induction on the tree; the loop of `Verify` computes the folded generators |
| C72 | `Model/Heap` (pointers), `Spec/Program` | simulation of the model on values by the one on the heap; frame rules for writes below the allocation bound |
| C73 | `Model/Heap` | equations for each method valid under any aliasing |
| C74 | `Model/BnHeap`, `Model/BnHeapPair`: bn256 on a memory of `big.Int` cells with pools | ownership of cells (`Lemmas/BnHeap`): a small separation logic with one rule per method and aliasing pattern |
| C75 | `Model/GoProve`: provers with optional random numbers | case analysis on where a nil number is used |
| C76 | extractor (`Spec/BpExtract`), repaired verifier (`Spec/BpFixed`) | interpolation in x and y, then z; C71 for the vectors l, r |
| C77 | two runs of VerifySet/VerifyUL with one first message | C51/C54 verdicts divided by the difference of the challenges; C49 for the signature |
| C78 | proofs of ccs08 without the fields s, t, m | bijection of random numbers between two secrets |
| C79 | exceptional inputs of C24, C51, C54 and C55 | number of bad values, in the order of choice |
| C80 | ccs08 parameters contain the signing key | attack by a prover, all values |
| C81 | `bulletproofs` in several goroutines | all schedules; positive with footprint condition, race as witness |
| C82 | The methods of `GT` form a cyclic group | holds for elements made from pairings; `IsZero` is never true there |
| C83 | Printed group elements | equal texts for equal points only; the converse fails for `G1` with unreduced coordinates and for `G2` |
| C84 | ccs08 and bbsignatures with pointers | every call on objects in memory follows the value model; which objects change |
| C85 | Sessions with shared ccs08 parameters | any sequence of Prove and Verify; verdicts as for fresh proofs; no panic |
| C86 | Exact texts hashed into the challenges | texts in `Spec/Text.lean`, with Lean's `toString` |
| C87 | Repository tests that pass because of defects | also the fixed values of all `_test.go` files as examples |
| C88 | two goroutines verify one proof | a valid proof is rejected and destroyed |
| C89 | field methods in memory | in place or not |
| C90 | decimal literals, util/bn, `Real`/`Imag`, `CurvePoints` | `Real` and `Imag` are swapped; `CurvePoints` leaks internal objects |
| C91 | Objects taken from a bnPool and not given back | Violated by Add of equal points (10 or 20 objects) and by miller (16) |
| C92 | Goroutines which use ccs08 and bn256 at the same time | Proved for separate proofs; for the same proof a schedule with a wrong verdict |
| C93 | ccs08 verifiers on incomplete proofs | Proved: panic sets are exact; the code never returns an error for a missing part |
| C94 | JSON of ccs08 proofs and bn256 elements | Proved: the text carries nothing of the proof; decoded proofs make the verifiers panic |
| C95 | Parts of ccs08 range proofs | Proved: exact verdict on mixed halves, bounds are not read |
| C96 | Zero values in `bn256` programs | Proved: documented rule, exact panics, products from the zero `GT` are 0 |
| C97 | A program of calls of `bn256` computes in the groups what the calls say | Proved with the exceptions listed (`C97_lost`) |
| C98 | The text of a Bulletproof grows with the range, not with its logarithm | Proved: `6n + 2k + 18` points (`C98_points`) |
| C99 | The objects used by a scalar multiplication tell the scalar | Proved: equal traces exactly for equal scalars (`C99_G1`, `C99_G2`, `C99_GT`) |
| C100 | P256 on big.Int objects: what programs compute, which objects they change and share | Proved (`C100_programs`, `C100_objects`, `C100_shared`); coordinates are shared after Multiply and Add with infinity |
| C101 | Calls of the curve during Prove: do they depend on the secret | Deviation, proved (`C101_lengths`, `C101_secret`): the lengths of the scalars are the bits of the secret |
| C102 | Work and memory of Verify and Prove | Proved (`C102_calls_text`, `C102_prove`); deviation: a short text makes Verify ask for any amount of memory (`C102_text`) |
| C103 | Adding and scaling commitments; two openings | Proved (`C103_many`, `C103_openings`); Add instead of Multiply fails (`C103_add`) |
| C104 | A proof has one accepted form | Refuted (`C104_residues`, `C104_texts`, `C104_splice`, `C104_rerandomize`) |
| C105 | A ccs08 proof is tied to its commitment | Refuted (`C105_residues`, `C105_shift`, `C105_value`, `C105_scale`, `C105_ul`, `C105_range`) |
| C106 | MapToGroup as a hash to the group: separated inputs, all points reachable | Exact: half of the points, never an inverse, separated inputs for messages not beginning with a digit (`C106_root`, `C106_abscissa`, `C106_inverse`, `C106_count`, `C106_image`, `C106_domain`, `C106_seeds`); collisions otherwise (`C106_prefix`, `C106_collision`) |
| C107 | The default generators of the inner-product argument are N different seeds | Exact: different up to 55296 entries, two equal ones from 55298 on (`C107_rune`, `C107_distinct`, `C107_repeated`, `C107_binding`); `C107_error`, `C107_default`, `C107_given`, `C107_same`, `C107_complete` |
| C108 | The integers in updateGenerators grow without bound | Proved: `v^2, …, v^n` unreduced (`C108_products`, `C108_total`), quadratic for a sender's text (`C108_text`) |
| C109 | The pairings and scalar multiplications of ccs08 | Proved: exact calls (`C109_proveUL`, `C109_verifyUL`, …), `l` and `2l` pairings instead of the `2l` and `3l` of the comment (`C109_count`, `C109_bound`) |
| C110 | The program of the README | Proved: exact condition of the message (`C110_program`, `C110_ages`) and of sending (`C110_sent`); **deviation**: the interval in the message is not the proved one, same text for every age with shifted bounds (`C110_shift`, `C110_any_age`) |
| C111 | Ignoring the error of json.Unmarshal | Proved: nothing more is accepted (`C111_no_more`), not-JSON texts panic (`C111_not_object`); **deviation** of the README's program: the message is printed in spite of an error (`C111_saved`, `C111_stop`) |
| C112 | An accepted text for every number | Proved, **deviation**: with SHA-256 and honest parameters (`C112_text`), without conditions; the forged object is accepted repeatedly (`C112_repeat`) |
| C113 | The halves of a generic proof | Proved, **deviation**: no test can tie them together (`C113_no_test`); with one `gamma` a comparison of the commitments is complete (`C113_complete`, `C113_tied`), sound with C76 (`C113_sound`) and hiding (`C113_hiding`) |
| C58 | `twistPoint` t-coordinate | case analysis, C62, kernel evaluation of a witness |
| C61 | `PairingCheck` | induction on the lists; C45; C62 |
| C62 | `Pair` (Miller loop and final exponentiation) | see below |

Bilinearity (C62) is proved for the code, not assumed. Mathlib has no divisor theory, so the
argument is the following (files `Lemmas/Line`, `Cocycle`, `Smap`, `Ate`, `MillerVal`,
`MillerLoop`, `Pairing`):

1. For points A, B let l(A,B) be the function (chord A,B)/(vertical through A+B); in the coordinate
   ring the ideal identities of Mathlib's class-group construction (`XYIdeal_mul_XYIdeal`) give
   l(A,B) l(A+B,C) = const · l(B,C) l(A,B+C), so after evaluation and the final exponentiation
   (which kills every proper subfield, hence constants and verticals) the chords form a symmetric
   2-cocycle on the curve group.
2. For such a cocycle the Miller function f_m(Q) = Σ c(iQ,Q) satisfies f_m(Q+R) = f_m(Q)+f_m(R)
   + coboundary terms; with the Frobenius relation `sQ + φQ - φ²Q + φ³Q = 0` and
   `s + p - p² + p³ = 0 (mod Order)` all correction terms of the optimal ate value cancel. This is
   linearity in Q.
3. Linearity in P: the chord through A, B evaluated at P and the chord through P, R evaluated
   at A satisfy an elementary reciprocity (a determinant identity), so e(P+R,·) differs from
   e(P,·)e(R,·) by a coboundary, which again cancels.
4. The model: `lineFunctionAdd/Double` return the chord up to a factor in F2, the loop invariant
   is "accumulator = f_j(Q), point = jQ", and no chord degenerates because Q has prime order.
5. Non-degeneracy: one kernel evaluation at the generators and primality of the order.

C49 and C51-C55 use this pairing directly: every value in these protocols is a known power of a
generator (`Lemmas/GtExp`: `Rep2 a (k • bnG2)`, `GExp x k`), so verdicts become congruences modulo
`Order`. The in-place additions of ccs08 and bb are wrong when both operands are the same finite
point (C35); `NoClash k [e1, e2, ...]` says that this does not happen while adding e1, e2, ... to k.
With honest randomness a clash has negligible probability, but it is a real exception
(`C49_coincidence`, `C63_coincidence`), so it is a hypothesis of the completeness theorems. The other
hypothesis, `PairOk V`, excludes the stale cached coordinate of C58.

`G2.ScalarMult` and `ScalarBaseMult` call `e.p.Negative(e.p.Mul(...))` for negative scalars, where receiver and argument
coincide, and `twistPoint.Negative` is not safe for that (`c.y.SetZero(); c.y.Sub(c.y, a.y)`). The result has `y = 0`
(`TwistPoint.negSelf`, `C36_scalarMult_negative`). Consequences: `Commit(x, r)` with `x < 0` is off the curve, honest
set-membership proofs of negative elements are rejected (`C51_negative`), and honest range proofs for `x` below the range
are rejected for this reason. Points off the curve are handled in `Lemmas/BnOff`: `Double` and `Add` do not use the constant
of the curve, so multiples of an off-curve point stay on its own curve `y² = x³ + β`; adding a point of the twist to it
gives a point off the twist unless the line through both is vertical or touches the twist (`SafeAdds` excludes this).
An earlier version of this model had `neg` in place of `negSelf` there; the error was found while proving the pointer-level
model of the bn256 methods against the value model.

C57: `encoding/json` is not part of the repository; `Model/Json` is a reading of it for the exported
field types. Its parser accepts exactly the grammar of `Spec/JsonText` (an inductive definition), and a
string stands for its characters however they are written. Decoding gives every
pointer its own target. In an honest proof two pointers coincide (`InnerProductProof.P` and
`InnerProductProof.Params.P` when N = 1); `Verify` does not read the former, so the loss of sharing is
not observable in a verdict.

C67: the challenges `y` and `z` are the same hash value (C29). In the identity
`t0 = z²·<aL,2ⁿ> + z·<aL-1-aR,yⁿ> + <aL∘aR,yⁿ> + δ` the coefficient of `y¹·z` is then added to that of `z²`, which should be
the value: `aL = 0`, `aR = (-1,-1-v,-1,…)` gives exactly `z²·v + δ`. So the range proof is unsound whatever else is
repaired, as long as `y = z`. The other part (V is not hashed) is the known weakness called "Frozen Heart".

C68: SHA-256 is not in the repository; `Spec/Sha256` transcribes FIPS 180-4 on natural-number words and is tested against
known digests. The theorems assume `E.sha256 = sha256` and otherwise only `Ext.Ok`; `big.Int.ModSqrt` may return either root,
so only abscissae are computed.

C69: since the curve group has prime order, every generator is a multiple of `H`. Given the challenges, adding
`(bits of v - bits of v')/x` to `sL` and `sR` and adjusting the five blinding scalars keeps all five commitments,
hence the challenges, hence `l(x)`, `r(x)`, `taux` and `mu`: a bijection of the randomness under which the whole proof
object is unchanged. The code deviates from the ideal prover only if a point is infinite or a `P256.Add` exceptional
(at most 11 of every ORDER draws). No assumption on the hash function is used; the distributions are compared as they are.

C70: `Model/Bp` works on proofs whose pointers are all present. `Model/GoVerify` repeats `Verify` with optional pointers
and panics where the code dereferences nil; both agree on proofs without nil (`C70_agrees`). Finding: `json.Unmarshal`
accepts texts with missing members, and `Verify` then crashes instead of returning false; a service that verifies
proofs received as JSON must check all pointers (C32 and C70 say which) or recover from panics.

C71: `Spec/IpExtract` contains the extractor as a program on scalars and `Lemmas/IpExtract` its correctness in any vector
space over any field; `Lemmas/IpFork` shows that `Verify` decides exactly the equation of the transcript. Different
challenges for the same `L`, `R` come from different hash functions, as in a proof in the random-oracle model. Finding: the
round challenges hash neither `P` nor earlier rounds, and `Verify` takes `U` and `P` from the proof, so the argument proves
nothing unless the caller computes `P` and `U` itself and the challenges bind them (`C71_chosen_last`).

C72, C73: `Model/Bp` passes points by value and returns the new `*Params.P` explicitly. `Model/Heap` has no such shortcut: a
heap of `P256` structs, the methods as programs on addresses (receiver first, written as in the code, field by field), and
`Prove` and `Verify` with the pointers the code shares: `updateGenerators` reuses `Hh[0]`, `Verify` works on the pointer
`Params.P` itself, and for `n = 1` the fields `P` and `Params.P` are one pointer. The `big.Int` values in `X` and `Y` are
immutable here, which is what the code does: every method assigns new pointers to `X` and `Y` and never writes through
them. `C72_values` justifies the value model for programs with several proofs. Finding: copying a proof struct does not
protect it from being consumed by `Verify` (`C72_copy`).

C74: the models of bn256 in `Model/Gfp`, `Model/BnCurve` and `Model/BnPair` are functions on values. `Model/BnHeap` and
`Model/BnHeapPair` write the same methods as programs on cells, statement by statement: every `pool.Get` takes a cell with
whatever it last held, every `Put` returns it, `new(big.Int)` makes a cell with 0. `Own s l` says that the cells in `l` are
different, in use (not in the pool) and hold the given numbers; each method has a rule for each way its receiver and
arguments may coincide. The theorems in `Props/BnHeap` are stated with the plain notions of `Spec/BnHeap` (value of an
object, cells it consists of, cells changed). The pool is the one created by the API method itself, as in the code, so it is
empty at the beginning and forgotten at the end. `bnPool.count` is left out (C48).

C75: `Model/GoProve` repeats the provers with optional random numbers (`Draws`: the results of successive calls of
`rand.Int`) and panics where a nil number is used; with all draws present they are the provers of `Model/Bp` and
`Model/Ccs`. Most nil numbers panic in the first scalar multiplication; for parameters with an infinite `H` or infinite
generators `ScalarMult` returns early, and the panic comes from `taux`, `mu` or the vectors.

C76: `Spec/BpFixed` is `bpVerify` with four repairs, written so that it can be compared line by line; `Spec/BpExtract` is the
extractor of the range proof as a program on scalars. `RTree.Accepted` says which message precedes which challenge, by the
order of the quantifiers. C76 shows that the attacks of C28, C29 and C67 exhaust what is wrong: with the repairs the
soundness argument of the paper goes through for this code.

C77: the sigma protocol inside ccs08 is sound once the challenge is the verifier's: two answers give an opening and a
signature of the opened element. C77 also lists what is missing besides the challenge of C52: infinity as `V` is accepted for
everything, and `H` has a public logarithm, so that an opening is not a statement about the committed value.

C78: the complement of C53: without `s`, `t`, `m` a proof for `x` can be explained as a proof for `x'`, for a challenge that is
a function of the group elements. The challenge of the code is not (C65).

C79: the side conditions of C24 and C51 fail only on the roots of a few non-zero polynomials, which bounds the number of bad
values of each random number and challenge.

C80: `SetupSet`/`SetupUL` return the key pair with the signatures; the types are not exported, but whoever calls the prover
has the object. Unlike C52 and C66 the proofs made with it would be accepted by any correct verifier.

C81: A program is a tree of memory operations (read a struct, write a coordinate, allocate); a machine is a list of
goroutines with shared structs and structs of their own, a schedule a list of numbers. `Prog.Safe` says which shared structs
a program may read and write whatever it finds there; `noninterference` is proved once for programs with such footprints, and
the footprints are computed for every function of `bulletproofs`. What one goroutine observes is then stated with the
sequential semantics (`runM`, `Spec.run`) of C72. The race is a schedule: goroutine 0 up to its last operation, goroutine 1
to the end, goroutine 0 to the end.

C82: the elements of `GT` that programs can make are described by an inductive predicate (`GTElem`), and the claim is one
statement: a logarithm to the integers modulo `Order` which is onto and describes all methods. The excluded cases are those
of other claims: negative scalars of `ScalarMult` (C43), pairings of negated `G2` elements (C58), and bytes not made by
`Marshal` (C40).

C83: `G1.String` calls `MakeAffine`, which leaves a point with `z = 1` as it is, so unreduced coordinates (the generator `(1,
-2)`, results of `Neg`) are printed unreduced. `G2.String` does not normalise at all. Only comparisons of `Marshal` results
are reliable (C38, C39).

C84: `Model/CcsHeap.lean` follows `ccs08.go`, `bb.go`, `Commit`, `HashSet` and `Hash` call by call on the heap of `big.Int`
objects; scalars, challenges and responses stay values, as no big.Int of theirs is a receiver after it was made.
`Lemmas/CcsHeap*.lean` keep a list of the new objects with their values (`Loc`) through a call; the rules for the bn256
operations come from C74.

C85: the session is a program on the heap model (`ccsSessionH`); the expected verdicts are given by a relation on values
(`CcsSession`) in which every Verify looks at the proof as it was made. The invariant is that a proof in memory has the value
it was made with or the one a verification left.

C86: The texts of numbers and group elements are stated as strings in `Spec/Text.lean` and proved equal to the bytes the
model feeds to the hash, for every hash function with non-empty output.

C87: the other fixed values in the `_test.go` files are reproduced by the model in `Props/RepoTests.lean` (evaluations,
SHA-256 included); they are a check of the model against the authors' numbers, not claims.

C88: `VerifySet` marshals `proof_out.D`, and `Marshal` makes the point affine in place. If two goroutines verify the same
proof, one may be stopped in `MakeAffine` after `zInv` is computed; when it goes on, it multiplies the already affine `x` and
`y` by `zInv^2` and `zInv^3` again. `Model/CcsRace.lean` cuts the code there (`C88_parts`: the parts make up the whole), and
`C88_race` says what comes of it: verdicts false and true, `D` off the curve, and false from then on. `C88_honest` starts
from `SetupSet` and `ProveSet`; `C88_ul_parts`, `C88_ul_race` and `C88_ul_honest` are the same for `VerifyUL`, `C88_range_race` and `C88_range_honest` for `Verify`.

C89: `C89_gfP2`, `C89_gfP6` and `C89_gfP12` cover the methods with operands, `C89_unary` the others, `C89_scalars` and
`C89_frobenius` those with a factor or with package variables. Together with C42 they give the arithmetic of the fields for
code in place (`C89_product`). `MulScalar` of `gfP12` ignores its operand (`C89_mulScalar`); its only caller passes the
receiver.

C90: `BigFromBase10` is modelled on byte strings (`SetString` with base 10 of math/big is a trusted reading: sign, digits,
nothing else). `C90_constants` reads the literals of the source and compares with the numbers in the model. `Real` and `Imag`
are modelled on the heap, as they return the object and not a copy.

C91: `Count()` is modelled as the objects made less the growth of the pool (`Spec/BnPool.lean`), which agrees with the
counter because the methods make objects only through `Get`. The field methods keep nothing. `Add` returns early when the
operands are equal (curve.go:144, twist.go:140) without giving back its first ten objects, and `miller` never gives back `q1`
and `minusQ2` (optate.go:271, 285). The lost objects are garbage, so results are not affected; a pool used for long, as in
`PairingCheck`, grows no cache from them.

C92: a goroutine is a program which makes, reads and writes `big.Int` objects one access at a time (`Model/BnPar.lean`); a
schedule says whose access is next. Each goroutine numbers the objects it makes by itself, so objects it made are not seen by
the others unless it passes them on, which the tasks of `Spec/CcsPar.lean` do not do. The code of `Model/BnParField.lean`,
`Model/BnParPair.lean` and `Model/CcsPar.lean` is a copy of the code of `Model/BnHeap.lean`, `Model/BnHeapPair.lean` and
`Model/CcsHeap.lean` in which the primitive operations are those programs; `C92_alone` says that run alone it is that code.
Simplifications: an access to one `big.Int` object is atomic (with tearing inside an object a data race could do more, but
`C92_writes_nothing` and the hypothesis of `C92_tasks` exclude that one goroutine writes what another one uses, so there is
no such race); `C92_same_proof` gives a schedule for two verifications of one proof with the outcome of C88; `math/big` and `crypto/rand` are taken to be safe for concurrent use with different receivers.

C93: `Model/GoCcs.lean` repeats the verifiers of `Model/Ccs.lean` with every pointer optional (`none` nil, `some none` an
element made by `new(bn256.G2)`); `Spec/GoCcs.lean` lists what has to be present (`Usable`) and which values are read
(`Shows`). The examples use the honest proof of `setExample_race`.

C94: as in C57, `Model/Json` is a reading of `encoding/json`. An element of bn256 is a struct with one unexported field, so
it is written `{}`, and decoding an object into it changes nothing (a nil pointer becomes `new(bn256.G2)`). Types `proofSet`
and `proofUL` are unexported but are returned by exported functions, and a user can pass them to `json.Marshal`.

C95: the analogue for ccs08 of C26 and C27, about halves made by the unchanged prover (C52 shows that halves can also be
forged). The verdict on one half is `ccsHalf` in `Props/CcsRange.lean`, which C55 uses too.

C96: programs are lists of method calls on variables which begin as zero values (`Model/GoBn.lean`). Which variables a call
reads is stated twice in `Spec/GoBn.lean`: `inputs` is the documented rule, `needs` what the code reads; the theorems compare
both with the panics of the model. That no call panics for another reason needs the invariant that every `z` in `G1` is 0 or
invertible, because `MakeAffine` multiplies with the result of `ModInverse`.

C97: `Spec/GoBnMean.lean` interprets each call of `Model/GoBn.lean` in the groups of C34 and C36 and with the pairing of C62;
`none` stands for a variable of which nothing is claimed. The interpretation knows nothing of coordinates except `usable`,
which says that the cached `t` of an element of `G2` fits (`Pair` reads it, `G2.Unmarshal` and `SetInfinity` set it, the
arithmetic may leave it stale, see C62).

C98: `Spec/JsonSize.lean` counts the objects with the members `X` and `Y` in a JSON value. `C98_repeated` says where the `6n`
points come from; a sender could leave them out, since the receiver has the parameters and can recompute the rest. `C98_upper` bounds the
length from above, because all numbers of an honest proof are below `2^256` (`Lemmas/TextSize.lean`): coordinates of finite
points are residues, and the functions that return infinity return nil coordinates or an argument.

C99: `Spec/BnTrace.lean` lists the allocations, reads and writes of a program on `big.Int` objects, with addresses and
without values. The three loops double in every round and add only for the bits that are 1; the two branches start with
different accesses, so the list is read from the front and gives the bits one by one (`bitLoop_trace`), then the sign. A loop
that always adds would not satisfy `C99_G1`.

C100: `Model/P256Obj.lean` has a heap of `big.Int` objects and variables with two pointers that may be nil; every statement
of p256.go and of the addition in mycurve.go is an operation on it. Straight-line parts are run by an interpreter of
instruction lists (`runOps_grow` in `Lemmas/P256Obj.lean`): they only add objects. From this follows for each method the
value (the model of `Model/P256.lean`), the pointers of the receiver, and that nothing else changes (`PtStep`);
`C100_programs` is the induction over calls. `C100_jacobian` states `addJacobian` for all `Z`, which its
only caller (with `Z = 1`) does not exercise; a mutant that confused `z1` and `z2` had survived without it.

C101: `Model/BpCost.lean` has the functions of bulletproofs in a monad that logs the calls of CURVE.ScalarMult,
ScalarBaseMult, Add and Double, with the lengths of the scalars in bytes, and the slices asked for with make.
`Lemmas/BpCost.lean` proves that forgetting the log gives the functions of the model (`proveC_res`, `bpVerifyC_res`).

C102: `Lemmas/BpCostCount.lean` bounds calls and slice elements of each function of `Model/BpCost.lean` with a small calculus
(`Within`, `Rest`); the hollow proof of C102_text has all points at infinity, no generators and the number N.

C103: `Props/Homo.lean` combines C13, C15 and C19 (C36 and C63 for ccs08).

C104: `Props/Malleable.lean` rewrites `bpVerify` with residues; the texts are those of C57.

C105: `Props/CcsMalleable.lean` changes proofs and compares the verdicts with `C51_verdict` and `C54_verdict`.

C106: `Props/MapToGroup.lean` counts with the group order of C15: each abscissa belongs to two points, none of them its own
inverse.

C107: `Model/BipSetup.lean` has `setupInnerProduct` with nil arguments, which the other modules leave out, and Go's
conversion of numbers to strings.

C108: `Model/BpExp.lean` repeats `updateGenerators` with the list of products of line 367 (`C108_same`: the result is the
same). `C108_count` says for how many `y` the inverse is short; `C108_reduced` is the fix.

C109: `Model/CcsCost.lean` repeats `ccs08` with a log of pairings and scalar multiplications (`C109_same`: the results are
the same). `C109_bound` holds for every proof, also where the verifier panics; `C109_secret` together with C99 says what the
order of memory accesses of a prover gives away.

C110: `Model/Readme.lean` composes `SetupGeneric`, `ProveGeneric` with its draws, `json.Marshal`, `json.Unmarshal` and
`Verify` as README.md:51-78 does. The verifier's part takes the text only: a prover of 12 years who sets up `[-10, 172)`
sends the text of a prover of 40 years with `[18, 200)`.

C111: `Model/JsonErr.lean` decodes as `Model/Json.lean` does and also gives what is left after an error (`C111_agrees`: the
same without one). The example program of the README goes on with this value.

C112: C28 has conditions on the hash and on `Add`; C112 discharges them for SHA-256.  The inner-product proof used has no
rounds, and `Verify` does not compare it with the rest of the proof.

C113: C113 shows that C27 cannot be repaired in `Verify`: `ProveGeneric` has to use one `gamma` for both halves.  The draws
of the tied prover are pairs of draws of which the second `gamma` is not used, so that the counts can be compared with those
of C69.

## Findings (deviations of the code from its documentation)

Collected in `properties.jsonl` as exact statements: C03, C05, C07, C09, C14, C16, C19, C23,
C24-C31, C59, C35, C36 (negative scalars), C39, C41, C43, C49 (coincidence), C50, C51 (negative elements), C52, C53, C55 (negative bounds), C57 (verify before encoding), C58, C60,
C63, C65 (stored coordinates), C66, C67, C71, C80, C81 (same proof), C82 (`IsZero`), C83, C87, C88, C90 (`Real`, `Imag`), C91 (`Add`, `miller`), C92 (same proof), C93, C94, C95, C96 (own receiver, `GT`), C97 (exceptions), C98, C99, C100 (shared coordinates), C101, C102 (memory), C104, C105, C106 (messages beginning with a digit), C107 (from 55298 generators on), C108, C109 (the comment), C110 (the interval), C111 (the README), C112, C113.

{
 "C01": {
  "note": ""
 },
 "C02": {
  "note": ""
 },
 "C03": {
  "note": ""
 },
 "C04": {
  "note": ""
 },
 "C05": {
  "note": ""
 },
 "C06": {
  "note": ""
 },
 "C07": {
  "note": ""
 },
 "C08": {
  "note": ""
 },
 "C09": {
  "note": ""
 },
 "C11": {
  "note": ""
 },
 "C12": {
  "note": ""
 },
 "C13": {
  "note": "Relative to Ext.Ok (go-ethereum ScalarMult/Double on finite points, big.Int.ModSqrt, 32-byte hash); idealExt_ok shows the assumption is satisfiable."
 },
 "C15": {
  "note": "Relative to Ext.Ok (go-ethereum ScalarMult/Double on finite points, big.Int.ModSqrt, 32-byte hash); idealExt_ok shows the assumption is satisfiable."
 },
 "C16": {
  "note": "Relative to Ext.Ok (go-ethereum ScalarMult/Double on finite points, big.Int.ModSqrt, 32-byte hash); idealExt_ok shows the assumption is satisfiable."
 },
 "C17": {
  "note": "Relative to Ext.Ok (go-ethereum ScalarMult/Double on finite points, big.Int.ModSqrt, 32-byte hash); idealExt_ok shows the assumption is satisfiable."
 },
 "C19": {
  "note": "Relative to Ext.Ok (go-ethereum ScalarMult/Double on finite points, big.Int.ModSqrt, 32-byte hash); idealExt_ok shows the assumption is satisfiable."
 },
 "C20": {
  "note": "Relative to Ext.Ok (go-ethereum ScalarMult/Double on finite points, big.Int.ModSqrt, 32-byte hash); idealExt_ok shows the assumption is satisfiable."
 },
 "C33": {
  "note": "Relative to Ext.Ok (go-ethereum ScalarMult/Double on finite points, big.Int.ModSqrt, 32-byte hash); idealExt_ok shows the assumption is satisfiable."
 },
 "C14": {
  "note": "No assumption on external code: addition is the repository's own Jacobian code."
 },
 "C18": {
  "note": ""
 },
 "C10": {
  "note": "Relative to Ext.Ok (go-ethereum ScalarMult/Double on finite points, big.Int.ModSqrt, 32-byte hash); idealExt_ok shows the assumption is satisfiable. The conversion of NaN to int64 (range end -2^63) is a parameter."
 },
 "C56": {
  "note": "Relative to Ext.Ok (go-ethereum ScalarMult/Double on finite points, big.Int.ModSqrt, 32-byte hash); idealExt_ok shows the assumption is satisfiable. The conversion of NaN to int64 (range end -2^63) is a parameter."
 },
 "C24": {
  "note": "Relative to Ext.Ok (go-ethereum ScalarMult/Double on finite points, big.Int.ModSqrt, 32-byte hash); idealExt_ok shows the assumption is satisfiable. NoExceptionalAdd lists the calls of P256.Add that must not hit an exceptional pair (see C14, C19)."
 },
 "C25": {
  "note": "Relative to Ext.Ok (go-ethereum ScalarMult/Double on finite points, big.Int.ModSqrt, 32-byte hash); idealExt_ok shows the assumption is satisfiable. Non-degeneracy of each half as in C24 (HalfOk)."
 },
 "C27": {
  "note": "Relative to Ext.Ok (go-ethereum ScalarMult/Double on finite points, big.Int.ModSqrt, 32-byte hash); idealExt_ok shows the assumption is satisfiable. Non-degeneracy of each half as in C24 (HalfOk)."
 },
 "C26": {
  "note": "Unconditional."
 },
 "C28": {
  "note": "Relative to Ext.Ok (go-ethereum ScalarMult/Double on finite points, big.Int.ModSqrt, 32-byte hash); idealExt_ok shows the assumption is satisfiable. C28_shift: malleability of any accepted proof; C28_forgery: explicit forged proof for every value."
 },
 "C29": {
  "note": "Equality unconditional; range for a 32-byte hash."
 },
 "C31": {
  "note": "Relative to Ext.Ok (go-ethereum ScalarMult/Double on finite points, big.Int.ModSqrt, 32-byte hash); idealExt_ok shows the assumption is satisfiable."
 },
 "C59": {
  "note": "Relative to Ext.Ok (go-ethereum ScalarMult/Double on finite points, big.Int.ModSqrt, 32-byte hash); idealExt_ok shows the assumption is satisfiable."
 },
 "C57": {
  "note": "encoding/json is modelled in Model/Json.lean (trusted reading; its parser is proved equal to the grammar of Spec/JsonText.lean); verdict theorems relative to Ext.Ok."
 },
 "C67": {
  "note": "Relative to Ext.Ok; the attack is stated with the prover proveBits, which is Prove with arbitrary vectors (prove_eq_proveBits)."
 },
 "C68": {
  "note": "Relative to Ext.Ok and E.sha256 = SHA-256 (FIPS 180-4, Spec/Sha256.lean, with test vectors). The 66 seeds are all seeds the code uses, evaluated by the kernel."
 },
 "C69": {
  "note": "Relative to Ext.Ok and H not the neutral element (C68 shows this for Setup). rand.Int is taken to be uniform on [0, ORDER)."
 },
 "C72": {
  "note": "The frame theorems and C72_values hold for every Ext; big.Int values are immutable in the model (no method of P256 writes through X or Y)."
 },
 "C73": {
  "note": "Relative to Ext.Ok."
 },
 "C74": {
  "note": "Objects of different types never share big.Int objects and two objects of one type are equal or disjoint (Go code in this package never builds others); hypotheses Live, SameOrDisj, Disj say so. big.Int operations are atomic reads and writes of integers."
 },
 "C75": {
  "note": "The source is the sequence of results of rand.Int; that crypto/rand returns a nil number with every error is taken from its documentation."
 },
 "C76": {
  "note": "About a repaired verifier (Spec/BpFixed), which is not the code; C76_same relates it to the code. Special soundness: the tree of runs is a hypothesis, rewinding probabilities are outside the model. Non-trivial relations between the generators are assumed hard to find by the scheme, not excluded by the theorem."
 },
 "C77": {
  "note": "Special soundness: the two runs are a hypothesis; rewinding probabilities are outside the model, and unforgeability of the signatures is not claimed (the theorem says which signature is found). The condition NoClash excludes exceptional operands of the in-place Add, PairOk the cached coordinate of C58."
 },
 "C78": {
  "note": "The random numbers are arguments; equality of distributions is expressed by the bijection. PairOk and NoClash exclude the cached coordinate of C58 and exceptional operands of the in-place Add."
 },
 "C79": {
  "note": "Counts of exceptional values; turning them into a probability (dividing by the group order) is left to the reader since hash functions are arbitrary functions. PairOk excludes the cached coordinate of C58."
 },
 "C80": {
  "note": "Attack by a prover that is given the parameters of Setup as they are. proveDigits is the attacker's program; proveUL_digits shows that ProveUL is the same program with the digits of x."
 },
 "C81": {
  "note": "Model/Par.lean has the functions of Model/Heap.lean as trees of memory operations; Lemmas/ParRun.lean proves that uninterrupted runs are those of Model/Heap.lean. Each operation reads or writes whole coordinates atomically (sequential consistency); goroutines do not hand structs to each other after the start. The negative statement is a witness schedule for every such proof."
 },
 "C82": {
  "note": "C82_group uses bilinearity and non-degeneracy of the pairing (C62) and the order of GT (C46); C82_zero shows the element outside the group that Unmarshal accepts (C40)."
 },
 "C83": {
  "note": "C83_G1_canonical is the exact condition under which the text equals that of the element sent through Marshal and Unmarshal; C83_G1_witness gives the generator, which prints as (1, -2). For GT see C82."
 },
 "C84": {
  "note": "Model/CcsHeap.lean repeats the call structure of the Go code on the heap of Model/BnHeap.lean; the theorems say that each call follows the function of Model/Ccs.lean (Follows: panics if that panics, otherwise an effect with the given result and set of changed cells). C84_ready and C84_others carry this through sequences of calls; C84_run_set, C84_run_ul and C84_run_bb are whole runs from Setup to Verify. C84_bb_verify has the hypothesis that MakeAffine succeeds on the sum of g^m and the public key (a point computed by the in-place Add, which is not on the curve when m is congruent to the key); C84_run_bb discharges it."
 },
 "C85": {
  "note": "C85_session for parameters in memory, C85_from_setup with Setup as the first call, C85_total for the absence of panics. The verdict of an already verified proof is that of the original by C64_range."
 },
 "C86": {
  "note": "The texts are written with Lean's toString in Spec/Text.lean, independently of the model's digit functions."
 },
 "C87": {
  "note": "The file also reproduces the fixed values of the repository's tests by evaluation (examples, not claims)."
 },
 "C88": {
  "note": "Code defect: VerifySet and VerifyUL write to the proof they verify without saying so. Two concurrent verifications of one valid proof can give a false rejection and destroy the proof. The schedule modelled is one of those that Go allows."
 },
 "C89": {
  "note": ""
 },
 "C90": {
  "note": "Exact acceptance and round trip for all strings and integers; source literals tied to the model's constants. The swap of Real and Imag is proved as a deviation."
 },
 "C91": {
  "note": "Exact counts; the leaks of Add and miller are characterised. For PairingCheck the number of pairs multiplied is bounded by the length of the list."
 },
 "C92": {
  "note": "Model/BnPar.lean has programs which make, read and write big.Int objects one at a time and a machine which interleaves goroutines; Model/BnParField, BnParPair and CcsPar repeat the text of BnHeap, BnHeapPair and CcsHeap over it. C92_alone: alone it is that code (C84). C92_writes_*: footprints. C92_tasks: goroutines with any mixture of tasks. C92_shared_params and C92_shared_verify: the two usual cases. C92_same_proof: the condition on the proofs is needed; a schedule of this machine gives the outcome of C88."
 },
 "C93": {
  "note": "Exact sets of inputs on which VerifySet, VerifyUL and Verify panic, and the verdict on the others; deviation: no error for incomplete proofs."
 },
 "C94": {
  "note": "encoding/json as read in Model/Json (C57); the text is a constant, decoding keeps every unexported field."
 },
 "C95": {
  "note": "Exact set of accepted combinations; the commitments can be made to match because the logarithm of H is public (C63)."
 },
 "C96": {
  "note": "Calls are exact about panics; the values are those of the models of C34-C47 (C74 ties them to memory). The inverse of the field element 0 is taken as 0; C91 states what the pool can make of it."
 },
 "C97": {
  "note": "Spec/GoBnMean.lean gives the meaning of a call in the groups and its answers. C97_programs: every program which returns has computed it. C97_answers: and the calls return what the elements determine (reduced bytes, tests, PairingCheck: the sum of the pairings is 0). C97_from_start: a program which sets every variable before it reads it returns (C96). C97_run: returned values and effects fit together. C97_lost: in the exceptional cases of G2 there is no group element left."
 },
 "C98": {
  "note": "Points are counted in the parsed text (objects with exactly the members X and Y, Spec/JsonSize.lean). C98_bytes holds for every JSON value; C98_upper assumes generators with coordinates below 2^256, C98_setup shows that Setup returns such."
 },
 "C99": {
  "note": "The trace (Spec/BnTrace.lean) lists allocations, reads and writes of big.Int objects with their addresses, without values; what math/big does inside one operation (also not of constant time) is not modelled. P256 multiplies in the C code of go-ethereum and is not covered."
 },
 "C100": {
  "note": "Model/P256Obj.lean follows every big.Int statement of p256.go and mycurve.go; the ScalarMult and Double of go-ethereum and math/big inside one operation are contracts (E.Ok, new objects for results). Deviation: coordinates are shared after Multiply and Add with an infinite argument (C100_shared, C100_write)."
 },
 "C101": {
  "note": "Model/BpCost.lean repeats Prove and Verify with a log of the calls of the curve and of make; C101_results proves that the results are those of the other model. The statement is about arguments of calls, not about the time of the C code behind them."
 },
 "C102": {
  "note": "Counts calls of the curve and elements of make in Model/BpCost.lean; the time of one call and of the arithmetic of big.Int is not counted. Deviation: memory is determined by an unchecked number of the proof (C102_panics, C102_text)."
 },
 "C103": {
  "note": "Relative to Ext.Ok; exceptional additions are those of C19 and C63."
 },
 "C104": {
  "note": "Finding; extends C28 (shift of the value) to all numbers of the proof. Relative to Ext.Ok."
 },
 "C105": {
  "note": "Finding; the challenge covers a and D only (C65), so C is not bound by it. The conditions are those of C51_verdict and C54_verdict."
 },
 "C106": {
  "note": "The last part (messages beginning with a digit) is a finding without effect on the seeds of the repository. Relative to Ext.Ok."
 },
 "C107": {
  "note": "Finding: string(i) repeats generators from N = 55298 on (Prove uses N <= 32, so only direct callers inside the package are affected). Memory for the tables is not modelled. Relative to Ext.Ok."
 },
 "C108": {
  "note": "Finding: performance defect, quadratic work; relevant for callers with many generators (Setup gives at most 32) and for a verifier of texts from others, since the number of generators comes from the text. C102 counts curve calls and slices only; this claim counts bits of products, not time."
 },
 "C109": {
  "note": "The comment in paramsSet and paramsUL overstates the pairings: E of util/util.go is computed once. Additions, encodings, hashing and integer arithmetic are not counted. What an observer of one scalar multiplication learns about the scalar is C99."
 },
 "C110": {
  "note": "Composition of C25, C26, C57, C68, C70 and C75 along the program. If ProveGeneric or json.Unmarshal returns an error, the program goes on with what it has; the model stops there. The comment 'This information is shared between the prover and the verifier' does not hold for the verifier's part of the program."
 },
 "C111": {
  "note": "The decoder with errors is a reading of encoding/json: values of the wrong kind are skipped and remembered, errors of UnmarshalJSON end decoding. The value left in a big.Int by a failed UnmarshalJSON is an arbitrary function. Slices are decoded into fresh memory, as in C57."
 },
 "C112": {
  "note": "Unconditional form of C28 along the README's program: the inner-product proof has no rounds and points at infinity, A, S, T1, T2 are infinity, and one of three blinding factors avoids the exceptional additions. One SHA-256 value is computed by the kernel. A verifier which compares the parameters with its own and the commitments with each other is deceived as well."
 },
 "C113": {
  "note": "C27 says that Verify does not tie the halves together; C113_no_test says that it could not, because the halves are hiding (C69) and independent. proveTied, checkTied and proveMixed (Spec/BpTie.lean) are not in the repository. C113_sound needs trees of accepted runs of the repaired verifier as in C76; its instance has one bit."
 }
}

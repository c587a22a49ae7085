import Verif.Model.GoProve
import Verif.Model.GoVerify
/-!
# The program of the README

README.md:51-78 uses generic range proofs: the prover sets up the parameters, proves and encodes the proof as JSON
text; the verifier decodes the text and verifies.  The program ignores all errors.

Simplifications: if `ProveGeneric` returns an error, the program goes on with the incomplete proof; here the prover
sends nothing (`none`).  If `json.Unmarshal` returns an error, the program goes on with what has been decoded so far;
here the verifier stops (`none`).
-/
namespace Verif

/-- The prover's part, README.md:55-64, for the bounds `a`, `b` and the secret: the text which is sent.  If
`SetupGeneric` returns an error, `params` is nil and `ProveGeneric` panics (bulletproofs/bprp.go:75). -/
def readmeProver (E : Ext) (nanToInt : Int) (rd : Draws) (a b secret : Int) : Res (Option (List UInt8)) := do
  let params ← setupGeneric E nanToInt a b
  let (a, b, s1, s2) ← Res.ofOption params
  let BP1 ← s1.deref
  let BP2 ← s2.deref
  let proof ← goProveGeneric E rd secret ⟨a, b, BP1, BP2⟩
  .ok (proof.map fun p => marshalBPRP p.toGo)

/-- The verifier's part, README.md:69-77: `ok` of line 73, which decides whether the message is printed. -/
def readmeVerifier (E : Ext) (text : List UInt8) : Option (Res Bool) :=
  (unmarshalBPRP text).map (goVerifyGeneric E)

end Verif

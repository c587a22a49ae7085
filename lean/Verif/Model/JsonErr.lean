import Verif.Model.Json
import Verif.Model.GoVerify
/-!
# What `json.Unmarshal` leaves in its target when it returns an error

The program of README.md:51-78 ignores the error of `json.Unmarshal` (line 70) and calls `Verify` on what has been
decoded.  `Model/Json.lean` says what is decoded without an error; here every decoder also gives the value left after
an error.  The functions are a reading of `encoding/json`: a value of the wrong kind for a struct, slice or `int64` is
an error which is remembered, the value is skipped and decoding goes on (`saveError`); an error of
`big.Int.UnmarshalJSON` ends decoding at once.  A text which is not JSON is refused before anything is decoded.

Simplifications as in `Model/Json.lean`: elements of a slice are always decoded into fresh memory, and nesting is not
limited.  The value of a `big.Int` after a failed `UnmarshalJSON` is undefined by its documentation; it is given by an
arbitrary function `bad`.
-/
namespace Verif

/-- The error of a decoder: no error, an error which is remembered while decoding goes on, or one which ends decoding. -/
inductive DecErr where
  | none
  | saved
  | stop
  deriving DecidableEq

/-- The error of two steps, neither of which ends decoding before the other is done. -/
def DecErr.join : DecErr → DecErr → DecErr
  | .none, e => e
  | .saved, .none => .saved
  | .saved, e => e
  | .stop, _ => .stop

/-- A decoder: the value left in the target, and the error. -/
abbrev ErrDec (T : Type) := Json → T → T × DecErr

/-- Decode the members of an object into a struct; decoding ends at the first error of `UnmarshalJSON`. -/
def errFields {T : Type} (fs : List (List UInt8 × ErrDec T)) : JsonMembers → T → T × DecErr
  | .nil, t => (t, .none)
  | .cons k v m, t =>
    match findField fs (unquote k) with
    | none => errFields fs m t
    | some f =>
      if (f v t).2 = .stop then f v t
      else ((errFields fs m (f v t).1).1, (f v t).2.join (errFields fs m (f v t).1).2)

/-- Decode into a struct: other values than objects and `null` are skipped with an error. -/
def errStruct {T : Type} (fs : List (List UInt8 × ErrDec T)) : ErrDec T := fun j t =>
  match j with
  | .null => (t, .none)
  | .obj m => errFields fs m t
  | _ => (t, .saved)

/-- A field of a struct. -/
def errFieldOf {T A : Type} (get : T → A) (set : A → T → T) (dec : ErrDec A) : ErrDec T := fun j t =>
  (set (dec j (get t)).1 t, (dec j (get t)).2)

/-- Decode into an `int64`: other values than numbers in range are skipped with an error. -/
def errInt64 : ErrDec Int := fun j old =>
  match j with
  | .null => (old, .none)
  | .num lit =>
    match intLit lit with
    | none => (old, .saved)
    | some v => if -2 ^ 63 ≤ v ∧ v < 2 ^ 63 then (v, .none) else (old, .saved)
  | _ => (old, .saved)

/-- Decode into a `*big.Int`: the pointer is allocated before `UnmarshalJSON` is called, which fails unless the value is
an integer. -/
def errBig (bad : Json → Option Int → Int) : ErrDec (Option Int) := fun j old =>
  match j with
  | .null => (none, .none)
  | .num lit =>
    match intLit lit with
    | none => (some (bad (.num lit) old), .stop)
    | some v => (some v, .none)
  | j => (some (bad j old), .stop)

/-- Decode into a pointer: it is allocated if it is nil, also if the value is then skipped. -/
def errPtr {T : Type} (zero : T) (dec : ErrDec T) : ErrDec (Option T) := fun j old =>
  match j with
  | .null => (none, .none)
  | j => (some (dec j (old.getD zero)).1, (dec j (old.getD zero)).2)

/-- Decode the elements of an array; an element which is skipped keeps its zero value. -/
def errElems {T : Type} (dec : Json → T × DecErr) : JsonList → List T × DecErr
  | .nil => ([], .none)
  | .cons v l =>
    if (dec v).2 = .stop then ([(dec v).1], .stop)
    else ((dec v).1 :: (errElems dec l).1, (dec v).2.join (errElems dec l).2)

/-- Decode into a slice: other values than arrays and `null` are skipped with an error. -/
def errSlice {T : Type} (dec : Json → T × DecErr) : ErrDec (Option (List T)) := fun j old =>
  match j with
  | .null => (none, .none)
  | .arr l => (some (errElems dec l).1, (errElems dec l).2)
  | _ => (old, .saved)

/-- A `*P256`, crypto/p256/p256.go:41-43. -/
def errP256 (bad : Json → Option Int → Int) : ErrDec P256 := errStruct
  [(ascii "X", errFieldOf P256.X (fun a t => { t with X := a }) (errBig bad)),
   (ascii "Y", errFieldOf P256.Y (fun a t => { t with Y := a }) (errBig bad))]

/-- A `*P256`. -/
def errPoint (bad : Json → Option Int → Int) : ErrDec (Option P256) := errPtr ⟨none, none⟩ (errP256 bad)
/-- A `[]*P256`. -/
def errPoints (bad : Json → Option Int → Int) : ErrDec (Option (List (Option P256))) :=
  errSlice (fun j => errPoint bad j none)

/-- `InnerProductParams`, bulletproofs/bip.go:36-44. -/
def errIPParams (bad : Json → Option Int → Int) : ErrDec GoIPParams := errStruct
  [(ascii "N", errFieldOf GoIPParams.N (fun a t => { t with N := a }) errInt64),
   (ascii "Cc", errFieldOf GoIPParams.Cc (fun a t => { t with Cc := a }) (errBig bad)),
   (ascii "Uu", errFieldOf GoIPParams.Uu (fun a t => { t with Uu := a }) (errPoint bad)),
   (ascii "H", errFieldOf GoIPParams.H (fun a t => { t with H := a }) (errPoint bad)),
   (ascii "Gg", errFieldOf GoIPParams.Gg (fun a t => { t with Gg := a }) (errPoints bad)),
   (ascii "Hh", errFieldOf GoIPParams.Hh (fun a t => { t with Hh := a }) (errPoints bad)),
   (ascii "P", errFieldOf GoIPParams.P (fun a t => { t with P := a }) (errPoint bad))]

/-- `InnerProductProof`, bulletproofs/bip.go:49-60. -/
def errIPProof (bad : Json → Option Int → Int) : ErrDec GoIPProof := errStruct
  [(ascii "N", errFieldOf GoIPProof.N (fun a t => { t with N := a }) errInt64),
   (ascii "Ls", errFieldOf GoIPProof.Ls (fun a t => { t with Ls := a }) (errPoints bad)),
   (ascii "Rs", errFieldOf GoIPProof.Rs (fun a t => { t with Rs := a }) (errPoints bad)),
   (ascii "U", errFieldOf GoIPProof.U (fun a t => { t with U := a }) (errPoint bad)),
   (ascii "P", errFieldOf GoIPProof.P (fun a t => { t with P := a }) (errPoint bad)),
   (ascii "Gg", errFieldOf GoIPProof.Gg (fun a t => { t with Gg := a }) (errPoint bad)),
   (ascii "Hh", errFieldOf GoIPProof.Hh (fun a t => { t with Hh := a }) (errPoint bad)),
   (ascii "A", errFieldOf GoIPProof.A (fun a t => { t with A := a }) (errBig bad)),
   (ascii "B", errFieldOf GoIPProof.B (fun a t => { t with B := a }) (errBig bad)),
   (ascii "Params", errFieldOf GoIPProof.Params (fun a t => { t with Params := a }) (errIPParams bad))]

/-- `BulletProofSetupParams`, bulletproofs/bp.go:36-51. -/
def errBPParams (bad : Json → Option Int → Int) : ErrDec GoBPParams := errStruct
  [(ascii "N", errFieldOf GoBPParams.N (fun a t => { t with N := a }) errInt64),
   (ascii "G", errFieldOf GoBPParams.G (fun a t => { t with G := a }) (errPoint bad)),
   (ascii "H", errFieldOf GoBPParams.H (fun a t => { t with H := a }) (errPoint bad)),
   (ascii "Gg", errFieldOf GoBPParams.Gg (fun a t => { t with Gg := a }) (errPoints bad)),
   (ascii "Hh", errFieldOf GoBPParams.Hh (fun a t => { t with Hh := a }) (errPoints bad)),
   (ascii "InnerProductParams",
     errFieldOf GoBPParams.InnerProductParams (fun a t => { t with InnerProductParams := a }) (errIPParams bad))]

/-- `BulletProof`, bulletproofs/bp.go:57-69. -/
def errBPProof (bad : Json → Option Int → Int) : ErrDec GoBPProof := errStruct
  [(ascii "V", errFieldOf GoBPProof.V (fun a t => { t with V := a }) (errPoint bad)),
   (ascii "A", errFieldOf GoBPProof.A (fun a t => { t with A := a }) (errPoint bad)),
   (ascii "S", errFieldOf GoBPProof.S (fun a t => { t with S := a }) (errPoint bad)),
   (ascii "T1", errFieldOf GoBPProof.T1 (fun a t => { t with T1 := a }) (errPoint bad)),
   (ascii "T2", errFieldOf GoBPProof.T2 (fun a t => { t with T2 := a }) (errPoint bad)),
   (ascii "Taux", errFieldOf GoBPProof.Taux (fun a t => { t with Taux := a }) (errBig bad)),
   (ascii "Mu", errFieldOf GoBPProof.Mu (fun a t => { t with Mu := a }) (errBig bad)),
   (ascii "Tprime", errFieldOf GoBPProof.Tprime (fun a t => { t with Tprime := a }) (errBig bad)),
   (ascii "InnerProductProof",
     errFieldOf GoBPProof.InnerProductProof (fun a t => { t with InnerProductProof := a }) (errIPProof bad)),
   (ascii "Commit", errFieldOf GoBPProof.Commit (fun a t => { t with Commit := a }) (errPoint bad)),
   (ascii "Params", errFieldOf GoBPProof.Params (fun a t => { t with Params := a }) (errBPParams bad))]

/-- `ProofBPRP`, bulletproofs/bprp.go:38-41. -/
def errBPRPProof (bad : Json → Option Int → Int) : ErrDec GoBPRPProof := errStruct
  [(ascii "P1", errFieldOf GoBPRPProof.P1 (fun a t => { t with P1 := a }) (errBPProof bad)),
   (ascii "P2", errFieldOf GoBPRPProof.P2 (fun a t => { t with P2 := a }) (errBPProof bad))]

/-- `json.Unmarshal(text, &proof)` into a zero `ProofBPRP`: the value left in `proof`, and the error. -/
def unmarshalErr (bad : Json → Option Int → Int) (text : List UInt8) : GoBPRPProof × DecErr :=
  match parseJson text with
  | none => (GoBPRPProof.zero, .stop)
  | some j => errBPRPProof bad j GoBPRPProof.zero

/-- The verifier's part of the README, README.md:69-77, with the errors ignored as there: `ok` of line 73. -/
def readmeIgnore (E : Ext) (bad : Json → Option Int → Int) (text : List UInt8) : Res Bool :=
  goVerifyGeneric E (unmarshalErr bad text).1

end Verif

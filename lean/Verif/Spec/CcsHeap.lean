import Verif.Spec.BnHeap
import Verif.Model.CcsHeap

/-!
# Specification: ccs08 and bbsignatures on objects in memory

Parameters and proofs as objects in memory: the `big.Int` objects they consist of, and their value as in `Model/Ccs.lean`.
-/

namespace Verif

instance {A V : Type} [HeapObj A V] : HeapObj (List A) (List V) :=
  ⟨fun l => (l.map HeapObj.cells).flatten, fun m l => l.map (HeapObj.val m)⟩

instance {A V : Type} [HeapObj A V] : HeapObj (Option A) (Option V) :=
  ⟨fun a => a.elim [] HeapObj.cells, fun m a => a.map (HeapObj.val m)⟩

/-- An entry of the map of signatures. -/
instance : HeapObj (Int × Option TwistP) (Int × Option TwistPoint) :=
  ⟨fun p => HeapObj.cells p.2, fun m p => (p.1, HeapObj.val m p.2)⟩

instance : HeapObj KeygenH KeygenResult :=
  ⟨fun k => HeapObj.cells k.pubk, fun m k => ⟨HeapObj.val m k.pubk, k.privk, k.err⟩⟩

instance : HeapObj ParamsSetH ParamsSet :=
  ⟨fun p => HeapObj.cells p.signatures ++ HeapObj.cells p.H ++ HeapObj.cells p.kp,
   fun m p => ⟨HeapObj.val m p.signatures, HeapObj.val m p.H, HeapObj.val m p.kp⟩⟩

instance : HeapObj ParamsULH ParamsUL :=
  ⟨fun p => HeapObj.cells p.signatures ++ HeapObj.cells p.H ++ HeapObj.cells p.kp,
   fun m p => ⟨HeapObj.val m p.signatures, HeapObj.val m p.H, HeapObj.val m p.kp, p.u, p.l⟩⟩

instance : HeapObj CcsParamsH CcsParams :=
  ⟨fun p => HeapObj.cells p.p, fun m p => ⟨HeapObj.val m p.p, p.a, p.b⟩⟩

instance : HeapObj ProofSetH ProofSet :=
  ⟨fun p => HeapObj.cells p.V ++ HeapObj.cells p.D ++ HeapObj.cells p.C ++ HeapObj.cells p.a,
   fun m p => ⟨HeapObj.val m p.V, HeapObj.val m p.D, HeapObj.val m p.C, HeapObj.val m p.a, p.s, p.t, p.zsig, p.zv, p.c, p.m,
    p.zr⟩⟩

instance : HeapObj ProofULH ProofUL :=
  ⟨fun p => HeapObj.cells p.V ++ HeapObj.cells p.D ++ HeapObj.cells p.C ++ HeapObj.cells p.a,
   fun m p => ⟨HeapObj.val m p.V, HeapObj.val m p.D, HeapObj.val m p.C, HeapObj.val m p.a, p.s, p.t, p.zsig, p.zv, p.c, p.m,
    p.zr⟩⟩

instance : HeapObj CcsProofH CcsProof :=
  ⟨fun p => HeapObj.cells p.p1 ++ HeapObj.cells p.p2, fun m p => ⟨HeapObj.val m p.p1, HeapObj.val m p.p2⟩⟩

/-- The cells of the package variables. -/
def CcsGlobals.cells (g : CcsGlobals) : List Cell :=
  g.bn.cells ++ HeapObj.cells g.curveGen ++ HeapObj.cells g.twistGen ++ HeapObj.cells g.twistB ++ HeapObj.cells g.G1 ++
    HeapObj.cells g.E

/-- The package variables have the values given to them when the program starts. -/
def CcsGlobals.Intact (m : Cell → Int) (g : CcsGlobals) : Prop :=
  g.bn.Intact m ∧ HeapObj.val m g.curveGen = .gen ∧ HeapObj.val m g.twistGen = .gen ∧ HeapObj.val m g.twistB = Verif.twistB ∧
  HeapObj.val m g.G1 = utilG1 ∧ HeapObj.val m g.E = utilE

/-- The numbers which `VerifyUL` may rewrite (by `Marshal`): those of `D` and of the `a[i]` of the proof. -/
def ProofULH.written (q : ProofULH) : List Cell := HeapObj.cells q.D ++ HeapObj.cells q.a

/-- The numbers which `Verify` may rewrite. -/
def CcsProofH.written (q : CcsProofH) : List Cell := q.p1.elim [] ProofULH.written ++ q.p2.elim [] ProofULH.written

/-- `MakeAffine` (in `Pair`) succeeds on the public key. -/
def KeyOk (k : KeygenResult) : Prop := ∀ y, k.pubk = some y → y.Invertible

/-- The state of memory between calls: no pool is in use, and the package variables exist and are intact. -/
structure CcsReady (g : CcsGlobals) (s : BigHeap) : Prop where
  pool : s.pool = none
  live : LiveCells s g.cells
  intact : g.Intact s.mem

/-- The call does what the model on values says: it panics if that panics, and otherwise has an effect described by the value. -/
def Follows {α V : Type} (m : BigM α) (s : BigHeap) (W : List Cell) (rv : Res V) (Q : V → α → BigHeap → Prop) : Prop :=
  (rv = .panic → m s = .panic) ∧ ∀ v, rv = .ok v → Effect m s W (Q v)

/-! ## Sessions -/

/-- A call of `Prove` with its randomness, or a call of `Verify` for the `i`-th proof made so far. -/
inductive CcsCall
  | prove (x r : Int) (w1 w2 : ULRandom)
  | verify (i : Nat)

/-- The calls one after the other, with the same parameters: the verdicts. -/
def ccsSessionH (g : CcsGlobals) (sha : List UInt8 → List UInt8) (p : CcsParamsH) : List CcsProofH → List CcsCall → BigM (List Bool)
  | _, [] => pure []
  | made, .prove x r w1 w2 :: cs => do
    let q ← ccsProveH g sha (some p) x r w1 w2
    ccsSessionH g sha p (made ++ [q]) cs
  | made, .verify i :: cs => do
    let q ← BigM.ofRes (idx made i)
    let b ← ccsVerifyH g q (some p)
    let bs ← ccsSessionH g sha p made cs
    pure (b :: bs)

/-- Every `Verify` is for a proof that has been made; `n` proofs have been made before. -/
def CcsCallsOk : Nat → List CcsCall → Prop
  | _, [] => True
  | n, .prove _ _ _ _ :: cs => CcsCallsOk (n + 1) cs
  | n, .verify i :: cs => i < n ∧ CcsCallsOk n cs

/-- What is expected of a session: every `Prove` makes the proof of the model on values, and every verdict is that of the model for
the proof as it was made. -/
inductive CcsSession (sha : List UInt8 → List UInt8) (p : CcsParams) : List CcsProof → List CcsCall → List Bool → Prop
  | nil (made : List CcsProof) : CcsSession sha p made [] []
  | prove {made : List CcsProof} {x r : Int} {w1 w2 : ULRandom} {q : CcsProof} {cs : List CcsCall} {bs : List Bool} :
      ccsProve sha (some p) x r w1 w2 = .ok q → CcsSession sha p (made ++ [q]) cs bs →
      CcsSession sha p made (.prove x r w1 w2 :: cs) bs
  | verify {made : List CcsProof} {i : Nat} {q q' : CcsProof} {b : Bool} {cs : List CcsCall} {bs : List Bool} :
      made[i]? = some q → ccsVerify q (some p) = .ok (b, q') → CcsSession sha p made cs bs →
      CcsSession sha p made (.verify i :: cs) (b :: bs)

end Verif

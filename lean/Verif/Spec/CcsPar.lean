import Mathlib.Data.Int.ModEq
import Verif.Spec.CcsHeap
import Verif.Model.CcsPar

/-!
# Specification: goroutines which use bn256, bbsignatures and ccs08 at the same time
-/

namespace Verif

/-- Whatever the order in which the goroutines make their accesses, none of them panics; when all have finished, their results are
`rs`, and `Q` holds of the shared objects; and all have finished after `k` accesses each, for some `k`. -/
def Concurrently {α : Type} (s : BigHeap) (ps : List (BProg α)) (rs : List α) (Q : (Cell → Int) → Prop) : Prop :=
  ∃ k : Nat, ∀ sched : List Nat, (∀ i ∈ sched, i < ps.length) → ∃ m, (BMachine.start s.next s.mem ps).exec sched = .ok m ∧
    (∀ l, m.results = some l → l = rs ∧ Q m.shared) ∧ ((∀ i < ps.length, k ≤ sched.count i) → m.results = some rs)

/-! ### What a computation uses -/

/-- The objects numbered from `n` on are a goroutine's own; among the others it may read those in `R` and `W` and write those in `W`. -/
structure Share where
  n : Nat
  R : Cell → Prop
  W : Cell → Prop

namespace Share

/-- Objects which may be read. -/
def Rd (E : Share) (c : Cell) : Prop := E.n ≤ c ∨ E.R c ∨ E.W c

/-- Objects which may be written. -/
def Wr (E : Share) (c : Cell) : Prop := E.n ≤ c ∨ E.W c

end Share

/-- Whatever the memory contains, the computation reads and writes only what `E` allows, and its result satisfies `Q`. -/
def BProg.Safe {α : Type} (E : Share) : BProg α → (α → Prop) → Prop
  | .ret a, Q => Q a
  | .panic, _ => True
  | .new k, Q => ∀ c, E.n ≤ c → (k c).Safe E Q
  | .read c k, Q => E.Rd c ∧ ∀ v, (k v).Safe E Q
  | .write c _ k, Q => E.Wr c ∧ k.Safe E Q

namespace Inter

open BigP

/-- The sessions of `Spec/CcsHeap.lean`. -/
def ccsSessionH (g : CcsGlobals) (sha : List UInt8 → List UInt8) (p : CcsParamsH) : List CcsProofH → List CcsCall → BigP (List Bool)
  | _, [] => pure []
  | made, .prove x r w1 w2 :: cs => do
    let q ← ccsProveH g sha (some p) x r w1 w2
    ccsSessionH g sha p (made ++ [q]) cs
  | made, .verify i :: cs => do
    let q ← BigP.ofRes (idx made i)
    let b ← ccsVerifyH g q (some p)
    let bs ← ccsSessionH g sha p made cs
    pure (b :: bs)

/-- `SetupSet`, `ProveSet` and `VerifySet`. -/
def runSet (g : CcsGlobals) (sha : List UInt8 → List UInt8) (S : List Int) (rnd : Option Int) (x r m v s t : Int) : BigP Bool := do
  let p ← setupSetH g S rnd
  let q ← proveSetH g sha x r p m v s t
  let q ← ofRes (Res.ofOption q)
  verifySetH g q p

/-- `SetupUL`, `ProveUL` and `VerifyUL`. -/
def runUL (g : CcsGlobals) (sha : List UInt8 → List UInt8) (u l : Int) (rnd : Option Int) (x r m : Int) (v s t : Nat → Int) :
    BigP Bool := do
  let p ← setupULH g u l rnd
  let q ← proveULH g sha x r p m v s t
  let q ← ofRes (Res.ofOption q)
  verifyULH g q p

/-- `Setup` and a session. -/
def runRange (g : CcsGlobals) (sha : List UInt8 → List UInt8) (a b : Int) (rnd : Option Int) (cs : List CcsCall) :
    BigP (List Bool) := do
  let p ← ccsSetupH g a b rnd
  let p ← ofRes (Res.ofOption p)
  ccsSessionH g sha p [] cs

/-- `Keygen`, `Sign` and `verify`. -/
def runSign (g : CcsGlobals) (k m : Int) : BigP (Option Bool) := do
  let kp ← keygenH g (some k)
  let o ← bbSignH g m k
  let sig ← ofRes (Res.ofOption o)
  let y ← ofRes (Res.ofOption kp.pubk)
  bbVerifyH g sig m y

end Inter

/-! ### Tasks -/

/-- What a goroutine does. -/
inductive CcsTask
  /-- `SetupSet`, `ProveSet` and `VerifySet`. -/
  | set (S : List Int) (rnd : Option Int) (x r m v s t : Int)
  /-- `SetupUL`, `ProveUL` and `VerifyUL`. -/
  | ul (u l : Int) (rnd : Option Int) (x r m : Int) (v s t : Nat → Int)
  /-- `Setup` and calls of `Prove` and `Verify`. -/
  | range (a b : Int) (rnd : Option Int) (cs : List CcsCall)
  /-- `Keygen`, `Sign` and `verify` of bbsignatures. -/
  | sign (k m : Int)
  /-- Calls of `Prove` and `Verify` with parameters which exist. -/
  | session (p : CcsParamsH) (cs : List CcsCall)
  /-- `VerifySet` for a proof which exists. -/
  | verifySet (q : ProofSetH) (p : ParamsSetH)
  /-- `VerifyUL` for a proof which exists. -/
  | verifyUL (q : ProofULH) (p : ParamsULH)
  /-- `Verify` for a proof which exists. -/
  | verify (q : CcsProofH) (p : CcsParamsH)

namespace CcsTask

/-- The code: the verdicts. -/
def run (g : CcsGlobals) (sha : List UInt8 → List UInt8) : CcsTask → BigP (List Bool)
  | set S rnd x r m v s t => do pure [← Inter.runSet g sha S rnd x r m v s t]
  | ul u l rnd x r m v s t => do pure [← Inter.runUL g sha u l rnd x r m v s t]
  | range a b rnd cs => Inter.runRange g sha a b rnd cs
  | sign k m => do pure (← Inter.runSign g k m).toList
  | session p cs => Inter.ccsSessionH g sha p [] cs
  | verifySet q p => do pure [← Inter.verifySetH g q p]
  | verifyUL q p => do pure [← Inter.verifyULH g q p]
  | verify q p => do pure [← Inter.ccsVerifyH g q (some p)]

/-- The existing objects it reads, besides the package variables. -/
def reads : CcsTask → List Cell
  | session p _ => HeapObj.cells p
  | verifySet q p => HeapObj.cells p ++ HeapObj.cells q
  | verifyUL q p => HeapObj.cells p ++ HeapObj.cells q
  | verify q p => HeapObj.cells p ++ HeapObj.cells q
  | _ => []

/-- The existing objects it may write. -/
def writes : CcsTask → List Cell
  | verifySet q _ => HeapObj.cells q.D ++ HeapObj.cells q.a
  | verifyUL q _ => q.written
  | verify q _ => q.written
  | _ => []

/-- The parameters and proofs exist, do not overlap, and have a key. -/
def Ready (g : CcsGlobals) (s : BigHeap) : CcsTask → Prop
  | session p _ => Live s p ∧ Disj g.cells (HeapObj.cells p) ∧ KeyOk (HeapObj.val s.mem p.p.kp)
  | verifySet q p => Live s p ∧ Live s q ∧ Disj g.cells (HeapObj.cells p) ∧ Disj g.cells (HeapObj.cells q) ∧
      Disj (HeapObj.cells p) (HeapObj.cells q) ∧ KeyOk (HeapObj.val s.mem p.kp)
  | verifyUL q p => Live s p ∧ Live s q ∧ Disj g.cells (HeapObj.cells p) ∧ Disj g.cells (HeapObj.cells q) ∧
      Disj (HeapObj.cells p) (HeapObj.cells q) ∧ KeyOk (HeapObj.val s.mem p.kp)
  | verify q p => Live s p ∧ Live s q ∧ Disj g.cells (HeapObj.cells p) ∧ Disj g.cells (HeapObj.cells q) ∧
      Disj (HeapObj.cells p) (HeapObj.cells q) ∧ KeyOk (HeapObj.val s.mem p.p.kp)
  | sign k m => m ≡ 0 [ZMOD bnOrder] ∨ ¬ m ≡ k [ZMOD bnOrder]
  | _ => True

/-- The verdicts of the model on values (`Model/Ccs.lean`), in which nothing is shared. -/
def Gives (sha : List UInt8 → List UInt8) (mem : Cell → Int) : CcsTask → List Bool → Prop
  | set S rnd x r m v s t, bs => ∃ p q q' b, setupSet S rnd = .ok p ∧ proveSet sha x r p m v s t = .ok (some q) ∧
      Verif.verifySet q p = .ok (b, q') ∧ bs = [b]
  | ul u l rnd x r m v s t, bs => ∃ p q q' b, setupUL u l rnd = .ok p ∧ proveUL sha x r p m v s t = .ok (some q) ∧
      Verif.verifyUL q p = .ok (b, q') ∧ bs = [b]
  | range a b rnd cs, bs => ∃ p, ccsSetup a b rnd = .ok (some p) ∧ CcsSession sha p [] cs bs
  | sign k m, bs => ∃ y sig b, (keygen (some k)).pubk = some y ∧ bbSign m k = .ok (some sig) ∧ bbVerify sig m y = .ok b ∧ bs = b.toList
  | session p cs, bs => CcsSession sha (HeapObj.val mem p) [] cs bs
  | verifySet q p, bs => ∃ q' b, Verif.verifySet (HeapObj.val mem q) (HeapObj.val mem p) = .ok (b, q') ∧ bs = [b]
  | verifyUL q p, bs => ∃ q' b, Verif.verifyUL (HeapObj.val mem q) (HeapObj.val mem p) = .ok (b, q') ∧ bs = [b]
  | verify q p, bs => ∃ q' b, ccsVerify (HeapObj.val mem q) (some (HeapObj.val mem p)) = .ok (b, q') ∧ bs = [b]

/-- The proof verified, after the call. -/
def Leaves (mem mem' : Cell → Int) : CcsTask → Prop
  | verifySet q p => ∀ q' b, Verif.verifySet (HeapObj.val mem q) (HeapObj.val mem p) = .ok (b, q') → HeapObj.val mem' q = q'
  | verifyUL q p => ∀ q' b, Verif.verifyUL (HeapObj.val mem q) (HeapObj.val mem p) = .ok (b, q') → HeapObj.val mem' q = q'
  | verify q p => ∀ q' b, ccsVerify (HeapObj.val mem q) (some (HeapObj.val mem p)) = .ok (b, q') → HeapObj.val mem' q = q'
  | _ => True

end CcsTask

end Verif

import Verif.Model.Bp

/-!
# `bulletproofs` on a heap

The other models treat points as values.  In Go a point is a `*P256`, most methods of `P256` write to their receiver, and
`Verify` uses the caller's points as receivers.  Here the same functions work on addresses: the heap is a list of `P256`
structs, an address is an index into it, an address outside the heap is a nil pointer.  The methods of `P256` write `X` and
`Y` one after the other as in the code, so that the effect of a receiver which is also an argument is part of the model.

Not modelled here: the `big.Int` objects.  No function of `bulletproofs` or `crypto/p256` writes to a `big.Int` which existed before
(each operation of `util/bn` allocates its result; for `crypto/p256` this is `C100_objects`), so pointers to them are represented by
their values.  Slices are lists of
addresses; no function writes to an element of an argument slice.
-/

namespace Verif

/-- Index of a `P256` struct in the heap. -/
abbrev Addr := Nat

/-- The allocated `P256` structs. -/
abbrev Heap := List P256

/-- A computation which reads and writes the heap. -/
def Mem (α : Type) : Type := Heap → Res (α × Heap)

namespace Mem

/-- Sequencing; a panic aborts. -/
def bind {α β : Type} (m : Mem α) (f : α → Mem β) : Mem β := fun s => m s >>= fun r => f r.1 r.2

instance : Monad Mem where
  pure a := fun s => .ok (a, s)
  bind := bind

/-- A computation which does not use the heap. -/
def lift {α : Type} (r : Res α) : Mem α := fun s => r >>= fun a => .ok (a, s)

/-- The struct at an address; a nil dereference panics. -/
def load (a : Addr) : Mem P256 := fun s => Res.ofOption s[a]? >>= fun v => .ok (v, s)

/-- `new(p256.P256)`: both coordinates are nil. -/
def new : Mem Addr := fun s => .ok (s.length, s ++ [⟨none, none⟩])

/-- `p.X = v`. -/
def setX (p : Addr) (v : Option Int) : Mem Unit := fun s =>
  Res.ofOption s[p]? >>= fun c => .ok ((), s.set p ⟨v, c.Y⟩)

/-- `p.Y = v`. -/
def setY (p : Addr) (v : Option Int) : Mem Unit := fun s =>
  Res.ofOption s[p]? >>= fun c => .ok ((), s.set p ⟨c.X, v⟩)

end Mem

open Mem

/-! ### Methods of `P256`; the receiver is the first argument -/

/-- `SetInfinity`, crypto/p256/p256.go:170-174. -/
def setInfinityM (p : Addr) : Mem Unit := do
  setX p none
  setY p none

/-- `p.X = a.X; p.Y = a.Y`, crypto/p256/p256.go:76-77, 80-81, 147-148, 151-152. -/
def copyM (p a : Addr) : Mem Unit := do
  let va ← load a
  setX p va.X
  let va ← load a
  setY p va.Y

/-- `p.X = resx; p.Y = resy`. -/
def writeM (p : Addr) (res : P256) : Mem Unit := do
  setX p res.X
  setY p res.Y

/-- `Add`, crypto/p256/p256.go:74-89. -/
def addM (p a b : Addr) : Mem Unit := do
  let va ← load a
  if va.isZero then copyM p b
  else do
    let vb ← load b
    if vb.isZero then copyM p b
    else writeM p (P256.ofPair (curveAdd va.x va.y vb.x vb.y))

/-- `Double`, crypto/p256/p256.go:94-102. -/
def doubleM (E : Ext) (p a : Addr) : Mem Unit := do
  let va ← load a
  if va.isZero then setInfinityM p
  else writeM p (E.double va.x va.y)

/-- `ScalarMult`, crypto/p256/p256.go:107-121. -/
def scalarMultM (E : Ext) (p a : Addr) (n : Int) : Mem Unit := do
  let va ← load a
  if va.isZero then setInfinityM p
  else if n = 0 then setInfinityM p
  else writeM p (E.scalarMult va.x va.y (n % ORDER).toNat)

/-- `ScalarBaseMult`, crypto/p256/p256.go:126-137. -/
def scalarBaseMultM (E : Ext) (p : Addr) (n : Int) : Mem Unit :=
  if n = 0 then setInfinityM p
  else writeM p (E.scalarMult secpGx secpGy (n % ORDER).toNat)

/-- `Neg`, crypto/p256/p256.go:60-69. -/
def negM (E : Ext) (p a : Addr) : Mem Unit := do
  let va ← load a
  if va.isZero then setInfinityM p
  else scalarMultM E p p (ORDER - 1)

/-- `Multiply`, crypto/p256/p256.go:145-165. -/
def multiplyM (E : Ext) (p a b : Addr) : Mem Unit := do
  let va ← load a
  if va.isZero then copyM p b
  else do
    let vb ← load b
    if vb.isZero then copyM p a
    else if va.x = vb.x ∧ va.y = vb.y then writeM p (E.double va.x va.y)
    else writeM p (P256.ofPair (curveAdd va.x va.y vb.x vb.y))

/-- `new(p256.P256).ScalarMult(a, n)`. -/
def newScalarMultM (E : Ext) (a : Addr) (n : Int) : Mem Addr := do
  let p ← new
  scalarMultM E p a n
  pure p

/-- `new(p256.P256).Multiply(a, b)`. -/
def newMultiplyM (E : Ext) (a b : Addr) : Mem Addr := do
  let p ← new
  multiplyM E p a b
  pure p

/-- `MapToGroup`, crypto/p256/p256.go:194-218: the point found is a new struct. -/
def mapToGroupM (E : Ext) (m : List UInt8) : Mem (Option Addr) := do
  let q ← lift (mapToGroup E m)
  match q with
  | none => pure none
  | some q => do
    let p ← new
    writeM p q
    pure (some p)

/-! ### Vector helpers -/

/-- `CommitG1`, util/util.go:70-75. -/
def commitG1M (E : Ext) (x r : Int) (h : Addr) : Mem Addr := do
  let C ← new
  scalarBaseMultM E C x
  let Hr ← newScalarMultM E h r
  addM C C Hr
  pure C

/-- Loop of `VectorExp`, bulletproofs/util.go:97-100. -/
def vectorExpLoopM (E : Ext) (result : Addr) : List Addr → List Int → Mem Unit
  | p :: a, n :: b => do
    let t ← newScalarMultM E p n
    multiplyM E result result t
    vectorExpLoopM E result a b
  | _, _ => pure ()

/-- `VectorExp`, bulletproofs/util.go:85-102; a nil pointer for different lengths, whose use panics. -/
def vectorExpM (E : Ext) (a : List Addr) (b : List Int) : Mem Addr :=
  if a.length ≠ b.length then lift .panic
  else do
    let result ← new
    setInfinityM result
    vectorExpLoopM E result a b
    pure result

/-- `vectorScalarExp`, bulletproofs/bip.go:305-316. -/
def vectorScalarExpM (E : Ext) (b : Int) : List Addr → Mem (List Addr)
  | [] => pure []
  | p :: a => do
    let q ← newScalarMultM E p b
    let r ← vectorScalarExpM E b a
    pure (q :: r)

/-- Loop of `VectorECAdd`, bulletproofs/vector.go:165-168. -/
def vectorECAddLoopM (E : Ext) : List Addr → List Addr → Mem (List Addr)
  | p :: a, q :: b => do
    let s ← newMultiplyM E p q
    let r ← vectorECAddLoopM E a b
    pure (s :: r)
  | _, _ => pure []

/-- `VectorECAdd`, bulletproofs/vector.go:153-170; a nil slice for different lengths. -/
def vectorECAddM (E : Ext) (a b : List Addr) : Mem (List Addr) :=
  if a.length ≠ b.length then pure [] else vectorECAddLoopM E a b

/-- `HashBP`, bulletproofs/util.go:54-80. -/
def hashBPM (E : Ext) (a s : Addr) : Mem (Int × Int) := do
  let va ← load a
  let vs ← load s
  pure (hashBP E va vs)

/-- `IsZero`, crypto/p256/p256.go:48-55. -/
def isZeroM (a : Addr) : Mem Bool := do
  let va ← load a
  pure va.isZero

/-- All structs of a slice of points. -/
def loadAllM : List Addr → Mem (List P256)
  | [] => pure []
  | a :: l => do
    let v ← load a
    let r ← loadAllM l
    pure (v :: r)

/-! ### Inner-product argument -/

/-- `InnerProductParams`, bulletproofs/bip.go:36-44. -/
structure IPParamsM where
  N : Int
  Cc : Int
  Uu : Addr
  H : Addr
  Gg : List Addr
  Hh : List Addr
  P : Addr

/-- `InnerProductProof`, bulletproofs/bip.go:49-60. -/
structure IPProofM where
  N : Int
  Ls : List Addr
  Rs : List Addr
  U : Addr
  P : Addr
  Gg : Addr
  Hh : Addr
  A : Int
  B : Int
  Params : IPParamsM

/-- `hashIP`, bulletproofs/bip.go:271-286.  Reads `*P` and the generators (all of them are read here, the first `n` in the
code; the callers give `n` generators). -/
def hashIPM (E : Ext) (g h : List Addr) (P : Addr) (c : Int) (n : Int) : Mem (Option Int) := do
  let vP ← load P
  let vg ← loadAllM g
  let vh ← loadAllM h
  lift (hashIP E vg vh vP c n)

/-- `commitInnerProduct`, bulletproofs/bip.go:291-300. -/
def commitInnerProductM (E : Ext) (g h : List Addr) (a b : List Int) : Mem Addr := do
  let ga ← vectorExpM E g a
  let hb ← vectorExpM E h b
  newMultiplyM E ga hb

/-- `L` or `R`, bulletproofs/bip.go:168-171 and 174-177: `g^a·h^b·u^c`, with the result of the first `VectorExp` as
receiver. -/
def crossTermM (E : Ext) (g : List Addr) (a : List Int) (h : List Addr) (b : List Int) (u : Addr) (c : Int) : Mem Addr := do
  let L ← vectorExpM E g a
  let Lh ← vectorExpM E h b
  multiplyM E L L Lh
  let uc ← newScalarMultM E u c
  multiplyM E L L uc
  pure L

/-- `g'` or `h'`, bulletproofs/bip.go:184-190 and 236-242. -/
def foldM (E : Ext) (a : List Addr) (x : Int) (b : List Addr) (y : Int) : Mem (List Addr) := do
  let ax ← vectorScalarExpM E x a
  let bx ← vectorScalarExpM E y b
  vectorECAddM E ax bx

/-- `computeBipRecursive`, bulletproofs/bip.go:137-215; see `computeBip`.  The field `Params` is filled by the caller. -/
def computeBipM (E : Ext) (params : IPParamsM) : Nat → List Int → List Int → List Addr → List Addr → Addr → Addr → Nat →
    List Addr → List Addr → Mem IPProofM
  | 0, _, _, _, _, _, _, _, _, _ => lift .panic
  | fuel + 1, a, b, g, h, u, P, n, Ls, Rs =>
    if n = 1 then do
      let a0 ← lift (idx a 0)
      let b0 ← lift (idx b 0)
      let g0 ← lift (idx g 0)
      let h0 ← lift (idx h 0)
      pure { N := n, Ls := Ls, Rs := Rs, U := u, P := P, Gg := g0, Hh := h0, A := a0, B := b0, Params := params }
    else do
      let n' := n / 2
      let aL ← lift (sliceTo a n')
      let aR ← lift (sliceFrom a n')
      let bL ← lift (sliceTo b n')
      let bR ← lift (sliceFrom b n')
      let gL ← lift (sliceTo g n')
      let gR ← lift (sliceFrom g n')
      let hL ← lift (sliceTo h n')
      let hR ← lift (sliceFrom h n')
      let cL ← lift (Res.ofOption (scalarProduct aL bR))
      let cR ← lift (Res.ofOption (scalarProduct aR bL))
      let L ← crossTermM E gR aL hL bR u cL
      let R ← crossTermM E gL aR hR bL u cR
      let (x, _) ← hashBPM E L R
      let xinv ← lift (Res.ofOption (modInverse x ORDER))
      let g' ← foldM E gL xinv gR x
      let h' ← foldM E hL x hR xinv
      let x2 := (x * x) % ORDER
      let x2inv ← lift (Res.ofOption (modInverse x2 ORDER))
      let P' ← newScalarMultM E L x2
      multiplyM E P' P' P
      let Rx ← newScalarMultM E R x2inv
      multiplyM E P' P' Rx
      let a' := (vectorAdd (vectorScalarMul aL x) (vectorScalarMul aR xinv)).getD []
      let b' := (vectorAdd (vectorScalarMul bL xinv) (vectorScalarMul bR x)).getD []
      let proof ← computeBipM E params fuel a' b' g' h' u P' n' (Ls ++ [L]) (Rs ++ [R])
      pure { proof with N := n }

/-- `proveInnerProduct`, bulletproofs/bip.go:105-132. -/
def proveInnerProductM (E : Ext) (a b : List Int) (P : Addr) (params : IPParamsM) : Mem (Option IPProofM) :=
  if a.length ≠ b.length then pure none
  else do
    let x ← hashIPM E params.Gg params.Hh P params.Cc params.N
    let x ← lift (Res.ofOption x)
    let ux ← newScalarMultM E params.Uu x
    let uxc ← newScalarMultM E ux params.Cc
    let PP ← newMultiplyM E P uxc
    let proof ← computeBipM E { params with P := PP } a.length a b params.Gg params.Hh ux PP a.length [] []
    pure (some proof)

/-- Loop of `InnerProductProof.Verify`, bulletproofs/bip.go:232-249: `Pprime` is the pointer `proof.Params.P`, and the receiver
of `Multiply`. -/
def ipVerifyLoopM (E : Ext) (Pprime : Addr) : List Addr → List Addr → List Addr → List Addr → Int →
    Mem (List Addr × List Addr)
  | [], _, g, h, _ => pure (g, h)
  | _ :: _, [], _, _, _ => lift .panic
  | L :: Ls, R :: Rs, g, h, n => do
    let n' := n.tdiv 2
    let (x, _) ← hashBPM E L R
    let xinv ← lift (Res.ofOption (modInverse x ORDER))
    let gL ← lift (sliceTo g n')
    let gR ← lift (sliceFrom g n')
    let g' ← foldM E gL xinv gR x
    let hL ← lift (sliceTo h n')
    let hR ← lift (sliceFrom h n')
    let h' ← foldM E hL x hR xinv
    let x2 := (x * x) % ORDER
    let x2inv ← lift (Res.ofOption (modInverse x2 ORDER))
    let Lx ← newScalarMultM E L x2
    multiplyM E Pprime Pprime Lx
    let Rx ← newScalarMultM E R x2inv
    multiplyM E Pprime Pprime Rx
    ipVerifyLoopM E Pprime Ls Rs g' h' n'

/-- `InnerProductProof.Verify`, bulletproofs/bip.go:220-266. -/
def ipVerifyM (E : Ext) (proof : IPProofM) : Mem Bool := do
  let Pprime := proof.Params.P
  let (g, h) ← ipVerifyLoopM E Pprime proof.Ls proof.Rs proof.Params.Gg proof.Params.Hh proof.N
  let ab := (proof.A * proof.B) % ORDER
  let g0 ← lift (idx g 0)
  let h0 ← lift (idx h 0)
  let rhs ← newScalarMultM E g0 proof.A
  let hb ← newScalarMultM E h0 proof.B
  multiplyM E rhs rhs hb
  let Uab ← newScalarMultM E proof.U ab
  multiplyM E rhs rhs Uab
  negM E Pprime Pprime
  multiplyM E Pprime Pprime rhs
  isZeroM Pprime

/-! ### Range proof -/

/-- `BulletProofSetupParams`, bulletproofs/bp.go:36-51, without the field `InnerProductParams`. -/
structure BPParamsM where
  N : Int
  G : Addr
  H : Addr
  Gg : List Addr
  Hh : List Addr

/-- `BulletProof`, bulletproofs/bp.go:57-69.  `ParamsIP` is `Params.InnerProductParams`. -/
structure BPProofM where
  V : Addr
  A : Addr
  S : Addr
  T1 : Addr
  T2 : Addr
  Taux : Int
  Mu : Int
  Tprime : Int
  IP : IPProofM
  Commit : Addr
  Params : BPParamsM
  ParamsIP : IPParamsM

/-- Loop of `commitVector`/`commitVectorBig`, bulletproofs/bp.go:393-396 and 406-411. -/
def commitVectorLoopM (E : Ext) (aL aR : List Int) (g h : List Addr) (R : Addr) : Nat → Nat → Mem Unit
  | 0, _ => pure ()
  | fuel + 1, i => do
    let gi ← lift (idx g i)
    let ai ← lift (idx aL i)
    let hi ← lift (idx h i)
    let bi ← lift (idx aR i)
    let gaL ← newScalarMultM E gi ai
    let haR ← newScalarMultM E hi bi
    multiplyM E R R gaL
    multiplyM E R R haR
    commitVectorLoopM E aL aR g h R fuel (i + 1)

/-- `commitVector` and `commitVectorBig`, bulletproofs/bp.go:390-413. -/
def commitVectorM (E : Ext) (aL aR : List Int) (alpha : Int) (H : Addr) (g h : List Addr) (n : Int) : Mem Addr := do
  let R ← newScalarMultM E H alpha
  commitVectorLoopM E aL aR g h R n.toNat 0
  pure R

/-- Loop of `updateGenerators`, bulletproofs/bp.go:365-369. -/
def updateGeneratorsLoopM (E : Ext) (Hh : List Addr) (yinv : Int) : Nat → Nat → Int → Mem (List Addr)
  | 0, _, _ => pure []
  | fuel + 1, i, expy => do
    let hi ← lift (idx Hh i)
    let q ← newScalarMultM E hi expy
    let r ← updateGeneratorsLoopM E Hh yinv fuel (i + 1) (expy * yinv)
    pure (q :: r)

/-- `updateGenerators`, bulletproofs/bp.go:354-371: the first entry is the pointer `Hh[0]` itself. -/
def updateGeneratorsM (E : Ext) (Hh : List Addr) (y : Int) (n : Int) : Mem (List Addr) :=
  if n ≤ 0 then lift .panic
  else do
    let h0 ← lift (idx Hh 0)
    if n = 1 then pure [h0]
    else do
      let yinv ← lift (Res.ofOption (modInverse y ORDER))
      let r ← updateGeneratorsLoopM E Hh yinv (n.toNat - 1) 1 yinv
      pure (h0 :: r)

/-- `setupInnerProduct`, bulletproofs/bip.go:66-100; see `setupInnerProduct`. -/
def setupInnerProductM (E : Ext) (H : Addr) (g h : List Addr) (c : Int) (n : Int) : Mem (Option IPParamsM) :=
  if n ≤ 0 then pure none
  else do
    let u ← mapToGroupM E SEEDU
    let u ← lift (Res.ofOption u)
    let P ← new
    setInfinityM P
    pure (some { N := n, Cc := c, Uu := u, H := H, Gg := g, Hh := h, P := P })

/-- `Prove`, bulletproofs/bp.go:104-239; see `prove`.  `params` is passed by value, the pointers in it are shared with the
caller. -/
def proveM (E : Ext) (rnd : BPRand) (secret : Int) (params : BPParamsM) : Mem (Option BPProofM) := do
  let V ← commitG1M E secret rnd.gamma params.H
  let aL ← lift (decompose secret 2 params.N)
  let aR := (computeAR aL).getD []
  let A ← commitVectorM E aL aR rnd.alpha params.H params.Gg params.Hh params.N
  let S ← commitVectorM E rnd.sL rnd.sR rnd.rho params.H params.Gg params.Hh params.N
  let (y, z) ← hashBPM E A S
  let vz ← lift (vectorCopy z params.N)
  let vy ← lift (powerOf y params.N)
  let naL ← lift (vectorConvertToBig aL params.N)
  let aLmvz := (vectorSub naL vz).getD []
  let ynsR := (vectorMul vy rnd.sR).getD []
  let sp1 ← lift (Res.ofOption (scalarProduct aLmvz ynsR))
  let naR ← lift (vectorConvertToBig aR params.N)
  let aRzn := (vectorAdd naR vz).getD []
  let ynaRzn := (vectorMul vy aRzn).getD []
  let p2n ← lift (powerOf 2 params.N)
  let zsquared := z * z
  let z22n := vectorScalarMul p2n zsquared
  let ynaRzn := (vectorAdd ynaRzn z22n).getD []
  let sp2 ← lift (Res.ofOption (scalarProduct rnd.sL ynaRzn))
  let t1 := (sp1 + sp2) % ORDER
  let t2 ← lift (Res.ofOption (scalarProduct rnd.sL ynsR))
  let t2 := t2 % ORDER
  let T1 ← commitG1M E t1 rnd.tau1 params.H
  let T2 ← commitG1M E t2 rnd.tau2 params.H
  let (x, _) ← hashBPM E T1 T2
  let sLx := vectorScalarMul rnd.sL x
  let bl := (vectorAdd aLmvz sLx).getD []
  let sRx := vectorScalarMul rnd.sR x
  let aRzn := (vectorAdd aRzn sRx).getD []
  let ynaRzn := (vectorMul vy aRzn).getD []
  let br := (vectorAdd ynaRzn z22n).getD []
  let tprime ← lift (Res.ofOption (scalarProduct bl br))
  let taux := rnd.tau2 * (x * x)
  let taux := taux + rnd.tau1 * x
  let taux := taux + z * z * rnd.gamma
  let taux := taux % ORDER
  let mu := rnd.rho * x
  let mu := mu + rnd.alpha
  let mu := mu % ORDER
  let hprime ← updateGeneratorsM E params.Hh y params.N
  let ipp ← setupInnerProductM E params.H params.Gg hprime tprime params.N
  match ipp with
  | none => pure none
  | some ipp => do
    let commit ← commitInnerProductM E params.Gg hprime bl br
    let proofip ← proveInnerProductM E bl br commit ipp
    let proofip ← lift (Res.ofOption proofip)
    pure (some { V := V, A := A, S := S, T1 := T1, T2 := T2, Taux := taux, Mu := mu, Tprime := tprime, IP := proofip,
                 Commit := commit, Params := params, ParamsIP := ipp })

/-- Condition (65) in `Verify`, bulletproofs/bp.go:258-283, with the challenges `x`, `y`, `z`. -/
def check65M (E : Ext) (proof : BPProofM) (x y z : Int) : Mem Bool := do
  let params := proof.Params
  let lhs ← commitG1M E proof.Tprime proof.Taux params.H
  let z2 := (z * z) % ORDER
  let x2 := (x * x) % ORDER
  let rhs ← newScalarMultM E proof.V z2
  let delta ← lift (delta params.N y z)
  let gdelta ← new
  scalarBaseMultM E gdelta delta
  multiplyM E rhs rhs gdelta
  let T1x ← newScalarMultM E proof.T1 x
  let T2x2 ← newScalarMultM E proof.T2 x2
  multiplyM E rhs rhs T1x
  multiplyM E rhs rhs T2x2
  negM E lhs lhs
  multiplyM E rhs rhs lhs
  isZeroM rhs

/-- Conditions (66) and (67) in `Verify`, bulletproofs/bp.go:285-326. -/
def check67M (E : Ext) (proof : BPProofM) (hprime : List Addr) (x y z : Int) : Mem Bool := do
  let params := proof.Params
  let Sx ← newScalarMultM E proof.S x
  let ASx ← new
  addM ASx proof.A Sx
  let mz := ORDER - z
  let vmz ← lift (vectorCopy mz params.N)
  let gpmz ← vectorExpM E params.Gg vmz
  let vz ← lift (vectorCopy z params.N)
  let vy ← lift (powerOf y params.N)
  let zyn := (vectorMul vy vz).getD []
  let p2n ← lift (powerOf 2 params.N)
  let zsquared := z * z
  let z22n := vectorScalarMul p2n zsquared
  let zynz22n := (vectorAdd zyn z22n).getD []
  let lP ← new
  addM lP ASx gpmz
  let hprimeexp ← vectorExpM E hprime zynz22n
  addM lP lP hprimeexp
  let rP ← newScalarMultM E params.H proof.Mu
  multiplyM E rP rP proof.Commit
  negM E lP lP
  addM rP rP lP
  isZeroM rP

/-- `BulletProof.Verify`, bulletproofs/bp.go:244-334. -/
def bpVerifyM (E : Ext) (proof : BPProofM) : Mem Bool := do
  let params := proof.Params
  let (x, _) ← hashBPM E proof.T1 proof.T2
  let (y, z) ← hashBPM E proof.A proof.S
  let hprime ← updateGeneratorsM E params.Hh y params.N
  let c65 ← check65M E proof x y z
  let c67 ← check67M E proof hprime x y z
  let ok ← ipVerifyM E proof.IP
  pure (c65 && c67 && ok)

/-! ### Programs using the interface -/

/-- A statement of a program which makes and checks range proofs for one set of parameters.  Proofs are numbered in the order
in which the program gets them. -/
inductive Stmt where
  /-- `p, err := Prove(secret, params)`, with the random values drawn by it. -/
  | prove (rnd : BPRand) (secret : Int)
  /-- `q := p`, a copy of the struct of proof number `i`. -/
  | copy (i : Nat)
  /-- `p.Verify()` for proof number `i`. -/
  | verify (i : Nat)

/-- A program on the heap, from the proofs it has already: the verdicts in order.  A statement about a proof which does not
exist panics, as does the use of a proof after an error of `Prove`. -/
def runM (E : Ext) (params : BPParamsM) : List Stmt → List BPProofM → Mem (List Bool)
  | [], _ => pure []
  | .prove rnd secret :: rest, ps => do
    let p ← proveM E rnd secret params
    let p ← lift (Res.ofOption p)
    runM E params rest (ps ++ [p])
  | .copy i :: rest, ps => do
    let p ← lift (idx ps i)
    runM E params rest (ps ++ [p])
  | .verify i :: rest, ps => do
    let p ← lift (idx ps i)
    let v ← bpVerifyM E p
    let vs ← runM E params rest ps
    pure (v :: vs)

end Verif

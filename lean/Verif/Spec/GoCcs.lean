import Verif.Model.GoCcs

/-!
# Which pointers the ccs08 verifiers need (C93)
-/

namespace Verif

/-- A pointer to an element which has a value. -/
def IsSet {T : Type} (x : Option (Option T)) : Prop := ∃ v, x = some (some v)

/-- `a` may be multiplied by `k`: neither is nil, and `a` has a value unless `k` is zero. -/
def CanMult (a : GoG2) (k : Option Int) : Prop := a ≠ none ∧ ∃ n, k = some n ∧ (n ≠ 0 → IsSet a)

/-- What `VerifySet` needs. -/
structure GoProofSet.Usable (q : GoProofSet) (p : GoParamsSet) : Prop where
  C : CanMult q.C q.c
  H : CanMult p.H q.zr
  D : IsSet q.D
  V : IsSet q.V
  a : IsSet q.a
  Pubk : IsSet p.kp.Pubk
  zsig : q.zsig ≠ none
  zv : q.zv ≠ none

/-- What `VerifyUL` needs of the entries with index `i`. -/
structure GoProofUL.UsableAt (q : GoProofUL) (p : GoParamsUL) (i : Nat) : Prop where
  V : ∃ v, q.V[i]? = some v ∧ IsSet v
  a : ∃ v, q.a[i]? = some v ∧ IsSet v
  Pubk : IsSet p.kp.Pubk
  zsig : ∃ n : Int, q.zsig[i]? = some (some n)
  zv : ∃ n : Int, q.zv[i]? = some (some n)

/-- What `VerifyUL` needs. -/
structure GoProofUL.Usable (q : GoProofUL) (p : GoParamsUL) : Prop where
  C : CanMult q.C q.c
  H : CanMult p.H q.zr
  D : IsSet q.D
  entries : ∀ i : Nat, (i : Int) < p.l → q.UsableAt p i

/-- `a` has the value `A`, or none and is multiplied by zero. -/
def MultOf (a : GoG2) (A : TwistPoint) (k : Int) : Prop := a = some (some A) ∨ (a = some none ∧ k = 0)

/-- What `VerifySet` reads in `q` and `p` are the values in `v` and `w` (the public key may be nil). -/
structure GoProofSet.Shows (q : GoProofSet) (p : GoParamsSet) (v : ProofSet) (w : ParamsSet) : Prop where
  C : MultOf q.C v.C v.c
  H : MultOf p.H w.H v.zr
  D : q.D = some (some v.D)
  V : q.V = some (some v.V)
  a : q.a = some (some v.a)
  Pubk : p.kp.Pubk = w.kp.pubk.map some
  c : q.c = some v.c
  zr : q.zr = some v.zr
  zsig : q.zsig = some v.zsig
  zv : q.zv = some v.zv

/-- The first `n` entries of `l` are pointers to the first `n` entries of `l'`. -/
def SameFirst {S T : Type} (f : T → S) (n : Int) (l : List S) (l' : List T) : Prop :=
  ∀ i : Nat, (i : Int) < n → l[i]? = l'[i]?.map f

/-- What `VerifyUL` reads in `q` and `p` are the values in `v` and `w`. -/
structure GoProofUL.Shows (q : GoProofUL) (p : GoParamsUL) (v : ProofUL) (w : ParamsUL) : Prop where
  C : MultOf q.C v.C v.c
  H : MultOf p.H w.H v.zr
  D : q.D = some (some v.D)
  V : SameFirst (fun x => some (some x)) p.l q.V v.V
  a : SameFirst (fun x => some (some x)) p.l q.a v.a
  Pubk : p.kp.Pubk = w.kp.pubk.map some
  c : q.c = some v.c
  zr : q.zr = some v.zr
  zsig : SameFirst some p.l q.zsig v.zsig
  zv : SameFirst some p.l q.zv v.zv
  u : p.u = w.u
  l : p.l = w.l

/-- The Go value of a proof without nil pointers. -/
def ProofSet.toGo (q : ProofSet) : GoProofSet :=
  ⟨some (some q.V), some (some q.D), some (some q.C), some (some q.a), some q.s, some q.t, some q.zsig, some q.zv, some q.c, some q.m,
    some q.zr⟩

/-- The Go value of a key pair, whose parts may be nil. -/
def KeygenResult.toGo (k : KeygenResult) : GoKeypair := ⟨k.pubk.map some, k.privk⟩

/-- The Go value of the parameters. -/
def ParamsSet.toGo (p : ParamsSet) : GoParamsSet := ⟨some (some p.H), p.kp.toGo⟩

/-- The Go value of a proof without nil pointers. -/
def ProofUL.toGo (q : ProofUL) : GoProofUL :=
  ⟨q.V.map fun v => some (some v), some (some q.D), some (some q.C), q.a.map fun v => some (some v), q.s.map some, q.t.map some,
    q.zsig.map some, q.zv.map some, some q.c, some q.m, some q.zr⟩

/-- The Go value of the parameters. -/
def ParamsUL.toGo (p : ParamsUL) : GoParamsUL := ⟨some (some p.H), p.kp.toGo, p.u, p.l⟩

/-- The Go value of a range proof with its parameters; a half whose `ProveUL` failed is some proof without `C`. -/
def goCcs (p : Option CcsParams) (q : CcsProof) (e1 e2 : GoProofUL) : GoCcs :=
  ⟨p.map fun p => ⟨some p.p.toGo, p.a, p.b⟩, (q.p1.map ProofUL.toGo).getD e1, (q.p2.map ProofUL.toGo).getD e2⟩

end Verif

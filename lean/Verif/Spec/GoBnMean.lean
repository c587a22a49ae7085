import Verif.Model.GoBn
import Verif.Lemmas.Pairing
import Verif.Lemmas.Curve

/-!
# Specification: what a `bn256` program computes in the groups

The known values of the variables before and after a call, as elements of the groups; `none` says nothing about the variable.
-/

namespace Verif

open Classical

/-- What is known of the variables.  `usable`: the cached coordinate `t` fits, which `Pair` relies on. -/
structure BnElems where
  g1 : Nat → Option BG1
  g2 : Nat → Option BG2
  usable : Nat → Bool
  gt : Nat → Option F12

/-- Nothing is known. -/
def BnElems.nothing : BnElems := ⟨fun _ => none, fun _ => none, fun _ => false, fun _ => none⟩

/-- The variable `e` of `G1` gets the value `v`. -/
def BnElems.let1 (α : BnElems) (e : Nat) (v : Option BG1) : BnElems := { α with g1 := fun i => if i = e then v else α.g1 i }
/-- The variable `e` of `G2` gets the value `v`. -/
def BnElems.let2 (α : BnElems) (e : Nat) (v : Option BG2) (u : Bool) : BnElems :=
  { α with g2 := fun i => if i = e then v else α.g2 i, usable := fun i => if i = e then u else α.usable i }
/-- The variable `e` of `GT` gets the value `v`. -/
def BnElems.letT (α : BnElems) (e : Nat) (v : Option F12) : BnElems := { α with gt := fun i => if i = e then v else α.gt i }

/-- The variables have the values in `α`. -/
structure BnVars.Have (σ : BnVars) (α : BnElems) : Prop where
  g1 : ∀ i P, α.g1 i = some P → ∃ p, σ.g1 i = some p ∧ Rep1 p P
  g2 : ∀ i Q, α.g2 i = some Q → ∃ q, σ.g2 i = some q ∧ Rep2 q Q
  usable : ∀ i q, α.usable i = true → σ.g2 i = some q → PairOk q
  gt : ∀ i x, α.gt i = some x → ∃ g, σ.gt i = some g ∧ g.val = x

/-- The number in the `i`-th block of 32 bytes, highest byte first. -/
def word32 (m : List UInt8) (i : Nat) : Nat := ((m.drop (32 * i)).take 32).foldl (fun n b => n * 256 + b.toNat) 0

/-- Two blocks as an element of `F2`. -/
noncomputable def word2 (m : List UInt8) (i : Nat) : F2 := algebraMap BF F2 (word32 m i) * F2.i + algebraMap BF F2 (word32 m (i + 1))

/-- Six blocks as an element of `F6`. -/
noncomputable def word6 (m : List UInt8) (i : Nat) : F6 :=
  algebraMap F2 F6 (word2 m i) * F6.tau ^ 2 + algebraMap F2 F6 (word2 m (i + 2)) * F6.tau + algebraMap F2 F6 (word2 m (i + 4))

/-- The element whose coordinates modulo `p` are in `m`; `(0, 0)` and `(0, 1)` are infinity. -/
noncomputable def elem1 (m : List UInt8) : Option BG1 :=
  if m.length ≠ 64 then none
  else if word32 m 0 = 0 ∧ (word32 m 1 = 0 ∨ word32 m 1 = 1) then some 0
  else if h : ∃ P : BG1, IsPt P (word32 m 0 : BF) (word32 m 1 : BF) then some h.choose else none
/-- The element whose coordinates modulo `p` are in `m`; only zeros are infinity. -/
noncomputable def elem2 (m : List UInt8) : Option BG2 :=
  if m.length ≠ 128 then none
  else if word32 m 0 = 0 ∧ word32 m 1 = 0 ∧ word32 m 2 = 0 ∧ word32 m 3 = 0 then some 0
  else if h : ∃ P : BG2, IsPt P (word2 m 0) (word2 m 2) then some h.choose else none
/-- The element of `F12` whose coordinates modulo `p` are in `m`. -/
noncomputable def elemT (m : List UInt8) : Option F12 :=
  if m.length ≠ 384 then none else some (algebraMap F6 F12 (word6 m 0) * F12.omega + algebraMap F6 F12 (word6 m 6))

/-- What is known after the call, by the group laws and the pairing `pr`.  The calls which give nothing: adding equal finite elements into
the first one, inverting an element of `G2` in place, a negative scalar in `G2`, marshalling infinity in `G2` (the exceptions
are where the result does not depend on it).  `GT.Exp` changes its argument and not the receiver, `GT.ScalarMult` reads a negative
scalar modulo a power of two. -/
noncomputable def BnStmt.mean (pr : BG1 →+ AddSubgroup.zmultiples bnG2 →+ Additive F12ˣ) : BnStmt → BnElems → BnElems
  | .g1Add e a b, α => α.let1 e (do
      let P ← α.g1 a
      let Q ← α.g1 b
      if e = a ∧ P = Q ∧ P ≠ 0 then none else some (P + Q))
  | .g1Neg e a, α => α.let1 e ((α.g1 a).map (- ·))
  | .g1ScalarMult e a k, α => α.let1 e (if k = 0 then some 0 else (α.g1 a).map (k • ·))
  | .g1ScalarBaseMult e k, α => α.let1 e (some (k • bnG1))
  | .g1SetInfinity e, α | .g1SetZero e, α => α.let1 e (some 0)
  | .g1Unmarshal e m, α => if m.length = 64 then α.let1 e (elem1 m) else α
  | .g2Add e a b, α => α.let2 e (do
      let P ← α.g2 a
      let Q ← α.g2 b
      if e = a ∧ P = Q ∧ P ≠ 0 then none else some (P + Q)) false
  | .g2Neg e a, α => α.let2 e (do
      let P ← α.g2 a
      if e = a ∧ P ≠ -P then none else some (-P)) false
  | .g2ScalarMult e a k, α => α.let2 e (if k = 0 then some 0 else do
      let P ← α.g2 a
      if k < 0 ∧ (2 * k) • P ≠ 0 then none else some (k • P)) false
  | .g2ScalarBaseMult e k, α => α.let2 e (if k < 0 ∧ ¬ bnOrder ∣ k then none else some (k • bnG2)) false
  | .g2SetInfinity e, α => α.let2 e (some 0) true
  | .g2Marshal e, α => α.let2 e (do
      let P ← α.g2 e
      if P = 0 then none else some P) (α.usable e)
  | .g2Unmarshal e m, α => if m.length = 128 then α.let2 e (elem2 m) true else α
  | .gtAdd e a b, α => α.letT e (do
      let x ← α.gt a
      let y ← α.gt b
      some (x * y))
  | .gtNeg e a, α | .gtInvert e a, α => α.letT e ((α.gt a).map (·⁻¹))
  | .gtScalarMult e a k, α => α.letT e (if k = 0 then some 1 else
      (α.gt a).map (· ^ if 0 ≤ k then k.natAbs else 2 ^ (Nat.log2 k.natAbs + 1) - k.natAbs))
  | .gtExp _ a k, α => α.letT a ((α.gt a).map (· ^ k))
  | .gtUnmarshal e m, α => if m.length = 384 then α.letT e (elemT m) else α
  | .pair e i j, α => α.letT e (do
      let P ← α.g1 i
      let Q ← α.g2 j
      if P = 0 then some 1
      else if h : Q ∈ AddSubgroup.zmultiples bnG2 ∧ (Q = 0 ∨ α.usable j = true) then some ((pr P ⟨Q, h.1⟩).toMul : F12) else none)
  | _, α => α

/-- The calls of a program, one after the other. -/
noncomputable def bnMean (pr : BG1 →+ AddSubgroup.zmultiples bnG2 →+ Additive F12ˣ) (prog : List BnStmt) (α : BnElems) : BnElems :=
  prog.foldl (fun α s => s.mean pr α) α

/-- The numbers in `m` are less than `p`. -/
def Reduced (m : List UInt8) : Prop := ∀ i, (word32 m i : Int) < bnP

/-- What a call may answer, given what is known before it.  `Marshal` of `G1` writes infinity as `(0, 1)`.  Nothing is said about `String`
(C83, C86) and `CurvePoints`. -/
def BnStmt.Answers (pr : BG1 →+ AddSubgroup.zmultiples bnG2 →+ Additive F12ˣ) : BnStmt → BnElems → BnOut → Prop
  | .g1IsZero e, α, o => ∀ P, α.g1 e = some P → o = .bool (decide (P = 0))
  | .g1Marshal e, α, o => ∀ P, α.g1 e = some P → ∃ m, o = .bytes m ∧ elem1 m = some P ∧ Reduced m ∧ (P = 0 → word32 m 1 = 1)
  | .g1Unmarshal _ m, _, o => o = .bool (elem1 m).isSome
  | .g2IsZero e, α, o => ∀ P, α.g2 e = some P → o = .bool (decide (P = 0))
  | .g2Marshal e, α, o => ∀ P, α.g2 e = some P → ∃ m, o = .bytes m ∧ elem2 m = some P ∧ Reduced m
  | .g2Unmarshal _ m, _, o => o = .bool (elem2 m).isSome
  | .gtIsZero e, α, o => ∀ x, α.gt e = some x → o = .bool (decide (x = 0))
  | .gtIsOne e, α, o => ∀ x, α.gt e = some x → o = .bool (decide (x = 1))
  | .gtMarshal e, α, o => ∀ x, α.gt e = some x → ∃ m, o = .bytes m ∧ elemT m = some x ∧ Reduced m
  | .gtUnmarshal _ m, _, o => o = .bool (elemT m).isSome
  | .pairingCheck a b, α, o => ∀ l : List (BG1 × AddSubgroup.zmultiples bnG2),
      List.Forall₂ (fun i q => α.g1 i = some q.1) a l →
      List.Forall₂ (fun j q => α.g2 j = some q.2.1 ∧ (q.2 = 0 ∨ α.usable j = true)) b l →
      o = .bool (decide ((l.map fun q => pr q.1 q.2).sum = 0))
  | .g1String _, _, _ | .g2String _, _, _ | .gtString _, _, _ => True
  | _, _, o => o = .nothing

/-- The answers to the calls of a program. -/
def bnAnswers (pr : BG1 →+ AddSubgroup.zmultiples bnG2 →+ Additive F12ˣ) : List BnStmt → BnElems → List BnOut → Prop
  | [], _, os => os = []
  | _ :: _, _, [] => False
  | s :: prog, α, o :: os => s.Answers pr α o ∧ bnAnswers pr prog (s.mean pr α) os

end Verif

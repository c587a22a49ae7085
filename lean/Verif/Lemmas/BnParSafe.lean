import Verif.Spec.CcsPar
import Mathlib.Tactic.Common

/-!
# What the functions of `Verif.Inter` read and write
-/

namespace Verif

theorem Share.Wr.rd {E : Share} {c : Cell} (h : E.Wr c) : E.Rd c := h.imp id Or.inr

namespace BProg.Safe

variable {α β : Type} {E : Share}

theorem bind {p : BProg α} {f : α → BProg β} {Q : α → Prop} {Q' : β → Prop} (h : p.Safe E Q)
    (h' : ∀ a, Q a → (f a).Safe E Q') : (p.bind f).Safe E Q' := by
  induction p with
  | ret a => exact h' a h
  | panic => trivial
  | new k ih => exact fun c hc => ih c (h c hc)
  | read c k ih => exact ⟨h.1, fun v => ih v (h.2 v)⟩
  | write c v k ih => exact ⟨h.1, ih h.2⟩

theorem mono {p : BProg α} {Q Q' : α → Prop} (h : p.Safe E Q) (h' : ∀ a, Q a → Q' a) : p.Safe E Q' := by
  induction p with
  | ret a => exact h' a h
  | panic => trivial
  | new k ih => exact fun c hc => ih c (h c hc)
  | read c k ih => exact ⟨h.1, fun v => ih v (h.2 v)⟩
  | write c v k ih => exact ⟨h.1, ih h.2⟩

end BProg.Safe

/-! ### Things which contain objects -/

/-- Things which contain pointers to objects: `all P a` says that `P` holds for all of them. -/
class HasCells (A : Type) where
  all : (Cell → Prop) → A → Prop
  mono : ∀ {P Q : Cell → Prop}, (∀ c, P c → Q c) → ∀ a, all P a → all Q a

instance : HasCells Cell := ⟨fun P c => P c, fun h c hc => h c hc⟩
instance : HasCells Unit := ⟨fun _ _ => True, fun _ _ _ => trivial⟩
instance : HasCells Bool := ⟨fun _ _ => True, fun _ _ _ => trivial⟩
instance : HasCells Int := ⟨fun _ _ => True, fun _ _ _ => trivial⟩
instance : HasCells (List UInt8) := ⟨fun _ _ => True, fun _ _ _ => trivial⟩
instance {A B : Type} [HasCells A] [HasCells B] : HasCells (A × B) :=
  ⟨fun P a => HasCells.all P a.1 ∧ HasCells.all P a.2, fun h _ ha => ⟨HasCells.mono h _ ha.1, HasCells.mono h _ ha.2⟩⟩
instance {A : Type} [HasCells A] : HasCells (Option A) := ⟨fun P o => ∀ a, o = some a → HasCells.all P a, fun h _ ho a ha => HasCells.mono h _ (ho a ha)⟩
instance {A : Type} [HasCells A] : HasCells (List A) := ⟨fun P l => ∀ a ∈ l, HasCells.all P a, fun h _ hl a ha => HasCells.mono h _ (hl a ha)⟩
instance : HasCells Gf2 := ⟨fun P a => HasCells.all P a.x ∧ HasCells.all P a.y,
  fun h _ ha => ⟨HasCells.mono h _ ha.1, HasCells.mono h _ ha.2⟩⟩
instance : HasCells Gf6 := ⟨fun P a => HasCells.all P a.x ∧ HasCells.all P a.y ∧ HasCells.all P a.z,
  fun h _ ha => ⟨HasCells.mono h _ ha.1, HasCells.mono h _ ha.2.1, HasCells.mono h _ ha.2.2⟩⟩
instance : HasCells Gf12 := ⟨fun P a => HasCells.all P a.x ∧ HasCells.all P a.y,
  fun h _ ha => ⟨HasCells.mono h _ ha.1, HasCells.mono h _ ha.2⟩⟩
instance : HasCells CurveP := ⟨fun P a => HasCells.all P a.x ∧ HasCells.all P a.y ∧ HasCells.all P a.z ∧ HasCells.all P a.t,
  fun h _ ha => ⟨HasCells.mono h _ ha.1, HasCells.mono h _ ha.2.1, HasCells.mono h _ ha.2.2.1, HasCells.mono h _ ha.2.2.2⟩⟩
instance : HasCells TwistP := ⟨fun P a => HasCells.all P a.x ∧ HasCells.all P a.y ∧ HasCells.all P a.z ∧ HasCells.all P a.t,
  fun h _ ha => ⟨HasCells.mono h _ ha.1, HasCells.mono h _ ha.2.1, HasCells.mono h _ ha.2.2.1, HasCells.mono h _ ha.2.2.2⟩⟩
instance : HasCells BnGlobals := ⟨fun P a => HasCells.all P a.p6 ∧ HasCells.all P a.p3 ∧ HasCells.all P a.p2 ∧ HasCells.all P a.p23 ∧ HasCells.all P a.s3 ∧ HasCells.all P a.s23 ∧ HasCells.all P a.s6,
  fun h _ ha => ⟨HasCells.mono h _ ha.1, HasCells.mono h _ ha.2.1, HasCells.mono h _ ha.2.2.1, HasCells.mono h _ ha.2.2.2.1, HasCells.mono h _ ha.2.2.2.2.1, HasCells.mono h _ ha.2.2.2.2.2.1, HasCells.mono h _ ha.2.2.2.2.2.2⟩⟩
instance : HasCells CcsGlobals := ⟨fun P a => HasCells.all P a.bn ∧ HasCells.all P a.curveGen ∧ HasCells.all P a.twistGen ∧ HasCells.all P a.twistB ∧ HasCells.all P a.G1 ∧ HasCells.all P a.E,
  fun h _ ha => ⟨HasCells.mono h _ ha.1, HasCells.mono h _ ha.2.1, HasCells.mono h _ ha.2.2.1, HasCells.mono h _ ha.2.2.2.1, HasCells.mono h _ ha.2.2.2.2.1, HasCells.mono h _ ha.2.2.2.2.2⟩⟩
instance : HasCells KeygenH := ⟨fun P a => HasCells.all P a.pubk,
  fun h _ ha => HasCells.mono h _ ha⟩
instance : HasCells ParamsSetH := ⟨fun P a => HasCells.all P a.signatures ∧ HasCells.all P a.H ∧ HasCells.all P a.kp,
  fun h _ ha => ⟨HasCells.mono h _ ha.1, HasCells.mono h _ ha.2.1, HasCells.mono h _ ha.2.2⟩⟩
instance : HasCells ParamsULH := ⟨fun P a => HasCells.all P a.signatures ∧ HasCells.all P a.H ∧ HasCells.all P a.kp,
  fun h _ ha => ⟨HasCells.mono h _ ha.1, HasCells.mono h _ ha.2.1, HasCells.mono h _ ha.2.2⟩⟩
instance : HasCells ProofSetH := ⟨fun P a => HasCells.all P a.V ∧ HasCells.all P a.D ∧ HasCells.all P a.C ∧ HasCells.all P a.a,
  fun h _ ha => ⟨HasCells.mono h _ ha.1, HasCells.mono h _ ha.2.1, HasCells.mono h _ ha.2.2.1, HasCells.mono h _ ha.2.2.2⟩⟩
instance : HasCells ProofULH := ⟨fun P a => HasCells.all P a.V ∧ HasCells.all P a.D ∧ HasCells.all P a.C ∧ HasCells.all P a.a,
  fun h _ ha => ⟨HasCells.mono h _ ha.1, HasCells.mono h _ ha.2.1, HasCells.mono h _ ha.2.2.1, HasCells.mono h _ ha.2.2.2⟩⟩
instance : HasCells CcsParamsH := ⟨fun P a => HasCells.all P a.p,
  fun h _ ha => HasCells.mono h _ ha⟩
instance : HasCells CcsProofH := ⟨fun P a => HasCells.all P a.p1 ∧ HasCells.all P a.p2,
  fun h _ ha => ⟨HasCells.mono h _ ha.1, HasCells.mono h _ ha.2⟩⟩

/-- Its objects may be read. -/
class IsRd {A : Type} [HasCells A] (E : Share) (a : A) : Prop where
  out : HasCells.all E.Rd a

/-- Its objects may be written. -/
class IsWr {A : Type} [HasCells A] (E : Share) (a : A) : Prop where
  out : HasCells.all E.Wr a

section

variable {E : Share}

instance {A : Type} [HasCells A] {a : A} [h : IsWr E a] : IsRd E a := ⟨HasCells.mono (fun _ => Share.Wr.rd) _ h.out⟩

instance (a : Unit) : IsWr E a := ⟨trivial⟩
instance (a : Bool) : IsWr E a := ⟨trivial⟩
instance (a : Int) : IsWr E a := ⟨trivial⟩
instance (a : List UInt8) : IsWr E a := ⟨trivial⟩
instance (a : Option Int) : IsWr E a := ⟨fun _ _ => trivial⟩
instance (a : Option Bool) : IsWr E a := ⟨fun _ _ => trivial⟩
instance {A : Type} [HasCells A] : IsWr E (none : Option A) := ⟨fun _ h => nomatch h⟩
instance {A : Type} [HasCells A] {a : A} [h : IsWr E a] : IsWr E (some a) := ⟨fun _ e => Option.some.inj e ▸ h.out⟩
instance {A : Type} [HasCells A] : IsWr E ([] : List A) := ⟨fun _ h => nomatch h⟩
instance {A : Type} [HasCells A] {a : A} {l : List A} [h : IsWr E a] [h' : IsWr E l] : IsWr E (a :: l) :=
  ⟨fun b hb => (List.mem_cons.1 hb).elim (fun e => e ▸ h.out) (fun hb => h'.out b hb)⟩
instance {A B : Type} [HasCells A] [HasCells B] {a : A} {b : B} [h : IsWr E a] [h' : IsWr E b] : IsWr E (a, b) := ⟨h.out, h'.out⟩
instance {A B : Type} [HasCells A] [HasCells B] {a : A × B} [h : IsWr E a] : IsWr E a.1 := ⟨h.out.1⟩
instance {A B : Type} [HasCells A] [HasCells B] {a : A × B} [h : IsWr E a] : IsWr E a.2 := ⟨h.out.2⟩
instance {A : Type} [HasCells A] {c : Prop} [Decidable c] {a b : A} [h : IsWr E a] [h' : IsWr E b] : IsWr E (if c then a else b) := by
  split
  · exact h
  · exact h'
instance {a : Gf2} [h : IsWr E a] : IsWr E a.x := ⟨h.out.1⟩
instance {a : Gf2} [h : IsWr E a] : IsWr E a.y := ⟨h.out.2⟩
instance {a : Gf6} [h : IsWr E a] : IsWr E a.x := ⟨h.out.1⟩
instance {a : Gf6} [h : IsWr E a] : IsWr E a.y := ⟨h.out.2.1⟩
instance {a : Gf6} [h : IsWr E a] : IsWr E a.z := ⟨h.out.2.2⟩
instance {a : Gf12} [h : IsWr E a] : IsWr E a.x := ⟨h.out.1⟩
instance {a : Gf12} [h : IsWr E a] : IsWr E a.y := ⟨h.out.2⟩
instance {a : CurveP} [h : IsWr E a] : IsWr E a.x := ⟨h.out.1⟩
instance {a : CurveP} [h : IsWr E a] : IsWr E a.y := ⟨h.out.2.1⟩
instance {a : CurveP} [h : IsWr E a] : IsWr E a.z := ⟨h.out.2.2.1⟩
instance {a : CurveP} [h : IsWr E a] : IsWr E a.t := ⟨h.out.2.2.2⟩
instance {a : TwistP} [h : IsWr E a] : IsWr E a.x := ⟨h.out.1⟩
instance {a : TwistP} [h : IsWr E a] : IsWr E a.y := ⟨h.out.2.1⟩
instance {a : TwistP} [h : IsWr E a] : IsWr E a.z := ⟨h.out.2.2.1⟩
instance {a : TwistP} [h : IsWr E a] : IsWr E a.t := ⟨h.out.2.2.2⟩
instance {a : BnGlobals} [h : IsWr E a] : IsWr E a.p6 := ⟨h.out.1⟩
instance {a : BnGlobals} [h : IsWr E a] : IsWr E a.p3 := ⟨h.out.2.1⟩
instance {a : BnGlobals} [h : IsWr E a] : IsWr E a.p2 := ⟨h.out.2.2.1⟩
instance {a : BnGlobals} [h : IsWr E a] : IsWr E a.p23 := ⟨h.out.2.2.2.1⟩
instance {a : BnGlobals} [h : IsWr E a] : IsWr E a.s3 := ⟨h.out.2.2.2.2.1⟩
instance {a : BnGlobals} [h : IsWr E a] : IsWr E a.s23 := ⟨h.out.2.2.2.2.2.1⟩
instance {a : BnGlobals} [h : IsWr E a] : IsWr E a.s6 := ⟨h.out.2.2.2.2.2.2⟩
instance {a : CcsGlobals} [h : IsWr E a] : IsWr E a.bn := ⟨h.out.1⟩
instance {a : CcsGlobals} [h : IsWr E a] : IsWr E a.curveGen := ⟨h.out.2.1⟩
instance {a : CcsGlobals} [h : IsWr E a] : IsWr E a.twistGen := ⟨h.out.2.2.1⟩
instance {a : CcsGlobals} [h : IsWr E a] : IsWr E a.twistB := ⟨h.out.2.2.2.1⟩
instance {a : CcsGlobals} [h : IsWr E a] : IsWr E a.G1 := ⟨h.out.2.2.2.2.1⟩
instance {a : CcsGlobals} [h : IsWr E a] : IsWr E a.E := ⟨h.out.2.2.2.2.2⟩
instance {a : KeygenH} [h : IsWr E a] : IsWr E a.pubk := ⟨h.out⟩
instance {a : ParamsSetH} [h : IsWr E a] : IsWr E a.signatures := ⟨h.out.1⟩
instance {a : ParamsSetH} [h : IsWr E a] : IsWr E a.H := ⟨h.out.2.1⟩
instance {a : ParamsSetH} [h : IsWr E a] : IsWr E a.kp := ⟨h.out.2.2⟩
instance {a : ParamsULH} [h : IsWr E a] : IsWr E a.signatures := ⟨h.out.1⟩
instance {a : ParamsULH} [h : IsWr E a] : IsWr E a.H := ⟨h.out.2.1⟩
instance {a : ParamsULH} [h : IsWr E a] : IsWr E a.kp := ⟨h.out.2.2⟩
instance {a : ProofSetH} [h : IsWr E a] : IsWr E a.V := ⟨h.out.1⟩
instance {a : ProofSetH} [h : IsWr E a] : IsWr E a.D := ⟨h.out.2.1⟩
instance {a : ProofSetH} [h : IsWr E a] : IsWr E a.C := ⟨h.out.2.2.1⟩
instance {a : ProofSetH} [h : IsWr E a] : IsWr E a.a := ⟨h.out.2.2.2⟩
instance {a : ProofULH} [h : IsWr E a] : IsWr E a.V := ⟨h.out.1⟩
instance {a : ProofULH} [h : IsWr E a] : IsWr E a.D := ⟨h.out.2.1⟩
instance {a : ProofULH} [h : IsWr E a] : IsWr E a.C := ⟨h.out.2.2.1⟩
instance {a : ProofULH} [h : IsWr E a] : IsWr E a.a := ⟨h.out.2.2.2⟩
instance {a : CcsParamsH} [h : IsWr E a] : IsWr E a.p := ⟨h.out⟩
instance {a : CcsProofH} [h : IsWr E a] : IsWr E a.p1 := ⟨h.out.1⟩
instance {a : CcsProofH} [h : IsWr E a] : IsWr E a.p2 := ⟨h.out.2⟩
instance {A : Type} [HasCells A] : IsRd E (none : Option A) := ⟨fun _ h => nomatch h⟩
instance {A : Type} [HasCells A] {a : A} [h : IsRd E a] : IsRd E (some a) := ⟨fun _ e => Option.some.inj e ▸ h.out⟩
instance {A : Type} [HasCells A] : IsRd E ([] : List A) := ⟨fun _ h => nomatch h⟩
instance {A : Type} [HasCells A] {a : A} {l : List A} [h : IsRd E a] [h' : IsRd E l] : IsRd E (a :: l) :=
  ⟨fun b hb => (List.mem_cons.1 hb).elim (fun e => e ▸ h.out) (fun hb => h'.out b hb)⟩
instance {A B : Type} [HasCells A] [HasCells B] {a : A} {b : B} [h : IsRd E a] [h' : IsRd E b] : IsRd E (a, b) := ⟨h.out, h'.out⟩
instance {A B : Type} [HasCells A] [HasCells B] {a : A × B} [h : IsRd E a] : IsRd E a.1 := ⟨h.out.1⟩
instance {A B : Type} [HasCells A] [HasCells B] {a : A × B} [h : IsRd E a] : IsRd E a.2 := ⟨h.out.2⟩
instance {A : Type} [HasCells A] {c : Prop} [Decidable c] {a b : A} [h : IsRd E a] [h' : IsRd E b] : IsRd E (if c then a else b) := by
  split
  · exact h
  · exact h'
instance {a : Gf2} [h : IsRd E a] : IsRd E a.x := ⟨h.out.1⟩
instance {a : Gf2} [h : IsRd E a] : IsRd E a.y := ⟨h.out.2⟩
instance {a : Gf6} [h : IsRd E a] : IsRd E a.x := ⟨h.out.1⟩
instance {a : Gf6} [h : IsRd E a] : IsRd E a.y := ⟨h.out.2.1⟩
instance {a : Gf6} [h : IsRd E a] : IsRd E a.z := ⟨h.out.2.2⟩
instance {a : Gf12} [h : IsRd E a] : IsRd E a.x := ⟨h.out.1⟩
instance {a : Gf12} [h : IsRd E a] : IsRd E a.y := ⟨h.out.2⟩
instance {a : CurveP} [h : IsRd E a] : IsRd E a.x := ⟨h.out.1⟩
instance {a : CurveP} [h : IsRd E a] : IsRd E a.y := ⟨h.out.2.1⟩
instance {a : CurveP} [h : IsRd E a] : IsRd E a.z := ⟨h.out.2.2.1⟩
instance {a : CurveP} [h : IsRd E a] : IsRd E a.t := ⟨h.out.2.2.2⟩
instance {a : TwistP} [h : IsRd E a] : IsRd E a.x := ⟨h.out.1⟩
instance {a : TwistP} [h : IsRd E a] : IsRd E a.y := ⟨h.out.2.1⟩
instance {a : TwistP} [h : IsRd E a] : IsRd E a.z := ⟨h.out.2.2.1⟩
instance {a : TwistP} [h : IsRd E a] : IsRd E a.t := ⟨h.out.2.2.2⟩
instance {a : BnGlobals} [h : IsRd E a] : IsRd E a.p6 := ⟨h.out.1⟩
instance {a : BnGlobals} [h : IsRd E a] : IsRd E a.p3 := ⟨h.out.2.1⟩
instance {a : BnGlobals} [h : IsRd E a] : IsRd E a.p2 := ⟨h.out.2.2.1⟩
instance {a : BnGlobals} [h : IsRd E a] : IsRd E a.p23 := ⟨h.out.2.2.2.1⟩
instance {a : BnGlobals} [h : IsRd E a] : IsRd E a.s3 := ⟨h.out.2.2.2.2.1⟩
instance {a : BnGlobals} [h : IsRd E a] : IsRd E a.s23 := ⟨h.out.2.2.2.2.2.1⟩
instance {a : BnGlobals} [h : IsRd E a] : IsRd E a.s6 := ⟨h.out.2.2.2.2.2.2⟩
instance {a : CcsGlobals} [h : IsRd E a] : IsRd E a.bn := ⟨h.out.1⟩
instance {a : CcsGlobals} [h : IsRd E a] : IsRd E a.curveGen := ⟨h.out.2.1⟩
instance {a : CcsGlobals} [h : IsRd E a] : IsRd E a.twistGen := ⟨h.out.2.2.1⟩
instance {a : CcsGlobals} [h : IsRd E a] : IsRd E a.twistB := ⟨h.out.2.2.2.1⟩
instance {a : CcsGlobals} [h : IsRd E a] : IsRd E a.G1 := ⟨h.out.2.2.2.2.1⟩
instance {a : CcsGlobals} [h : IsRd E a] : IsRd E a.E := ⟨h.out.2.2.2.2.2⟩
instance {a : KeygenH} [h : IsRd E a] : IsRd E a.pubk := ⟨h.out⟩
instance {a : ParamsSetH} [h : IsRd E a] : IsRd E a.signatures := ⟨h.out.1⟩
instance {a : ParamsSetH} [h : IsRd E a] : IsRd E a.H := ⟨h.out.2.1⟩
instance {a : ParamsSetH} [h : IsRd E a] : IsRd E a.kp := ⟨h.out.2.2⟩
instance {a : ParamsULH} [h : IsRd E a] : IsRd E a.signatures := ⟨h.out.1⟩
instance {a : ParamsULH} [h : IsRd E a] : IsRd E a.H := ⟨h.out.2.1⟩
instance {a : ParamsULH} [h : IsRd E a] : IsRd E a.kp := ⟨h.out.2.2⟩
instance {a : ProofSetH} [h : IsRd E a] : IsRd E a.V := ⟨h.out.1⟩
instance {a : ProofSetH} [h : IsRd E a] : IsRd E a.D := ⟨h.out.2.1⟩
instance {a : ProofSetH} [h : IsRd E a] : IsRd E a.C := ⟨h.out.2.2.1⟩
instance {a : ProofSetH} [h : IsRd E a] : IsRd E a.a := ⟨h.out.2.2.2⟩
instance {a : ProofULH} [h : IsRd E a] : IsRd E a.V := ⟨h.out.1⟩
instance {a : ProofULH} [h : IsRd E a] : IsRd E a.D := ⟨h.out.2.1⟩
instance {a : ProofULH} [h : IsRd E a] : IsRd E a.C := ⟨h.out.2.2.1⟩
instance {a : ProofULH} [h : IsRd E a] : IsRd E a.a := ⟨h.out.2.2.2⟩
instance {a : CcsParamsH} [h : IsRd E a] : IsRd E a.p := ⟨h.out⟩
instance {a : CcsProofH} [h : IsRd E a] : IsRd E a.p1 := ⟨h.out.1⟩
instance {a : CcsProofH} [h : IsRd E a] : IsRd E a.p2 := ⟨h.out.2⟩
instance {x y : Cell} [hx : IsWr E x] [hy : IsWr E y] : IsWr E (Gf2.mk x y) :=
  ⟨hx.out, hy.out⟩
instance {x y z : Gf2} [hx : IsWr E x] [hy : IsWr E y] [hz : IsWr E z] : IsWr E (Gf6.mk x y z) :=
  ⟨hx.out, hy.out, hz.out⟩
instance {x y : Gf6} [hx : IsWr E x] [hy : IsWr E y] : IsWr E (Gf12.mk x y) :=
  ⟨hx.out, hy.out⟩
instance {x y z t : Cell} [hx : IsWr E x] [hy : IsWr E y] [hz : IsWr E z] [ht : IsWr E t] : IsWr E (CurveP.mk x y z t) :=
  ⟨hx.out, hy.out, hz.out, ht.out⟩
instance {x y z t : Gf2} [hx : IsWr E x] [hy : IsWr E y] [hz : IsWr E z] [ht : IsWr E t] : IsWr E (TwistP.mk x y z t) :=
  ⟨hx.out, hy.out, hz.out, ht.out⟩
instance {k : Option CurveP} {x : Option Int} {b : Bool} [h : IsWr E k] : IsWr E (KeygenH.mk k x b) := ⟨h.out⟩
instance {s : List (Int × Option TwistP)} {H : TwistP} {kp : KeygenH} [h : IsWr E s] [h' : IsWr E H] [h'' : IsWr E kp] :
    IsWr E (ParamsSetH.mk s H kp) := ⟨h.out, h'.out, h''.out⟩
instance {s : List (Int × Option TwistP)} {H : TwistP} {kp : KeygenH} {u l : Int} [h : IsWr E s] [h' : IsWr E H] [h'' : IsWr E kp] :
    IsWr E (ParamsULH.mk s H kp u l) := ⟨h.out, h'.out, h''.out⟩
instance {V D C : TwistP} {a : Gf12} {s t zsig zv c m zr : Int} [h : IsWr E V] [h1 : IsWr E D] [h2 : IsWr E C] [h3 : IsWr E a] :
    IsWr E (ProofSetH.mk V D C a s t zsig zv c m zr) := ⟨h.out, h1.out, h2.out, h3.out⟩
instance {V : List TwistP} {D C : TwistP} {a : List Gf12} {s t zsig zv : List Int} {c m zr : Int} [h : IsWr E V] [h1 : IsWr E D]
    [h2 : IsWr E C] [h3 : IsWr E a] : IsWr E (ProofULH.mk V D C a s t zsig zv c m zr) := ⟨h.out, h1.out, h2.out, h3.out⟩
instance {p : ParamsULH} {a b : Int} [h : IsWr E p] : IsWr E (CcsParamsH.mk p a b) := ⟨h.out⟩
instance {p1 p2 : Option ProofULH} [h : IsWr E p1] [h' : IsWr E p2] : IsWr E (CcsProofH.mk p1 p2) := ⟨h.out, h'.out⟩

theorem isRd_of_lookup {l : List (Int × Option TwistP)} [h : IsRd E l] {x : Int} {o : Option TwistP} (e : l.lookup x = some o) :
    IsRd E o := by
  obtain ⟨l₁, l₂, rfl, -⟩ := List.lookup_eq_some_iff.1 e
  exact ⟨(h.out (x, o) (by simp)).2⟩

theorem isRd_of_idx {A : Type} [HasCells A] {l : List A} [h : IsRd E l] {i : Nat} {a : A} (e : idx l i = .ok a) : IsRd E a :=
  ⟨h.out a (by
    unfold idx at e
    cases he : l[i]? with
    | none => rw [he] at e; cases e
    | some b => rw [he] at e; cases e; exact List.mem_of_getElem? he)⟩

theorem isWr_of_idx {A : Type} [HasCells A] {l : List A} [h : IsWr E l] {i : Nat} {a : A} (e : idx l i = .ok a) : IsWr E a :=
  ⟨h.out a (by
    unfold idx at e
    cases he : l[i]? with
    | none => rw [he] at e; cases e
    | some b => rw [he] at e; cases e; exact List.mem_of_getElem? he)⟩

theorem isRd_of_some {A : Type} [HasCells A] {o : Option A} [h : IsRd E o] {a : A} (e : Res.ofOption o = .ok a) : IsRd E a := by
  cases o with
  | none => cases e
  | some b => cases e; exact ⟨h.out _ rfl⟩

theorem isWr_of_some {A : Type} [HasCells A] {o : Option A} [h : IsWr E o] {a : A} (e : Res.ofOption o = .ok a) : IsWr E a := by
  cases o with
  | none => cases e
  | some b => cases e; exact ⟨h.out _ rfl⟩

end

/-! ### Computations with a pool -/

/-- The computation uses what `E` allows if the objects in the pool are writable; they still are at the end, and so is the result. -/
def Tr {α : Type} [HasCells α] (E : Share) (m : BigP α) : Prop :=
  ∀ p : Option (List Cell), IsWr E p → (m p).Safe E fun r => IsWr E r

/-- `Tr` as a class. -/
class TrC {α : Type} [HasCells α] (E : Share) (m : BigP α) : Prop where
  out : Tr E m

section

variable {E : Share} {α β : Type} [HasCells α] [HasCells β]

theorem TrC.bind {m : BigP α} {f : α → BigP β} [h : TrC E m] (h' : ∀ a, IsWr E a → Tr E (f a)) : Tr E (m >>= f) := fun p hp =>
  (h.out p hp).bind fun r hr => h' r.1 ⟨hr.out.1⟩ r.2 ⟨hr.out.2⟩

theorem TrC.bindU {m : BigP Unit} {f : Unit → BigP β} [TrC E m] (h' : Tr E (f ())) : Tr E (m >>= f) := TrC.bind fun _ _ => h'

theorem Tr.ofRes {γ : Type} {r : Res γ} {f : γ → BigP β} (h : ∀ a, r = .ok a → Tr E (f a)) : Tr E (BigP.ofRes r >>= f) := by
  intro p hp
  cases r with
  | panic => trivial
  | ok a => exact h a rfl p hp

theorem Tr.pure {a : α} [h : IsWr E a] : Tr E (Pure.pure a) := fun _ hp => ⟨h.out, hp.out⟩

theorem Tr.ite {c : Prop} [Decidable c] {m m' : BigP α} (h : Tr E m) (h' : Tr E m') : Tr E (if c then m else m') := by
  split
  · exact h
  · exact h'

theorem Tr.withPool {q : Option (List Cell)} {m : BigP α} [hq : IsWr E q] (h : Tr E m) : Tr E (BigP.withPool q m) :=
  fun _ hp => (h q hq).bind fun _ hr => ⟨hr.out.1, hp.out⟩

theorem Tr.ofRes_value {r : Res α} (h : ∀ a, r = .ok a → IsWr E a) : Tr E (BigP.ofRes r) := by
  intro p hp
  cases r with
  | panic => trivial
  | ok a => exact ⟨(h a rfl).out, hp.out⟩

theorem Tr.panic : Tr E (BigP.panic : BigP α) := fun _ _ => trivial

instance : TrC E BigP.new := ⟨fun _ hp _ hc => ⟨Or.inl hc, hp.out⟩⟩

instance : TrC E BigP.get := ⟨fun p hp => by
  cases p with
  | none => exact fun _ hc => ⟨Or.inl hc, hp.out⟩
  | some bns =>
    unfold BigP.get
    dsimp only
    cases h : bns.getLast? with
    | none => exact fun _ hc => ⟨Or.inl hc, hp.out⟩
    | some bn =>
      have hp := hp.out bns rfl
      exact ⟨hp bn (List.mem_of_getLast? h), fun l hl => Option.some.inj hl ▸ fun c hc => hp c (List.dropLast_subset _ hc)⟩⟩

instance {c : Cell} [h : IsWr E c] : TrC E (BigP.put c) := ⟨fun p hp => by
  cases p with
  | none => exact ⟨trivial, hp.out⟩
  | some bns =>
    have hp := hp.out bns rfl
    refine ⟨trivial, fun l hl => Option.some.inj hl ▸ fun d hd => ?_⟩
    rcases List.mem_append.1 hd with hd | hd
    · exact hp d hd
    · rw [List.mem_singleton.1 hd]
      exact h.out⟩

instance {c : Cell} [h : IsRd E c] : TrC E (BigP.read c) := ⟨fun _ hp => ⟨h.out, fun _ => ⟨trivial, hp.out⟩⟩⟩

instance {c : Cell} {v : Int} [h : IsWr E c] : TrC E (BigP.write c v) := ⟨fun _ hp => ⟨h.out, trivial, hp.out⟩⟩

instance {q : Option (List Cell)} {m : BigP α} [hq : IsWr E q] [h : TrC E m] : TrC E (BigP.withPool q m) :=
  ⟨fun _ hp => (h.out q hq).bind fun _ hr => ⟨hr.out.1, hp.out⟩⟩

end

/-- Follow the statements of a computation. -/
macro "tr" : tactic => `(tactic| repeat (first
  | with_reducible apply TrC.bindU
  | (with_reducible apply TrC.bind; intro _ _)
  | with_reducible exact TrC.out
  | with_reducible exact Tr.pure
  | with_reducible apply Tr.ite
  | with_reducible apply Tr.withPool
  | with_reducible exact Tr.panic
  | with_reducible exact Tr.ofRes_value (fun _ _ => inferInstance)))

section

variable {E : Share}

instance {d a b : Cell} [IsWr E d] [IsRd E a] [IsRd E b] : TrC E (BigP.add d a b) := ⟨by unfold BigP.add; tr⟩
instance {d a b : Cell} [IsWr E d] [IsRd E a] [IsRd E b] : TrC E (BigP.sub d a b) := ⟨by unfold BigP.sub; tr⟩
instance {d a b : Cell} [IsWr E d] [IsRd E a] [IsRd E b] : TrC E (BigP.mul d a b) := ⟨by unfold BigP.mul; tr⟩
instance {d a : Cell} [IsWr E d] [IsRd E a] : TrC E (BigP.mod d a) := ⟨by unfold BigP.mod; tr⟩
instance {d a : Cell} [IsWr E d] [IsRd E a] : TrC E (BigP.neg d a) := ⟨by unfold BigP.neg; tr⟩
instance {d a : Cell} [IsWr E d] [IsRd E a] : TrC E (BigP.set d a) := ⟨by unfold BigP.set; tr⟩
instance {d : Cell} {n : Int} [IsWr E d] : TrC E (BigP.setInt d n) := ⟨by unfold BigP.setInt; tr⟩
instance {d a : Cell} [IsWr E d] [IsRd E a] : TrC E (BigP.lsh1 d a) := ⟨by unfold BigP.lsh1; tr⟩
instance {d a : Cell} [IsWr E d] [IsRd E a] : TrC E (BigP.lsh3 d a) := ⟨by unfold BigP.lsh3; tr⟩
instance {d a : Cell} [IsWr E d] [IsRd E a] : TrC E (BigP.modInv d a) := ⟨by
  unfold BigP.modInv
  apply TrC.bind
  intro v _
  cases modInverse v bnP <;> tr⟩
instance {e : Cell} [IsWr E e] : TrC E (BigP.reduce e) := ⟨by unfold BigP.reduce; tr⟩

namespace Inter

open BigP

instance Gf2.new_tr : TrC E (Inter.Gf2.new) := ⟨by
  unfold Inter.Gf2.new
  tr⟩

instance Gf2.put_tr {e : Gf2} [IsWr E e] : TrC E (Inter.Gf2.put e) := ⟨by
  unfold Inter.Gf2.put
  tr⟩

instance Gf2.set_tr {e a : Gf2} [IsWr E e] [IsRd E a] : TrC E (Inter.Gf2.set e a) := ⟨by
  unfold Inter.Gf2.set
  tr⟩

instance Gf2.setZero_tr {e : Gf2} [IsWr E e] : TrC E (Inter.Gf2.setZero e) := ⟨by
  unfold Inter.Gf2.setZero
  tr⟩

instance Gf2.setOne_tr {e : Gf2} [IsWr E e] : TrC E (Inter.Gf2.setOne e) := ⟨by
  unfold Inter.Gf2.setOne
  tr⟩

instance Gf2.minimal_tr {e : Gf2} [IsWr E e] : TrC E (Inter.Gf2.minimal e) := ⟨by
  unfold Inter.Gf2.minimal
  tr⟩

instance Gf2.isZero_tr {e : Gf2} [IsRd E e] : TrC E (Inter.Gf2.isZero e) := ⟨by
  unfold Inter.Gf2.isZero
  tr⟩

instance Gf2.isOne_tr {e : Gf2} [IsRd E e] : TrC E (Inter.Gf2.isOne e) := ⟨by
  unfold Inter.Gf2.isOne
  tr⟩

instance Gf2.conj_tr {e a : Gf2} [IsWr E e] [IsRd E a] : TrC E (Inter.Gf2.conj e a) := ⟨by
  unfold Inter.Gf2.conj
  tr⟩

instance Gf2.neg_tr {e a : Gf2} [IsWr E e] [IsRd E a] : TrC E (Inter.Gf2.neg e a) := ⟨by
  unfold Inter.Gf2.neg
  tr⟩

instance Gf2.add_tr {e a b : Gf2} [IsWr E e] [IsRd E a] [IsRd E b] : TrC E (Inter.Gf2.add e a b) := ⟨by
  unfold Inter.Gf2.add
  tr⟩

instance Gf2.sub_tr {e a b : Gf2} [IsWr E e] [IsRd E a] [IsRd E b] : TrC E (Inter.Gf2.sub e a b) := ⟨by
  unfold Inter.Gf2.sub
  tr⟩

instance Gf2.double_tr {e a : Gf2} [IsWr E e] [IsRd E a] : TrC E (Inter.Gf2.double e a) := ⟨by
  unfold Inter.Gf2.double
  tr⟩

instance Gf2.mul_tr {e a b : Gf2} [IsWr E e] [IsRd E a] [IsRd E b] : TrC E (Inter.Gf2.mul e a b) := ⟨by
  unfold Inter.Gf2.mul
  tr⟩

instance Gf2.mulScalar_tr {e a : Gf2} {b : Cell} [IsWr E e] [IsRd E a] [IsRd E b] : TrC E (Inter.Gf2.mulScalar e a b) := ⟨by
  unfold Inter.Gf2.mulScalar
  tr⟩

instance Gf2.mulXi_tr {e a : Gf2} [IsWr E e] [IsRd E a] : TrC E (Inter.Gf2.mulXi e a) := ⟨by
  unfold Inter.Gf2.mulXi
  tr⟩

instance Gf2.square_tr {e a : Gf2} [IsWr E e] [IsRd E a] : TrC E (Inter.Gf2.square e a) := ⟨by
  unfold Inter.Gf2.square
  tr⟩

instance Gf2.invert_tr {e a : Gf2} [IsWr E e] [IsRd E a] : TrC E (Inter.Gf2.invert e a) := ⟨by
  unfold Inter.Gf2.invert
  tr⟩

theorem Gf2.expLoop_tr {sum t a : Gf2} {power : Int} [IsWr E sum] [IsWr E t] [IsRd E a] : ∀ n, Tr E (Inter.Gf2.expLoop sum t a power n)
  | 0 => by unfold Inter.Gf2.expLoop; tr
  | n + 1 => by
    have : TrC E (Inter.Gf2.expLoop sum t a power n) := ⟨Gf2.expLoop_tr n⟩
    unfold Inter.Gf2.expLoop
    tr

instance {sum t a : Gf2} {power : Int} {n : Nat} [IsWr E sum] [IsWr E t] [IsRd E a] : TrC E (Inter.Gf2.expLoop sum t a power n) := ⟨Gf2.expLoop_tr n⟩

instance Gf2.exp_tr {c a : Gf2} {power : Int} [IsWr E c] [IsRd E a] : TrC E (Inter.Gf2.exp c a power) := ⟨by
  unfold Inter.Gf2.exp
  tr⟩

instance Gf6.new_tr : TrC E (Inter.Gf6.new) := ⟨by
  unfold Inter.Gf6.new
  tr⟩

instance Gf6.put_tr {e : Gf6} [IsWr E e] : TrC E (Inter.Gf6.put e) := ⟨by
  unfold Inter.Gf6.put
  tr⟩

instance Gf6.set_tr {e a : Gf6} [IsWr E e] [IsRd E a] : TrC E (Inter.Gf6.set e a) := ⟨by
  unfold Inter.Gf6.set
  tr⟩

instance Gf6.setZero_tr {e : Gf6} [IsWr E e] : TrC E (Inter.Gf6.setZero e) := ⟨by
  unfold Inter.Gf6.setZero
  tr⟩

instance Gf6.setOne_tr {e : Gf6} [IsWr E e] : TrC E (Inter.Gf6.setOne e) := ⟨by
  unfold Inter.Gf6.setOne
  tr⟩

instance Gf6.minimal_tr {e : Gf6} [IsWr E e] : TrC E (Inter.Gf6.minimal e) := ⟨by
  unfold Inter.Gf6.minimal
  tr⟩

instance Gf6.isZero_tr {e : Gf6} [IsRd E e] : TrC E (Inter.Gf6.isZero e) := ⟨by
  unfold Inter.Gf6.isZero
  tr⟩

instance Gf6.isOne_tr {e : Gf6} [IsRd E e] : TrC E (Inter.Gf6.isOne e) := ⟨by
  unfold Inter.Gf6.isOne
  tr⟩

instance Gf6.neg_tr {e a : Gf6} [IsWr E e] [IsRd E a] : TrC E (Inter.Gf6.neg e a) := ⟨by
  unfold Inter.Gf6.neg
  tr⟩

instance Gf6.frobenius_tr {e a : Gf6} {g : BnGlobals} [IsWr E e] [IsRd E a] [IsRd E g] :
    TrC E (Inter.Gf6.frobenius e a g) := ⟨by
  unfold Inter.Gf6.frobenius
  tr⟩

instance Gf6.frobeniusP2_tr {e a : Gf6} {g : BnGlobals} [IsWr E e] [IsRd E a] [IsRd E g] :
    TrC E (Inter.Gf6.frobeniusP2 e a g) := ⟨by
  unfold Inter.Gf6.frobeniusP2
  tr⟩

instance Gf6.add_tr {e a b : Gf6} [IsWr E e] [IsRd E a] [IsRd E b] : TrC E (Inter.Gf6.add e a b) := ⟨by
  unfold Inter.Gf6.add
  tr⟩

instance Gf6.sub_tr {e a b : Gf6} [IsWr E e] [IsRd E a] [IsRd E b] : TrC E (Inter.Gf6.sub e a b) := ⟨by
  unfold Inter.Gf6.sub
  tr⟩

instance Gf6.double_tr {e a : Gf6} [IsWr E e] [IsRd E a] : TrC E (Inter.Gf6.double e a) := ⟨by
  unfold Inter.Gf6.double
  tr⟩

instance Gf6.mul_tr {e a b : Gf6} [IsWr E e] [IsRd E a] [IsRd E b] : TrC E (Inter.Gf6.mul e a b) := ⟨by
  unfold Inter.Gf6.mul
  tr⟩

instance Gf6.mulScalar_tr {e a : Gf6} {b : Gf2} [IsWr E e] [IsRd E a] [IsRd E b] : TrC E (Inter.Gf6.mulScalar e a b) := ⟨by
  unfold Inter.Gf6.mulScalar
  tr⟩

instance Gf6.mulGFP_tr {e a : Gf6} {b : Cell} [IsWr E e] [IsRd E a] [IsRd E b] : TrC E (Inter.Gf6.mulGFP e a b) := ⟨by
  unfold Inter.Gf6.mulGFP
  tr⟩

instance Gf6.mulTau_tr {e a : Gf6} [IsWr E e] [IsRd E a] : TrC E (Inter.Gf6.mulTau e a) := ⟨by
  unfold Inter.Gf6.mulTau
  tr⟩

instance Gf6.square_tr {e a : Gf6} [IsWr E e] [IsRd E a] : TrC E (Inter.Gf6.square e a) := ⟨by
  unfold Inter.Gf6.square
  tr⟩

instance Gf6.invert_tr {e a : Gf6} [IsWr E e] [IsRd E a] : TrC E (Inter.Gf6.invert e a) := ⟨by
  unfold Inter.Gf6.invert
  tr⟩

instance Gf12.new_tr : TrC E (Inter.Gf12.new) := ⟨by
  unfold Inter.Gf12.new
  tr⟩

instance Gf12.put_tr {e : Gf12} [IsWr E e] : TrC E (Inter.Gf12.put e) := ⟨by
  unfold Inter.Gf12.put
  tr⟩

instance Gf12.set_tr {e a : Gf12} [IsWr E e] [IsRd E a] : TrC E (Inter.Gf12.set e a) := ⟨by
  unfold Inter.Gf12.set
  tr⟩

instance Gf12.setZero_tr {e : Gf12} [IsWr E e] : TrC E (Inter.Gf12.setZero e) := ⟨by
  unfold Inter.Gf12.setZero
  tr⟩

instance Gf12.setOne_tr {e : Gf12} [IsWr E e] : TrC E (Inter.Gf12.setOne e) := ⟨by
  unfold Inter.Gf12.setOne
  tr⟩

instance Gf12.minimal_tr {e : Gf12} [IsWr E e] : TrC E (Inter.Gf12.minimal e) := ⟨by
  unfold Inter.Gf12.minimal
  tr⟩

instance Gf12.isZero_tr {e : Gf12} [IsWr E e] : TrC E (Inter.Gf12.isZero e) := ⟨by
  unfold Inter.Gf12.isZero
  tr⟩

instance Gf12.isOne_tr {e : Gf12} [IsWr E e] : TrC E (Inter.Gf12.isOne e) := ⟨by
  unfold Inter.Gf12.isOne
  tr⟩

instance Gf12.conj_tr {e a : Gf12} [IsWr E e] [IsRd E a] : TrC E (Inter.Gf12.conj e a) := ⟨by
  unfold Inter.Gf12.conj
  tr⟩

instance Gf12.neg_tr {e a : Gf12} [IsWr E e] [IsRd E a] : TrC E (Inter.Gf12.neg e a) := ⟨by
  unfold Inter.Gf12.neg
  tr⟩

instance Gf12.frobenius_tr {e a : Gf12} {g : BnGlobals} [IsWr E e] [IsRd E a] [IsRd E g] :
    TrC E (Inter.Gf12.frobenius e a g) := ⟨by
  unfold Inter.Gf12.frobenius
  tr⟩

instance Gf12.frobeniusP2_tr {e a : Gf12} {g : BnGlobals} [IsWr E e] [IsRd E a] [IsRd E g] :
    TrC E (Inter.Gf12.frobeniusP2 e a g) := ⟨by
  unfold Inter.Gf12.frobeniusP2
  tr⟩

instance Gf12.add_tr {e a b : Gf12} [IsWr E e] [IsRd E a] [IsRd E b] : TrC E (Inter.Gf12.add e a b) := ⟨by
  unfold Inter.Gf12.add
  tr⟩

instance Gf12.sub_tr {e a b : Gf12} [IsWr E e] [IsRd E a] [IsRd E b] : TrC E (Inter.Gf12.sub e a b) := ⟨by
  unfold Inter.Gf12.sub
  tr⟩

instance Gf12.mul_tr {e a b : Gf12} [IsWr E e] [IsRd E a] [IsRd E b] : TrC E (Inter.Gf12.mul e a b) := ⟨by
  unfold Inter.Gf12.mul
  tr⟩

instance Gf12.mulScalar_tr {e a : Gf12} {b : Gf6} [IsWr E e] [IsRd E a] [IsRd E b] : TrC E (Inter.Gf12.mulScalar e a b) := ⟨by
  unfold Inter.Gf12.mulScalar
  tr⟩

instance Gf12.square_tr {e a : Gf12} [IsWr E e] [IsRd E a] : TrC E (Inter.Gf12.square e a) := ⟨by
  unfold Inter.Gf12.square
  tr⟩

theorem Gf12.expLoop_tr {sum t a : Gf12} {power : Int} [IsWr E sum] [IsWr E t] [IsRd E a] : ∀ n, Tr E (Inter.Gf12.expLoop sum t a power n)
  | 0 => by unfold Inter.Gf12.expLoop; tr
  | n + 1 => by
    have : TrC E (Inter.Gf12.expLoop sum t a power n) := ⟨Gf12.expLoop_tr n⟩
    unfold Inter.Gf12.expLoop
    tr

instance {sum t a : Gf12} {power : Int} {n : Nat} [IsWr E sum] [IsWr E t] [IsRd E a] : TrC E (Inter.Gf12.expLoop sum t a power n) := ⟨Gf12.expLoop_tr n⟩

instance Gf12.exp_tr {c a : Gf12} {power : Int} [IsWr E c] [IsRd E a] : TrC E (Inter.Gf12.exp c a power) := ⟨by
  unfold Inter.Gf12.exp
  tr⟩

instance Gf12.invert_tr {e a : Gf12} [IsWr E e] [IsRd E a] : TrC E (Inter.Gf12.invert e a) := ⟨by
  unfold Inter.Gf12.invert
  tr⟩

instance CurveP.new_tr : TrC E (Inter.CurveP.new) := ⟨by
  unfold Inter.CurveP.new
  tr⟩

instance CurveP.put_tr {c : CurveP} [IsWr E c] : TrC E (Inter.CurveP.put c) := ⟨by
  unfold Inter.CurveP.put
  tr⟩

instance CurveP.set_tr {c a : CurveP} [IsWr E c] [IsRd E a] : TrC E (Inter.CurveP.set c a) := ⟨by
  unfold Inter.CurveP.set
  tr⟩

instance CurveP.isOnCurve_tr {c : CurveP} [IsRd E c] : TrC E (Inter.CurveP.isOnCurve c) := ⟨by
  unfold Inter.CurveP.isOnCurve
  tr⟩

instance CurveP.setInfinity_tr {c : CurveP} [IsWr E c] : TrC E (Inter.CurveP.setInfinity c) := ⟨by
  unfold Inter.CurveP.setInfinity
  tr⟩

instance CurveP.isInfinity_tr {c : CurveP} [IsRd E c] : TrC E (Inter.CurveP.isInfinity c) := ⟨by
  unfold Inter.CurveP.isInfinity
  tr⟩

instance CurveP.double_tr {c a : CurveP} [IsWr E c] [IsRd E a] : TrC E (Inter.CurveP.double c a) := ⟨by
  unfold Inter.CurveP.double
  tr⟩

instance CurveP.addTail_tr {c a b : CurveP} {z1z1 z2z2 u1 u2 t s1 s2 h i j : Cell} [IsWr E c] [IsRd E a] [IsRd E b] [IsWr E z1z1] [IsWr E z2z2] [IsWr E u1] [IsWr E u2] [IsWr E t] [IsWr E s1] [IsWr E s2] [IsWr E h] [IsWr E i] [IsWr E j] :
    TrC E (Inter.CurveP.addTail c a b z1z1 z2z2 u1 u2 t s1 s2 h i j) := ⟨by
  unfold Inter.CurveP.addTail
  tr⟩

instance CurveP.addGeneral_tr {c a b : CurveP} [IsWr E c] [IsRd E a] [IsRd E b] : TrC E (Inter.CurveP.addGeneral c a b) := ⟨by
  unfold Inter.CurveP.addGeneral
  tr⟩

instance CurveP.add_tr {c a b : CurveP} [IsWr E c] [IsRd E a] [IsRd E b] : TrC E (Inter.CurveP.add c a b) := ⟨by
  unfold Inter.CurveP.add
  tr⟩

theorem CurveP.mulLoop_tr {sum t a : CurveP} {k : Int} [IsWr E sum] [IsWr E t] [IsRd E a] : ∀ n, Tr E (Inter.CurveP.mulLoop sum t a k n)
  | 0 => by unfold Inter.CurveP.mulLoop; tr
  | n + 1 => by
    have : TrC E (Inter.CurveP.mulLoop sum t a k n) := ⟨CurveP.mulLoop_tr n⟩
    unfold Inter.CurveP.mulLoop
    tr

instance {sum t a : CurveP} {k : Int} {n : Nat} [IsWr E sum] [IsWr E t] [IsRd E a] : TrC E (Inter.CurveP.mulLoop sum t a k n) := ⟨CurveP.mulLoop_tr n⟩

instance CurveP.mul_tr {c a : CurveP} {k : Int} [IsWr E c] [IsRd E a] : TrC E (Inter.CurveP.mul c a k) := ⟨by
  unfold Inter.CurveP.mul
  tr⟩

instance CurveP.makeAffineTail_tr {c : CurveP} [IsWr E c] : TrC E (Inter.CurveP.makeAffineTail c) := ⟨by
  unfold Inter.CurveP.makeAffineTail
  tr⟩

instance CurveP.makeAffine_tr {c : CurveP} [IsWr E c] : TrC E (Inter.CurveP.makeAffine c) := ⟨by
  unfold Inter.CurveP.makeAffine
  tr⟩

instance CurveP.neg_tr {c a : CurveP} [IsWr E c] [IsRd E a] : TrC E (Inter.CurveP.neg c a) := ⟨by
  unfold Inter.CurveP.neg
  tr⟩

instance TwistP.new_tr : TrC E (Inter.TwistP.new) := ⟨by
  unfold Inter.TwistP.new
  tr⟩

instance TwistP.put_tr {c : TwistP} [IsWr E c] : TrC E (Inter.TwistP.put c) := ⟨by
  unfold Inter.TwistP.put
  tr⟩

instance TwistP.set_tr {c a : TwistP} [IsWr E c] [IsRd E a] : TrC E (Inter.TwistP.set c a) := ⟨by
  unfold Inter.TwistP.set
  tr⟩

instance TwistP.isOnCurve_tr {c : TwistP} {twistB : Gf2} [IsRd E c] [IsRd E twistB] :
    TrC E (Inter.TwistP.isOnCurve c twistB) := ⟨by
  unfold Inter.TwistP.isOnCurve
  tr⟩

instance TwistP.setInfinity_tr {c : TwistP} [IsWr E c] : TrC E (Inter.TwistP.setInfinity c) := ⟨by
  unfold Inter.TwistP.setInfinity
  tr⟩

instance TwistP.isInfinity_tr {c : TwistP} [IsRd E c] : TrC E (Inter.TwistP.isInfinity c) := ⟨by
  unfold Inter.TwistP.isInfinity
  tr⟩

instance TwistP.double_tr {c a : TwistP} [IsWr E c] [IsRd E a] : TrC E (Inter.TwistP.double c a) := ⟨by
  unfold Inter.TwistP.double
  tr⟩

instance TwistP.addTail_tr {c a b : TwistP} {z1z1 z2z2 u1 u2 t s1 s2 h i j : Gf2} [IsWr E c] [IsRd E a] [IsRd E b] [IsWr E z1z1] [IsWr E z2z2] [IsWr E u1] [IsWr E u2] [IsWr E t] [IsWr E s1] [IsWr E s2] [IsWr E h] [IsWr E i] [IsWr E j] :
    TrC E (Inter.TwistP.addTail c a b z1z1 z2z2 u1 u2 t s1 s2 h i j) := ⟨by
  unfold Inter.TwistP.addTail
  tr⟩

instance TwistP.addGeneral_tr {c a b : TwistP} [IsWr E c] [IsRd E a] [IsRd E b] : TrC E (Inter.TwistP.addGeneral c a b) := ⟨by
  unfold Inter.TwistP.addGeneral
  tr⟩

instance TwistP.add_tr {c a b : TwistP} [IsWr E c] [IsRd E a] [IsRd E b] : TrC E (Inter.TwistP.add c a b) := ⟨by
  unfold Inter.TwistP.add
  tr⟩

theorem TwistP.mulLoop_tr {sum t a : TwistP} {k : Int} [IsWr E sum] [IsWr E t] [IsRd E a] : ∀ n, Tr E (Inter.TwistP.mulLoop sum t a k n)
  | 0 => by unfold Inter.TwistP.mulLoop; tr
  | n + 1 => by
    have : TrC E (Inter.TwistP.mulLoop sum t a k n) := ⟨TwistP.mulLoop_tr n⟩
    unfold Inter.TwistP.mulLoop
    tr

instance {sum t a : TwistP} {k : Int} {n : Nat} [IsWr E sum] [IsWr E t] [IsRd E a] : TrC E (Inter.TwistP.mulLoop sum t a k n) := ⟨TwistP.mulLoop_tr n⟩

instance TwistP.mul_tr {c a : TwistP} {k : Int} [IsWr E c] [IsRd E a] : TrC E (Inter.TwistP.mul c a k) := ⟨by
  unfold Inter.TwistP.mul
  tr⟩

instance TwistP.makeAffineTail_tr {c : TwistP} [IsWr E c] : TrC E (Inter.TwistP.makeAffineTail c) := ⟨by
  unfold Inter.TwistP.makeAffineTail
  tr⟩

instance TwistP.makeAffine_tr {c : TwistP} [IsWr E c] : TrC E (Inter.TwistP.makeAffine c) := ⟨by
  unfold Inter.TwistP.makeAffine
  tr⟩

instance TwistP.neg_tr {c a : TwistP} [IsWr E c] [IsRd E a] : TrC E (Inter.TwistP.neg c a) := ⟨by
  unfold Inter.TwistP.neg
  tr⟩

instance lineAddH_tr {r p : TwistP} {q : CurveP} {r2 : Gf2} [IsRd E r] [IsRd E p] [IsRd E q] [IsRd E r2] :
    TrC E (Inter.lineAddH r p q r2) := ⟨by
  unfold Inter.lineAddH
  tr⟩

instance lineDoubleH_tr {r : TwistP} {q : CurveP} [IsRd E r] [IsRd E q] : TrC E (Inter.lineDoubleH r q) := ⟨by
  unfold Inter.lineDoubleH
  tr⟩

instance mulLineH_tr {ret : Gf12} {a b c : Gf2} [IsWr E ret] [IsRd E a] [IsRd E b] [IsRd E c] :
    TrC E (Inter.mulLineH ret a b c) := ⟨by
  unfold Inter.mulLineH
  tr⟩

instance lineUse_tr {ret : Gf12} {r : TwistP} {l : Gf2 × Gf2 × Gf2 × TwistP} [IsWr E ret] [IsWr E r] [IsWr E l] :
    TrC E (Inter.lineUse ret r l) := ⟨by
  unfold Inter.lineUse
  tr⟩

instance millerStepH_tr {ret : Gf12} {aAffine minusA : TwistP} {bAffine : CurveP} {r2 : Gf2} {first : Bool} {digit : Int} {r : TwistP} [IsWr E ret] [IsRd E aAffine] [IsRd E minusA] [IsRd E bAffine] [IsRd E r2] [IsWr E r] :
    TrC E (Inter.millerStepH ret aAffine minusA bAffine r2 first digit r) := ⟨by
  unfold Inter.millerStepH
  tr⟩

theorem millerLoopH_tr {ret : Gf12} {aAffine minusA : TwistP} {bAffine : CurveP} {r2 : Gf2} [IsWr E ret] [IsRd E aAffine] [IsRd E minusA] [IsRd E bAffine] [IsRd E r2] : ∀ first ds r, IsWr E r → Tr E (Inter.millerLoopH ret aAffine minusA bAffine r2 first ds r)
  | _, [], r, _ => by unfold Inter.millerLoopH; tr
  | first, d :: ds, r, _ => by
    unfold Inter.millerLoopH
    with_reducible apply TrC.bind
    intro r' _
    exact millerLoopH_tr false ds r' inferInstance

instance {ret : Gf12} {aAffine minusA : TwistP} {bAffine : CurveP} {r2 : Gf2} {first : Bool} {ds : List Int} {r : TwistP} [IsWr E ret] [IsRd E aAffine] [IsRd E minusA] [IsRd E bAffine] [IsRd E r2] [h : IsWr E r] : TrC E (Inter.millerLoopH ret aAffine minusA bAffine r2 first ds r) :=
  ⟨millerLoopH_tr first ds r h⟩

instance millerTail_tr {g : BnGlobals} {ret : Gf12} {aAffine minusA : TwistP} {bAffine : CurveP} {r2 : Gf2} {r : TwistP} [IsRd E g] [IsWr E ret] [IsWr E aAffine] [IsWr E minusA] [IsWr E bAffine] [IsWr E r2] [IsWr E r] :
    TrC E (Inter.millerTail g ret aAffine minusA bAffine r2 r) := ⟨by
  unfold Inter.millerTail
  tr⟩

instance millerH_tr {g : BnGlobals} {q : TwistP} {p : CurveP} [IsRd E g] [IsRd E q] [IsRd E p] :
    TrC E (Inter.millerH g q p) := ⟨by
  unfold Inter.millerH
  tr⟩

instance finalExponentiationH_tr {g : BnGlobals} {inp : Gf12} [IsRd E g] [IsRd E inp] :
    TrC E (Inter.finalExponentiationH g inp) := ⟨by
  unfold Inter.finalExponentiationH
  tr⟩

instance optimalAteH_tr {g : BnGlobals} {a : TwistP} {b : CurveP} [IsRd E g] [IsRd E a] [IsRd E b] :
    TrC E (Inter.optimalAteH g a b) := ⟨by
  unfold Inter.optimalAteH
  tr⟩

instance pairH_tr {g : BnGlobals} {g1 : CurveP} {g2 : TwistP} [IsRd E g] [IsRd E g1] [IsRd E g2] :
    TrC E (Inter.pairH g g1 g2) := ⟨by
  unfold Inter.pairH
  tr⟩

theorem pairingCheckLoopH_tr {g : BnGlobals} {acc : Gf12} [IsRd E g] [IsWr E acc] : ∀ (a : List CurveP) (b : List TwistP), IsRd E a → IsRd E b →
    Tr E (Inter.pairingCheckLoopH g acc a b)
  | [], _, _, _ => by unfold Inter.pairingCheckLoopH; tr
  | p :: a, [], ha, hb => by
    have : IsRd E p := ⟨ha.out p List.mem_cons_self⟩
    have ha' : IsRd E a := ⟨fun q hq => ha.out q (List.mem_cons_of_mem _ hq)⟩
    have : TrC E (Inter.pairingCheckLoopH g acc a []) := ⟨pairingCheckLoopH_tr a [] ha' hb⟩
    unfold Inter.pairingCheckLoopH
    tr
  | p :: a, q :: b, ha, hb => by
    have : IsRd E p := ⟨ha.out p List.mem_cons_self⟩
    have : IsRd E q := ⟨hb.out q List.mem_cons_self⟩
    have ha' : IsRd E a := ⟨fun q hq => ha.out q (List.mem_cons_of_mem _ hq)⟩
    have hb' : IsRd E b := ⟨fun q hq => hb.out q (List.mem_cons_of_mem _ hq)⟩
    have : TrC E (Inter.pairingCheckLoopH g acc a b) := ⟨pairingCheckLoopH_tr a b ha' hb'⟩
    unfold Inter.pairingCheckLoopH
    tr

instance {g : BnGlobals} {acc : Gf12} {a : List CurveP} {b : List TwistP} [IsRd E g] [IsWr E acc] [h : IsRd E a] [h' : IsRd E b] : TrC E (Inter.pairingCheckLoopH g acc a b) :=
  ⟨pairingCheckLoopH_tr a b h h'⟩

instance pairingCheckH_tr {g : BnGlobals} {a : List CurveP} {b : List TwistP} [IsRd E g] [IsRd E a] [IsRd E b] :
    TrC E (Inter.pairingCheckH g a b) := ⟨by
  unfold Inter.pairingCheckH
  tr⟩

instance modNew_tr {c : Cell} [IsRd E c] : TrC E (Inter.modNew c) := ⟨by
  unfold Inter.modNew
  tr⟩

instance setBytesH_tr {c : Cell} {bs : List UInt8} [IsWr E c] : TrC E (Inter.setBytesH c bs) := ⟨by
  unfold Inter.setBytesH
  tr⟩

instance {e : Option CurveP} [h : IsWr E e] : TrC E (Inter.G1H.fill e) := ⟨by
  cases e with
  | none => unfold Inter.G1H.fill; tr
  | some p =>
    have : IsWr E p := ⟨h.out p rfl⟩
    unfold Inter.G1H.fill
    tr⟩

instance G1H.setInfinity_tr : TrC E (Inter.G1H.setInfinity) := ⟨by
  unfold Inter.G1H.setInfinity
  tr⟩

instance G1H.scalarMult_tr {e : Option CurveP} {a : CurveP} {k : Int} [IsWr E e] [IsRd E a] :
    TrC E (Inter.G1H.scalarMult e a k) := ⟨by
  unfold Inter.G1H.scalarMult
  tr⟩

instance G1H.scalarBaseMult_tr {gen : CurveP} {e : Option CurveP} {k : Int} [IsRd E gen] [IsWr E e] :
    TrC E (Inter.G1H.scalarBaseMult gen e k) := ⟨by
  unfold Inter.G1H.scalarBaseMult
  tr⟩

instance G1H.add_tr {e : Option CurveP} {a b : CurveP} [IsWr E e] [IsRd E a] [IsRd E b] : TrC E (Inter.G1H.add e a b) := ⟨by
  unfold Inter.G1H.add
  tr⟩

instance G1H.neg_tr {e : Option CurveP} {a : CurveP} [IsWr E e] [IsRd E a] : TrC E (Inter.G1H.neg e a) := ⟨by
  unfold Inter.G1H.neg
  tr⟩

instance G1H.setZero_tr {e : CurveP} [IsWr E e] : TrC E (Inter.G1H.setZero e) := ⟨by
  unfold Inter.G1H.setZero
  tr⟩

instance G1H.isZero_tr {e : CurveP} [IsRd E e] : TrC E (Inter.G1H.isZero e) := ⟨by
  unfold Inter.G1H.isZero
  tr⟩

instance G1H.marshal_tr {n : CurveP} [IsWr E n] : TrC E (Inter.G1H.marshal n) := ⟨by
  unfold Inter.G1H.marshal
  tr⟩

instance G1H.unmarshalTail_tr {p : CurveP} [IsWr E p] : TrC E (Inter.G1H.unmarshalTail p) := ⟨by
  unfold Inter.G1H.unmarshalTail
  tr⟩

instance G1H.unmarshal_tr {e : Option CurveP} {m : List UInt8} [IsWr E e] : TrC E (Inter.G1H.unmarshal e m) := ⟨by
  unfold Inter.G1H.unmarshal
  tr⟩

instance {e : Option TwistP} [h : IsWr E e] : TrC E (Inter.G2H.fill e) := ⟨by
  cases e with
  | none => unfold Inter.G2H.fill; tr
  | some p =>
    have : IsWr E p := ⟨h.out p rfl⟩
    unfold Inter.G2H.fill
    tr⟩

instance G2H.setInfinity_tr : TrC E (Inter.G2H.setInfinity) := ⟨by
  unfold Inter.G2H.setInfinity
  tr⟩

instance G2H.scalarMult_tr {e : Option TwistP} {a : TwistP} {k : Int} [IsWr E e] [IsRd E a] :
    TrC E (Inter.G2H.scalarMult e a k) := ⟨by
  unfold Inter.G2H.scalarMult
  tr⟩

instance G2H.scalarBaseMult_tr {gen : TwistP} {e : Option TwistP} {k : Int} [IsRd E gen] [IsWr E e] :
    TrC E (Inter.G2H.scalarBaseMult gen e k) := ⟨by
  unfold Inter.G2H.scalarBaseMult
  tr⟩

instance G2H.add_tr {e : Option TwistP} {a b : TwistP} [IsWr E e] [IsRd E a] [IsRd E b] : TrC E (Inter.G2H.add e a b) := ⟨by
  unfold Inter.G2H.add
  tr⟩

instance G2H.neg_tr {e : Option TwistP} {a : TwistP} [IsWr E e] [IsRd E a] : TrC E (Inter.G2H.neg e a) := ⟨by
  unfold Inter.G2H.neg
  tr⟩

instance G2H.isZero_tr {e : TwistP} [IsRd E e] : TrC E (Inter.G2H.isZero e) := ⟨by
  unfold Inter.G2H.isZero
  tr⟩

instance G2H.marshal_tr {n : TwistP} [IsWr E n] : TrC E (Inter.G2H.marshal n) := ⟨by
  unfold Inter.G2H.marshal
  tr⟩

instance G2H.unmarshalTail_tr {twistB : Gf2} {p : TwistP} [IsRd E twistB] [IsWr E p] :
    TrC E (Inter.G2H.unmarshalTail twistB p) := ⟨by
  unfold Inter.G2H.unmarshalTail
  tr⟩

instance G2H.unmarshal_tr {twistB : Gf2} {e : Option TwistP} {m : List UInt8} [IsRd E twistB] [IsWr E e] :
    TrC E (Inter.G2H.unmarshal twistB e m) := ⟨by
  unfold Inter.G2H.unmarshal
  tr⟩

instance {e : Option Gf12} [h : IsWr E e] : TrC E (Inter.GTH.fill e) := ⟨by
  cases e with
  | none => unfold Inter.GTH.fill; tr
  | some p =>
    have : IsWr E p := ⟨h.out p rfl⟩
    unfold Inter.GTH.fill
    tr⟩

instance GTH.scalarMult_tr {e : Option Gf12} {a : Gf12} {k : Int} [IsWr E e] [IsRd E a] :
    TrC E (Inter.GTH.scalarMult e a k) := ⟨by
  unfold Inter.GTH.scalarMult
  tr⟩

instance GTH.invert_tr {e : Option Gf12} {a : Gf12} [IsWr E e] [IsRd E a] : TrC E (Inter.GTH.invert e a) := ⟨by
  unfold Inter.GTH.invert
  tr⟩

instance GTH.exp_tr {e : Option Gf12} {a : Gf12} {k : Int} [IsRd E e] [IsWr E a] : TrC E (Inter.GTH.exp e a k) := ⟨by
  unfold Inter.GTH.exp
  tr⟩

instance GTH.add_tr {e : Option Gf12} {a b : Gf12} [IsWr E e] [IsRd E a] [IsRd E b] : TrC E (Inter.GTH.add e a b) := ⟨by
  unfold Inter.GTH.add
  tr⟩

instance GTH.neg_tr {e : Option Gf12} {a : Gf12} [IsWr E e] [IsRd E a] : TrC E (Inter.GTH.neg e a) := ⟨by
  unfold Inter.GTH.neg
  tr⟩

instance GTH.isZero_tr {e : Gf12} [IsWr E e] : TrC E (Inter.GTH.isZero e) := ⟨by
  unfold Inter.GTH.isZero
  tr⟩

instance GTH.isOne_tr {e : Gf12} [IsWr E e] : TrC E (Inter.GTH.isOne e) := ⟨by
  unfold Inter.GTH.isOne
  tr⟩

instance GTH.marshal_tr {n : Gf12} [IsWr E n] : TrC E (Inter.GTH.marshal n) := ⟨by
  unfold Inter.GTH.marshal
  tr⟩

instance GTH.unmarshal_tr {e : Option Gf12} {m : List UInt8} [IsWr E e] : TrC E (Inter.GTH.unmarshal e m) := ⟨by
  unfold Inter.GTH.unmarshal
  tr⟩

instance Gf2.string_tr {e : Gf2} [IsRd E e] : TrC E (Inter.Gf2.string e) := ⟨by
  unfold Inter.Gf2.string
  tr⟩

instance Gf6.string_tr {e : Gf6} [IsRd E e] : TrC E (Inter.Gf6.string e) := ⟨by
  unfold Inter.Gf6.string
  tr⟩

instance GTH.string_tr {e : Gf12} [IsRd E e] : TrC E (Inter.GTH.string e) := ⟨by
  unfold Inter.GTH.string
  tr⟩

instance G2H.string_tr {c : TwistP} [IsRd E c] : TrC E (Inter.G2H.string c) := ⟨by
  unfold Inter.G2H.string
  tr⟩

instance commitH_tr {g : CcsGlobals} {x r : Int} {h : TwistP} [IsRd E g] [IsRd E h] : TrC E (Inter.commitH g x r h) := ⟨by
  unfold Inter.commitH
  tr⟩

instance hashSetH_tr {sha : List UInt8 → List UInt8} {a : Gf12} {D : TwistP} [IsRd E a] [IsRd E D] :
    TrC E (Inter.hashSetH sha a D) := ⟨by
  unfold Inter.hashSetH
  tr⟩

theorem stringsH_tr : ∀ a : List Gf12, IsRd E a → Tr E (Inter.stringsH a)
  | [], _ => by unfold Inter.stringsH; tr
  | b :: a, h => by
    have : IsRd E b := ⟨h.out b List.mem_cons_self⟩
    have : TrC E (Inter.stringsH a) := ⟨stringsH_tr a ⟨fun q hq => h.out q (List.mem_cons_of_mem _ hq)⟩⟩
    unfold Inter.stringsH
    tr

instance {a : List Gf12} [h : IsRd E a] : TrC E (Inter.stringsH a) := ⟨stringsH_tr a h⟩

instance hashULH_tr {sha : List UInt8 → List UInt8} {a : List Gf12} {D : TwistP} [IsRd E a] [IsRd E D] :
    TrC E (Inter.hashULH sha a D) := ⟨by
  unfold Inter.hashULH
  tr⟩

instance {g : CcsGlobals} {k : Option Int} [IsRd E g] : TrC E (Inter.keygenH g k) := ⟨by
  cases k <;> unfold Inter.keygenH <;> tr⟩

instance bbSignH_tr {g : CcsGlobals} {m privk : Int} [IsRd E g] : TrC E (Inter.bbSignH g m privk) := ⟨by
  unfold Inter.bbSignH
  refine Tr.ofRes fun _ _ => ?_
  tr⟩

instance bbVerifyH_tr {g : CcsGlobals} {signature : TwistP} {m : Int} {pubk : CurveP} [IsRd E g] [IsRd E signature] [IsRd E pubk] : TrC E (Inter.bbVerifyH g signature m pubk) := ⟨by
  unfold Inter.bbVerifyH
  with_reducible apply TrC.bind; intro y _
  with_reducible apply TrC.bind; intro bs _
  with_reducible apply TrC.bind; intro r _
  refine Tr.ofRes fun gm e => ?_
  have : IsWr E gm := isWr_of_some e
  tr⟩

theorem signLoopH_tr {g : CcsGlobals} {privk : Option Int} [IsRd E g] : ∀ (ms : List Int) (acc : List (Int × Option TwistP)), IsWr E acc → Tr E (Inter.signLoopH g privk ms acc)
  | [], acc, _ => by unfold Inter.signLoopH; tr
  | m :: ms, acc, _ => by
    unfold Inter.signLoopH
    refine Tr.ofRes fun sk _ => ?_
    with_reducible apply TrC.bind
    intro sig _
    exact signLoopH_tr ms _ inferInstance

instance {g : CcsGlobals} {privk : Option Int} {ms : List Int} {acc : List (Int × Option TwistP)} [IsRd E g] [h : IsWr E acc] : TrC E (Inter.signLoopH g privk ms acc) :=
  ⟨signLoopH_tr ms acc h⟩

instance setupSetH_tr {g : CcsGlobals} {s : List Int} {rnd : Option Int} [IsRd E g] : TrC E (Inter.setupSetH g s rnd) := ⟨by
  unfold Inter.setupSetH
  tr⟩

instance setupULH_tr {g : CcsGlobals} {u l : Int} {rnd : Option Int} [IsRd E g] : TrC E (Inter.setupULH g u l rnd) := ⟨by
  unfold Inter.setupULH
  tr⟩

instance ccsAH_tr {g : CcsGlobals} {V : TwistP} {s t : Int} [IsRd E g] [IsRd E V] : TrC E (Inter.ccsAH g V s t) := ⟨by
  unfold Inter.ccsAH
  tr⟩

instance proveSetH_tr {g : CcsGlobals} {sha : List UInt8 → List UInt8} {x r : Int} {p : ParamsSetH} {m v s t : Int} [IsRd E g] [IsRd E p] : TrC E (Inter.proveSetH g sha x r p m v s t) := ⟨by
  unfold Inter.proveSetH
  with_reducible apply TrC.bind; intro D0 _
  cases hA : p.signatures.lookup x with
  | none => tr
  | some A =>
    have : IsRd E A := isRd_of_lookup hA
    dsimp only
    with_reducible apply TrC.bind; intro D _
    with_reducible apply TrC.bind; intro aux _
    with_reducible apply TrC.bind; intro _ _
    refine Tr.ofRes fun A' e => ?_
    have : IsRd E A' := isRd_of_some e
    with_reducible apply TrC.bind; intro V _
    with_reducible apply TrC.bind; intro a _
    with_reducible apply TrC.bind; intro _ _
    with_reducible apply TrC.bind; intro C _
    with_reducible apply TrC.bind; intro c _
    refine Tr.ofRes fun c' _ => ?_
    tr⟩

instance ccsRhsH_tr {g : CcsGlobals} {pubk : CurveP} {V : TwistP} {c zsig zv : Int} [IsRd E g] [IsRd E pubk] [IsRd E V] :
    TrC E (Inter.ccsRhsH g pubk V c zsig zv) := ⟨by
  unfold Inter.ccsRhsH
  tr⟩

instance verifySetH_tr {g : CcsGlobals} {pr : ProofSetH} {p : ParamsSetH} [IsRd E g] [IsRd E pr.V] [IsWr E pr.D] [IsRd E pr.C] [IsWr E pr.a] [IsRd E p.H] [IsRd E p.kp] :
    TrC E (Inter.verifySetH g pr p) := ⟨by
  unfold Inter.verifySetH
  with_reducible apply TrC.bind; intro D _
  with_reducible apply TrC.bind; intro t _
  with_reducible apply TrC.bind; intro _ _
  with_reducible apply TrC.bind; intro aux _
  with_reducible apply TrC.bind; intro _ _
  with_reducible apply TrC.bind; intro DBytes _
  with_reducible apply TrC.bind; intro pDBytes _
  refine Tr.ofRes fun pubk e => ?_
  have : IsRd E pubk := isRd_of_some e
  tr⟩

theorem proveULLoopH_tr {g : CcsGlobals} {p : ParamsULH} {v s t : Nat → Int} {D : TwistP} [IsRd E g] [IsRd E p] [IsWr E D] : ∀ i ds, Tr E (Inter.proveULLoopH g p v s t D i ds)
  | i, [] => by unfold Inter.proveULLoopH; tr
  | i, d :: ds => by
    have ih : TrC E (Inter.proveULLoopH g p v s t D (i + 1) ds) := ⟨proveULLoopH_tr (i + 1) ds⟩
    unfold Inter.proveULLoopH
    cases hA : p.signatures.lookup d with
    | none => tr
    | some A =>
      have : IsRd E A := isRd_of_lookup hA
      dsimp only
      refine Tr.ofRes fun A' e => ?_
      have : IsRd E A' := isRd_of_some e
      with_reducible apply TrC.bind; intro V _
      with_reducible apply TrC.bind; intro a _
      with_reducible apply TrC.bind; intro aux _
      with_reducible apply TrC.bind; intro _ _
      with_reducible apply TrC.bind; intro rest hr
      cases rest with
      | none => tr
      | some q =>
        have hq := hr.out q rfl
        have : IsWr E q.1 := ⟨hq.1⟩
        have : IsWr E q.2 := ⟨hq.2⟩
        dsimp only
        tr

instance {g : CcsGlobals} {p : ParamsULH} {v s t : Nat → Int} {D : TwistP} {i : Nat} {ds : List Int} [IsRd E g] [IsRd E p] [IsWr E D] : TrC E (Inter.proveULLoopH g p v s t D i ds) := ⟨proveULLoopH_tr i ds⟩

instance proveULH_tr {g : CcsGlobals} {sha : List UInt8 → List UInt8} {x r : Int} {p : ParamsULH} {m : Int} {v s t : Nat → Int} [IsRd E g] [IsRd E p] : TrC E (Inter.proveULH g sha x r p m v s t) := ⟨by
  unfold Inter.proveULH
  refine Tr.ofRes fun decx _ => ?_
  with_reducible apply TrC.bind; intro D0 _
  with_reducible apply TrC.bind; intro D _
  with_reducible apply TrC.bind; intro res hr
  cases res with
  | none => tr
  | some q =>
    have hq := hr.out q rfl
    have : IsWr E q.1 := ⟨hq.1⟩
    have : IsWr E q.2 := ⟨hq.2⟩
    dsimp only
    with_reducible apply TrC.bind; intro _ _
    with_reducible apply TrC.bind; intro C _
    with_reducible apply TrC.bind; intro c _
    refine Tr.ofRes fun c' _ => ?_
    tr⟩

theorem verifyULDH_tr {g : CcsGlobals} {u : Int} {zsig : List Int} {D : TwistP} [IsRd E g] [IsWr E D] : ∀ n i, Tr E (Inter.verifyULDH g u zsig D n i)
  | 0, i => by unfold Inter.verifyULDH; tr
  | n + 1, i => by
    have ih : TrC E (Inter.verifyULDH g u zsig D n (i + 1)) := ⟨verifyULDH_tr n (i + 1)⟩
    unfold Inter.verifyULDH
    refine Tr.ofRes fun z _ => ?_
    tr

instance {g : CcsGlobals} {u : Int} {zsig : List Int} {D : TwistP} {n i : Nat} [IsRd E g] [IsWr E D] : TrC E (Inter.verifyULDH g u zsig D n i) := ⟨verifyULDH_tr n i⟩

theorem verifyULAH_tr {g : CcsGlobals} {pubk : Option CurveP} {pr : ProofULH} [IsRd E g] [IsRd E pubk] [IsRd E pr.V] [IsWr E pr.a] :
    ∀ n i r2, Tr E (Inter.verifyULAH g pubk pr n i r2)
  | 0, i, r2 => by unfold Inter.verifyULAH; tr
  | n + 1, i, r2 => by
    unfold Inter.verifyULAH
    refine Tr.ofRes fun V e => ?_
    have : IsRd E V := isRd_of_idx e
    refine Tr.ofRes fun pubk' e => ?_
    have : IsRd E pubk' := isRd_of_some e
    refine Tr.ofRes fun zsig _ => ?_
    refine Tr.ofRes fun zv _ => ?_
    with_reducible apply TrC.bind; intro p1 _
    with_reducible apply TrC.bind; intro pBytes _
    refine Tr.ofRes fun a e => ?_
    have : IsWr E a := isWr_of_idx e
    with_reducible apply TrC.bind; intro aBytes _
    exact verifyULAH_tr n (i + 1) _

instance {g : CcsGlobals} {pubk : Option CurveP} {pr : ProofULH} {n i : Nat} {r2 : Bool} [IsRd E g] [IsRd E pubk] [IsRd E pr.V] [IsWr E pr.a] : TrC E (Inter.verifyULAH g pubk pr n i r2) :=
  ⟨verifyULAH_tr n i r2⟩

instance verifyULH_tr {g : CcsGlobals} {pr : ProofULH} {p : ParamsULH} [IsRd E g] [IsRd E pr.V] [IsWr E pr.D] [IsRd E pr.C] [IsWr E pr.a] [IsRd E p.H] [IsRd E p.kp] :
    TrC E (Inter.verifyULH g pr p) := ⟨by
  unfold Inter.verifyULH
  tr⟩

instance ccsSetupH_tr {g : CcsGlobals} {a b : Int} {rnd : Option Int} [IsRd E g] : TrC E (Inter.ccsSetupH g a b rnd) := ⟨by
  unfold Inter.ccsSetupH
  tr⟩

instance ccsProveH_tr {g : CcsGlobals} {sha : List UInt8 → List UInt8} {p : Option CcsParamsH} {x r : Int} {w1 w2 : ULRandom} [IsRd E g] [IsRd E p] : TrC E (Inter.ccsProveH g sha p x r w1 w2) := ⟨by
  unfold Inter.ccsProveH
  refine Tr.ofRes fun q e => ?_
  have : IsRd E q := isRd_of_some e
  tr⟩

/-- What verification needs of a proof for an interval. -/
class ULUsable (E : Share) (q : ProofULH) : Prop where
  V : IsRd E q.V
  D : IsWr E q.D
  C : IsRd E q.C
  a : IsWr E q.a

theorem ccsVerifyH_tr {g : CcsGlobals} {pr : CcsProofH} {p : Option CcsParamsH} [IsRd E g] (h1 : ∀ q, pr.p1 = some q → ULUsable E q) (h2 : ∀ q, pr.p2 = some q → ULUsable E q) [IsRd E p] :
    Tr E (Inter.ccsVerifyH g pr p) := by
  unfold Inter.ccsVerifyH
  refine Tr.ofRes fun q e => ?_
  have : IsRd E q := isRd_of_some e
  refine Tr.ofRes fun p1 e => ?_
  have h1 : ULUsable E p1 := h1 p1 (by revert e; cases pr.p1 <;> intro e <;> cases e; rfl)
  have := h1.V
  have := h1.D
  have := h1.C
  have := h1.a
  with_reducible apply TrC.bind; intro first _
  refine Tr.ofRes fun p2 e => ?_
  have h2 : ULUsable E p2 := h2 p2 (by revert e; cases pr.p2 <;> intro e <;> cases e; rfl)
  have := h2.V
  have := h2.D
  have := h2.C
  have := h2.a
  tr

end Inter

end

end Verif

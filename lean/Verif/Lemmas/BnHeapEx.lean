import Verif.Spec.BnHeap

/-!
# A sample memory

A concrete memory for the examples beside the theorems on `crypto/bn256` with pointers.
-/

namespace Verif

/-- A memory of 100 objects: the package variables of constants.go in cells 0 to 10, `twistB` in 11 and 12, the generator of `G1`
twice from 13 on, that of `G2` twice from 21 on, and in every other cell its own number. -/
def exHeap : BigHeap :=
  ⟨fun c => [xiToPMinus1Over6.x, xiToPMinus1Over6.y, xiToPMinus1Over3.x, xiToPMinus1Over3.y, xiToPMinus1Over2.x,
    xiToPMinus1Over2.y, xiTo2PMinus2Over3.x, xiTo2PMinus2Over3.y, xiToPSquaredMinus1Over3, xiTo2PSquaredMinus2Over3,
    xiToPSquaredMinus1Over6, twistB.x, twistB.y, 1, -2, 1, 1, 1, -2, 1, 1,
    TwistPoint.gen.x.x, TwistPoint.gen.x.y, TwistPoint.gen.y.x, TwistPoint.gen.y.y,
    TwistPoint.gen.z.x, TwistPoint.gen.z.y, TwistPoint.gen.t.x, TwistPoint.gen.t.y,
    TwistPoint.gen.x.x, TwistPoint.gen.x.y, TwistPoint.gen.y.x, TwistPoint.gen.y.y,
    TwistPoint.gen.z.x, TwistPoint.gen.z.y, TwistPoint.gen.t.x, TwistPoint.gen.t.y].getD c c, 100, none⟩

/-- The package variables there. -/
def exGlob : BnGlobals := ⟨⟨0, 1⟩, ⟨2, 3⟩, ⟨4, 5⟩, ⟨6, 7⟩, 8, 9, 10⟩

/-- `twistB`. -/
def exB2 : Gf2 := ⟨11, 12⟩

/-- The generator of `G1`. -/
def exP : CurveP := ⟨13, 14, 15, 16⟩

/-- A copy of it. -/
def exP' : CurveP := ⟨17, 18, 19, 20⟩

/-- Another object, not a point of the curve. -/
def exP0 : CurveP := ⟨37, 38, 39, 40⟩

/-- The generator of `G2`. -/
def exQ : TwistP := ⟨⟨21, 22⟩, ⟨23, 24⟩, ⟨25, 26⟩, ⟨27, 28⟩⟩

/-- A copy of it. -/
def exQ' : TwistP := ⟨⟨29, 30⟩, ⟨31, 32⟩, ⟨33, 34⟩, ⟨35, 36⟩⟩

/-- Another object, not a point of the twist. -/
def exQ0 : TwistP := ⟨⟨41, 42⟩, ⟨43, 44⟩, ⟨45, 46⟩, ⟨47, 48⟩⟩

/-- Three elements of `GT`, or of `gfP12`. -/
def exA : Gf12 := ⟨⟨⟨49, 50⟩, ⟨51, 52⟩, ⟨53, 54⟩⟩, ⟨⟨55, 56⟩, ⟨57, 58⟩, ⟨59, 60⟩⟩⟩

/-- See `exA`. -/
def exB : Gf12 := ⟨⟨⟨61, 62⟩, ⟨63, 64⟩, ⟨65, 66⟩⟩, ⟨⟨67, 68⟩, ⟨69, 70⟩, ⟨71, 72⟩⟩⟩

/-- See `exA`. -/
def exC : Gf12 := ⟨⟨⟨73, 74⟩, ⟨75, 76⟩, ⟨77, 78⟩⟩, ⟨⟨79, 80⟩, ⟨81, 82⟩, ⟨83, 84⟩⟩⟩

/-- Shows that the objects above exist, or are apart. -/
macro "ex_ok" : tactic => `(tactic| first
  | exact rfl
  | exact ⟨by decide, by decide⟩
  | (intro p hp; cases hp; exact ⟨by decide, by decide⟩)
  | (intro p hp; cases hp; done)
  | exact Or.inl rfl
  | exact Or.inr (by unfold Disj; decide)
  | (intro p hp; cases hp; exact Or.inl rfl)
  | (intro p hp; cases hp; exact Or.inr (by unfold Disj; decide))
  | (intro p hp; cases hp; unfold Disj; decide)
  | (unfold Disj; decide))

end Verif

import Verif.Model.Json

/-!
# `setupInnerProduct` with nil arguments

`Model/Bp.lean` has this function for the arguments `Prove` gives it.  Here it is with its defaults: nil generators are replaced by results
of `MapToGroup` (as the test of the inner-product argument has it).  Pointers may be nil (`none`).
-/

namespace Verif

/-- The code points Go's conversion `string(i)` accepts; others give U+FFFD (Go specification, Conversions to and from a string type). -/
def validRune (i : Int) : Bool := 0 ≤ i && i < 0x110000 && !(0xD800 ≤ i && i < 0xE000)

/-- The bytes of `string(i)` for an int64 `i`, bulletproofs/bip.go:82 and 90. -/
def runeText (i : Int) : List UInt8 := if validRune i then utf8 i.toNat else badRune

/-- The loops bulletproofs/bip.go:81-83 (`letter` is "g") and 89-91 ("h"): `fuel` iterations from index `i`.  The error of `MapToGroup` is
dropped, so that an entry may be nil. -/
def defaultGens (E : Ext) (letter : List UInt8) : Nat → Nat → Res (List (Option P256))
  | 0, _ => .ok []
  | fuel + 1, i => do
    let g ← mapToGroup E (SEEDH ++ letter ++ runeText i)
    let r ← defaultGens E letter fuel (i + 1)
    .ok (g :: r)

/-- `setupInnerProduct`, bulletproofs/bip.go:66-100.  `ok none`: the error for `N ≤ 0`.  `make` succeeds (memory is not modelled). -/
def setupIP (E : Ext) (H : Option P256) (g h : Option (List (Option P256))) (c : Option Int) (n : Int) : Res (Option GoIPParams) :=
  if n ≤ 0 then .ok none
  else do
    let H ← match H with
      | some H => .ok (some H)
      | none => mapToGroup E SEEDH
    let g ← match g with
      | some g => .ok g
      | none => defaultGens E (ascii "g") n.toNat 0
    let h ← match h with
      | some h => .ok h
      | none => defaultGens E (ascii "h") n.toNat 0
    let u ← mapToGroup E SEEDU
    .ok (some { N := n, Cc := c, Uu := u, H := H, Gg := some g, Hh := some h, P := some P256.infinity })

end Verif

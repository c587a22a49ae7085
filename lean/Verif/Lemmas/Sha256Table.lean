import Verif.Lemmas.Sha256
import Verif.Props.Bp

/-! # The abscissae of the 66 generators -/

namespace Verif

/-- The seeds used by `Setup` and `setupInnerProduct`. -/
def allSeeds : List Seed := .H :: .U :: ((List.range 32).map Seed.g ++ (List.range 32).map Seed.h)

theorem mem_allSeeds {s : Seed} (hs : s.Valid) : s ∈ allSeeds := by
  cases s <;> simp only [Seed.Valid] at hs <;> simp [allSeeds, hs]

/-- The abscissae of the generators. -/
def seedX (s : Seed) : Option Nat := firstX s.bytes 256 0

theorem seedX_table : (∀ s ∈ allSeeds, (seedX s).isSome) ∧ (some secpGx.toNat :: allSeeds.map seedX).Nodup := by
  decide +kernel

theorem seedX_inj {s t : Seed} (hs : s.Valid) (ht : t.Valid) (h : seedX s = seedX t) : s = t := by
  have hn := (List.nodup_cons.1 seedX_table.2).2
  exact List.inj_on_of_nodup_map hn (mem_allSeeds hs) (mem_allSeeds ht) h

end Verif

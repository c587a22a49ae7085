import Verif.Props.CcsRange
import Verif.Props.CcsMisc

/-! # C95: the parts of a ccs08 range proof and the bounds of its interval are not tied together -/

namespace Verif

/-- C95: `Verify` does not look at the bounds: the same proof is accepted for every interval. -/
theorem C95_bounds (q : CcsProof) (p : ParamsUL) (a b a' b' : Int) : ccsVerify q (some ⟨p, a, b⟩) = ccsVerify q (some ⟨p, a', b'⟩) := rfl

/-- What `Prove` gives: two proofs of [0, u^l), for `x - b + u^l` and for `x - a`. -/
private theorem prove_halves {sha : List UInt8 → List UInt8} {p : ParamsUL} {a b x r : Int} {w1 w2 : ULRandom} {o1 o2 : Option ProofUL}
    (h : ccsProve sha (some ⟨p, a, b⟩) x r w1 w2 = .ok ⟨o1, o2⟩) :
    proveUL sha (x - b + p.u ^ p.l.toNat) r p w1.m w1.v w1.s w1.t = .ok o1 ∧ proveUL sha (x - a) r p w2.m w2.v w2.s w2.t = .ok o2 := by
  simp only [ccsProve, Res.ofOption_some, Res.ok_bind, Res.bind_eq_ok] at h
  obtain ⟨f, h1, g, h2, h3⟩ := h
  cases h3
  exact ⟨h1, h2⟩

private theorem proveUL_C {sha : List UInt8 → List UInt8} {x r : Int} {p : ParamsUL} {m : Int} {v s t : Nat → Int} {q : ProofUL}
    (h : proveUL sha x r p m v s t = .ok (some q)) : q.C = commit x r p.H := by
  simp only [proveUL, Res.bind_eq_ok] at h
  obtain ⟨_, _, res, _, h⟩ := h
  cases res with
  | none => cases h
  | some res =>
    simp only [Res.bind_eq_ok] at h
    obtain ⟨_, _, _, _, h⟩ := h
    cases h
    rfl

/-- C95: the first half of a proof for `x` with the second half of a proof for `x'`: the verdict, for challenges that are not 0, is
`b - 57^l ≤ x < b` and `a ≤ x' < a + 57^l`. -/
theorem C95_mixed (sha : List UInt8 → List UInt8) (hsha : ∀ b, (sha b).length = 32) {a b sk x r x' r' : Int}
    {w1 w2 w1' w2' : ULRandom} (hab : a ≤ b) (hb1 : b ≠ 1) (ha : -2 ^ 63 ≤ a) (hb : b < 2 ^ 63) (hx : |x| < 2 ^ 250) (hx' : |x'| < 2 ^ 250)
    (hk : ∀ m, 0 ≤ m → m < 57 → ¬ m + sk ≡ 0 [ZMOD bnOrder]) (hr : 0 ≤ r) (hr' : 0 ≤ r') (hw1 : w1.Nonneg) (hw2 : w2'.Nonneg)
    (hn1 : NoClash (ccsH * w1.m) (wts 57 w1.s 0 (digits57 b)))
    (hn2 : NoClash (ccsH * w2'.m) (wts 57 w2'.s 0 (digits57 b)))
    (hd1 : ¬ ccsH * w1.m + (wts 57 w1.s 0 (digits57 b)).sum ≡ 0 [ZMOD bnOrder])
    (hd2 : ¬ ccsH * w2'.m + (wts 57 w2'.s 0 (digits57 b)).sum ≡ 0 [ZMOD bnOrder])
    (hc1 : CommitClean (x - b + 57 ^ digits57 b) r) (hc2 : CommitClean (x' - a) r')
    {p : CcsParams} (hp : ccsSetup a b (some sk) = .ok (some p)) {p1 p2 : ProofUL} {o o' : Option ProofUL}
    (h1 : ccsProve sha (some p) x r w1 w2 = .ok ⟨some p1, o⟩) (h2 : ccsProve sha (some p) x' r' w1' w2' = .ok ⟨o', some p2⟩) :
    ∃ z1 z2, (∀ j, j < digits57 b → p1.zsig[j]? = some (z1 j) ∧ p2.zsig[j]? = some (z2 j)) ∧
      ((∀ V ∈ p1.V ++ p2.V, PairOk V) →
        VerifyClean (x - b + 57 ^ digits57 b) r (digits57 b) p1 z1 → VerifyClean (x' - a) r' (digits57 b) p2 z2 →
        ∃ v pr', ccsVerify ⟨some p1, some p2⟩ (some p) = .ok (v, pr') ∧
          (b - 57 ^ digits57 b ≤ x → x < b → a ≤ x' → x' < a + 57 ^ digits57 b → v = true) ∧
          (¬ p1.c ≡ 0 [ZMOD bnOrder] → ¬ p2.c ≡ 0 [ZMOD bnOrder] →
            (v = true ↔ (b - 57 ^ digits57 b ≤ x ∧ x < b) ∧ a ≤ x' ∧ x' < a + 57 ^ digits57 b))) := by
  obtain ⟨q, hq, hs⟩ := (C55_setup a b sk hb hk).2 (by omega)
  rw [hp] at hs
  cases hs
  obtain ⟨b1, -⟩ := ccsHalf_small hab ha hb hx
  obtain ⟨-, b2⟩ := ccsHalf_small hab ha hb hx'
  obtain ⟨hp1, -⟩ := prove_halves h1
  obtain ⟨-, hp2⟩ := prove_halves h2
  have hul : q.u = 57 ∧ q.l = digits57 b := by
    obtain ⟨q', _, g1, g2, g3, _⟩ := C54_setup 57 (digits57 b : Int) sk hk
    rw [hq] at g1
    cases g1
    exact ⟨g2, g3⟩
  rw [hul.1, hul.2, Int.toNat_natCast] at hp1
  generalize digits57 b = L at *
  obtain ⟨p1', z1, f1, f2, f3⟩ := ccsHalf sha hsha hk hr hq _ w1 hw1 hn1 hd1 hc1 b1
  obtain ⟨p2', z2, g1, g2, g3⟩ := ccsHalf sha hsha hk hr' hq _ w2' hw2 hn2 hd2 hc2 b2
  rw [hp1] at f1
  rw [hp2] at g1
  cases f1; cases g1
  refine ⟨z1, z2, fun j hj => ⟨f2 j hj, g2 j hj⟩, fun hok k1 k2 => ?_⟩
  obtain ⟨v1, q1, e1, e2, e3⟩ := f3 (fun V hV => hok V (List.mem_append_left _ hV)) k1
  obtain ⟨v2, q2, d1, d2, d3⟩ := g3 (fun V hV => hok V (List.mem_append_right _ hV)) k2
  refine ⟨v1 && v2, ⟨some q1, some q2⟩, ?_, fun h1 h2 h3 h4 => ?_, fun n1 n2 => ?_⟩
  · simp only [ccsVerify, Res.ofOption_some, Res.ok_bind, e1, d1]
  · rw [e2 (by omega) (by omega), d2 (by omega) (by omega)]; rfl
  · rw [Bool.and_eq_true, e3 n1, d3 n2]
    constructor <;> rintro ⟨⟨_, _⟩, _, _⟩ <;> refine ⟨⟨?_, ?_⟩, ?_, ?_⟩ <;> omega

/-- C95: for every interval with `0 ≤ a` these conditions hold for an `x` below it and an `x'` above it. -/
theorem C95_outside {a b : Int} (ha : 0 ≤ a) (hab : a ≤ b) :
    ∃ x x', x < a ∧ b ≤ x' ∧ (b - 57 ^ digits57 b ≤ x ∧ x < b) ∧ a ≤ x' ∧ x' < a + 57 ^ digits57 b := by
  have := digits57_lt b
  exact ⟨a - 1, b, by omega, le_refl _, ⟨by omega, by omega⟩, hab, by omega⟩

example := C95_outside (a := 18) (b := 200) (by norm_num) (by norm_num)

/-- C95: the commitments of such halves, and when they differ by the known power of the generator by which those of one proof differ. -/
theorem C95_link (sha : List UInt8 → List UInt8) {a b sk x r x' r' : Int} {w1 w2 w1' w2' : ULRandom} (hb : b < 2 ^ 63)
    (hk : ∀ m, 0 ≤ m → m < 57 → ¬ m + sk ≡ 0 [ZMOD bnOrder]) (hr : 0 ≤ r) (hr' : 0 ≤ r')
    (hx : b - 57 ^ digits57 b ≤ x) (hx' : a ≤ x')
    (hc1 : CommitClean (x - b + 57 ^ digits57 b) r) (hc2 : CommitClean (x' - a) r')
    {p : CcsParams} (hp : ccsSetup a b (some sk) = .ok (some p)) {p1 p2 : ProofUL} {o o' : Option ProofUL}
    (h1 : ccsProve sha (some p) x r w1 w2 = .ok ⟨some p1, o⟩) (h2 : ccsProve sha (some p) x' r' w1' w2' = .ok ⟨o', some p2⟩) :
    ∃ P1 P2, Rep2 p1.C P1 ∧ Rep2 p2.C P2 ∧
      (P1 = P2 + (a - b + 57 ^ digits57 b) • bnG2 ↔ x + ccsH * r ≡ x' + ccsH * r' [ZMOD bnOrder]) := by
  have hab : ¬ (a > b ∨ b = 1) := fun h => by
    rw [(C55_setup a b sk hb hk).1 h] at hp
    cases hp
  obtain ⟨q, hq, hs⟩ := (C55_setup a b sk hb hk).2 hab
  rw [hp] at hs
  cases hs
  obtain ⟨hp1, -⟩ := prove_halves h1
  obtain ⟨-, hp2⟩ := prove_halves h2
  have hul : q.u = 57 ∧ q.l = digits57 b ∧ q.H = G2.scalarBaseMult ccsH := by
    obtain ⟨q', _, g1, g2, g3, _, _, _, g4⟩ := C54_setup 57 (digits57 b : Int) sk hk
    rw [hq] at g1
    cases g1
    exact ⟨g2, g3, (g4 0).2.2⟩
  rw [hul.1, hul.2.1, Int.toNat_natCast] at hp1
  generalize digits57 b = L at *
  have hH : Rep2 q.H (ccsH • bnG2) := hul.2.2 ▸ C36_scalarBaseMult _ (by decide)
  refine ⟨_, _, proveUL_C hp1 ▸ commit_exp hH (by omega) hr (hc1.1 (by omega)),
    proveUL_C hp2 ▸ commit_exp hH (by omega) hr' (hc2.1 (by omega)), ?_⟩
  rw [← add_zsmul, bnG2_zsmul_eq]
  generalize ccsH = h
  rw [Int.modEq_iff_dvd, Int.modEq_iff_dvd]
  constructor <;> intro hd <;> convert hd using 1 <;> ring

/-- C95: so comparing the commitments would not help: there is a blinding factor for every `x'`. -/
theorem C95_link_forged (x r x' : Int) : 0 ≤ equivocate x r x' ∧ x + ccsH * r ≡ x' + ccsH * equivocate x r x' [ZMOD bnOrder] := by
  refine ⟨emod_order_nonneg _, ?_⟩
  have hi : ccsH * (modInverse ccsH bnOrder).getD 0 ≡ 1 [ZMOD bnOrder] := by decide +kernel
  have h3 : equivocate x r x' ≡ r + (x - x') * (modInverse ccsH bnOrder).getD 0 [ZMOD bnOrder] := Int.mod_modEq _ _
  generalize equivocate x r x' = e at *
  generalize (modInverse ccsH bnOrder).getD 0 = i at *
  generalize ccsH = h at *
  have h4 := (h3.mul_left h).add_left x'
  have h5 := (hi.mul_left (x - x')).add_left (x' + h * r)
  ring_nf at h4 h5 ⊢
  exact (h4.trans h5).symm

/-- The hypotheses for the range [18, 200), `x = 17` and `x' = 200`. -/
example : digits57 200 = 2 ∧ (200 - 57 ^ 2 : Int) ≤ 17 ∧ (17 : Int) < 200 ∧ (18 : Int) ≤ 200 ∧ (200 : Int) < 18 + 57 ^ 2 ∧
    NoClash (ccsH * 11) (wts 57 (fun j => 17 + j) 0 2) ∧
    ¬ ccsH * 11 + (wts 57 (fun j => 17 + j) 0 2).sum ≡ 0 [ZMOD bnOrder] ∧
    CommitClean (17 - 200 + 57 ^ 2) 3 ∧ CommitClean (200 - 18) (equivocate 17 3 200) := by
  refine ⟨by simp [digits57], by norm_num, by norm_num, by norm_num, by norm_num, by decide +kernel, by decide +kernel,
    ⟨fun _ => by decide +kernel, fun h => absurd h (by norm_num)⟩,
    ⟨fun _ => by decide +kernel, fun h => absurd h (by norm_num)⟩⟩

end Verif

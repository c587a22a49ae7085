import Verif.Props.CcsUL
import Verif.Props.CcsMisc

/-!
# C77: what fresh challenges would prove in ccs08

`VerifySet` and `VerifyUL` take the challenge from the proof (C52).  Here it is assumed that the verifier chose it after
`V`, `D`, `C` and `a` were sent, so that a prover can be run twice with the same first message.
-/

namespace Verif

/-- Difference of two answers divided by the negative of the difference of the challenges. -/
def extractRuns (c₁ c₂ z₁ z₂ : Int) : Option Int :=
  (modInverse (c₂ - c₁) bnOrder).map fun i => (z₁ - z₂) * i % bnOrder

/-- The point `V^(1/ν)`, sent through `Marshal` and `Unmarshal` as in `Sign`. -/
def rootOf (V : TwistPoint) (ν : Int) : Option TwistPoint :=
  (modInverse ν bnOrder).bind fun i => G2.unmarshal (G2.marshal (G2.scalarMult V i)).1

theorem order_inverse {a : Int} (h : ¬ a ≡ 0 [ZMOD bnOrder]) :
    ∃ i, modInverse a bnOrder = some i ∧ 0 ≤ i ∧ i * a ≡ 1 [ZMOD bnOrder] := by
  have hg := gcd_order_eq_one h
  rw [Int.gcd_emod] at hg
  obtain ⟨i, hi, h0, _, hd⟩ := (modInverse_spec a bnOrder (ne_of_gt bnOrder_pos)).1 hg
  exact ⟨i, hi, h0, (Int.modEq_iff_dvd.2 hd).symm⟩

theorem extractRuns_some {c₁ c₂ : Int} (h : ¬ c₁ ≡ c₂ [ZMOD bnOrder]) :
    ∃ f : Int → Int → Int, ∀ z₁ z₂, extractRuns c₁ c₂ z₁ z₂ = some (f z₁ z₂) ∧ 0 ≤ f z₁ z₂ ∧ f z₁ z₂ < bnOrder ∧
      f z₁ z₂ * (c₂ - c₁) ≡ z₁ - z₂ [ZMOD bnOrder] := by
  have h' : ¬ c₂ - c₁ ≡ 0 [ZMOD bnOrder] := by
    rw [Int.modEq_zero_iff_dvd]
    exact fun hd => h (Int.modEq_iff_dvd.2 hd)
  obtain ⟨i, hi, _, h1⟩ := order_inverse h'
  refine ⟨fun z₁ z₂ => (z₁ - z₂) * i % bnOrder, fun z₁ z₂ => ⟨?_, emod_order_nonneg _, Int.emod_lt_of_pos _ bnOrder_pos, ?_⟩⟩
  · rw [extractRuns, hi]; rfl
  · have h2 := (Int.mod_modEq ((z₁ - z₂) * i) bnOrder).mul_right (c₂ - c₁)
    have h3 := h1.mul_left (z₁ - z₂)
    rw [← mul_assoc, mul_one] at h3
    exact h2.trans h3

theorem order_cancel {a b d : Int} (hd : ¬ d ≡ 0 [ZMOD bnOrder]) (h : a * d ≡ b * d [ZMOD bnOrder]) :
    a ≡ b [ZMOD bnOrder] := by
  rw [Int.modEq_iff_dvd] at h ⊢
  rw [← sub_mul] at h
  exact (order_prime.dvd_or_dvd h).resolve_right (fun hh => hd (Int.modEq_zero_iff_dvd.2 hh))

/-- The signature of a run and its root. -/
theorem root_signature {V : TwistPoint} {v sk σ ν : Int} (hV : Rep2 V (v • bnG2)) (h : v * (sk + σ) ≡ ν [ZMOD bnOrder]) :
    Rep2 V 0 ∨ σ + sk ≡ 0 [ZMOD bnOrder] ∨ ∃ sig, rootOf V ν = some sig ∧ bbSign σ sk = .ok (some sig) := by
  by_cases hν : ν ≡ 0 [ZMOD bnOrder]
  · rcases order_prime.dvd_or_dvd (Int.modEq_zero_iff_dvd.1 (h.trans hν)) with hd | hd
    · left
      rwa [(bnG2_zsmul_zero v).2 (Int.modEq_zero_iff_dvd.2 hd)] at hV
    · right; left
      rw [add_comm]
      exact Int.modEq_zero_iff_dvd.2 hd
  · right; right
    obtain ⟨i, hi, hi0, h1⟩ := order_inverse hν
    have hs : ¬ σ + sk ≡ 0 [ZMOD bnOrder] := by
      intro h0
      rw [add_comm] at h0
      have := h.symm.trans (h0.mul_left v)
      rw [mul_zero] at this
      exact hν this
    obtain ⟨sig, k, e1, e2, _, e4⟩ := C49_sign σ sk hs
    refine ⟨sig, ?_, e1⟩
    obtain ⟨j, hj, hj0, h2⟩ := order_inverse (a := (σ + sk) % bnOrder) (fun h0 => hs ((Int.mod_modEq _ _).symm.trans h0))
    have e1' : G2.unmarshal (G2.marshal (G2.scalarBaseMult j)).1 = some sig := by
      simp only [bbSign, hj, Res.ofOption_some, Res.ok_bind, Res.ok.injEq] at e1
      exact e1
    have hm : (G2.marshal (G2.scalarMult V i)).1 = (G2.marshal (G2.scalarBaseMult j)).1 := by
      rw [marshal_exp2 (scalarMult_exp2 hV i hi0) (C36_scalarBaseMult j hj0)]
      refine order_cancel hs ?_
      have h3 : j * (σ + sk) ≡ 1 [ZMOD bnOrder] := ((Int.mod_modEq (σ + sk) bnOrder).symm.mul_left j).trans h2
      refine Int.ModEq.trans ?_ h3.symm
      have := (h.mul_left i).trans h1
      rw [show v * i * (σ + sk) = i * (v * (sk + σ)) by ring]
      exact this
    rw [rootOf, hi, Option.bind_some, hm, e1']

/-- The opening of two runs. -/
theorem runs_opening {n γ h c₁ c₂ r₁ r₂ s₁ s₂ d σ ρ : Int} (f : γ * c₁ + h * r₁ + s₁ ≡ d [ZMOD n])
    (k : γ * c₂ + h * r₂ + s₂ ≡ d [ZMOD n]) (hs : σ * (c₂ - c₁) ≡ s₁ - s₂ [ZMOD n])
    (hr : ρ * (c₂ - c₁) ≡ r₁ - r₂ [ZMOD n]) : γ * (c₂ - c₁) ≡ (σ + h * ρ) * (c₂ - c₁) [ZMOD n] := by
  obtain ⟨w₁, e₁⟩ := Int.modEq_iff_dvd.1 (f.trans k.symm)
  obtain ⟨w₂, e₂⟩ := Int.modEq_iff_dvd.1 hs
  obtain ⟨w₃, e₃⟩ := Int.modEq_iff_dvd.1 hr
  exact Int.modEq_iff_dvd.2 ⟨-(w₁ + w₂ + h * w₃), by linear_combination -(e₁ + e₂ + h * e₃)⟩

/-- The exponent of `V` in two runs. -/
theorem runs_exponent {n v sk c₁ c₂ s₁ s₂ w₁ w₂ α σ ν : Int} (f : sk * v * c₁ - v * s₁ + w₁ ≡ α [ZMOD n])
    (k : sk * v * c₂ - v * s₂ + w₂ ≡ α [ZMOD n]) (hs : σ * (c₂ - c₁) ≡ s₁ - s₂ [ZMOD n])
    (hw : ν * (c₂ - c₁) ≡ w₁ - w₂ [ZMOD n]) : v * (sk + σ) * (c₂ - c₁) ≡ ν * (c₂ - c₁) [ZMOD n] := by
  obtain ⟨y₁, e₁⟩ := Int.modEq_iff_dvd.1 (f.trans k.symm)
  obtain ⟨y₂, e₂⟩ := Int.modEq_iff_dvd.1 hs
  obtain ⟨y₃, e₃⟩ := Int.modEq_iff_dvd.1 hw
  exact Int.modEq_iff_dvd.2 ⟨-(y₁ + y₃ - v * y₂), by linear_combination -(e₁ + e₃ - v * e₂)⟩

/-- Points and exponents of a proof of set membership and the conditions of `C51_verdict`. -/
structure SetRun (pr : ProofSet) (h v d γ α : Int) : Prop where
  V : Rep2 pr.V (v • bnG2)
  ok : PairOk pr.V
  D : Rep2 pr.D (d • bnG2)
  C : Rep2 pr.C (γ • bnG2)
  a : GExp pr.a α
  c : 0 ≤ pr.c
  zr : 0 ≤ pr.zr
  zsig : 0 ≤ pr.zsig
  zv : 0 ≤ pr.zv
  noClash : NoClash (γ * pr.c) [h * pr.zr, pr.zsig]

/-- C77: let `VerifySet` accept two proofs with the same `V`, `D`, `C` and `a` (as group elements) and challenges
different modulo `Order`.  Then `extractRuns` computes from the numbers in the proofs an opening `σ`, `ρ` of `C`; and
unless `V` is infinity or `σ ≡ -sk` (so that the private key is found) `rootOf` computes from the proofs what
`Sign(σ, sk)` returns. -/
theorem C77_set (p : ParamsSet) (pk : CurvePoint) (h sk v d γ α : Int) (hpk : p.kp.pubk = some pk)
    (hy : Rep1 pk (sk • bnG1)) (hH : Rep2 p.H (h • bnG2)) (pr₁ pr₂ q₁ q₂ : ProofSet)
    (h₁ : SetRun pr₁ h v d γ α) (h₂ : SetRun pr₂ h v d γ α) (hc : ¬ pr₁.c ≡ pr₂.c [ZMOD bnOrder])
    (a₁ : verifySet pr₁ p = .ok (true, q₁)) (a₂ : verifySet pr₂ p = .ok (true, q₂)) :
    ∃ σ ρ ν, extractRuns pr₁.c pr₂.c pr₁.zsig pr₂.zsig = some σ ∧ extractRuns pr₁.c pr₂.c pr₁.zr pr₂.zr = some ρ ∧
      extractRuns pr₁.c pr₂.c pr₁.zv pr₂.zv = some ν ∧
      Rep2 pr₁.C ((σ + h * ρ) • bnG2) ∧
      (Rep2 pr₁.V 0 ∨ σ + sk ≡ 0 [ZMOD bnOrder] ∨
        ∃ sig, rootOf pr₁.V ν = some sig ∧ bbSign σ sk = .ok (some sig)) := by
  obtain ⟨b, pr', e1, e2⟩ := C51_verdict pr₁ p pk h sk v d γ α hpk hy hH h₁.V h₁.ok h₁.D h₁.C h₁.a h₁.c h₁.zr h₁.zsig h₁.zv
    h₁.noClash
  rw [a₁] at e1
  obtain ⟨f1, f2⟩ := e2.1 (Prod.mk.inj (Res.ok.inj e1)).1.symm
  obtain ⟨b', pr'', g1, g2⟩ := C51_verdict pr₂ p pk h sk v d γ α hpk hy hH h₂.V h₂.ok h₂.D h₂.C h₂.a h₂.c h₂.zr h₂.zsig h₂.zv
    h₂.noClash
  rw [a₂] at g1
  obtain ⟨k1, k2⟩ := g2.1 (Prod.mk.inj (Res.ok.inj g1)).1.symm
  obtain ⟨f, hf⟩ := extractRuns_some hc
  obtain ⟨s1, _, _, s4⟩ := hf pr₁.zsig pr₂.zsig
  obtain ⟨r1, _, _, r4⟩ := hf pr₁.zr pr₂.zr
  obtain ⟨n1, _, _, n4⟩ := hf pr₁.zv pr₂.zv
  have hc' : ¬ pr₂.c - pr₁.c ≡ 0 [ZMOD bnOrder] := by
    rw [Int.modEq_zero_iff_dvd]
    exact fun hd => hc (Int.modEq_iff_dvd.2 hd)
  exact ⟨_, _, _, s1, r1, n1, rep2_congr (order_cancel hc' (runs_opening f1 k1 s4 r4)) h₁.C,
    root_signature (v := v) h₁.V (order_cancel hc' (runs_exponent f2 k2 s4 n4))⟩

/-- C77: the hypotheses of `C77_set` are met by the honest prover answering two challenges (computed here by two hash
functions) with the same randomness. -/
theorem C77_honest (sha₁ sha₂ : List UInt8 → List UInt8) (hsha₁ : ∀ b, (sha₁ b).length = 32)
    (hsha₂ : ∀ b, (sha₂ b).length = 32) (S : List Int) (x r sk m v s t : Int)
    (hS : ∀ m ∈ S, ¬ m + sk ≡ 0 [ZMOD bnOrder]) (hx : x ∈ S) (hx0 : 0 ≤ x) (hr : 0 ≤ r)
    (hm : 0 ≤ m) (hv : 0 ≤ v) (hs : 0 ≤ s) (ht : 0 ≤ t) (h1 : NoClash (ccsH * m) [s]) (h2 : NoClash x [ccsH * r]) :
    ∃ p pk i pr₁ pr₂, setupSet S (some sk) = .ok p ∧ p.kp.pubk = some pk ∧ Rep1 pk (sk • bnG1) ∧
      Rep2 p.H (ccsH • bnG2) ∧ proveSet sha₁ x r p m v s t = .ok (some pr₁) ∧
      proveSet sha₂ x r p m v s t = .ok (some pr₂) ∧
      ∀ pr, pr = pr₁ ∨ pr = pr₂ → PairOk pr.V → NoClash ((x + ccsH * r) * pr.c) [ccsH * pr.zr, pr.zsig] →
        SetRun pr ccsH (i * v) (ccsH * m + s) (x + ccsH * r) (t - i * v * s) ∧
          ∃ pr', verifySet pr p = .ok (true, pr') := by
  obtain ⟨p, pk, e1, e2, e3, e4, e5, _⟩ := C51_setup S sk hS
  obtain ⟨o, ho, hsig⟩ := e5 x hx
  obtain ⟨pr₁, i₁, f1, f2, f3, f4, f5, f6, f7, f8, f9, f10, f11, f12, f13, f14⟩ :=
    C51_proof sha₁ hsha₁ x r ccsH sk p m v s t o ho hsig e4 hm hv hs ht h1
  obtain ⟨pr₂, i₂, g1, g2, g3, g4, g5, g6, g7, g8, g9, g10, g11, g12, g13, g14⟩ :=
    C51_proof sha₂ hsha₂ x r ccsH sk p m v s t o ho hsig e4 hm hv hs ht h1
  have hi : i₂ ≡ i₁ [ZMOD bnOrder] := order_cancel (hS x hx) (g2.trans f2.symm)
  refine ⟨p, pk, i₁, pr₁, pr₂, e1, e2, e3, e4, f1, g1, fun pr hpr hok hn => ?_⟩
  have hrun : SetRun pr ccsH (i₁ * v) (ccsH * m + s) (x + ccsH * r) (t - i₁ * v * s) := by
    rcases hpr with rfl | rfl
    · exact ⟨f3, hok, f4, f5 ▸ commit_exp e4 hx0 hr h2, f6 hok, f10, by rw [f12]; exact emod_order_nonneg _,
        by rw [f13]; exact emod_order_nonneg _, by rw [f14]; exact emod_order_nonneg _, hn⟩
    · exact ⟨rep2_congr (hi.mul_right v) g3, hok, g4, g5 ▸ commit_exp e4 hx0 hr h2,
        (g6 hok).congr (((hi.mul_right v).mul_right s).neg.add_left t), g10, by rw [g12]; exact emod_order_nonneg _,
        by rw [g13]; exact emod_order_nonneg _, by rw [g14]; exact emod_order_nonneg _, hn⟩
  refine ⟨hrun, ?_⟩
  obtain ⟨z1, z2, z3, h3⟩ : pr.zr ≡ m - r * pr.c [ZMOD bnOrder] ∧
      pr.zsig ≡ s - x * pr.c [ZMOD bnOrder] ∧ pr.zv ≡ t - v * pr.c [ZMOD bnOrder] ∧
      i₁ * (x + sk) ≡ 1 [ZMOD bnOrder] := by
    rcases hpr with rfl | rfl
    · exact ⟨by rw [f12]; exact Int.mod_modEq _ _, by rw [f13]; exact Int.mod_modEq _ _,
        by rw [f14]; exact Int.mod_modEq _ _, f2⟩
    · exact ⟨by rw [g12]; exact Int.mod_modEq _ _, by rw [g13]; exact Int.mod_modEq _ _,
        by rw [g14]; exact Int.mod_modEq _ _, f2⟩
  obtain ⟨b, pr', k1, k2⟩ := C51_verdict pr p pk ccsH sk _ _ _ _ e2 e3 e4 hrun.V hrun.ok hrun.D hrun.C hrun.a hrun.c hrun.zr
    hrun.zsig hrun.zv hn
  refine ⟨pr', ?_⟩
  rw [k1, k2.2]
  generalize pr.c = c at *
  constructor
  · have := ((z1.mul_left ccsH).add_left ((x + ccsH * r) * c)).add z2
    refine this.trans ?_
    ring_nf
    rfl
  · have := ((z2.mul_left (i₁ * v)).neg.add_left (sk * (i₁ * v) * c)).add z3
    have h4 := (h3.mul_left (v * c)).add_left (t - i₁ * v * s - v * c)
    ring_nf at this h4 ⊢
    exact this.trans h4

/-- Two challenges of the honest prover of the example of C51. -/
def twoRuns : Res (Option (ProofSet × ProofSet)) := do
  let p ← setupSet [1, 5, 9] (some 1234)
  let a ← proveSet (fun _ => List.replicate 32 77) 5 3 p 11 13 17 19
  let b ← proveSet (fun _ => List.replicate 32 78) 5 3 p 11 13 17 19
  match a, b with
  | some a, some b => .ok (some (a, b))
  | _, _ => .ok none

/-- All conditions hold there, and the two proofs give back the element 5, the blinding factor 3 and `v = 13`. -/
example : (match twoRuns with
    | .ok (some (a, b)) => (!a.V.z.isOne) && (!b.V.z.isOne) &&
        decide (NoClash ((5 + ccsH * 3) * a.c) [ccsH * a.zr, a.zsig]) &&
        decide (NoClash ((5 + ccsH * 3) * b.c) [ccsH * b.zr, b.zsig]) &&
        decide (¬ a.c ≡ b.c [ZMOD bnOrder]) && decide (extractRuns a.c b.c a.zsig b.zsig = some 5) &&
        decide (extractRuns a.c b.c a.zr b.zr = some 3) && decide (extractRuns a.c b.c a.zv b.zv = some 13)
    | _ => false) = true := by decide +kernel

/-! ## The digits -/

/-- Points and exponents of a proof for an interval `[0, u^l)` and the conditions of `C54_verdict`. -/
structure ULRun (pr : ProofUL) (p : ParamsUL) (h d γ : Int) (v z w α : Nat → Int) : Prop where
  D : Rep2 pr.D (d • bnG2)
  C : Rep2 pr.C (γ • bnG2)
  c : 0 ≤ pr.c
  zr : 0 ≤ pr.zr
  digits : ∀ j, j < p.l.toNat → ∃ V a, pr.V[j]? = some V ∧ pr.a[j]? = some a ∧ pr.zsig[j]? = some (z j) ∧
    pr.zv[j]? = some (w j) ∧ 0 ≤ z j ∧ 0 ≤ w j ∧ Rep2 V (v j • bnG2) ∧ PairOk V ∧ GExp a (α j)
  noClash : NoClash (γ * pr.c) (h * pr.zr :: wts p.u z 0 p.l.toNat)

theorem wts_runs (u : Int) {σ z₁ z₂ : Nat → Int} {δ : Int} : ∀ (n i : Nat),
    (∀ j, i ≤ j → j < i + n → σ j * δ ≡ z₁ j - z₂ j [ZMOD bnOrder]) →
    (wts u σ i n).sum * δ ≡ (wts u z₁ i n).sum - (wts u z₂ i n).sum [ZMOD bnOrder]
  | 0, i, _ => by simp [wts]
  | n + 1, i, h => by
    have h1 := (h i (le_refl i) (by omega)).mul_right (u ^ i)
    have h2 := wts_runs u n (i + 1) (fun j h1 h2 => h j (by omega) (by omega))
    simp only [wts, List.sum_cons]
    have h3 := h1.add h2
    ring_nf at h3 ⊢
    exact h3

/-- C77: two accepted runs of `VerifyUL` with the same first message and different challenges.  `extractRuns` computes
`σ_j` and `ρ` such that `C` is the commitment of `Σ σ_j u^j` with blinding `ρ`; and for every `j`, `V_j` is infinity, or
`σ_j ≡ -sk`, or the proofs contain (as a root of `V_j`) what `Sign(σ_j, sk)` returns. -/
theorem C77_ul (p : ParamsUL) (pk : CurvePoint) (h sk d γ : Int) (v α z₁ z₂ w₁ w₂ : Nat → Int) (hpk : p.kp.pubk = some pk)
    (hy : Rep1 pk (sk • bnG1)) (hH : Rep2 p.H (h • bnG2)) (pr₁ pr₂ q₁ q₂ : ProofUL)
    (h₁ : ULRun pr₁ p h d γ v z₁ w₁ α) (h₂ : ULRun pr₂ p h d γ v z₂ w₂ α) (hc : ¬ pr₁.c ≡ pr₂.c [ZMOD bnOrder])
    (a₁ : verifyUL pr₁ p = .ok (true, q₁)) (a₂ : verifyUL pr₂ p = .ok (true, q₂)) :
    ∃ σ ρ, (∀ j, extractRuns pr₁.c pr₂.c (z₁ j) (z₂ j) = some (σ j) ∧ 0 ≤ σ j) ∧
      extractRuns pr₁.c pr₂.c pr₁.zr pr₂.zr = some ρ ∧
      Rep2 pr₁.C (((wts p.u σ 0 p.l.toNat).sum + h * ρ) • bnG2) ∧
      ∀ j, j < p.l.toNat → ∃ V ν, pr₁.V[j]? = some V ∧ extractRuns pr₁.c pr₂.c (w₁ j) (w₂ j) = some ν ∧
        (Rep2 V 0 ∨ σ j + sk ≡ 0 [ZMOD bnOrder] ∨
          ∃ sig, rootOf V ν = some sig ∧ bbSign (σ j) sk = .ok (some sig)) := by
  obtain ⟨b, pr', e1, e2⟩ := C54_verdict pr₁ p pk h sk d γ v z₁ w₁ α hpk hy hH h₁.D h₁.C h₁.c h₁.zr h₁.digits h₁.noClash
  rw [a₁] at e1
  obtain ⟨f1, f2⟩ := e2.1 (Prod.mk.inj (Res.ok.inj e1)).1.symm
  obtain ⟨b', pr'', g1, g2⟩ := C54_verdict pr₂ p pk h sk d γ v z₂ w₂ α hpk hy hH h₂.D h₂.C h₂.c h₂.zr h₂.digits h₂.noClash
  rw [a₂] at g1
  obtain ⟨k1, k2⟩ := g2.1 (Prod.mk.inj (Res.ok.inj g1)).1.symm
  obtain ⟨f, hf⟩ := extractRuns_some hc
  have hc' : ¬ pr₂.c - pr₁.c ≡ 0 [ZMOD bnOrder] := by
    rw [Int.modEq_zero_iff_dvd]
    exact fun hd => hc (Int.modEq_iff_dvd.2 hd)
  obtain ⟨r1, _, _, r4⟩ := hf pr₁.zr pr₂.zr
  have hs := wts_runs p.u (σ := fun j => f (z₁ j) (z₂ j)) p.l.toNat 0 (fun j _ _ => (hf (z₁ j) (z₂ j)).2.2.2)
  refine ⟨fun j => f (z₁ j) (z₂ j), _, fun j => ⟨(hf _ _).1, (hf _ _).2.1⟩, r1,
    rep2_congr (order_cancel hc' (runs_opening f1 k1 hs r4)) h₁.C, fun j hj => ?_⟩
  obtain ⟨V, a, e3, _, _, _, _, _, e4, _⟩ := h₁.digits j hj
  obtain ⟨n1, _, _, n4⟩ := hf (w₁ j) (w₂ j)
  exact ⟨V, _, e3, n1, root_signature (v := v j) e4 (order_cancel hc' (runs_exponent (f2 j hj) (k2 j hj) (hf (z₁ j) (z₂ j)).2.2.2 n4))⟩

/-- Parameters for two digits below 4, with the key `sk`. -/
def ulParams (sk : Int) : ParamsUL :=
  ⟨[], G2.scalarBaseMult ccsH, ⟨some (G1.scalarBaseMult CurvePoint.new sk), some sk, false⟩, 4, 2⟩

/-- A proof with two digits in the form of exponents. -/
def ulOf (v d γ α₀ α₁ c zr z₀ z₁ w₀ w₁ : Int) : ProofUL :=
  ⟨[G2.scalarBaseMult v, G2.scalarBaseMult v], G2.scalarBaseMult d, G2.scalarBaseMult γ, [GT.scalarMult utilE α₀, GT.scalarMult utilE α₁],
    [], [], [z₀, z₁], [w₀, w₁], c, 0, zr⟩

theorem ulOf_run {sk h v d γ α₀ α₁ c zr z₀ z₁ w₀ w₁ : Int} (hv : 0 ≤ v) (hok : PairOk (G2.scalarBaseMult v)) (hd : 0 ≤ d) (hγ : 0 ≤ γ)
    (h0 : 0 ≤ α₀) (h1 : 0 ≤ α₁) (hc : 0 ≤ c) (hzr : 0 ≤ zr) (hz0 : 0 ≤ z₀) (hz1 : 0 ≤ z₁) (hw0 : 0 ≤ w₀) (hw1 : 0 ≤ w₁)
    (hn : NoClash (γ * c) [h * zr, z₀ * 4 ^ 0, z₁ * 4 ^ 1]) :
    ULRun (ulOf v d γ α₀ α₁ c zr z₀ z₁ w₀ w₁) (ulParams sk) h d γ (fun _ => v) (fun j => if j = 0 then z₀ else z₁)
      (fun j => if j = 0 then w₀ else w₁) (fun j => if j = 0 then 1 * α₀ else 1 * α₁) where
  D := C36_scalarBaseMult d hd
  C := C36_scalarBaseMult γ hγ
  c := hc
  zr := hzr
  digits j hj := by
    have hj' : j < 2 := hj
    obtain rfl | rfl : j = 0 ∨ j = 1 := by omega
    · exact ⟨_, _, rfl, rfl, rfl, rfl, hz0, hw0, C36_scalarBaseMult v hv, hok, gexp_utilE.scalarMult h0⟩
    · exact ⟨_, _, rfl, rfl, rfl, rfl, hz1, hw1, C36_scalarBaseMult v hv, hok, gexp_utilE.scalarMult h1⟩
  noClash := hn

/-- Accepted proofs of this form. -/
theorem ulOf_accepted {sk v d γ α₀ α₁ c zr z₀ z₁ w₀ w₁ : Int}
    (hr : ULRun (ulOf v d γ α₀ α₁ c zr z₀ z₁ w₀ w₁) (ulParams sk) ccsH d γ (fun _ => v) (fun j => if j = 0 then z₀ else z₁)
      (fun j => if j = 0 then w₀ else w₁) (fun j => if j = 0 then 1 * α₀ else 1 * α₁))
    (e1 : γ * c + ccsH * zr + (z₀ + 4 * z₁) ≡ d [ZMOD bnOrder]) (e2 : sk * v * c - v * z₀ + w₀ ≡ α₀ [ZMOD bnOrder])
    (e3 : sk * v * c - v * z₁ + w₁ ≡ α₁ [ZMOD bnOrder]) :
    ∃ q, verifyUL (ulOf v d γ α₀ α₁ c zr z₀ z₁ w₀ w₁) (ulParams sk) = .ok (true, q) := by
  have hH : Rep2 (ulParams sk).H (ccsH • bnG2) := by
    simp only [ulParams]
    have h0 : 0 ≤ ccsH := by decide +kernel
    exact C36_scalarBaseMult _ h0
  obtain ⟨b, q, f1, f2⟩ := C54_verdict _ (ulParams sk) _ ccsH sk _ _ _ _ _ _ rfl (C34_scalarBaseMult _ _) hH
    hr.D hr.C hr.c hr.zr hr.digits hr.noClash
  have : b = true := by
    refine f2.2 ⟨?_, fun j hj => ?_⟩
    · have hs : (wts (ulParams sk).u (fun j => if j = 0 then z₀ else z₁) 0 (ulParams sk).l.toNat).sum = z₀ + 4 * z₁ := by
        show z₀ * 4 ^ 0 + (z₁ * 4 ^ 1 + 0) = _
        ring
      rw [hs]
      exact e1
    · have hj' : j < 2 := hj
      obtain rfl | rfl : j = 0 ∨ j = 1 := by omega
      · simpa [ulOf] using e2
      · simpa [ulOf] using e3
  exact ⟨q, this ▸ f1⟩

/-- Two accepted runs for `9 = 1 + 2·4` with blinding 3, the key 1234 and the challenges 5 and 6: the digits and the blinding come out. -/
example : ∃ pr₁ pr₂ : ProofUL, pr₁.c = 5 ∧ pr₂.c = 6 ∧ ∃ σ : Nat → Int, extractRuns 5 6 45 44 = some (σ 0) ∧
    extractRuns 5 6 50 48 = some (σ 1) ∧ σ 0 = 1 ∧ σ 1 = 2 ∧ Rep2 pr₁.C ((9 + ccsH * 3) • bnG2) ∧
    ∀ j, j < 2 → ∃ V ν, pr₁.V[j]? = some V ∧ (Rep2 V 0 ∨ σ j + 1234 ≡ 0 [ZMOD bnOrder] ∨
      ∃ sig, rootOf V ν = some sig ∧ bbSign (σ j) 1234 = .ok (some sig)) := by
  obtain ⟨h, hh, h0⟩ : ∃ h, h = ccsH ∧ 0 ≤ h := ⟨ccsH, rfl, by decide +kernel⟩
  have hok : PairOk (G2.scalarBaseMult 7) := fun h => absurd h (by decide +kernel)
  have n1 : NoClash ((9 + h * 3) * 5) [h * 25, 45 * 4 ^ 0, 50 * 4 ^ 1] := by rw [hh]; decide +kernel
  have n2 : NoClash ((9 + h * 3) * 6) [h * 22, 44 * 4 ^ 0, 48 * 4 ^ 1] := by rw [hh]; decide +kernel
  have r1 := ulOf_run (sk := 1234) (d := h * 40 + 290) (α₀ := 99650) (α₁ := 99580) (w₀ := 56775) (w₁ := 56740) (by decide) hok
    (by omega) (by omega) (by decide) (by decide) (by decide) (by decide) (by decide) (by decide) (by decide) (by decide) n1
  have r2 := ulOf_run (sk := 1234) (d := h * 40 + 290) (α₀ := 99650) (α₁ := 99580) (w₀ := 48130) (w₁ := 48088) (by decide) hok
    (by omega) (by omega) (by decide) (by decide) (by decide) (by decide) (by decide) (by decide) (by decide) (by decide) n2
  have a1 := ulOf_accepted (hh ▸ r1) (by rw [← hh]; ring_nf; rfl) (by norm_num) (by norm_num)
  have a2 := ulOf_accepted (hh ▸ r2) (by rw [← hh]; ring_nf; rfl) (by norm_num) (by norm_num)
  obtain ⟨q1, a1⟩ := a1
  obtain ⟨q2, a2⟩ := a2
  rw [← hh] at a1 a2
  have hH : Rep2 (ulParams 1234).H (h • bnG2) := by
    simp only [ulParams]
    rw [← hh]
    exact C36_scalarBaseMult _ h0
  obtain ⟨σ, ρ, s1, -, -, s4⟩ := C77_ul (ulParams 1234) _ h 1234 _ _ _ _ _ _ _ _ rfl (C34_scalarBaseMult _ _) hH _ _ q1 q2 r1 r2
    (show ¬ (5 : Int) ≡ 6 [ZMOD bnOrder] by decide +kernel) a1 a2
  have t0 : extractRuns 5 6 45 44 = some (σ 0) := (s1 0).1
  have t1 : extractRuns 5 6 50 48 = some (σ 1) := (s1 1).1
  refine ⟨ulOf 7 (h * 40 + 290) (9 + h * 3) 99650 99580 5 25 45 50 56775 56740,
    ulOf 7 (h * 40 + 290) (9 + h * 3) 99650 99580 6 22 44 48 48130 48088, rfl, rfl, σ, t0, t1, ?_, ?_, hh ▸ r1.C, fun j hj => ?_⟩
  · rw [show extractRuns 5 6 45 44 = some 1 by decide +kernel] at t0
    exact (Option.some.inj t0).symm
  · rw [show extractRuns 5 6 50 48 = some 2 by decide +kernel] at t1
    exact (Option.some.inj t1).symm
  · obtain ⟨V, ν, e1, -, e2⟩ := s4 j hj
    exact ⟨V, ν, e1, e2⟩

/-- C77: digits in `[0, u)` make a value in `[0, u^l)`. -/
theorem C77_interval (u : Int) (σ : Nat → Int) (l : Nat) (h : ∀ j, j < l → 0 ≤ σ j ∧ σ j < u) :
    0 ≤ (wts u σ 0 l).sum ∧ (wts u σ 0 l).sum < u ^ l := by
  have key : ∀ n i, (∀ j, i ≤ j → j < i + n → 0 ≤ σ j ∧ σ j < u) → 0 ≤ u ^ i →
      0 ≤ (wts u σ i n).sum ∧ (wts u σ i n).sum ≤ u ^ (i + n) - u ^ i := by
    intro n
    induction n with
    | zero => intro i _ _; simp [wts]
    | succ n ih =>
      intro i hj h0
      obtain ⟨a1, a2⟩ := hj i (le_refl i) (by omega)
      obtain ⟨b1, b2⟩ := ih (i + 1) (fun j h1 h2 => hj j (by omega) (by omega)) (by
        rw [pow_succ]; exact mul_nonneg h0 (by omega))
      simp only [wts, List.sum_cons]
      rw [show i + 1 + n = i + (n + 1) by omega, pow_succ] at b2
      have h2 : σ i * u ^ i ≤ (u - 1) * u ^ i := mul_le_mul_of_nonneg_right (by omega) h0
      have h3 : 0 ≤ σ i * u ^ i := mul_nonneg a1 h0
      constructor
      · omega
      · linarith
  obtain ⟨k1, k2⟩ := key l 0 (fun j _ hj => h j (by omega)) (by simp)
  rw [zero_add, pow_zero] at k2
  exact ⟨k1, by omega⟩

example := C77_interval 4 (fun j => [3, 2, 1].getD j 0) 3 (by decide)

/-! ## What else is needed -/

/-- C77: fresh challenges alone are not enough.  With infinity for `V` one first message `V`, `D`, `a` has accepted
answers for every commitment (of any value, in the set or not) and every challenge. -/
theorem C77_infinity (p : ParamsSet) (pk : CurvePoint) (h sk m s t : Int) (hpk : p.kp.pubk = some pk)
    (hy : Rep1 pk (sk • bnG1)) (hH : Rep2 p.H (h • bnG2)) (hm : 0 ≤ m) (hs : 0 ≤ s) (ht : 0 ≤ t)
    (h1 : NoClash (h * m) [s]) :
    ∃ V D a, ∀ x r c, 0 ≤ x → 0 ≤ r → 0 ≤ c → NoClash x [h * r] →
      NoClash ((x + h * r) * c) [h * ((m - r * c) % bnOrder), (s - x * c) % bnOrder] →
      ∃ pr', verifySet ⟨V, D, commit x r p.H, a, s, t, (s - x * c) % bnOrder, t, c, m, (m - r * c) % bnOrder⟩ p =
        .ok (true, pr') := by
  have hD := addSelf_exp2 (scalarMult_exp2 hH m hm) (C36_scalarBaseMult s hs) h1.1
  have hinf : PairOk TwistPoint.new.setInfinity := fun hz => absurd hz (by decide +kernel)
  have ha := gexp_utilE.scalarMult ht
  refine ⟨TwistPoint.new.setInfinity, (G2.scalarMult p.H m).addSelf (G2.scalarBaseMult s), GT.scalarMult utilE t,
    fun x r c hx hr hc h2 hn => ?_⟩
  have hV : Rep2 TwistPoint.new.setInfinity ((0 : Int) • bnG2) := rep2_newInf
  have hC := commit_exp hH hx hr h2
  generalize (G2.scalarMult p.H m).addSelf (G2.scalarBaseMult s) = D at hD
  generalize GT.scalarMult utilE t = a at ha
  generalize TwistPoint.new.setInfinity = V at hV hinf
  generalize commit x r p.H = C at hC
  have z1 : (m - r * c) % bnOrder ≡ m - r * c [ZMOD bnOrder] := Int.mod_modEq _ _
  have z2 : (s - x * c) % bnOrder ≡ s - x * c [ZMOD bnOrder] := Int.mod_modEq _ _
  have y1 := emod_order_nonneg (m - r * c)
  have y2 := emod_order_nonneg (s - x * c)
  generalize (m - r * c) % bnOrder = zr at *
  generalize (s - x * c) % bnOrder = zs at *
  obtain ⟨b, pr', g1, g2⟩ := C51_verdict ⟨V, D, C, a, s, t, zs, t, c, m, zr⟩ p pk h sk 0
    (h * m + s) (x + h * r) (1 * t) hpk hy hH hV hinf hD hC ha hc y1 y2 ht hn
  refine ⟨pr', ?_⟩
  rw [g1, g2.2]
  constructor
  · have := ((z1.mul_left h).add_left ((x + h * r) * c)).add z2
    refine this.trans ?_
    ring_nf
    rfl
  · show sk * 0 * c - 0 * zs + t ≡ 1 * t [ZMOD bnOrder]
    ring_nf
    rfl

/-- The hypotheses for the value 1000, the challenge 7 and the constants of the example of C51. -/
example : NoClash (ccsH * 11) [17] ∧ NoClash 1000 [ccsH * 3] ∧
    NoClash ((1000 + ccsH * 3) * 7) [ccsH * ((11 - 3 * 7) % bnOrder), (17 - 1000 * 7) % bnOrder] := by decide +kernel

/-- C77: fresh challenges and a check of `V` are not enough either, because the logarithm of `H` is known (C63): the
honest prover, given an element `y` of the set and the blinding factor `equivocate x r y`, makes an accepted proof with
the commitment of `x`, whatever `x` is, and whatever hash function computes the challenge. -/
theorem C77_equivocate (sha : List UInt8 → List UInt8) (hsha : ∀ b, (sha b).length = 32) (S : List Int)
    (x r y sk m v s t : Int) (hS : ∀ m ∈ S, ¬ m + sk ≡ 0 [ZMOD bnOrder]) (hy : y ∈ S) (hy0 : 0 ≤ y) (hx0 : 0 ≤ x)
    (hr : 0 ≤ r) (hm : 0 ≤ m) (hv : 0 ≤ v) (hs : 0 ≤ s) (ht : 0 ≤ t) (h1 : NoClash (ccsH * m) [s])
    (h2 : NoClash x [ccsH * r]) (h3 : NoClash y [ccsH * equivocate x r y]) :
    ∃ p pr, setupSet S (some sk) = .ok p ∧ proveSet sha y (equivocate x r y) p m v s t = .ok (some pr) ∧
      (G2.marshal pr.C).1 = (G2.marshal (commit x r p.H)).1 ∧
      (PairOk pr.V → NoClash ((y + ccsH * equivocate x r y) * pr.c) [ccsH * pr.zr, pr.zsig] →
        ∃ pr', verifySet pr p = .ok (true, pr')) := by
  obtain ⟨p, pk, e1, e2, e3, e4, e5, _, e7⟩ := C51_setup S sk hS
  obtain ⟨p', pr, f1, f2, f3⟩ := C51_complete sha hsha S y (equivocate x r y) sk m v s t hS hy hy0 (emod_order_nonneg _) hm hv hs
    ht h1 h3
  obtain rfl : p = p' := Res.ok.inj (e1.symm.trans f1)
  refine ⟨p, pr, e1, f2, ?_, f3⟩
  obtain ⟨o, ho, hsig⟩ := e5 y hy
  obtain ⟨pr', _, g1, _, _, _, g2, _⟩ := C51_proof sha hsha y (equivocate x r y) ccsH sk p m v s t o ho hsig e4 hm hv hs ht h1
  obtain rfl : pr = pr' := Option.some.inj (Res.ok.inj (f2.symm.trans g1))
  rw [g2, e7]
  exact (C63_not_binding x r y hx0 hr hy0 h2 h3).symm

/-- The hypotheses for `x = 1000`, not in {1, 5, 9}, and `y = 5`. -/
example : NoClash (ccsH * 11) [17] ∧ NoClash 1000 [ccsH * 3] ∧ NoClash 5 [ccsH * equivocate 1000 3 5] := by decide +kernel

example : (match (do
      let p ← setupSet [1, 5, 9] (some 1234)
      proveSet (fun _ => List.replicate 32 77) 5 (equivocate 1000 3 5) p 11 13 17 19) with
    | .ok (some pr) => (!pr.V.z.isOne) &&
        decide (NoClash ((5 + ccsH * equivocate 1000 3 5) * pr.c) [ccsH * pr.zr, pr.zsig])
    | _ => false) = true := by decide +kernel

end Verif

import Verif.Props.CcsSound
import Verif.Props.CcsMix

/-!
# C105: accepted ccs08 proofs can be changed into proofs for other commitments
-/

namespace Verif

theorem NoClash.congr : ∀ {ls ms : List Int} {k l : Int}, k ≡ l [ZMOD bnOrder] →
    List.Forall₂ (fun a b => a ≡ b [ZMOD bnOrder]) ls ms → NoClash k ls → NoClash l ms
  | _, _, _, _, _, .nil, _ => trivial
  | _, _, _, _, hk, .cons h hs, ⟨h1, h2⟩ =>
    ⟨h1.imp (fun h' => hk.symm.trans h') (fun h' e => h' (hk.trans (e.trans h.symm))), NoClash.congr (hk.add h) hs h2⟩

theorem modEq_refl_list (ls : List Int) : List.Forall₂ (fun a b => a ≡ b [ZMOD bnOrder]) ls ls := by
  induction ls with
  | nil => exact .nil
  | cons a ls ih => exact .cons rfl ih

/-- C105: `VerifySet` reads the numbers of a proof modulo `Order`, and three of them (`s`, `t`, `m`) not at all. -/
theorem C105_residues (p : ParamsSet) (pk : CurvePoint) (h sk v d γ α : Int) (hpk : p.kp.pubk = some pk)
    (hy : Rep1 pk (sk • bnG1)) (hH : Rep2 p.H (h • bnG2)) (pr : ProofSet) (hr : SetRun pr h v d γ α)
    {c zr zsig zv : Int} (s t m : Int) (hc : 0 ≤ c) (hzr : 0 ≤ zr) (hzs : 0 ≤ zsig) (hzv : 0 ≤ zv)
    (ec : c ≡ pr.c [ZMOD bnOrder]) (er : zr ≡ pr.zr [ZMOD bnOrder]) (es : zsig ≡ pr.zsig [ZMOD bnOrder])
    (ev : zv ≡ pr.zv [ZMOD bnOrder]) :
    ∃ b q q', verifySet pr p = .ok (b, q) ∧
      verifySet { pr with c := c, zr := zr, zsig := zsig, zv := zv, s := s, t := t, m := m } p = .ok (b, q') := by
  obtain ⟨b, q, f1, f2⟩ := C51_verdict pr p pk h sk v d γ α hpk hy hH hr.V hr.ok hr.D hr.C hr.a hr.c hr.zr hr.zsig hr.zv hr.noClash
  obtain ⟨b', q', g1, g2⟩ := C51_verdict { pr with c := c, zr := zr, zsig := zsig, zv := zv, s := s, t := t, m := m } p pk h sk v d γ α
    hpk hy hH hr.V hr.ok hr.D hr.C hr.a hc hzr hzs hzv
    (hr.noClash.congr (ec.symm.mul_left γ) (.cons (er.symm.mul_left h) (.cons es.symm .nil)))
  refine ⟨b, q, q', f1, ?_⟩
  rw [g1]
  have : b' = b := by
    rw [Bool.eq_iff_iff, g2, f2]
    have k1 : γ * c + h * zr + zsig ≡ γ * pr.c + h * pr.zr + pr.zsig [ZMOD bnOrder] :=
      ((ec.mul_left γ).add (er.mul_left h)).add es
    have k2 : sk * v * c - v * zsig + zv ≡ sk * v * pr.c - v * pr.zsig + pr.zv [ZMOD bnOrder] :=
      ((ec.mul_left (sk * v)).sub (es.mul_left v)).add ev
    exact and_congr ⟨fun x => k1.symm.trans x, fun x => k1.trans x⟩ ⟨fun x => k2.symm.trans x, fun x => k2.trans x⟩
  rw [this]

private theorem shift_eq {γ c h zr zr' e : Int} (ez : zr' ≡ zr - c * e [ZMOD bnOrder]) :
    (γ + h * e) * c + h * zr' ≡ γ * c + h * zr [ZMOD bnOrder] := by
  have := (ez.mul_left h).add_left ((γ + h * e) * c)
  refine this.trans ?_
  ring_nf
  rfl

/-- C105: everybody can add a multiple of `H` to the commitment of a proof and correct one number.  `V`, `D`, `a` and the challenge
stay; so the verdict also stays if the verifier recomputes the challenge. -/
theorem C105_shift (p : ParamsSet) (pk : CurvePoint) (h sk v d γ α : Int) (hpk : p.kp.pubk = some pk)
    (hy : Rep1 pk (sk • bnG1)) (hH : Rep2 p.H (h • bnG2)) (pr : ProofSet) (hr : SetRun pr h v d γ α)
    (e : Int) {C : TwistPoint} {zr : Int} (hC : Rep2 C ((γ + h * e) • bnG2)) (hz : 0 ≤ zr)
    (ez : zr ≡ pr.zr - pr.c * e [ZMOD bnOrder])
    (hn : (γ + h * e) * pr.c ≡ 0 [ZMOD bnOrder] ∨ ¬ (γ + h * e) * pr.c ≡ h * zr [ZMOD bnOrder]) :
    ∃ b q q', verifySet pr p = .ok (b, q) ∧ verifySet { pr with C := C, zr := zr } p = .ok (b, q') ∧
      ∀ sha, hashSet sha pr.a pr.D = hashSet sha ({ pr with C := C, zr := zr } : ProofSet).a ({ pr with C := C, zr := zr } : ProofSet).D := by
  obtain ⟨b, q, f1, f2⟩ := C51_verdict pr p pk h sk v d γ α hpk hy hH hr.V hr.ok hr.D hr.C hr.a hr.c hr.zr hr.zsig hr.zv hr.noClash
  have k := shift_eq (γ := γ) (h := h) ez
  obtain ⟨b', q', g1, g2⟩ := C51_verdict { pr with C := C, zr := zr } p pk h sk v d (γ + h * e) α
    hpk hy hH hr.V hr.ok hr.D hC hr.a hr.c hz hr.zsig hr.zv
    ⟨hn, hr.noClash.2.congr k.symm (modEq_refl_list _)⟩
  refine ⟨b, q, q', f1, ?_, fun _ => rfl⟩
  rw [g1]
  have : b' = b := by
    rw [Bool.eq_iff_iff, g2, f2]
    have k1 := k.add_right pr.zsig
    exact and_congr_left fun _ => ⟨fun x => k1.symm.trans x, fun x => k1.trans x⟩
  rw [this]

/-- C105: as the logarithm of `H` is public (C63), the number in the commitment can be moved by any amount: for all `x` there is an
`e` for which adding `e H` is adding `x g`. -/
theorem C105_value (x : Int) : ∃ e, 0 ≤ e ∧ e < bnOrder ∧ ccsH * e ≡ x [ZMOD bnOrder] := by
  obtain ⟨i, -, -, h1⟩ := order_inverse (a := ccsH) (by decide +kernel)
  refine ⟨i * x % bnOrder, emod_order_nonneg _, Int.emod_lt_of_pos _ bnOrder_pos, ?_⟩
  have := ((Int.mod_modEq (i * x) bnOrder).mul_left ccsH).trans (b := ccsH * (i * x)) rfl
  refine this.trans ?_
  rw [show ccsH * (i * x) = i * ccsH * x by ring]
  simpa using h1.mul_right x

/-- C105: everybody can raise `V` and `a` of a proof to the same power, and multiply `zv` by it. -/
theorem C105_scale (p : ParamsSet) (pk : CurvePoint) (h sk v d γ α : Int) (hpk : p.kp.pubk = some pk)
    (hy : Rep1 pk (sk • bnG1)) (hH : Rep2 p.H (h • bnG2)) (pr : ProofSet) (hr : SetRun pr h v d γ α)
    {k zv : Int} (hk : 0 ≤ k) (hk' : ¬ k ≡ 0 [ZMOD bnOrder]) (hz : 0 ≤ zv) (ez : zv ≡ k * pr.zv [ZMOD bnOrder])
    (hok : PairOk (G2.scalarMult pr.V k)) :
    ∃ b q q', verifySet pr p = .ok (b, q) ∧
      verifySet { pr with V := G2.scalarMult pr.V k, a := GT.scalarMult pr.a k, zv := zv } p = .ok (b, q') := by
  obtain ⟨b, q, f1, f2⟩ := C51_verdict pr p pk h sk v d γ α hpk hy hH hr.V hr.ok hr.D hr.C hr.a hr.c hr.zr hr.zsig hr.zv hr.noClash
  obtain ⟨b', q', g1, g2⟩ := C51_verdict { pr with V := G2.scalarMult pr.V k, a := GT.scalarMult pr.a k, zv := zv } p pk h sk (v * k) d γ
    (α * k) hpk hy hH (scalarMult_exp2 hr.V k hk) hok hr.D hr.C (hr.a.scalarMult hk) hr.c hr.zr hr.zsig hz hr.noClash
  refine ⟨b, q, q', f1, ?_⟩
  rw [g1]
  have : b' = b := by
    rw [Bool.eq_iff_iff, g2, f2]
    refine and_congr_right fun _ => ?_
    have k1 : sk * (v * k) * pr.c - v * k * pr.zsig + zv ≡ (sk * v * pr.c - v * pr.zsig + pr.zv) * k [ZMOD bnOrder] := by
      refine (ez.add_left _).trans ?_
      ring_nf
      rfl
    exact ⟨fun x => order_cancel hk' (k1.symm.trans x), fun x => k1.trans (x.mul_right k)⟩
  rw [this]

/-- C105: the same for `VerifyUL`: the commitment can be shifted by a multiple of `H`. -/
theorem C105_ul (p : ParamsUL) (pk : CurvePoint) (h sk d γ : Int) (v z w α : Nat → Int) (hpk : p.kp.pubk = some pk)
    (hy : Rep1 pk (sk • bnG1)) (hH : Rep2 p.H (h • bnG2)) (pr : ProofUL) (hr : ULRun pr p h d γ v z w α)
    (e : Int) {C : TwistPoint} {zr : Int} (hC : Rep2 C ((γ + h * e) • bnG2)) (hz : 0 ≤ zr)
    (ez : zr ≡ pr.zr - pr.c * e [ZMOD bnOrder])
    (hn : (γ + h * e) * pr.c ≡ 0 [ZMOD bnOrder] ∨ ¬ (γ + h * e) * pr.c ≡ h * zr [ZMOD bnOrder]) :
    ∃ b q q', verifyUL pr p = .ok (b, q) ∧ verifyUL { pr with C := C, zr := zr } p = .ok (b, q') := by
  obtain ⟨b, q, f1, f2⟩ := C54_verdict pr p pk h sk d γ v z w α hpk hy hH hr.D hr.C hr.c hr.zr hr.digits hr.noClash
  have k := shift_eq (γ := γ) (h := h) ez
  obtain ⟨b', q', g1, g2⟩ := C54_verdict { pr with C := C, zr := zr } p pk h sk d (γ + h * e) v z w α
    hpk hy hH hr.D hC hr.c hz hr.digits ⟨hn, hr.noClash.2.congr k.symm (modEq_refl_list _)⟩
  refine ⟨b, q, q', f1, ?_⟩
  rw [g1]
  have : b' = b := by
    rw [Bool.eq_iff_iff, g2, f2]
    have k1 := k.add_right (wts p.u z 0 p.l.toNat).sum
    exact and_congr_left fun _ => ⟨fun x => k1.symm.trans x, fun x => k1.trans x⟩
  rw [this]

/-- C105: the two halves of a range proof can be shifted by different multiples. -/
theorem C105_range (p : CcsParams) (pk : CurvePoint) (h sk : Int) (hpk : p.p.kp.pubk = some pk)
    (hy : Rep1 pk (sk • bnG1)) (hH : Rep2 p.p.H (h • bnG2)) (p1 p2 : ProofUL) {d1 d2 γ1 γ2 : Int} {v1 z1 w1 α1 v2 z2 w2 α2 : Nat → Int}
    (hr1 : ULRun p1 p.p h d1 γ1 v1 z1 w1 α1) (hr2 : ULRun p2 p.p h d2 γ2 v2 z2 w2 α2)
    (e1 e2 : Int) {C1 C2 : TwistPoint} {zr1 zr2 : Int} (hC1 : Rep2 C1 ((γ1 + h * e1) • bnG2)) (hC2 : Rep2 C2 ((γ2 + h * e2) • bnG2))
    (h1 : 0 ≤ zr1) (h2 : 0 ≤ zr2) (ez1 : zr1 ≡ p1.zr - p1.c * e1 [ZMOD bnOrder]) (ez2 : zr2 ≡ p2.zr - p2.c * e2 [ZMOD bnOrder])
    (hn1 : (γ1 + h * e1) * p1.c ≡ 0 [ZMOD bnOrder] ∨ ¬ (γ1 + h * e1) * p1.c ≡ h * zr1 [ZMOD bnOrder])
    (hn2 : (γ2 + h * e2) * p2.c ≡ 0 [ZMOD bnOrder] ∨ ¬ (γ2 + h * e2) * p2.c ≡ h * zr2 [ZMOD bnOrder]) :
    ∃ b q q', ccsVerify ⟨some p1, some p2⟩ (some p) = .ok (b, q) ∧
      ccsVerify ⟨some { p1 with C := C1, zr := zr1 }, some { p2 with C := C2, zr := zr2 }⟩ (some p) = .ok (b, q') := by
  obtain ⟨b1, q1, q1', f1, f2⟩ := C105_ul p.p pk h sk d1 γ1 v1 z1 w1 α1 hpk hy hH p1 hr1 e1 hC1 h1 ez1 hn1
  obtain ⟨b2, q2, q2', g1, g2⟩ := C105_ul p.p pk h sk d2 γ2 v2 z2 w2 α2 hpk hy hH p2 hr2 e2 hC2 h2 ez2 hn2
  refine ⟨b1 && b2, ⟨some q1, some q2⟩, ⟨some q1', some q2'⟩, ?_, ?_⟩
  · simp only [ccsVerify, Res.ofOption_some, Res.ok_bind, f1, g1]
  · simp only [ccsVerify, Res.ofOption_some, Res.ok_bind, f2, g2]

/-! ### Instances -/

/-- A proof in the form of exponents. -/
def mallProof (v d γ α c zr zsig zv : Int) : ProofSet :=
  ⟨G2.scalarBaseMult v, G2.scalarBaseMult d, G2.scalarBaseMult γ, GT.scalarMult utilE α, 0, 0, zsig, zv, c, 0, zr⟩

theorem mallProof_run {h v d γ α c zr zsig zv : Int} (hv : 0 ≤ v) (hok : PairOk (G2.scalarBaseMult v)) (hd : 0 ≤ d) (hγ : 0 ≤ γ)
    (hα : 0 ≤ α) (hc : 0 ≤ c) (hzr : 0 ≤ zr) (hzs : 0 ≤ zsig) (hzv : 0 ≤ zv) (hn : NoClash (γ * c) [h * zr, zsig]) :
    SetRun (mallProof v d γ α c zr zsig zv) h v d γ (1 * α) where
  V := C36_scalarBaseMult v hv
  ok := hok
  D := C36_scalarBaseMult d hd
  C := C36_scalarBaseMult γ hγ
  a := gexp_utilE.scalarMult hα
  c := hc
  zr := hzr
  zsig := hzs
  zv := hzv
  noClash := hn

/-- Parameters with the key `sk`. -/
def mallParams (sk : Int) : ParamsSet := ⟨[], G2.scalarBaseMult ccsH, ⟨some (G1.scalarBaseMult CurvePoint.new sk), some sk, false⟩⟩

/-- A proof for a commitment `1000 g`, with the key 1234 and the challenge 5, is accepted.  It is accepted with other numbers, for the
commitment `1001 g`, and with `V` and `a` raised to the third power. -/
example : ∃ (pr q q1 q2 q3 : ProofSet) (C : TwistPoint) (zr : Int), Rep2 pr.C ((1000 : Int) • bnG2) ∧ pr.c = 5 ∧ pr.zv = 17 ∧
    verifySet pr (mallParams 1234) = .ok (true, q) ∧
    verifySet { pr with c := 5 + bnOrder, zr := 11, zsig := 13, zv := 17 + 3 * bnOrder, s := 1, t := 2, m := 3 } (mallParams 1234) =
      .ok (true, q1) ∧
    Rep2 C ((1001 : Int) • bnG2) ∧ verifySet { pr with C := C, zr := zr } (mallParams 1234) = .ok (true, q2) ∧
    verifySet { pr with V := G2.scalarMult pr.V 3, a := GT.scalarMult pr.a 3, zv := 51 } (mallParams 1234) = .ok (true, q3) := by
  have hy : Rep1 (G1.scalarBaseMult CurvePoint.new 1234) ((1234 : Int) • bnG1) := C34_scalarBaseMult _ _
  have hH : Rep2 (mallParams 1234).H (ccsH • bnG2) := by
    simp only [mallParams]
    have h0 : 0 ≤ ccsH := by decide +kernel
    exact C36_scalarBaseMult _ h0
  obtain ⟨d, hd, ed⟩ : ∃ d, 0 ≤ d ∧ 1000 * 5 + ccsH * 11 + 13 ≡ d [ZMOD bnOrder] :=
    ⟨1000 * 5 + ccsH * 11 + 13, by decide +kernel, rfl⟩
  have hr : SetRun (mallProof 7 d 1000 43116 5 11 13 17) ccsH 7 d 1000 (1 * 43116) :=
    mallProof_run (by decide) (fun h => absurd h (by decide +kernel)) hd (by decide) (by decide) (by decide) (by decide) (by decide)
      (by decide) (by decide +kernel)
  generalize epr : mallProof 7 d 1000 43116 5 11 13 17 = pr at hr
  have e1 : pr.c = 5 := by rw [← epr]; rfl
  have e2 : pr.zr = 11 := by rw [← epr]; rfl
  have e3 : pr.zsig = 13 := by rw [← epr]; rfl
  have e4 : pr.zv = 17 := by rw [← epr]; rfl
  have hV : pr.V = G2.scalarBaseMult 7 := by rw [← epr]; rfl
  obtain ⟨b, q, f1, f2⟩ := C51_verdict pr (mallParams 1234) _ ccsH 1234 _ _ _ _ rfl hy hH hr.V hr.ok hr.D hr.C hr.a hr.c hr.zr hr.zsig
    hr.zv hr.noClash
  have hb : b = true := by
    rw [f2, e1, e2, e3, e4]
    exact ⟨ed, by decide +kernel⟩
  subst hb
  obtain ⟨b1, r1, q1, g1, g2⟩ := C105_residues (mallParams 1234) _ ccsH 1234 _ _ _ _ rfl hy hH pr hr (c := 5 + bnOrder) (zr := 11)
    (zsig := 13) (zv := 17 + 3 * bnOrder) 1 2 3 (by decide +kernel) (by decide) (by decide) (by decide +kernel)
    (by rw [e1]; decide +kernel) (by rw [e2]) (by rw [e3]) (by rw [e4]; decide +kernel)
  obtain ⟨e, e0, -, ee⟩ := C105_value 1
  have eC : Rep2 (G2.scalarBaseMult 1001) ((1000 + ccsH * e) • bnG2) :=
    rep2_congr (ee.symm.add_left 1000) (C36_scalarBaseMult 1001 (by decide))
  have ez : (11 - 5 * e) % bnOrder ≡ pr.zr - pr.c * e [ZMOD bnOrder] := by rw [e1, e2]; exact Int.mod_modEq _ _
  obtain ⟨b2, r2, q2, k1, k2, -⟩ := C105_shift (mallParams 1234) _ ccsH 1234 _ _ _ _ rfl hy hH pr hr e eC (emod_order_nonneg _) ez (by
    right
    rw [e1]
    intro hx
    have h1 : (1001 : Int) * 5 ≡ ccsH * 11 - 5 [ZMOD bnOrder] := by
      refine ((ee.symm.add_left 1000).mul_right 5).trans (hx.trans ?_)
      refine ((Int.mod_modEq (11 - 5 * e) bnOrder).mul_left ccsH).trans ?_
      have := (ee.mul_left 5).sub_left (ccsH * 11)
      refine Int.ModEq.trans ?_ this
      ring_nf
      rfl
    exact absurd h1 (by decide +kernel))
  obtain ⟨b3, r3, q3, l1, l2⟩ := C105_scale (mallParams 1234) _ ccsH 1234 _ _ _ _ rfl hy hH pr hr (k := 3) (zv := 51) (by decide)
    (by decide +kernel) (by decide) (by rw [e4]; rfl) (by rw [hV]; exact fun h => absurd h (by decide +kernel))
  rw [f1] at g1 k1 l1
  cases g1
  cases k1
  cases l1
  exact ⟨pr, _, _, _, _, _, _, hr.C, e1, e4, f1, g2, C36_scalarBaseMult 1001 (by decide), k2, l2⟩

/-- An accepted proof for the interval `[0, 16)` and a commitment of 9 with blinding 3. -/
theorem ul_nine : ∃ pr q d, ∃ (v z w α : Nat → Int), pr.c = 5 ∧ pr.zr = 25 ∧ ULRun pr (ulParams 1234) ccsH d (9 + ccsH * 3) v z w α ∧
    verifyUL pr (ulParams 1234) = .ok (true, q) := by
  obtain ⟨h, hh, h0⟩ : ∃ h, h = ccsH ∧ 0 ≤ h := ⟨ccsH, rfl, by decide +kernel⟩
  have hok : PairOk (G2.scalarBaseMult 7) := fun h => absurd h (by decide +kernel)
  have n1 : NoClash ((9 + h * 3) * 5) [h * 25, 45 * 4 ^ 0, 50 * 4 ^ 1] := by rw [hh]; decide +kernel
  have r1 := ulOf_run (sk := 1234) (d := h * 40 + 290) (α₀ := 99650) (α₁ := 99580) (w₀ := 56775) (w₁ := 56740) (by decide) hok
    (by omega) (by omega) (by decide) (by decide) (by decide) (by decide) (by decide) (by decide) (by decide) (by decide) n1
  obtain ⟨q, a1⟩ := ulOf_accepted (hh ▸ r1) (by rw [← hh]; ring_nf; rfl) (by norm_num) (by norm_num)
  rw [← hh] at a1 ⊢
  exact ⟨_, q, _, _, _, _, _, rfl, rfl, r1, a1⟩

/-- It becomes an accepted proof for a commitment of `9 + x` with blinding 3, for all `x` but those that make an addition exceptional.
A range proof with it in both halves becomes an accepted one with commitments of `9 + x` and 9. -/
example (x : Int) (hx : 0 ≤ x) (hx' : ¬ (9 + x + ccsH * 3) * 5 ≡ ccsH * 25 - 5 * x [ZMOD bnOrder]) :
    ∃ (pr pr' q q' : ProofUL), Rep2 pr.C ((9 + ccsH * 3) • bnG2) ∧ Rep2 pr'.C ((9 + x + ccsH * 3) • bnG2) ∧
      verifyUL pr (ulParams 1234) = .ok (true, q) ∧ verifyUL pr' (ulParams 1234) = .ok (true, q') ∧
      ∃ r, ccsVerify ⟨some pr', some pr⟩ (some ⟨ulParams 1234, 0, 16⟩) = .ok (true, r) := by
  obtain ⟨pr, q, d, v, z, w, α, e2, e3, r1, a1⟩ := ul_nine
  obtain ⟨h, hh, h0⟩ : ∃ h, h = ccsH ∧ 0 ≤ h := ⟨ccsH, rfl, by decide +kernel⟩
  have hH : Rep2 (ulParams 1234).H (h • bnG2) := by
    simp only [ulParams]
    rw [← hh]
    exact C36_scalarBaseMult _ h0
  have hpk : (ulParams 1234).kp.pubk = some (G1.scalarBaseMult CurvePoint.new 1234) := by simp only [ulParams]
  rw [← hh] at r1 hx' ⊢
  generalize ulParams 1234 = P at r1 a1 hH hpk ⊢
  obtain ⟨e, e0, -, ee⟩ := C105_value x
  rw [← hh] at ee
  clear hh
  have eC : Rep2 (G2.scalarBaseMult (9 + x + h * 3)) ((9 + h * 3 + h * e) • bnG2) :=
    rep2_congr (by rw [show 9 + x + h * 3 = 9 + h * 3 + x by ring]; exact ee.symm.add_left _)
      (C36_scalarBaseMult (9 + x + h * 3) (by omega))
  have ez : (25 - 5 * e) % bnOrder ≡ 25 - 5 * e [ZMOD bnOrder] := Int.mod_modEq _ _
  have hn : ¬ (9 + h * 3 + h * e) * 5 ≡ h * ((25 - 5 * e) % bnOrder) [ZMOD bnOrder] := fun hc => hx' (by
    have k1 : (9 + x + h * 3) * 5 ≡ (9 + h * 3 + h * e) * 5 [ZMOD bnOrder] := by
      rw [show 9 + x + h * 3 = 9 + h * 3 + x by ring]
      exact (ee.symm.add_left _).mul_right 5
    have k2 : h * (25 - 5 * e) ≡ h * 25 - 5 * x [ZMOD bnOrder] := by
      rw [show h * (25 - 5 * e) = h * 25 - 5 * (h * e) by ring]
      exact (ee.mul_left 5).sub_left _
    exact k1.trans (hc.trans ((ez.mul_left h).trans k2)))
  obtain ⟨b, q1, q2, f1, f2⟩ := C105_ul P _ h 1234 _ _ _ _ _ _ hpk (C34_scalarBaseMult _ _) hH _ r1 e eC
    (emod_order_nonneg _) (by rw [e2, e3]; exact ez) (.inr (by rw [e2]; exact hn))
  rw [a1] at f1
  cases f1
  refine ⟨pr, { pr with C := G2.scalarBaseMult (9 + x + h * 3), zr := (25 - 5 * e) % bnOrder }, _, _, r1.C, C36_scalarBaseMult (9 + x + h * 3) (by omega), a1, f2, ?_⟩
  obtain ⟨b, q3, q4, g1, g2⟩ := C105_range ⟨P, 0, 16⟩ _ h 1234 hpk (C34_scalarBaseMult _ _) hH _ _ r1 r1 e 0 eC
    (by rw [mul_zero, add_zero]; exact r1.C) (emod_order_nonneg _) r1.zr (by rw [e2, e3]; exact ez)
    (by rw [mul_zero, sub_zero]) (.inr (by rw [e2]; exact hn)) (by rw [mul_zero, add_zero]; exact r1.noClash.1)
  have : b = true := by
    simp only [ccsVerify, Res.ofOption_some, Res.ok_bind, a1] at g1
    cases g1
    rfl
  exact ⟨q4, this ▸ g2⟩

/-- Of the last example: `x = 1`. -/
example : ¬ (9 + 1 + ccsH * 3) * 5 ≡ ccsH * 25 - 5 * 1 [ZMOD bnOrder] := by decide +kernel

end Verif

import Verif.Lemmas.Ccs
import Verif.Props.Bytes

/-! # C51, C52, C53: the set-membership proof of ccs08 -/

namespace Verif

/-! ## C51 -/

/-- C51: `SetupSet` signs every element of the set, for every set and every key for which no
element is congruent to `-sk`. -/
theorem C51_setup (S : List Int) (sk : Int) (h : ∀ m ∈ S, ¬ m + sk ≡ 0 [ZMOD bnOrder]) :
    ∃ p pk, setupSet S (some sk) = .ok p ∧ p.kp.pubk = some pk ∧ Rep1 pk (sk • bnG1) ∧
      Rep2 p.H (ccsH • bnG2) ∧ (∀ x ∈ S, ∃ o, p.signatures.lookup x = some o ∧ SigOk sk x o) ∧
      (∀ x, x ∉ S → p.signatures.lookup x = none) ∧ p.H = G2.scalarBaseMult ccsH := by
  obtain ⟨pk, h1, h2⟩ := C50_keygen sk
  obtain ⟨out, h3, h4⟩ := signLoop_spec sk S [] h
  obtain ⟨H, eH, hH⟩ : ∃ H, G2.scalarBaseMult ccsH = H ∧ Rep2 H (ccsH • bnG2) :=
    ⟨_, rfl, C36_scalarBaseMult _ (by decide)⟩
  refine ⟨⟨out, H, keygen (some sk)⟩, pk, ?_, by simp [h1], h2, hH,
    fun x hx => (h4 x).1 hx, fun x hx => (h4 x).2 hx, eH.symm⟩
  have e : (keygen (some sk)).privk = some sk := by rw [h1]
  simp only [setupSet, e, h3, eH, Res.ok_bind]

example := C51_setup [1, 5, 9] 1234 (by decide +kernel)

/-- C51: the second generator is this multiple of the first one, for every set and every key (and for `SetupUL`); its
logarithm is public. -/
theorem C51_generator (S : List Int) (u l : Int) (rnd : Option Int) :
    (∀ p, setupSet S rnd = .ok p →
      p.H = G2.scalarBaseMult 18560948149108576432482904553159745978835170526553990798435819795989606410925) ∧
    (∀ p, setupUL u l rnd = .ok p →
      p.H = G2.scalarBaseMult 18560948149108576432482904553159745978835170526553990798435819795989606410925) := by
  have hh : ccsH = 18560948149108576432482904553159745978835170526553990798435819795989606410925 := by unfold ccsH; rfl
  refine ⟨fun p e => ?_, fun p e => ?_⟩
  · obtain ⟨sigs, -, e⟩ := Res.bind_eq_ok.1 e
    rw [← Res.ok.inj e, hh]
  · obtain ⟨sigs, -, e⟩ := Res.bind_eq_ok.1 e
    rw [← Res.ok.inj e, hh]

/-- C51: if an element is congruent to `-sk`, `SetupSet` panics. -/
theorem C51_setup_panic (S : List Int) (sk : Int) (h : ∃ m ∈ S, m + sk ≡ 0 [ZMOD bnOrder]) :
    setupSet S (some sk) = .panic := by
  obtain ⟨pk, h1, h2⟩ := C50_keygen sk
  have e : (keygen (some sk)).privk = some sk := by rw [h1]
  simp only [setupSet, e, signLoop_panic sk S [] h]
  rfl

/-- The key `Order - 5`. -/
example : setupSet [1, 5, 9] (some (bnOrder - 5)) = .panic := C51_setup_panic _ _ ⟨5, by simp, by decide +kernel⟩

/-- C51: `ProveSet` reports an error exactly when the element has no entry in the map, that is, with
`C51_setup`, when it is not in the set. -/
theorem C51_error (sha : List UInt8 → List UInt8) (x r : Int) (p : ParamsSet) (m v s t : Int) :
    proveSet sha x r p m v s t = .ok none ↔ p.signatures.lookup x = none := by
  unfold proveSet
  cases h : p.signatures.lookup x with
  | none => simp
  | some A =>
    simp only [reduceCtorEq, iff_false]
    intro hc
    simp only [Res.bind_eq_ok] at hc
    obtain ⟨_, _, _, _, _, _, hc⟩ := hc
    cases hc

/-- C51: what `ProveSet` returns for a signed element. -/
theorem C51_proof (sha : List UInt8 → List UInt8) (hsha : ∀ b, (sha b).length = 32) (x r h sk : Int)
    (p : ParamsSet) (m v s t : Int) (o : Option TwistPoint) (ho : p.signatures.lookup x = some o)
    (hsig : SigOk sk x o) (hH : Rep2 p.H (h • bnG2)) (hm : 0 ≤ m) (hv : 0 ≤ v)
    (hs : 0 ≤ s) (ht : 0 ≤ t) (h1 : NoClash (h * m) [s]) :
    ∃ pr i, proveSet sha x r p m v s t = .ok (some pr) ∧ i * (x + sk) ≡ 1 [ZMOD bnOrder] ∧
      Rep2 pr.V ((i * v) • bnG2) ∧ Rep2 pr.D ((h * m + s) • bnG2) ∧ pr.C = commit x r p.H ∧
      (PairOk pr.V → GExp pr.a (t - i * v * s)) ∧ pr.s = s ∧ pr.t = t ∧ pr.m = m ∧
      0 ≤ pr.c ∧ pr.c < bnOrder ∧ pr.zr = (m - r * pr.c) % bnOrder ∧
      pr.zsig = (s - x * pr.c) % bnOrder ∧ pr.zv = (t - v * pr.c) % bnOrder := by
  obtain ⟨sig, i, rfl, hr, hok, hi⟩ := hsig
  have hV := scalarMult_exp2 hr v hv
  have hD := infAdd_exp (addSelf_exp2 (scalarMult_exp2 hH m hm) (C36_scalarBaseMult s hs) h1.1)
  obtain ⟨c, hc⟩ : ∃ c, hashSet sha (ccsA (G2.scalarMult sig v) s t)
      ((TwistPoint.new.setInfinity).addSelf ((G2.scalarMult p.H m).addSelf (G2.scalarBaseMult s))) =
        .ok (some c) := by
    unfold hashSet
    rw [C02_fromByteArray, if_neg]
    · exact ⟨_, rfl⟩
    · intro h0
      have := hsha (GT.string (ccsA (G2.scalarMult sig v) s t) ++ G2.string
        ((TwistPoint.new.setInfinity).addSelf ((G2.scalarMult p.H m).addSelf (G2.scalarBaseMult s))))
      rw [h0] at this
      cases this
  refine ⟨⟨G2.scalarMult sig v,
    (TwistPoint.new.setInfinity).addSelf ((G2.scalarMult p.H m).addSelf (G2.scalarBaseMult s)), commit x r p.H, ccsA (G2.scalarMult sig v) s t, s, t,
    (s - x * (c % bnOrder)) % bnOrder, (t - v * (c % bnOrder)) % bnOrder, c % bnOrder, m,
    (m - r * (c % bnOrder)) % bnOrder⟩, i, ?_, hi, ?_⟩
  rotate_left
  · exact ⟨hV, hD, rfl, fun hok => ccsA_exp hV hok hs ht, rfl, rfl, rfl, emod_order_nonneg _,
      Int.emod_lt_of_pos _ bnOrder_pos, rfl, rfl, rfl⟩
  · unfold proveSet
    simp only [ho, Res.ofOption_some, Res.ok_bind, hc]

/-- C51: verdict of `VerifySet` on every proof made of group elements, in terms of exponents. -/
theorem C51_verdict (pr : ProofSet) (p : ParamsSet) (pk : CurvePoint) (h sk v d γ α : Int)
    (hpk : p.kp.pubk = some pk) (hy : Rep1 pk (sk • bnG1)) (hH : Rep2 p.H (h • bnG2))
    (hV : Rep2 pr.V (v • bnG2)) (hok : PairOk pr.V) (hD : Rep2 pr.D (d • bnG2)) (hC : Rep2 pr.C (γ • bnG2))
    (ha : GExp pr.a α) (hc : 0 ≤ pr.c) (hzr : 0 ≤ pr.zr) (hzs : 0 ≤ pr.zsig) (hzv : 0 ≤ pr.zv)
    (hn : NoClash (γ * pr.c) [h * pr.zr, pr.zsig]) :
    ∃ b pr', verifySet pr p = .ok (b, pr') ∧
      (b = true ↔ γ * pr.c + h * pr.zr + pr.zsig ≡ d [ZMOD bnOrder] ∧
        sk * v * pr.c - v * pr.zsig + pr.zv ≡ α [ZMOD bnOrder]) := by
  refine ⟨_, _, by simp only [verifySet, hpk, Res.ofOption_some, Res.ok_bind]; rfl, ?_⟩
  have h1 := addSelf_exp2 (scalarMult_exp2 hC pr.c hc) (scalarMult_exp2 hH pr.zr hzr) hn.1
  have h2 := addSelf_exp2 h1 (C36_scalarBaseMult pr.zsig hzs) hn.2.1
  rw [Bool.and_eq_true, beq_iff_eq, beq_iff_eq, marshal_exp2 h2 hD,
    (ccsRhs_exp hy hV hok hc hzs hzv).marshal_eq ha]

/-- C51: completeness.  For every set, every element of it that is not negative, every key, blinding
factor and randomness, the proof of `ProveSet` is accepted by `VerifySet`, except when one of the in-place
additions meets equal operands or `V` has the cached coordinate wrong. -/
theorem C51_complete (sha : List UInt8 → List UInt8) (hsha : ∀ b, (sha b).length = 32) (S : List Int)
    (x r sk m v s t : Int) (hS : ∀ m ∈ S, ¬ m + sk ≡ 0 [ZMOD bnOrder]) (hx : x ∈ S) (hx0 : 0 ≤ x) (hr : 0 ≤ r)
    (hm : 0 ≤ m) (hv : 0 ≤ v) (hs : 0 ≤ s) (ht : 0 ≤ t)
    (h1 : NoClash (ccsH * m) [s]) (h2 : NoClash x [ccsH * r]) :
    ∃ p pr, setupSet S (some sk) = .ok p ∧ proveSet sha x r p m v s t = .ok (some pr) ∧
      (PairOk pr.V → NoClash ((x + ccsH * r) * pr.c) [ccsH * pr.zr, pr.zsig] →
        ∃ pr', verifySet pr p = .ok (true, pr')) := by
  obtain ⟨p, pk, e1, e2, e3, e4, e5, _⟩ := C51_setup S sk hS
  obtain ⟨o, ho, hsig⟩ := e5 x hx
  obtain ⟨pr, i, f1, f2, f3, f4, f5, f6, f7, f8, f9, f10, f11, f12, f13, f14⟩ :=
    C51_proof sha hsha x r ccsH sk p m v s t o ho hsig e4 hm hv hs ht h1
  refine ⟨p, pr, e1, f1, fun hok hn => ?_⟩
  obtain ⟨b, pr', g1, g2⟩ := C51_verdict pr p pk ccsH sk (i * v) _ _ _ e2 e3 e4 f3 hok f4
    (f5 ▸ commit_exp e4 hx0 hr h2) (f6 hok) f10
    (by rw [f12]; exact emod_order_nonneg _) (by rw [f13]; exact emod_order_nonneg _) (by rw [f14]; exact emod_order_nonneg _) hn
  refine ⟨pr', ?_⟩
  rw [g1, g2.2]
  have z1 : pr.zr ≡ m - r * pr.c [ZMOD bnOrder] := by rw [f12]; exact Int.mod_modEq _ _
  have z2 : pr.zsig ≡ s - x * pr.c [ZMOD bnOrder] := by rw [f13]; exact Int.mod_modEq _ _
  have z3 : pr.zv ≡ t - v * pr.c [ZMOD bnOrder] := by rw [f14]; exact Int.mod_modEq _ _
  generalize pr.c = c at *
  constructor
  · have := ((z1.mul_left ccsH).add_left ((x + ccsH * r) * c)).add z2
    refine this.trans ?_
    ring_nf
    rfl
  · have := ((z2.mul_left (i * v)).neg.add_left (sk * (i * v) * c)).add z3
    have h3 := (f2.mul_left (v * c)).add_left (t - i * v * s - v * c)
    ring_nf at this h3 ⊢
    exact this.trans h3

example := C51_complete (fun _ => List.replicate 32 77) (fun _ => rfl) [1, 5, 9] 5 3 1234 11 13 17 19 (by decide +kernel) (by decide) (by decide)
  (by decide) (by decide) (by decide) (by decide) (by decide) (by decide +kernel) (by decide +kernel)

/-- C51: verdict of `VerifySet` on a proof whose commitment is not on the curve: it is rejected, unless
the multiple `c·C` is infinite or one of the additions goes back to the curve by coincidence. -/
theorem C51_verdict_off (pr : ProofSet) (p : ParamsSet) (pk : CurvePoint) (h d : Int)
    (hpk : p.kp.pubk = some pk) (hH : Rep2 p.H (h • bnG2)) (hD : Rep2 pr.D (d • bnG2))
    (hd : ¬ d ≡ 0 [ZMOD bnOrder]) (hC : OffTwist pr.C) (hc : 0 ≤ pr.c) (hzr : 0 ≤ pr.zr) (hzs : 0 ≤ pr.zsig)
    (hf : (G2.scalarMult pr.C pr.c).z ≠ .zero)
    (hn : SafeAdds (G2.scalarMult pr.C pr.c) [G2.scalarMult p.H pr.zr, G2.scalarBaseMult pr.zsig]) :
    ∃ pr', verifySet pr p = .ok (false, pr') := by
  have h0 : OffTwist (G2.scalarMult pr.C pr.c) := by
    rw [G2.scalarMult, if_pos hc] at hf ⊢
    exact (hC.mul pr.c).resolve_left hf
  have h1 := h0.safe (fun b hb => by
    rcases List.mem_cons.1 hb with rfl | hb
    · exact ⟨_, scalarMult_exp2 hH _ hzr⟩
    · rw [List.mem_singleton.1 hb]
      exact ⟨_, C36_scalarBaseMult _ hzs⟩) hn
  have h2 := (C39_off _ h1).2 pr.D _ hD (by rwa [ne_eq, bnG2_zsmul_zero])
  simp only [List.foldl_cons, List.foldl_nil] at h2
  simp only [verifySet, hpk, Res.ofOption_some, Res.ok_bind, beq_false_of_ne h2, Bool.false_and]
  exact ⟨_, rfl⟩

/-- C51: completeness fails for negative elements of the set: the honest proof is made but rejected
(under the same exclusion of coincidences). -/
theorem C51_negative (sha : List UInt8 → List UInt8) (hsha : ∀ b, (sha b).length = 32) (S : List Int)
    (x r sk m v s t : Int) (hS : ∀ m ∈ S, ¬ m + sk ≡ 0 [ZMOD bnOrder]) (hx : x ∈ S) (hx0 : x < 0)
    (hxn : ¬ bnOrder ∣ x) (hr : 0 ≤ r) (hm : 0 ≤ m) (hv : 0 ≤ v) (hs : 0 ≤ s) (ht : 0 ≤ t)
    (h1 : NoClash (ccsH * m) [s]) (hd : ¬ ccsH * m + s ≡ 0 [ZMOD bnOrder])
    (h2 : SafeAdds (G2.scalarBaseMult x) [G2.scalarMult (G2.scalarBaseMult ccsH) r]) :
    ∃ p pr, setupSet S (some sk) = .ok p ∧ proveSet sha x r p m v s t = .ok (some pr) ∧
      ((G2.scalarMult pr.C pr.c).z ≠ .zero →
        SafeAdds (G2.scalarMult pr.C pr.c) [G2.scalarMult p.H pr.zr, G2.scalarBaseMult pr.zsig] →
        ∃ pr', verifySet pr p = .ok (false, pr')) := by
  obtain ⟨p, pk, e1, e2, e3, e4, e5, _, e7⟩ := C51_setup S sk hS
  obtain ⟨o, ho, hsig⟩ := e5 x hx
  obtain ⟨pr, i, f1, f2, f3, f4, f5, f6, f7, f8, f9, f10, f11, f12, f13, f14⟩ :=
    C51_proof sha hsha x r ccsH sk p m v s t o ho hsig e4 hm hv hs ht h1
  refine ⟨p, pr, e1, f1, fun hf hn => ?_⟩
  exact C51_verdict_off pr p pk ccsH _ e2 e4 f4 hd (f5 ▸ commit_off e4 hx0 hxn hr (by rw [e7]; exact h2)) f10
    (by rw [f12]; exact emod_order_nonneg _) (by rw [f13]; exact emod_order_nonneg _) hf hn

/-- C51: and an element outside the set gets an error. -/
theorem C51_outside (sha : List UInt8 → List UInt8) (S : List Int) (x r sk m v s t : Int)
    (hS : ∀ m ∈ S, ¬ m + sk ≡ 0 [ZMOD bnOrder]) (hx : x ∉ S) :
    ∃ p, setupSet S (some sk) = .ok p ∧ proveSet sha x r p m v s t = .ok none := by
  obtain ⟨p, pk, e1, _, _, _, _, e6, _⟩ := C51_setup S sk hS
  exact ⟨p, e1, (C51_error sha x r p m v s t).2 (e6 x hx)⟩

example := C51_outside (fun _ => List.replicate 32 77) [1, 5, 9] 7 3 1234 11 13 17 19 (by decide +kernel) (by decide)

/-! ## C52 -/

/-- C52: for every parameter set, every commitment `C` — of whatever value — every challenge, every `V`
and all responses there are `D` and `a` with which `VerifySet` accepts.  No signature and no property
of `C` is needed. -/
theorem C52_set (p : ParamsSet) (pk : CurvePoint) (hp : p.kp.pubk = some pk) (C V : TwistPoint)
    (c zr zsig zv s t m : Int) :
    ∃ D a pr', verifySet ⟨V, D, C, a, s, t, zsig, zv, c, m, zr⟩ p = .ok (true, pr') := by
  refine ⟨((G2.scalarMult C c).addSelf (G2.scalarMult p.H zr)).addSelf (G2.scalarBaseMult zsig),
    ccsRhs pk V c zsig zv, ?_⟩
  simp only [verifySet, hp, Res.ofOption_some, Res.ok_bind, beq_self_eq_true, Bool.and_self]
  exact ⟨_, rfl⟩

/-- Under the key pair for 1, for any statement and challenge. -/
example (H : TwistPoint) := C52_set ⟨[], H, ⟨some .gen, some 1, true⟩⟩ .gen rfl

/-- C52: in particular for the honest parameters of every set there is an accepted proof for the
commitment to every `x`, in the set or not. -/
theorem C52_outside (S : List Int) (sk x r c : Int) (hS : ∀ m ∈ S, ¬ m + sk ≡ 0 [ZMOD bnOrder]) :
    ∃ p pr pr', setupSet S (some sk) = .ok p ∧ pr.C = commit x r p.H ∧ pr.c = c ∧
      verifySet pr p = .ok (true, pr') := by
  obtain ⟨p, pk, e1, e2, _⟩ := C51_setup S sk hS
  obtain ⟨D, a, pr', h⟩ := C52_set p pk e2 (commit x r p.H) .gen c 0 0 0 0 0 0
  exact ⟨p, _, pr', e1, rfl, rfl, h⟩

example := C52_outside [1, 5, 9] 1234 1000 3 42 (by decide +kernel)

/-! ## C53 -/

/-- The secret, the blinding factor and the randomness of `V`, from the fields of the proof. -/
def extractSet (pr : ProofSet) : Option (Int × Int × Int) :=
  (modInverse pr.c bnOrder).map fun ci =>
    ((pr.s - pr.zsig) * ci % bnOrder, (pr.m - pr.zr) * ci % bnOrder, (pr.t - pr.zv) * ci % bnOrder)

theorem extract_digit {c ci s x z : Int} (hci : bnOrder ∣ ci * c - 1) (hz : z = (s - x * c) % bnOrder) :
    (s - z) * ci % bnOrder = x % bnOrder := by
  have h1 : z ≡ s - x * c [ZMOD bnOrder] := by rw [hz]; exact Int.mod_modEq _ _
  have h2 : ci * c ≡ 1 [ZMOD bnOrder] := (Int.modEq_iff_dvd.2 hci).symm
  have h3 := (h1.neg.add_left s).mul_right ci
  have h4 := h2.mul_left x
  ring_nf at h3 h4 ⊢
  exact h3.trans h4

/-- C53: whenever the challenge is not 0 modulo `Order`, the proof object alone determines the secret,
the blinding factor and `v`. -/
theorem C53_set (sha : List UInt8 → List UInt8) (x r : Int) (p : ParamsSet) (m v s t : Int) (pr : ProofSet)
    (h : proveSet sha x r p m v s t = .ok (some pr)) (hc : ¬ pr.c ≡ 0 [ZMOD bnOrder]) :
    extractSet pr = some (x % bnOrder, r % bnOrder, v % bnOrder) := by
  have hf : pr.s = s ∧ pr.t = t ∧ pr.m = m ∧ pr.zsig = (s - x * pr.c) % bnOrder ∧
      pr.zr = (m - r * pr.c) % bnOrder ∧ pr.zv = (t - v * pr.c) % bnOrder := by
    unfold proveSet at h
    split at h
    · cases h
    · simp only [Res.bind_eq_ok] at h
      obtain ⟨_, _, _, _, _, _, h⟩ := h
      cases h
      exact ⟨rfl, rfl, rfl, rfl, rfl, rfl⟩
  obtain ⟨h1, h2, h3, h4, h5, h6⟩ := hf
  have hg := gcd_order_eq_one hc
  rw [Int.gcd_emod] at hg
  obtain ⟨ci, hi, _, _, hd⟩ := (modInverse_spec pr.c bnOrder (ne_of_gt bnOrder_pos)).1 hg
  rw [extractSet, hi, Option.map_some, h1, h2, h3, extract_digit hd h4, extract_digit hd h5,
    extract_digit hd h6]

/-- C53: an element of the set is a 64-bit number, so it is determined exactly. -/
theorem C53_exact (x y : Int) (hx : -2 ^ 63 ≤ x ∧ x < 2 ^ 63) (hy : -2 ^ 63 ≤ y ∧ y < 2 ^ 63)
    (h : x % bnOrder = y % bnOrder) : x = y := by
  obtain ⟨k, hk⟩ := Int.ModEq.dvd (show x ≡ y [ZMOD bnOrder] from h)
  have hb : (2 : Int) ^ 64 < bnOrder := by decide +kernel
  rcases lt_trichotomy k 0 with h0 | h0 | h0
  · nlinarith
  · rw [h0, mul_zero] at hk; omega
  · nlinarith

/-! ## A concrete case -/

/-- All hypotheses of `C51_complete` and `C53_set` hold for the set {1, 5, 9}, the element 5, the key
1234 and small randomness, with a constant hash function. -/
def setExample : Res (Option (ParamsSet × ProofSet)) := do
  let p ← setupSet [1, 5, 9] (some 1234)
  let pr ← proveSet (fun _ => List.replicate 32 77) 5 3 p 11 13 17 19
  .ok (pr.map fun q => (p, q))

example : (∀ m ∈ [(1 : Int), 5, 9], ¬ m + 1234 ≡ 0 [ZMOD bnOrder]) ∧ NoClash (ccsH * 11) [17] ∧
    NoClash 5 [ccsH * 3] := by decide +kernel


example : (match setExample with
    | .ok (some (_, pr)) => (!pr.V.z.isOne) && decide (NoClash ((5 + ccsH * 3) * pr.c) [ccsH * pr.zr, pr.zsig]) &&
        decide (¬ pr.c ≡ 0 [ZMOD bnOrder]) && decide (extractSet pr = some (5, 3, 13))
    | _ => false) = true := by decide +kernel

/-- The hypotheses of `C51_negative` for the set {-5, 1, 9} and the element -5; the proof is rejected. -/
def setNegative : Res (Option (ParamsSet × ProofSet)) := do
  let p ← setupSet [-5, 1, 9] (some 1234)
  let pr ← proveSet (fun _ => List.replicate 31 0 ++ [7]) (-5) 1 p 11 13 17 19
  .ok (pr.map fun q => (p, q))

example : (∀ m ∈ [(-5 : Int), 1, 9], ¬ m + 1234 ≡ 0 [ZMOD bnOrder]) ∧ ¬ bnOrder ∣ -5 ∧
    NoClash (ccsH * 11) [17] ∧ ¬ ccsH * 11 + 17 ≡ 0 [ZMOD bnOrder] ∧
    SafeAdds (G2.scalarBaseMult (-5)) [G2.scalarMult (G2.scalarBaseMult ccsH) 1] := by decide +kernel

example : (match setNegative with
    | .ok (some (p, pr)) => decide ((G2.scalarMult pr.C pr.c).z ≠ .zero) &&
        decide (SafeAdds (G2.scalarMult pr.C pr.c) [G2.scalarMult p.H pr.zr, G2.scalarBaseMult pr.zsig])
    | _ => false) = true := by decide +kernel

/-- A set with an element congruent to `-sk`. -/
example : ∃ m ∈ [(1 : Int), 5, 9], m + (bnOrder - 5) ≡ 0 [ZMOD bnOrder] := ⟨5, by simp, by decide +kernel⟩

end Verif

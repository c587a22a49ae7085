import Verif.Lemmas.CcsUL
import Verif.Props.CcsSet

/-! # C52-C55: the interval proofs of ccs08 -/

namespace Verif

open Spec

/-! ## C54 -/

/-- C54: `SetupUL` signs the numbers `0, …, u-1`, for every `u`, `l` and every key for which none of
them is congruent to `-sk`. -/
theorem C54_setup (u l sk : Int) (h : ∀ m, 0 ≤ m → m < u → ¬ m + sk ≡ 0 [ZMOD bnOrder]) :
    ∃ p pk, setupUL u l (some sk) = .ok p ∧ p.u = u ∧ p.l = l ∧ p.kp.pubk = some pk ∧ Rep1 pk (sk • bnG1) ∧
      Rep2 p.H (ccsH • bnG2) ∧ ∀ x, (0 ≤ x ∧ x < u → ∃ o, p.signatures.lookup x = some o ∧ SigOk sk x o) ∧
        (¬ (0 ≤ x ∧ x < u) → p.signatures.lookup x = none) ∧ p.H = G2.scalarBaseMult ccsH := by
  obtain ⟨pk, h1, h2⟩ := C50_keygen sk
  have hmem : ∀ x, x ∈ (List.range u.toNat).map Int.ofNat ↔ 0 ≤ x ∧ x < u := by
    intro x
    simp only [List.mem_map, List.mem_range, Int.ofNat_eq_natCast]
    constructor
    · rintro ⟨a, ha, rfl⟩; omega
    · exact fun hx => ⟨x.toNat, by omega, by omega⟩
  obtain ⟨out, h3, h4⟩ := signLoop_spec sk ((List.range u.toNat).map Int.ofNat) []
    (fun m hm => h m ((hmem m).1 hm).1 ((hmem m).1 hm).2)
  obtain ⟨H, eH, hH⟩ : ∃ H, G2.scalarBaseMult ccsH = H ∧ Rep2 H (ccsH • bnG2) :=
    ⟨_, rfl, C36_scalarBaseMult _ (by decide)⟩
  refine ⟨⟨out, H, keygen (some sk), u, l⟩, pk, ?_, rfl, rfl, by simp [h1], h2, hH,
    fun x => ⟨fun hx => (h4 x).1 ((hmem x).2 hx), fun hx => (h4 x).2 (fun hc => hx ((hmem x).1 hc)), eH.symm⟩⟩
  have e : (keygen (some sk)).privk = some sk := by rw [h1]
  simp only [setupUL, e, h3, eH, Res.ok_bind]

example := C54_setup 4 3 1234 (by intro m h0 h1; interval_cases m <;> decide +kernel)

/-- C54: what `ProveUL` returns, for all `x` (in the interval or not). -/
theorem C54_proof (sha : List UInt8 → List UInt8) (hsha : ∀ b, (sha b).length = 32) (x r h sk : Int)
    (p : ParamsUL) (m : Int) (v s t : Nat → Int) (hu : 1 ≤ p.u) (hl : 0 ≤ p.l)
    (hsig : ∀ d, 0 ≤ d ∧ d < p.u → ∃ o, p.signatures.lookup d = some o ∧ SigOk sk d o)
    (hH : Rep2 p.H (h • bnG2)) (hm : 0 ≤ m) (hv : ∀ j, 0 ≤ v j)
    (hs : ∀ j, 0 ≤ s j) (ht : ∀ j, 0 ≤ t j) (h1 : NoClash (h * m) (wts p.u s 0 p.l.toNat)) :
    ∃ (ds : List Int) (pr : ProofUL) (e d : Nat → Int), decompose x p.u p.l = .ok ds ∧ ds.length = p.l.toNat ∧
      proveUL sha x r p m v s t = .ok (some pr) ∧
      Rep2 pr.D ((h * m + (wts p.u s 0 p.l.toNat).sum) • bnG2) ∧ pr.C = commit x r p.H ∧
      (∀ j, j < p.l.toNat → ds[j]? = some (d j) ∧ e j * (d j + sk) ≡ 1 [ZMOD bnOrder] ∧
        ∃ V a, pr.V[j]? = some V ∧ pr.a[j]? = some a ∧ Rep2 V ((e j * v j) • bnG2) ∧
          (PairOk V → GExp a (t j - e j * v j * s j)) ∧
          pr.zsig[j]? = some ((s j - d j * pr.c) % bnOrder) ∧ pr.zv[j]? = some ((t j - v j * pr.c) % bnOrder)) ∧
      pr.s = firsts s p.l.toNat ∧ pr.t = firsts t p.l.toNat ∧ pr.m = m ∧
      0 ≤ pr.c ∧ pr.c < bnOrder ∧ pr.zr = (m - r * pr.c) % bnOrder := by
  obtain ⟨ds, hd, hdl, hdr, _⟩ := C08_decompose x p.u p.l hu hl
  have hlen : ds.length = p.l.toNat := by omega
  obtain ⟨D, Vs, as, g1, g2, g3, g4, g5⟩ := proveULLoop_spec p sk v s t hv hs ht ds 0 _ _ (scalarMult_exp2 hH m hm)
    (fun d hd => hsig d (hdr d hd)) (by rw [hlen]; exact h1)
  rw [hlen] at g2
  obtain ⟨c, hc⟩ : ∃ c, hashUL sha as ((TwistPoint.new.setInfinity).addSelf D) = .ok (some c) := by
    unfold hashUL
    rw [C02_fromByteArray, if_neg]
    · exact ⟨_, rfl⟩
    · intro h0
      have := hsha ((as.map GT.string).flatten ++ G2.string ((TwistPoint.new.setInfinity).addSelf D))
      rw [h0] at this
      cases this
  have hex : ∀ j, ∃ d e : Int, j < p.l.toNat → ds[j]? = some d ∧ e * (d + sk) ≡ 1 [ZMOD bnOrder] ∧
      ∃ V a, Vs[j]? = some V ∧ as[j]? = some a ∧ Rep2 V ((e * v j) • bnG2) ∧
        (PairOk V → GExp a (t j - e * v j * s j)) := by
    intro j
    by_cases hj : j < p.l.toNat
    · have hj' : j < ds.length := by omega
      have e1 : ds[j]? = some ds[j] := List.getElem?_eq_getElem hj'
      obtain ⟨e, V, a, f1, f2, f3, f4, f5⟩ := g5 j ds[j] e1
      rw [zero_add] at f4 f5
      exact ⟨ds[j], e, fun _ => ⟨e1, f3, V, a, f1, f2, f4, f5⟩⟩
    · exact ⟨0, 0, fun hc => absurd hc hj⟩
  choose d e hde using hex
  refine ⟨ds, ⟨Vs, (TwistPoint.new.setInfinity).addSelf D, commit x r p.H, as, firsts s ds.length,
    firsts t ds.length,
    List.zipWith (fun si d => (si - d * (c % bnOrder)) % bnOrder) (firsts s ds.length) ds,
    List.zipWith (fun ti vi => (ti - vi * (c % bnOrder)) % bnOrder) (firsts t ds.length) (firsts v ds.length),
    c % bnOrder, m, (m - r * (c % bnOrder)) % bnOrder⟩, e, d, hd, hlen, ?_, infAdd_exp g2,
    rfl, ?_, by rw [hlen], by rw [hlen], rfl, emod_order_nonneg _,
    Int.emod_lt_of_pos _ bnOrder_pos, rfl⟩
  · unfold proveUL
    simp only [hd, Res.ok_bind, g1, hc, Res.ofOption_some]
  · intro j hj
    obtain ⟨f1, f2, V, a, f3, f4, f5, f6⟩ := hde j hj
    have hj' : j < ds.length := by omega
    have e1 : ∀ f : Nat → Int, (firsts f ds.length)[j]? = some (f j) := by
      intro f
      simp [firsts, hj']
    exact ⟨f1, f2, V, a, f3, f4, f5, f6, by simp only [List.getElem?_zipWith, e1, f1],
      by simp only [List.getElem?_zipWith, e1]⟩

/-- C54: verdict of `VerifyUL` on every proof made of group elements, in terms of exponents. -/
theorem C54_verdict (pr : ProofUL) (p : ParamsUL) (pk : CurvePoint) (h sk d γ : Int) (v z w α : Nat → Int)
    (hpk : p.kp.pubk = some pk) (hy : Rep1 pk (sk • bnG1)) (hH : Rep2 p.H (h • bnG2))
    (hD : Rep2 pr.D (d • bnG2)) (hC : Rep2 pr.C (γ • bnG2)) (hc : 0 ≤ pr.c) (hzr : 0 ≤ pr.zr)
    (hi : ∀ j, j < p.l.toNat → ∃ V a, pr.V[j]? = some V ∧ pr.a[j]? = some a ∧ pr.zsig[j]? = some (z j) ∧
        pr.zv[j]? = some (w j) ∧ 0 ≤ z j ∧ 0 ≤ w j ∧ Rep2 V (v j • bnG2) ∧ PairOk V ∧ GExp a (α j))
    (hn : NoClash (γ * pr.c) (h * pr.zr :: wts p.u z 0 p.l.toNat)) :
    ∃ b pr', verifyUL pr p = .ok (b, pr') ∧
      (b = true ↔ γ * pr.c + h * pr.zr + (wts p.u z 0 p.l.toNat).sum ≡ d [ZMOD bnOrder] ∧
        ∀ j, j < p.l.toNat → sk * v j * pr.c - v j * z j + w j ≡ α j [ZMOD bnOrder]) := by
  obtain ⟨hn1, hn2⟩ := hn
  have h1 := addSelf_exp2 (scalarMult_exp2 hC pr.c hc) (scalarMult_exp2 hH pr.zr hzr) hn1
  obtain ⟨D', e1, e2⟩ := verifyULD_spec p.u pr.zsig z p.l.toNat 0 _ _ h1 (fun j _ hj => by
    obtain ⟨V, a, _, _, f, _⟩ := hi j (by omega)
    exact f) hn2
  obtain ⟨b, as, f1, f2⟩ := verifyULA_spec pk pr sk v z w α hy hc p.l.toNat 0 true
    (fun j _ hj => hi j (by omega))
  refine ⟨_, _, by simp only [verifyUL, e1, Res.ok_bind, hpk, f1]; rfl, ?_⟩
  rw [Bool.and_eq_true, beq_iff_eq, marshal_exp2 e2 hD, f2]
  refine and_congr_right fun _ => ⟨fun hh j hj => hh.2 j (by omega) (by omega),
    fun hh => ⟨rfl, fun j _ hj => hh j (by omega)⟩⟩

/-- C54: verdict of `VerifyUL` on a proof whose commitment is not on the curve: it is rejected, unless
the multiple `c·C` is infinite or one of the additions goes back to the curve by coincidence. -/
theorem C54_verdict_off (pr : ProofUL) (p : ParamsUL) (pk : CurvePoint) (h d : Int) (z : Nat → Int)
    (hpk : p.kp.pubk = some pk) (hH : Rep2 p.H (h • bnG2))
    (hD : Rep2 pr.D (d • bnG2)) (hd : ¬ d ≡ 0 [ZMOD bnOrder]) (hC : OffTwist pr.C) (hc : 0 ≤ pr.c)
    (hzr : 0 ≤ pr.zr)
    (hi : ∀ j, j < p.l.toNat → ∃ V a w, pr.V[j]? = some V ∧ pr.a[j]? = some a ∧ pr.zsig[j]? = some (z j) ∧
        pr.zv[j]? = some w)
    (hf : (G2.scalarMult pr.C pr.c).z ≠ .zero)
    (hn : SafeAdds (G2.scalarMult pr.C pr.c) (G2.scalarMult p.H pr.zr :: ulPoints p.u z 0 p.l.toNat)) :
    ∃ pr', verifyUL pr p = .ok (false, pr') := by
  have h0 : OffTwist (G2.scalarMult pr.C pr.c) := by
    rw [G2.scalarMult, if_pos hc] at hf ⊢
    exact (hC.mul pr.c).resolve_left hf
  have h1 := h0.safe (fun b hb => by
    rcases List.mem_cons.1 hb with rfl | hb
    · exact ⟨_, scalarMult_exp2 hH _ hzr⟩
    · obtain ⟨k, _, rfl⟩ := List.mem_map.1 hb
      exact ⟨_, C36_scalarBaseMult _ (emod_order_nonneg k)⟩) hn
  have h2 := (C39_off _ h1).2 pr.D _ hD (by rwa [ne_eq, bnG2_zsmul_zero])
  rw [List.foldl_cons] at h2
  obtain ⟨b, as, ha⟩ := verifyULA_total pk pr p.l.toNat 0 true (fun j _ hj => by
    obtain ⟨V, a, w, g⟩ := hi j (by omega)
    exact ⟨V, a, z j, w, g⟩)
  have he := verifyULD_foldl p.u pr.zsig z p.l.toNat 0
    ((G2.scalarMult pr.C pr.c).addSelf (G2.scalarMult p.H pr.zr)) (fun j _ hj => by
      obtain ⟨V, a, w, _, _, g, _⟩ := hi j (by omega)
      exact g)
  simp only [verifyUL, he, hpk, ha, Res.ok_bind, beq_false_of_ne h2, Bool.false_and]
  exact ⟨_, rfl⟩

/-- C54: for every `u ≥ 1`, `l ≥ 0`, every key, every `x ≥ 0` and blinding factor and all randomness,
`ProveUL` succeeds and, unless an in-place addition meets equal operands or a `V[i]` has its cached
coordinate wrong, `VerifyUL` accepts exactly when `c·(x - x mod u^l) ≡ 0`. -/
theorem C54_honest (sha : List UInt8 → List UInt8) (hsha : ∀ b, (sha b).length = 32) (u l sk x r m : Int)
    (v s t : Nat → Int) (hu : 1 ≤ u) (hl : 0 ≤ l)
    (hk : ∀ m, 0 ≤ m → m < u → ¬ m + sk ≡ 0 [ZMOD bnOrder]) (hx : 0 ≤ x) (hr : 0 ≤ r) (hm : 0 ≤ m)
    (hv : ∀ j, 0 ≤ v j) (hs : ∀ j, 0 ≤ s j) (ht : ∀ j, 0 ≤ t j)
    (h1 : NoClash (ccsH * m) (wts u s 0 l.toNat)) (h2 : NoClash x [ccsH * r]) :
    ∃ p pr z, setupUL u l (some sk) = .ok p ∧ proveUL sha x r p m v s t = .ok (some pr) ∧
      (∀ j, j < l.toNat → pr.zsig[j]? = some (z j)) ∧ 0 ≤ pr.c ∧ pr.c < bnOrder ∧
      ((∀ V ∈ pr.V, PairOk V) →
        NoClash ((x + ccsH * r) * pr.c) (ccsH * pr.zr :: wts u z 0 l.toNat) →
        ∃ b pr', verifyUL pr p = .ok (b, pr') ∧
          (b = true ↔ pr.c * (x - x % u ^ l.toNat) ≡ 0 [ZMOD bnOrder])) := by
  obtain ⟨p, pk, e1, rfl, rfl, e2, e3, e4, e5⟩ := C54_setup u l sk hk
  generalize ccsH = h at *
  obtain ⟨ds, pr, e, d, f1, f2, f3, f4, f5, f6, f7, f8, f9, f10, f11, f12⟩ :=
    C54_proof sha hsha x r h sk p m v s t hu hl (fun d hd => (e5 d).1 hd) e4 hm hv hs ht h1
  refine ⟨p, pr, fun j => (s j - d j * pr.c) % bnOrder, e1, f3, fun j hj => ?_, f10, f11, fun hok hn => ?_⟩
  · obtain ⟨_, _, V, a, _, _, _, _, g, _⟩ := f6 j hj
    exact g
  obtain ⟨b, pr', g1, g2⟩ := C54_verdict pr p pk h sk _ _ (fun j => e j * v j) _
    (fun j => (t j - v j * pr.c) % bnOrder) (fun j => t j - e j * v j * s j) e2 e3 e4 f4
    (f5 ▸ commit_exp e4 hx hr h2) f10
    (by rw [f12]; exact emod_order_nonneg _) (fun j hj => by
      obtain ⟨_, _, V, a, k1, k2, k3, k4, k5, k6⟩ := f6 j hj
      have hV := hok V (List.mem_of_getElem? k1)
      exact ⟨V, a, k1, k2, k5, k6, emod_order_nonneg _, emod_order_nonneg _, k3, hV, k4 hV⟩) hn
  refine ⟨b, pr', g1, g2.trans ?_⟩
  obtain ⟨ds', w1, _, _, w2⟩ := C08_decompose x p.u p.l hu hl
  obtain rfl : ds = ds' := by rw [f1] at w1; exact Res.ok.inj w1
  have hw : (wts p.u d 0 p.l.toNat).sum = x % p.u ^ p.l.toNat := by
    rw [← f2, wts_weighted p.u ds 0 d (fun j hj => by rw [zero_add]; exact (f6 j (by omega)).1), w2,
      pow_zero, one_mul, f2]
  have z1 : pr.zr ≡ m - r * pr.c [ZMOD bnOrder] := by rw [f12]; exact Int.mod_modEq _ _
  have z2 := wts_congr p.u (f := s) (g := fun j => (s j - d j * pr.c) % bnOrder) (c := pr.c) (d := d)
    p.l.toNat 0 (fun j _ _ => Int.mod_modEq _ _)
  rw [hw] at z2
  constructor
  · rintro ⟨q, _⟩
    have q1 := ((z1.mul_left h).add_left ((x + h * r) * pr.c)).add z2
    have q2 := (q1.symm.trans q).sub_right (h * m + (wts p.u s 0 p.l.toNat).sum)
    ring_nf at q2 ⊢
    exact q2
  · intro q
    refine ⟨?_, fun j hj => ?_⟩
    · have q1 := ((z1.mul_left h).add_left ((x + h * r) * pr.c)).add z2
      refine q1.trans ?_
      have q2 := q.add_right (h * m + (wts p.u s 0 p.l.toNat).sum)
      ring_nf at q2 ⊢
      exact q2
    · obtain ⟨_, he, _⟩ := f6 j hj
      have y2 : (s j - d j * pr.c) % bnOrder ≡ s j - d j * pr.c [ZMOD bnOrder] := Int.mod_modEq _ _
      have y3 : (t j - v j * pr.c) % bnOrder ≡ t j - v j * pr.c [ZMOD bnOrder] := Int.mod_modEq _ _
      have := ((y2.mul_left (e j * v j)).neg.add_left (sk * (e j * v j) * pr.c)).add y3
      have h3 := (he.mul_left (v j * pr.c)).add_left (t j - e j * v j * s j - v j * pr.c)
      generalize (s j - d j * pr.c) % bnOrder = A at *
      generalize (t j - v j * pr.c) % bnOrder = B at *
      ring_nf at this h3 ⊢
      exact this.trans h3

example := C54_honest (fun _ => List.replicate 32 77) (fun _ => rfl) 4 3 1234 27 3 11 (fun j => 13 + j) (fun j => 17 + j) (fun j => 19 + j)
  (by decide) (by decide) (by intro m h0 h1; interval_cases m <;> decide +kernel) (by decide) (by decide) (by decide)
  (fun j => by positivity) (fun j => by positivity) (fun j => by positivity) (by decide +kernel) (by decide +kernel)

/-- C54: for `x < 0` (not a multiple of `Order`) `ProveUL` succeeds too; the commitment is not on the
curve, and `VerifyUL` rejects, coincidences excepted. -/
theorem C54_negative (sha : List UInt8 → List UInt8) (hsha : ∀ b, (sha b).length = 32) (u l sk x r m : Int)
    (v s t : Nat → Int) (hu : 1 ≤ u) (hl : 0 ≤ l)
    (hk : ∀ m, 0 ≤ m → m < u → ¬ m + sk ≡ 0 [ZMOD bnOrder]) (hx : x < 0) (hxn : ¬ bnOrder ∣ x)
    (hr : 0 ≤ r) (hm : 0 ≤ m) (hv : ∀ j, 0 ≤ v j) (hs : ∀ j, 0 ≤ s j) (ht : ∀ j, 0 ≤ t j)
    (h1 : NoClash (ccsH * m) (wts u s 0 l.toNat))
    (hd : ¬ ccsH * m + (wts u s 0 l.toNat).sum ≡ 0 [ZMOD bnOrder])
    (h2 : SafeAdds (G2.scalarBaseMult x) [G2.scalarMult (G2.scalarBaseMult ccsH) r]) :
    ∃ p pr z, setupUL u l (some sk) = .ok p ∧ proveUL sha x r p m v s t = .ok (some pr) ∧ OffTwist pr.C ∧
      (∀ j, j < l.toNat → pr.zsig[j]? = some (z j)) ∧ 0 ≤ pr.c ∧ pr.c < bnOrder ∧
      ((G2.scalarMult pr.C pr.c).z ≠ .zero →
        SafeAdds (G2.scalarMult pr.C pr.c) (G2.scalarMult p.H pr.zr :: ulPoints u z 0 l.toNat) →
        ∃ pr', verifyUL pr p = .ok (false, pr')) := by
  obtain ⟨p, pk, e1, rfl, rfl, e2, e3, e4, e5⟩ := C54_setup u l sk hk
  obtain ⟨ds, pr, e, d, f1, f2, f3, f4, f5, f6, f7, f8, f9, f10, f11, f12⟩ :=
    C54_proof sha hsha x r ccsH sk p m v s t hu hl (fun d hd => (e5 d).1 hd) e4 hm hv hs ht h1
  have hC : OffTwist pr.C := f5 ▸ commit_off e4 hx hxn hr (by rw [(e5 0).2.2]; exact h2)
  refine ⟨p, pr, fun j => (s j - d j * pr.c) % bnOrder, e1, f3, hC, fun j hj => ?_, f10, f11, fun hf hn => ?_⟩
  · obtain ⟨_, _, V, a, _, _, _, _, g, _⟩ := f6 j hj
    exact g
  exact C54_verdict_off pr p pk ccsH _ _ e2 e4 f4 hd hC f10 (by rw [f12]; exact emod_order_nonneg _)
    (fun j hj => by
      obtain ⟨_, _, V, a, k1, k2, k3, k4, k5, k6⟩ := f6 j hj
      exact ⟨V, a, _, k1, k2, k5, k6⟩) hf hn

/-- C54: with a base `u ≤ 0` and a length `l ≥ 1` no proof is ever made: `ProveUL` panics for `u = 0`
and returns an error for `u < 0`; a negative length panics. -/
theorem C54_bad_parameters (sha : List UInt8 → List UInt8) (u l sk x r m : Int) (v s t : Nat → Int)
    (h : (u ≤ 0 ∧ 1 ≤ l) ∨ l < 0) :
    ∀ p, setupUL u l (some sk) = .ok p →
      proveUL sha x r p m v s t = if l < 0 ∨ u = 0 then .panic else .ok none := by
  intro p hp
  have hul : p.u = u ∧ p.l = l ∧ (u ≤ 0 → p.signatures = []) := by
    simp only [setupUL, Res.bind_eq_ok] at hp
    obtain ⟨out, h1, h2⟩ := hp
    cases h2
    refine ⟨rfl, rfl, fun hu => ?_⟩
    have hr : u.toNat = 0 := by omega
    rw [hr] at h1
    exact (Res.ok.inj h1).symm
  obtain ⟨rfl, rfl, hsig⟩ := hul
  by_cases hl : p.l < 0
  · rw [if_pos (Or.inl hl), proveUL, decompose, if_pos hl]; rfl
  · obtain ⟨hu, hl1⟩ := h.resolve_right hl
    by_cases h0 : p.u = 0
    · rw [if_pos (Or.inr h0), proveUL, h0, C08_zero_base x p.l hl1]; rfl
    · rw [if_neg (by simp [hl, h0])]
      obtain ⟨n, hn⟩ : ∃ n, p.l.toNat = n + 1 := ⟨p.l.toNat - 1, by omega⟩
      obtain ⟨d, ds, hds⟩ : ∃ d ds, decompose x p.u p.l = .ok (d :: ds) := by
        rw [decompose, if_neg hl, hn]
        have tot : ∀ n y, ∃ ds, decomposeLoop p.u n y = .ok ds := by
          intro n
          induction n with
          | zero => exact fun y => ⟨[], rfl⟩
          | succ n ih =>
            intro y
            obtain ⟨ds, hds⟩ := ih (y / p.u)
            exact ⟨y % p.u :: ds, by rw [decomposeLoop, if_neg h0, hds]; rfl⟩
        obtain ⟨ds, hds⟩ := tot n (x / p.u)
        exact ⟨x % p.u, ds, by rw [decomposeLoop, if_neg h0, hds]; rfl⟩
      have hlk : p.signatures.lookup d = none := by rw [hsig hu]; rfl
      simp only [proveUL, hds, Res.ok_bind]
      rw [proveULLoop, hlk]
      rfl

example := C54_bad_parameters (fun _ => List.replicate 32 77) (-4) 3 1234 27 3 11 (fun j => j) (fun j => j) (fun j => j) (Or.inl (by decide))

theorem order_prime : Prime bnOrder := by
  rw [← bnNn_cast]; exact Nat.prime_iff_prime_int.1 Fact.out

/-- C54: what the condition of `C54_honest` means: for a challenge that is not 0, the quotient
`⌊x / u^l⌋` is a multiple of `Order`; for `|x| < Order` this says `0 ≤ x < u^l`. -/
theorem C54_interval (u x c : Int) (l : Nat) (hu : 1 ≤ u) :
    (0 ≤ x → x < u ^ l → c * (x - x % u ^ l) ≡ 0 [ZMOD bnOrder]) ∧
    (u < bnOrder → ¬ c ≡ 0 [ZMOD bnOrder] →
      ((c * (x - x % u ^ l) ≡ 0 [ZMOD bnOrder] ↔ bnOrder ∣ x / u ^ l) ∧
      (|x| < bnOrder → (c * (x - x % u ^ l) ≡ 0 [ZMOD bnOrder] ↔ 0 ≤ x ∧ x < u ^ l)))) := by
  have hp : 0 < u ^ l := by positivity
  have e : x - x % u ^ l = u ^ l * (x / u ^ l) := by
    have := Int.emod_add_mul_ediv x (u ^ l)
    omega
  refine ⟨fun h0 h1 => ?_, fun h0 hc => ?_⟩
  · rw [Int.emod_eq_of_lt h0 h1, sub_self, mul_zero]
  have h1 : ¬ bnOrder ∣ u ^ l := fun hd => by
    have := Int.le_of_dvd (by omega) (order_prime.dvd_of_dvd_pow hd)
    omega
  have h2 : c * (x - x % u ^ l) ≡ 0 [ZMOD bnOrder] ↔ bnOrder ∣ x / u ^ l := by
    rw [Int.modEq_zero_iff_dvd, e, order_prime.dvd_mul, order_prime.dvd_mul]
    constructor
    · rintro (h | h | h)
      · exact absurd (Int.modEq_zero_iff_dvd.2 h) hc
      · exact absurd h h1
      · exact h
    · exact fun h => Or.inr (Or.inr h)
  refine ⟨h2, fun hx => h2.trans ?_⟩
  constructor
  · intro hd
    have h3 : x / u ^ l = 0 := by
      refine Int.eq_zero_of_abs_lt_dvd hd (lt_of_le_of_lt ?_ hx)
      rw [abs_le]
      have hu1 : 1 ≤ u ^ l := hp
      constructor
      · rcases le_or_gt 0 x with h | h
        · have := Int.ediv_nonneg h hp.le
          have := abs_nonneg x
          omega
        · rw [abs_of_neg h, neg_neg, Int.le_ediv_iff_mul_le hp]
          nlinarith
      · rcases le_or_gt 0 x with h | h
        · rw [abs_of_nonneg h]
          exact Int.ediv_le_self _ h
        · have := Int.ediv_neg_of_neg_of_pos h hp
          have := abs_nonneg x
          omega
    have := Int.emod_add_mul_ediv x (u ^ l)
    rw [h3, mul_zero, add_zero] at this
    rw [← this]
    exact ⟨Int.emod_nonneg _ hp.ne', Int.emod_lt_of_pos _ hp⟩
  · rintro ⟨h3, h4⟩
    rw [Int.ediv_eq_zero_of_lt h3 h4]
    exact dvd_zero _

/-- The exception is real: `x = 57·Order` is accepted for the interval `[0, 57)`. -/
example (c : Int) : c * (57 * bnOrder - 57 * bnOrder % 57 ^ 1) ≡ 0 [ZMOD bnOrder] := by
  have h : 57 * bnOrder % 57 ^ 1 = 0 := by decide +kernel
  rw [h, Int.modEq_zero_iff_dvd]
  exact ⟨57 * c, by ring⟩

/-! ## C52 -/

theorem verifyULD_total (u : Int) (zs : List Int) : ∀ (n i : Nat) (D : TwistPoint), i + n ≤ zs.length →
    ∃ D', verifyULD u zs n i D = .ok D'
  | 0, _, D, _ => ⟨D, rfl⟩
  | n + 1, i, D, h => by
    obtain ⟨D', hD⟩ := verifyULD_total u zs n (i + 1)
      (D.addSelf (G2.scalarBaseMult (zs[i] * u ^ i % bnOrder))) (by omega)
    refine ⟨D', ?_⟩
    rw [verifyULD]
    simp only [idx, List.getElem?_eq_getElem (show i < zs.length by omega), Res.ofOption_some, Res.ok_bind, hD]

theorem verifyULA_accept (pk : CurvePoint) (pr : ProofUL) : ∀ (n i : Nat) (r2 : Bool),
    (∀ j, i ≤ j → j < i + n → ∃ V z w, pr.V[j]? = some V ∧ pr.zsig[j]? = some z ∧ pr.zv[j]? = some w ∧
      pr.a[j]? = some (ccsRhs pk V pr.c z w)) →
    ∃ as, verifyULA (some pk) pr n i r2 = .ok (r2, as)
  | 0, _, _, _ => ⟨[], rfl⟩
  | n + 1, i, r2, h => by
    obtain ⟨V, z, w, h1, h2, h3, h4⟩ := h i (le_refl i) (by omega)
    obtain ⟨as, ha⟩ := verifyULA_accept pk pr n (i + 1) r2 (fun j h1 h2 => h j (by omega) (by omega))
    refine ⟨(GT.marshal (ccsRhs pk V pr.c z w)).2 :: as, ?_⟩
    rw [verifyULA]
    simp only [idx, h1, h2, h3, h4, Res.ofOption_some, Res.ok_bind, beq_self_eq_true, Bool.and_true, ha]

/-- C52: the same for `VerifyUL`: every commitment, challenge, list of `V` and responses. -/
theorem C52_ul (p : ParamsUL) (pk : CurvePoint) (hp : p.kp.pubk = some pk) (C : TwistPoint)
    (V : List TwistPoint) (c zr : Int) (zsig zv s t : List Int) (m : Int) (hV : V.length = p.l.toNat)
    (hz : zsig.length = p.l.toNat) (hw : zv.length = p.l.toNat) :
    ∃ D a pr', verifyUL ⟨V, D, C, a, s, t, zsig, zv, c, m, zr⟩ p = .ok (true, pr') := by
  obtain ⟨D, hD⟩ := verifyULD_total p.u zsig p.l.toNat 0 ((G2.scalarMult C c).addSelf (G2.scalarMult p.H zr))
    (by omega)
  refine ⟨D, (List.zip V (List.zip zsig zv)).map fun q => ccsRhs pk q.1 c q.2.1 q.2.2, ?_⟩
  obtain ⟨as, ha⟩ := verifyULA_accept pk ⟨V, D, C, (List.zip V (List.zip zsig zv)).map fun q =>
    ccsRhs pk q.1 c q.2.1 q.2.2, s, t, zsig, zv, c, m, zr⟩ p.l.toNat 0 true (fun j _ hj => by
      have j1 : j < V.length := by omega
      have j2 : j < zsig.length := by omega
      have j3 : j < zv.length := by omega
      exact ⟨V[j], zsig[j], zv[j], List.getElem?_eq_getElem j1, List.getElem?_eq_getElem j2,
        List.getElem?_eq_getElem j3, by simp [j1, j2, j3]⟩)
  simp only [verifyUL, hD, hp, ha, Res.ok_bind, beq_self_eq_true, Bool.and_self]
  exact ⟨_, rfl⟩

example (H V : TwistPoint) := C52_ul ⟨[], H, ⟨some .gen, some 1, true⟩, 4, 2⟩ .gen rfl H [V, H] 7 8 [1, 2] [3, 4] [] [] 0 rfl rfl rfl

/-- C52: and for the whole range proof: for all parameters whose public key is present there is an
accepted proof with any two commitments and challenges. -/
theorem C52_range (p : CcsParams) (pk : CurvePoint) (hp : p.p.kp.pubk = some pk) (C1 C2 : TwistPoint)
    (c1 c2 : Int) :
    ∃ p1 p2 pr', p1.C = C1 ∧ p2.C = C2 ∧ p1.c = c1 ∧ p2.c = c2 ∧
      ccsVerify ⟨some p1, some p2⟩ (some p) = .ok (true, pr') := by
  have key : ∀ C c, ∃ q q', q.C = C ∧ q.c = c ∧ verifyUL q p.p = .ok (true, q') := fun C c => by
    obtain ⟨D, a, q', h⟩ := C52_ul p.p pk hp C (List.replicate p.p.l.toNat .gen) c 0
      (List.replicate p.p.l.toNat 0) (List.replicate p.p.l.toNat 0) [] [] 0 (by simp) (by simp) (by simp)
    exact ⟨_, q', rfl, rfl, h⟩
  obtain ⟨p1, q1, a1, a2, a3⟩ := key C1 c1
  obtain ⟨p2, q2, b1, b2, b3⟩ := key C2 c2
  refine ⟨p1, p2, ⟨some q1, some q2⟩, a1, b1, a2, b2, ?_⟩
  simp only [ccsVerify, Res.ofOption_some, Res.ok_bind, a3, b3, Bool.and_self]

example (H : TwistPoint) := C52_range ⟨⟨[], H, ⟨some .gen, some 1, true⟩, 57, 2⟩, 18, 200⟩ .gen rfl H .gen 7 8

/-! ## C53 -/

/-- The digits of the secret and the blinding factor, from the fields of the proof. -/
def extractUL (pr : ProofUL) : Option (List Int × Int) :=
  (modInverse pr.c bnOrder).map fun ci =>
    (List.zipWith (fun s z => (s - z) * ci % bnOrder) pr.s pr.zsig, (pr.m - pr.zr) * ci % bnOrder)

/-- C53: the proof object of `ProveUL` determines every digit of `x` modulo `Order`, and `r`. -/
theorem C53_ul (sha : List UInt8 → List UInt8) (x r : Int) (p : ParamsUL) (m : Int) (v s t : Nat → Int)
    (pr : ProofUL) (ds : List Int) (h : proveUL sha x r p m v s t = .ok (some pr))
    (hd : decompose x p.u p.l = .ok ds) (hc : ¬ pr.c ≡ 0 [ZMOD bnOrder]) :
    extractUL pr = some (ds.map (· % bnOrder), r % bnOrder) := by
  have hf : pr.s = firsts s ds.length ∧ pr.m = m ∧
      pr.zsig = List.zipWith (fun si d => (si - d * pr.c) % bnOrder) (firsts s ds.length) ds ∧
      pr.zr = (m - r * pr.c) % bnOrder := by
    unfold proveUL at h
    rw [hd, Res.ok_bind] at h
    simp only [Res.bind_eq_ok] at h
    obtain ⟨res, _, h⟩ := h
    split at h
    · cases h
    · simp only [Res.bind_eq_ok] at h
      obtain ⟨_, _, _, _, h⟩ := h
      cases h
      exact ⟨rfl, rfl, rfl, rfl⟩
  obtain ⟨h1, h2, h3, h4⟩ := hf
  have hg := gcd_order_eq_one hc
  rw [Int.gcd_emod] at hg
  obtain ⟨ci, hi, _, _, hdv⟩ := (modInverse_spec pr.c bnOrder (ne_of_gt bnOrder_pos)).1 hg
  rw [extractUL, hi, Option.map_some, h2, extract_digit hdv h4, h1, h3]
  congr 2
  apply List.ext_getElem
  · simp [firsts]
  · intro j j1 j2
    simp only [List.getElem_zipWith, List.getElem_map]
    exact extract_digit hdv rfl

/-- C53: for `1 ≤ u ≤ Order` the digits are exact, so `x mod u^l` is known. -/
theorem C53_digits (x u l : Int) (ds : List Int) (hu : 1 ≤ u) (hl : 0 ≤ l) (hu' : u ≤ bnOrder)
    (hd : decompose x u l = .ok ds) :
    ds.map (· % bnOrder) = ds ∧ weighted u ds = x % u ^ l.toNat := by
  obtain ⟨ds', h1, _, h2, h3⟩ := C08_decompose x u l hu hl
  obtain rfl : ds = ds' := by rw [hd] at h1; exact Res.ok.inj h1
  refine ⟨?_, h3⟩
  conv_rhs => rw [← List.map_id ds]
  refine List.map_congr_left fun d hd => ?_
  obtain ⟨a, b⟩ := h2 d hd
  exact Int.emod_eq_of_lt a (by omega)

/-! ## A concrete case -/

/-- The hypotheses of `C54_honest` for base 4, length 3, `x = 27`, the key 1234 and small randomness. -/
example : (∀ m, 0 ≤ m → m < 4 → ¬ m + (1234 : Int) ≡ 0 [ZMOD bnOrder]) ∧
    NoClash (ccsH * 11) (wts 4 (fun j => 17 + j) 0 3) ∧ NoClash 27 [ccsH * 3] := by
  refine ⟨fun m h0 h1 => ?_, by decide +kernel, by decide +kernel⟩
  interval_cases m <;> decide +kernel

/-- The hypotheses of `C54_negative` for `x = -2`, base 4 and length 1. -/
example : ¬ bnOrder ∣ -2 ∧ NoClash (ccsH * 11) (wts 4 (fun j => 17 + j) 0 1) ∧
    ¬ ccsH * 11 + (wts 4 (fun j => 17 + j) 0 1).sum ≡ 0 [ZMOD bnOrder] ∧
    SafeAdds (G2.scalarBaseMult (-2)) [G2.scalarMult (G2.scalarBaseMult ccsH) 1] := by decide +kernel

example : (match (do
      let p ← setupUL 4 1 (some 1234)
      let pr ← proveUL (fun _ => List.replicate 31 0 ++ [7]) (-2) 1 p 11 (fun j => 13 + j) (fun j => 17 + j)
        (fun j => 19 + j)
      Res.ok (pr.map fun q => (p, q))) with
    | .ok (some (p, pr)) => decide ((G2.scalarMult pr.C pr.c).z ≠ .zero) &&
        decide (SafeAdds (G2.scalarMult pr.C pr.c)
          (G2.scalarMult p.H pr.zr :: ulPoints 4 (fun j => pr.zsig.getD j 0) 0 1))
    | _ => false) = true := by decide +kernel

def ulExample : Res (Option (ParamsUL × ProofUL)) := do
  let p ← setupUL 4 3 (some 1234)
  let pr ← proveUL (fun _ => List.replicate 32 77) 27 3 p 11 (fun j => 13 + j) (fun j => 17 + j) (fun j => 19 + j)
  .ok (pr.map fun q => (p, q))

example : (match ulExample with
    | .ok (some (_, pr)) => pr.V.all (fun V => !V.z.isOne) &&
        decide (NoClash ((27 + ccsH * 3) * pr.c) (ccsH * pr.zr :: wts 4 (fun j => pr.zsig.getD j 0) 0 3)) &&
        decide (¬ pr.c ≡ 0 [ZMOD bnOrder]) && decide (extractUL pr = some ([3, 2, 1], 3))
    | _ => false) = true := by decide +kernel

end Verif

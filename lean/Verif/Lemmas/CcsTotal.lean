import Verif.Props.CcsRange

/-! # `ProveUL` and `VerifyUL` with parameters made by `SetupUL` do not panic -/

namespace Verif

theorem proveULLoop_total (p : ParamsUL) (v s t : Nat → Int) : ∀ (ds : List Int) (i : Nat) (D : TwistPoint),
    (∀ d ∈ ds, ∃ A, p.signatures.lookup d = some (some A)) →
    ∃ D' Vs as, proveULLoop p v s t i ds D = .ok (some (D', Vs, as)) ∧ Vs.length = ds.length ∧ as.length = ds.length
  | [], i, D, _ => ⟨D, [], [], rfl, rfl, rfl⟩
  | d :: ds, i, D, h => by
    obtain ⟨A, hA⟩ := h d List.mem_cons_self
    obtain ⟨D', Vs, as, h1, h2, h3⟩ := proveULLoop_total p v s t ds (i + 1) (D.addSelf (G2.scalarBaseMult ((s i * p.u ^ i) % bnOrder)))
      fun d' hd => h d' (List.mem_cons_of_mem _ hd)
    refine ⟨D', G2.scalarMult A (v i) :: Vs, ccsA (G2.scalarMult A (v i)) (s i) (t i) :: as, ?_, by simp [h2], by simp [h3]⟩
    rw [proveULLoop, hA]
    simp only [Res.ofOption_some, Res.ok_bind, h1]

/-- The slices of the proof have `n` entries. -/
def ULShape (n : Nat) (q : ProofUL) : Prop := q.V.length = n ∧ q.a.length = n ∧ q.zsig.length = n ∧ q.zv.length = n

theorem proveUL_total (sha : List UInt8 → List UInt8) (hsha : ∀ b, sha b ≠ []) (x r : Int) (p : ParamsUL) (m : Int)
    (v s t : Nat → Int) (hu : 1 ≤ p.u) (hl : 0 ≤ p.l)
    (hsig : ∀ d, 0 ≤ d ∧ d < p.u → ∃ A, p.signatures.lookup d = some (some A)) :
    ∃ q, proveUL sha x r p m v s t = .ok (some q) ∧ ULShape p.l.toNat q := by
  obtain ⟨ds, hd, hdl, hdr, _⟩ := C08_decompose x p.u p.l hu hl
  have hlen : ds.length = p.l.toNat := by omega
  obtain ⟨D, Vs, as, g1, g2, g3⟩ := proveULLoop_total p v s t ds 0 (G2.scalarMult p.H m) fun d hd => hsig d (hdr d hd)
  obtain ⟨c, hc⟩ : ∃ c, hashUL sha as ((TwistPoint.new.setInfinity).addSelf D) = .ok (some c) := by
    unfold hashUL
    rw [C02_fromByteArray, if_neg (hsha _)]
    exact ⟨_, rfl⟩
  refine ⟨⟨Vs, (TwistPoint.new.setInfinity).addSelf D, commit x r p.H, as, firsts s ds.length,
    firsts t ds.length,
    List.zipWith (fun si d => (si - d * (c % bnOrder)) % bnOrder) (firsts s ds.length) ds,
    List.zipWith (fun ti vi => (ti - vi * (c % bnOrder)) % bnOrder) (firsts t ds.length) (firsts v ds.length),
    c % bnOrder, m, (m - r * (c % bnOrder)) % bnOrder⟩, ?_, by simp [ULShape, g2, g3, firsts, hlen]⟩
  unfold proveUL
  simp only [hd, Res.ok_bind, g1, hc, Res.ofOption_some]

theorem verifyUL_total (q : ProofUL) (p : ParamsUL) (hk : p.kp.pubk ≠ none) (hq : ULShape p.l.toNat q) :
    ∃ b q', verifyUL q p = .ok (b, q') := by
  obtain ⟨h1, h2, h3, h4⟩ := hq
  obtain ⟨pk, hpk⟩ := Option.ne_none_iff_exists'.1 hk
  have hz : ∀ j, 0 ≤ j → j < 0 + p.l.toNat → q.zsig[j]? = some (q.zsig.getD j 0) := fun j _ hj => by
    have : j < q.zsig.length := by omega
    simp [this]
  obtain ⟨b, as, h⟩ := verifyULA_total pk q p.l.toNat 0 true fun j _ hj => by
    have j1 : j < q.V.length := by omega
    have j2 : j < q.a.length := by omega
    have j3 : j < q.zsig.length := by omega
    have j4 : j < q.zv.length := by omega
    exact ⟨_, _, _, _, List.getElem?_eq_getElem j1, List.getElem?_eq_getElem j2, List.getElem?_eq_getElem j3,
      List.getElem?_eq_getElem j4⟩
  have hD := fun D => verifyULD_foldl p.u q.zsig (fun j => q.zsig.getD j 0) p.l.toNat 0 D hz
  have key : ∃ r, verifyUL q p = .ok r := by
    unfold verifyUL
    simp only [hpk, hD, h, Res.ok_bind]
    exact ⟨_, rfl⟩
  obtain ⟨⟨b, q'⟩, h⟩ := key
  exact ⟨b, q', h⟩

/-- What `Setup` guarantees. -/
structure CcsGood (p : CcsParams) : Prop where
  u : 1 ≤ p.p.u
  l : 0 ≤ p.p.l
  sig : ∀ d, 0 ≤ d ∧ d < p.p.u → ∃ A, p.p.signatures.lookup d = some (some A)
  key : p.p.kp.pubk ≠ none

theorem ccsGood_setup {a b sk : Int} (hb : b < 2 ^ 63) (hk : ∀ m, 0 ≤ m → m < 57 → ¬ m + sk ≡ 0 [ZMOD bnOrder]) {p : CcsParams}
    (h : ccsSetup a b (some sk) = .ok (some p)) : CcsGood p := by
  by_cases hab : a > b ∨ b = 1
  · rw [(C55_setup a b sk hb hk).1 hab] at h
    cases h
  · obtain ⟨q, h1, h2⟩ := (C55_setup a b sk hb hk).2 hab
    rw [h] at h2
    obtain rfl := Option.some.inj (Res.ok.inj h2)
    obtain ⟨q', pk, g1, g2, g3, g4, _, _, g5⟩ := C54_setup 57 (digits57 b) sk hk
    rw [h1] at g1
    obtain rfl := Res.ok.inj g1
    refine ⟨by rw [g2]; norm_num, by rw [g3]; omega, fun d hd => ?_, by rw [g4]; simp⟩
    obtain ⟨o, ho, sig, _, rfl, _⟩ := (g5 d).1 (g2 ▸ hd)
    exact ⟨sig, ho⟩

/-- Both halves are there and have as many entries as there are digits. -/
def CcsShape (n : Nat) (q : CcsProof) : Prop := ∃ q1 q2, q = ⟨some q1, some q2⟩ ∧ ULShape n q1 ∧ ULShape n q2

theorem ccsProve_total (sha : List UInt8 → List UInt8) (hsha : ∀ b, sha b ≠ []) {p : CcsParams} (hp : CcsGood p) (x r : Int)
    (w1 w2 : ULRandom) : ∃ q, ccsProve sha (some p) x r w1 w2 = .ok q ∧ CcsShape p.p.l.toNat q := by
  obtain ⟨q1, h1, s1⟩ := proveUL_total sha hsha (x - p.b + p.p.u ^ p.p.l.toNat) r p.p w1.m w1.v w1.s w1.t hp.u hp.l hp.sig
  obtain ⟨q2, h2, s2⟩ := proveUL_total sha hsha (x - p.a) r p.p w2.m w2.v w2.s w2.t hp.u hp.l hp.sig
  refine ⟨⟨some q1, some q2⟩, ?_, q1, q2, rfl, s1, s2⟩
  unfold ccsProve
  simp only [Res.ofOption_some, Res.ok_bind, h1, h2]

theorem ccsVerify_total {p : CcsParams} (hp : CcsGood p) {q : CcsProof} (hq : CcsShape p.p.l.toNat q) :
    ∃ b q', ccsVerify q (some p) = .ok (b, q') := by
  obtain ⟨q1, q2, rfl, s1, s2⟩ := hq
  obtain ⟨b1, q1', h1⟩ := verifyUL_total q1 p.p hp.key s1
  obtain ⟨b2, q2', h2⟩ := verifyUL_total q2 p.p hp.key s2
  refine ⟨b1 && b2, ⟨some q1', some q2'⟩, ?_⟩
  unfold ccsVerify
  simp only [Res.ofOption_some, Res.ok_bind, h1, h2]

end Verif

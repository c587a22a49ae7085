import Verif.Lemmas.CcsRace
import Verif.Props.CcsHeap
import Verif.Props.CcsSet
import Verif.Props.CcsUL
import Verif.Props.CcsRange

/-!
# C88: the same proof verified by two goroutines

`VerifySet` and `VerifyUL` call `Marshal` on `proof_out.D`, which rewrites the coordinates of `D` if `z` is not 1, one after the other.
-/

namespace Verif

variable {g : CcsGlobals} {s : BigHeap}

/-- C88: the two parts into which `Model/CcsRace.lean` cuts `VerifySet` make up `VerifySet`. -/
theorem C88_parts (g : CcsGlobals) (pr : ProofSetH) (p : ParamsSetH) :
    verifySetHead g pr p >>= verifySetRest g pr p = verifySetH g pr p := verifySet_parts g pr p

/-- C88: two goroutines verify the same proof, which is valid and has not been verified before.  If the first is interrupted in the
middle of `MakeAffine` and the second runs meanwhile, then the second accepts and the first rejects; `D` is left with `x/z^4` and
`y/z^6` instead of `x/z^2` and `y/z^3`, which is not on the curve; and from then on the proof is rejected. -/
theorem C88_race (hr : CcsReady g s) {p : ParamsSetH} {q : ProofSetH} (hp : Live s p) (hq : Live s q)
    (hgp : Disj g.cells (HeapObj.cells p)) (hgq : Disj g.cells (HeapObj.cells q))
    (hpq : Disj (HeapObj.cells p) (HeapObj.cells q)) (hk : KeyOk (HeapObj.val s.mem p.kp)) {w : ProofSet}
    (hok : verifySet (HeapObj.val s.mem q) (HeapObj.val s.mem p) = .ok (true, w)) {Q : BG2}
    (hD : Rep2 (HeapObj.val s.mem q.D) Q) (hQ : Q ≠ 0) (hz : (HeapObj.val s.mem q.D).z.val ^ 6 ≠ 1) :
    Effect (verifySetRace g q p) s (HeapObj.cells q.D ++ HeapObj.cells q.a) fun r s' => r = (false, true) ∧
      (HeapObj.val s'.mem q.D).x.val = (HeapObj.val s.mem q.D).x.val / (HeapObj.val s.mem q.D).z.val ^ 4 ∧
      (HeapObj.val s'.mem q.D).y.val = (HeapObj.val s.mem q.D).y.val / (HeapObj.val s.mem q.D).z.val ^ 6 ∧
      OffTwist (HeapObj.val s'.mem q.D) ∧
      Effect (verifySetH g q p) s' (HeapObj.cells q.D ++ HeapObj.cells q.a) fun b s'' => b = false ∧
        HeapObj.val s''.mem q = HeapObj.val s'.mem q := by
  obtain ⟨hone, hoff, hx, hy⟩ := raced_off hD hQ hz
  have hW : Disj g.cells (HeapObj.cells q.D ++ HeapObj.cells q.a) := disj_right hgq (by
    show List.Sublist _ (HeapObj.cells q.V ++ HeapObj.cells q.D ++ HeapObj.cells q.C ++ HeapObj.cells q.a)
    exact List.Sublist.append ((List.sublist_append_right _ _).trans (List.sublist_append_left _ _)) (List.Sublist.refl _))
  have main := C84_ready hr (effect_race hr hp hq hgp hgq hpq hk hone hok) hW
  obtain ⟨r, s', e, n1, n2, n3, ⟨⟨⟨h1, h2, hl, hv⟩, hr'⟩, hlp, hvp⟩⟩ := C84_others main hp (disj_right hpq (by
    show List.Sublist _ (HeapObj.cells q.V ++ HeapObj.cells q.D ++ HeapObj.cells q.C ++ HeapObj.cells q.a)
    exact List.Sublist.append ((List.sublist_append_right _ _).trans (List.sublist_append_left _ _)) (List.Sublist.refl _)))
  have hvD : HeapObj.val s'.mem q.D = (HeapObj.val s.mem q.D).makeAffine.affineRest (HeapObj.val s.mem q.D).z.invert :=
    congrArg ProofSet.D hv
  have hne := (C39_off _ hoff).2 _ Q hD hQ
  have hr1 : r = (false, true) := by
    obtain ⟨r1, r2⟩ := r
    cases r1 with
    | true => exact absurd (h2 rfl) hne
    | false => cases h1; rfl
  refine ⟨r, s', e, n1, n2, n3, hr1, by rw [hvD]; exact hx, by rw [hvD]; exact hy, by rw [hvD]; exact hoff, ?_⟩
  have hrej : verifySet (HeapObj.val s'.mem q) (HeapObj.val s'.mem p) = .ok (false, HeapObj.val s'.mem q) := by
    rw [hvp, hv]
    unfold verifySet at hok ⊢
    obtain ⟨pk, hpk, hok⟩ := Res.bind_eq_ok.1 hok
    obtain ⟨hb, -⟩ := Prod.mk.inj (Res.ok.inj hok)
    have hbytes := beq_iff_eq.1 ((Bool.and_eq_true _ _).mp hb).1
    rw [hpk, Res.ok_bind]
    refine congrArg Res.ok (Prod.ext ?_ ?_)
    · show (_ == _ && _) = false
      rw [Bool.and_eq_false_iff]
      left
      rw [beq_eq_false_iff_ne]
      intro hc
      exact hne (hc.symm.trans hbytes)
    · have e1 : (G2.marshal ((HeapObj.val s.mem q.D).makeAffine.affineRest (HeapObj.val s.mem q.D).z.invert)).2 =
          (HeapObj.val s.mem q.D).makeAffine.affineRest (HeapObj.val s.mem q.D).z.invert := by
        generalize (HeapObj.val s.mem q.D).makeAffine = u
        rfl
      have e2 : (GT.marshal (HeapObj.val s.mem q.a).minimal).2 = (HeapObj.val s.mem q.a).minimal := GfP12.minimal_idem _
      show (⟨_, _, _, _, _, _, _, _, _, _, _⟩ : ProofSet) = ⟨_, _, _, _, _, _, _, _, _, _, _⟩
      simp only [e1, e2]
  have hk' : KeyOk (HeapObj.val s'.mem p.kp) := by
    rw [show HeapObj.val s'.mem p.kp = HeapObj.val s.mem p.kp from congrArg ParamsSet.kp hvp]; exact hk
  obtain ⟨b, s2, e2, m1, m2, m3, h3, -, h4⟩ := (C84_verifySet hr' hlp hl hgp hgq hpq hk').2 _ hrej
  exact ⟨b, s2, e2, m1, m2, m3, h3, h4⟩

private theorem disj_new {n : Nat} {l l' : List Cell} (h : ∀ c ∈ l, c < n) (h' : ∀ c ∈ l', n ≤ c) : Disj l l' :=
  fun c hc hc' => absurd (h c hc) (not_lt.2 (h' c hc'))

/-- C88: so it goes for an honest prover and honest parameters: `SetupSet`, `ProveSet`, `VerifySet` in two goroutines, and
`VerifySet` once more, for a proof which the model on values accepts. -/
theorem C88_honest (hr : CcsReady g s) (sha : List UInt8 → List UInt8) (S : List Int) (rnd : Option Int) (x r m v σ t : Int)
    {p : ParamsSet} {q q' : ProofSet} (h1 : setupSet S rnd = .ok p) (h2 : proveSet sha x r p m v σ t = .ok (some q))
    (h3 : verifySet q p = .ok (true, q')) {Q : BG2} (hD : Rep2 q.D Q) (hQ : Q ≠ 0) (hz : q.D.z.val ^ 6 ≠ 1) :
    Effect (setupSetH g S rnd >>= fun p => proveSetH g sha x r p m v σ t >>= fun q => BigM.ofRes (Res.ofOption q) >>= fun q =>
      verifySetRace g q p >>= fun both => verifySetH g q p >>= fun b => pure (both, b)) s [] fun r _ => r = ((false, true), false) := by
  obtain ⟨p', s1, e1, _, n1, k1, ⟨l1, rfl, _, f1⟩, hr1⟩ := C84_ready hr ((C84_setupSet hr S rnd).2 _ h1) (fun _ _ h => by cases h)
  obtain ⟨o, s2, e2, _, n2, k2, ⟨⟨l2, v2, _, f2⟩, hr2⟩, l3, v3⟩ := C84_others (C84_ready hr1
    ((C84_proveSet hr1 l1 sha x r m v σ t).2 _ h2) (fun _ _ h => by cases h)) (a := p') l1 (fun _ _ h => by cases h)
  cases o with
  | none => cases v2
  | some o =>
    obtain rfl := Option.some.inj v2
    have hw : ∀ c ∈ HeapObj.cells o.D ++ HeapObj.cells o.a, c ∈ HeapObj.cells o := fun c hc => by
      show c ∈ HeapObj.cells o.V ++ HeapObj.cells o.D ++ HeapObj.cells o.C ++ HeapObj.cells o.a
      simp only [List.mem_append] at hc ⊢
      tauto
    obtain ⟨b, s3, e3, _, n3, k3, rfl, _, _, _, b', s4, e4, n5, n4, k4, rfl, _⟩ := C88_race hr2 l3 l2 (disj_new hr.live.2 (f1 rfl))
      (disj_new hr1.live.2 (f2 rfl)) (disj_new l1.2 (f2 rfl))
      (by rw [show HeapObj.val s2.mem p'.kp = (HeapObj.val s1.mem p').kp by rw [← v3]; rfl]; exact (C84_key rnd).2.1 S _ h1)
      (v3.symm ▸ h3) hD hQ hz
    refine ⟨_, s4, ?_, n5, n1.trans (n2.trans (n3.trans n4)), fun c hc _ => ?_, rfl⟩
    · show (setupSetH g S rnd s >>= fun p => proveSetH g sha x r p.1 m v σ t p.2 >>= fun q =>
        BigM.ofRes (Res.ofOption q.1) q.2 >>= fun q => verifySetRace g q.1 p.1 q.2 >>= fun both => verifySetH g q.1 p.1 both.2 >>=
          fun b => (pure (both.1, b.1) : BigM _) b.2) = _
      rw [e1]
      show (proveSetH g sha x r p' m v σ t s1 >>= fun q => BigM.ofRes (Res.ofOption q.1) q.2 >>= fun q =>
        verifySetRace g q.1 p' q.2 >>= fun both => verifySetH g q.1 p' both.2 >>= fun b => (pure (both.1, b.1) : BigM _) b.2) = _
      rw [e2]
      show (verifySetRace g o p' s2 >>= fun both => verifySetH g o p' both.2 >>= fun b => (pure (both.1, b.1) : BigM _) b.2) = _
      rw [e3]
      show (verifySetH g o p' s3 >>= fun b => (pure ((false, true), b.1) : BigM _) b.2) = _
      rw [e4]
      rfl
    · have hn : c ∉ HeapObj.cells o.D ++ HeapObj.cells o.a :=
        fun h => absurd (hc.trans_le n1) (not_lt.2 (f2 rfl c (hw c h)))
      rw [k4 c (hc.trans_le (n1.trans (n2.trans n3))) hn, k3 c (hc.trans_le (n1.trans n2)) hn,
        k2 c (hc.trans_le n1) (by simp), k1 c hc (by simp)]

/-- The set {1, 5, 9}, the element 5, the key 1234 and small randomness, with a constant hash function: a proof as C88 asks for. -/
theorem setExample_race : ∃ p q q' Q, setupSet [1, 5, 9] (some 1234) = .ok p ∧
    proveSet (fun _ => List.replicate 32 77) 5 3 p 11 13 17 19 = .ok (some q) ∧ verifySet q p = .ok (true, q') ∧
    Rep2 q.D Q ∧ Q ≠ 0 ∧ q.D.z.val ^ 6 ≠ 1 := by
  have hS : ∀ m ∈ [(1 : Int), 5, 9], ¬ m + 1234 ≡ 0 [ZMOD bnOrder] := by decide +kernel
  have hn : NoClash (ccsH * 11) [17] := by decide +kernel
  obtain ⟨p, pr, h1, h2, h3⟩ := C51_complete (fun _ => List.replicate 32 77) (fun _ => List.length_replicate) [1, 5, 9] 5 3 1234
    11 13 17 19 hS (by simp) (by norm_num) (by norm_num) (by norm_num) (by norm_num) (by norm_num) (by norm_num) hn
    (by decide +kernel)
  obtain ⟨p', pk, e1, e2, e3, e4, e5, _⟩ := C51_setup [1, 5, 9] 1234 hS
  obtain ⟨o, ho, hsig⟩ := e5 5 (by simp)
  obtain ⟨pr', i, f1, f2, f3, f4, _⟩ := C51_proof (fun _ => List.replicate 32 77) (fun _ => List.length_replicate) 5 3 ccsH 1234 p'
    11 13 17 19 o ho hsig e4 (by norm_num) (by norm_num) (by norm_num) (by norm_num) hn
  obtain rfl : p = p' := Res.ok.inj (h1.symm.trans e1)
  obtain rfl : pr = pr' := Option.some.inj (Res.ok.inj (h2.symm.trans f1))
  have hx : setExample = .ok (some (p, pr)) := by
    unfold setExample
    rw [h1, Res.ok_bind, h2]
    rfl
  have hc : (match setExample with
    | .ok (some (_, pr)) => (!pr.V.z.isOne) && decide (NoClash ((5 + ccsH * 3) * pr.c) [ccsH * pr.zr, pr.zsig]) &&
        !(pr.D.z.square.mul pr.D.z).square.minimal.isOne
    | _ => false) = true := by decide +kernel
  rw [hx] at hc
  simp only [Bool.and_eq_true, Bool.not_eq_true', decide_eq_true_eq] at hc
  obtain ⟨⟨c1, c2⟩, c3⟩ := hc
  obtain ⟨q', h4⟩ := h3 (fun h => absurd h (by rw [c1]; decide)) c2
  refine ⟨p, pr, q', _, h1, h2, h4, f4, ?_, fun h => ?_⟩
  · rw [Ne, bnG2_zsmul_zero]; decide +kernel
  · have := (GfP2.minimal_red (pr.D.z.square.mul pr.D.z).square).isOne.2 (by
      rw [GfP2.val_minimal, GfP2.val_square, GfP2.val_mul, GfP2.val_square, ← h]; ring)
    rw [c3] at this
    cases this

/-- What two goroutines do with it. -/
example : Effect (setupSetH ccsVars [1, 5, 9] (some 1234) >>= fun p =>
    proveSetH ccsVars (fun _ => List.replicate 32 77) 5 3 p 11 13 17 19 >>= fun q => BigM.ofRes (Res.ofOption q) >>= fun q =>
      verifySetRace ccsVars q p >>= fun both => verifySetH ccsVars q p >>= fun b => pure (both, b)) ccsStart [] fun r _ =>
    r = ((false, true), false) := by
  obtain ⟨p, q, q', Q, h1, h2, h3, hD, hQ, hz⟩ := setExample_race
  exact C88_honest ccsStart_ready _ _ _ _ _ _ _ _ _ h1 h2 h3 hD hQ hz

/-! ## Intervals -/

/-- C88: the two parts into which `Model/CcsRace.lean` cuts `VerifyUL` make up `VerifyUL`. -/
theorem C88_ul_parts (g : CcsGlobals) (pr : ProofULH) (p : ParamsULH) :
    verifyULHead g pr p >>= verifyULRest g pr p = verifyULH g pr p := verifyUL_parts g pr p

private theorem verifyUL_raced (pr : ProofUL) (p : ParamsUL) (D : TwistPoint) (w : ProofUL) (hok : verifyUL pr p = .ok (true, w))
    (hne : (G2.marshal D).1 ≠ (G2.marshal pr.D).1) (h2 : (G2.marshal D).2 = D) :
    verifyUL { pr with D := D, a := w.a } p = .ok (false, { pr with D := D, a := w.a }) := by
  unfold verifyUL at hok
  obtain ⟨Dv, hDv, hok⟩ := Res.bind_eq_ok.1 hok
  obtain ⟨res, hA, hok⟩ := Res.bind_eq_ok.1 hok
  obtain ⟨hb, hwe⟩ := Prod.mk.inj (Res.ok.inj hok)
  have hbytes := beq_iff_eq.1 ((Bool.and_eq_true _ _).mp hb).1
  obtain ⟨l1, l2⟩ := verifyULA_a _ _ _ 0 true res.1 res.2 hA
  have hwa : w.a = res.2 ++ pr.a.drop p.l.toNat := by rw [← hwe]
  have hag := verifyULA_again p.kp.pubk pr D w.a p.l.toNat 0 true
    (fun j _ hj => by rw [hwa, List.getElem?_append_left (by omega), l2 j (by omega), zero_add])
  have e2 : res.2 ++ w.a.drop p.l.toNat = w.a := by
    rw [hwa, List.drop_append_of_le_length (by omega), List.drop_of_length_le (by omega), List.nil_append]
  have hf : ((G2.marshal Dv).1 == (G2.marshal D).1) = false := by
    rw [beq_eq_false_iff_ne]
    exact fun hc => hne (hc.symm.trans hbytes)
  unfold verifyUL
  simp only [hDv, Res.ok_bind, hag, hA, hf, h2, e2, Bool.false_and]

/-- C88: the same for a proof for an interval `[0, u^l)` and `VerifyUL`. -/
theorem C88_ul_race (hr : CcsReady g s) {p : ParamsULH} {q : ProofULH} (hp : Live s p) (hq : Live s q)
    (hgp : Disj g.cells (HeapObj.cells p)) (hgq : Disj g.cells (HeapObj.cells q))
    (hpq : Disj (HeapObj.cells p) (HeapObj.cells q)) (hk : KeyOk (HeapObj.val s.mem p.kp)) {w : ProofUL}
    (hok : verifyUL (HeapObj.val s.mem q) (HeapObj.val s.mem p) = .ok (true, w)) {Q : BG2}
    (hD : Rep2 (HeapObj.val s.mem q.D) Q) (hQ : Q ≠ 0) (hz : (HeapObj.val s.mem q.D).z.val ^ 6 ≠ 1) :
    Effect (verifyULRace g q p) s q.written fun r s' => r = (false, true) ∧
      (HeapObj.val s'.mem q.D).x.val = (HeapObj.val s.mem q.D).x.val / (HeapObj.val s.mem q.D).z.val ^ 4 ∧
      (HeapObj.val s'.mem q.D).y.val = (HeapObj.val s.mem q.D).y.val / (HeapObj.val s.mem q.D).z.val ^ 6 ∧
      OffTwist (HeapObj.val s'.mem q.D) ∧
      Effect (verifyULH g q p) s' q.written fun b s'' => b = false ∧ HeapObj.val s''.mem q = HeapObj.val s'.mem q := by
  obtain ⟨hone, hoff, hx, hy⟩ := raced_off hD hQ hz
  have main := C84_ready hr (effect_raceUL hr hp hq hgp hgq hpq hk hone hok) (disj_right hgq q.sub_written)
  obtain ⟨r, s', e, n1, n2, n3, ⟨⟨⟨h1, h2, hl, hv⟩, hr'⟩, hlp, hvp⟩⟩ := C84_others main hp (disj_right hpq q.sub_written)
  have hvD : HeapObj.val s'.mem q.D = (HeapObj.val s.mem q.D).makeAffine.affineRest (HeapObj.val s.mem q.D).z.invert :=
    congrArg ProofUL.D hv
  have hne := (C39_off _ hoff).2 _ Q hD hQ
  have hr1 : r = (false, true) := by
    obtain ⟨r1, r2⟩ := r
    cases r1 with
    | true => exact absurd (h2 rfl) hne
    | false => cases h1; rfl
  refine ⟨r, s', e, n1, n2, n3, hr1, by rw [hvD]; exact hx, by rw [hvD]; exact hy, by rw [hvD]; exact hoff, ?_⟩
  have hrej : verifyUL (HeapObj.val s'.mem q) (HeapObj.val s'.mem p) = .ok (false, HeapObj.val s'.mem q) := by
    rw [hvp, hv]
    refine verifyUL_raced _ _ _ _ hok (fun hc => hne hc) ?_
    generalize (HeapObj.val s.mem q.D).makeAffine = u
    rfl
  have hk' : KeyOk (HeapObj.val s'.mem p.kp) := by
    rw [show HeapObj.val s'.mem p.kp = HeapObj.val s.mem p.kp from congrArg ParamsUL.kp hvp]; exact hk
  obtain ⟨b, s2, e2, m1, m2, m3, h3, -, h4⟩ := (C84_verifyUL hr' hlp hl hgp hgq hpq hk').2 _ hrej
  exact ⟨b, s2, e2, m1, m2, m3, h3, h4⟩

/-- C88: so it goes for an honest prover and honest parameters: `SetupUL`, `ProveUL`, `VerifyUL` in two goroutines, and `VerifyUL`
once more, for a proof which the model on values accepts. -/
theorem C88_ul_honest (hr : CcsReady g s) (sha : List UInt8 → List UInt8) (u l : Int) (rnd : Option Int) (x r m : Int)
    (v σ t : Nat → Int) {p : ParamsUL} {q q' : ProofUL} (h1 : setupUL u l rnd = .ok p)
    (h2 : proveUL sha x r p m v σ t = .ok (some q)) (h3 : verifyUL q p = .ok (true, q')) {Q : BG2} (hD : Rep2 q.D Q) (hQ : Q ≠ 0)
    (hz : q.D.z.val ^ 6 ≠ 1) :
    Effect (setupULH g u l rnd >>= fun p => proveULH g sha x r p m v σ t >>= fun q => BigM.ofRes (Res.ofOption q) >>= fun q =>
      verifyULRace g q p >>= fun both => verifyULH g q p >>= fun b => pure (both, b)) s [] fun r _ => r = ((false, true), false) := by
  obtain ⟨p', s1, e1, _, n1, k1, ⟨l1, rfl, _, f1⟩, hr1⟩ := C84_ready hr ((C84_setupUL hr u l rnd).2 _ h1) (fun _ _ h => by cases h)
  obtain ⟨o, s2, e2, _, n2, k2, ⟨⟨l2, v2, _, f2⟩, hr2⟩, l3, v3⟩ := C84_others (C84_ready hr1
    ((C84_proveUL hr1 l1 sha x r m v σ t).2 _ h2) (fun _ _ h => by cases h)) (a := p') l1 (fun _ _ h => by cases h)
  cases o with
  | none => cases v2
  | some o =>
    obtain rfl := Option.some.inj v2
    have hw : ∀ c ∈ o.written, c ∈ HeapObj.cells o := fun c hc => o.sub_written.subset hc
    obtain ⟨b, s3, e3, _, n3, k3, rfl, _, _, _, b', s4, e4, n5, n4, k4, rfl, _⟩ := C88_ul_race hr2 l3 l2 (disj_new hr.live.2 (f1 rfl))
      (disj_new hr1.live.2 (f2 rfl)) (disj_new l1.2 (f2 rfl))
      (by rw [show HeapObj.val s2.mem p'.kp = (HeapObj.val s1.mem p').kp by rw [← v3]; rfl]; exact (C84_key rnd).2.2.1 u l _ h1)
      (v3.symm ▸ h3) hD hQ hz
    refine ⟨_, s4, ?_, n5, n1.trans (n2.trans (n3.trans n4)), fun c hc _ => ?_, rfl⟩
    · show (setupULH g u l rnd s >>= fun p => proveULH g sha x r p.1 m v σ t p.2 >>= fun q =>
        BigM.ofRes (Res.ofOption q.1) q.2 >>= fun q => verifyULRace g q.1 p.1 q.2 >>= fun both => verifyULH g q.1 p.1 both.2 >>=
          fun b => (pure (both.1, b.1) : BigM _) b.2) = _
      rw [e1]
      show (proveULH g sha x r p' m v σ t s1 >>= fun q => BigM.ofRes (Res.ofOption q.1) q.2 >>= fun q =>
        verifyULRace g q.1 p' q.2 >>= fun both => verifyULH g q.1 p' both.2 >>= fun b => (pure (both.1, b.1) : BigM _) b.2) = _
      rw [e2]
      show (verifyULRace g o p' s2 >>= fun both => verifyULH g o p' both.2 >>= fun b => (pure (both.1, b.1) : BigM _) b.2) = _
      rw [e3]
      show (verifyULH g o p' s3 >>= fun b => (pure ((false, true), b.1) : BigM _) b.2) = _
      rw [e4]
      rfl
    · have hn : c ∉ o.written := fun h => absurd (hc.trans_le n1) (not_lt.2 (f2 rfl c (hw c h)))
      rw [k4 c (hc.trans_le (n1.trans (n2.trans n3))) hn, k3 c (hc.trans_le (n1.trans n2)) hn,
        k2 c (hc.trans_le n1) (by simp), k1 c hc (by simp)]

/-- The interval [0, 4) in base 2, the value 2, the key 1234 and small randomness, with a constant hash function. -/
def ulRaceExample : Res (Option (ParamsUL × ProofUL)) := do
  let p ← setupUL 2 2 (some 1234)
  let pr ← proveUL (fun _ => List.replicate 32 77) 2 3 p 11 (fun j => 13 + j) (fun j => 17 + j) (fun j => 19 + j)
  .ok (pr.map fun q => (p, q))

/-- A proof as C88 asks for. -/
theorem ulExample_race : ∃ p q q' Q, setupUL 2 2 (some 1234) = .ok p ∧
    proveUL (fun _ => List.replicate 32 77) 2 3 p 11 (fun j => 13 + j) (fun j => 17 + j) (fun j => 19 + j) = .ok (some q) ∧
    verifyUL q p = .ok (true, q') ∧ Rep2 q.D Q ∧ Q ≠ 0 ∧ q.D.z.val ^ 6 ≠ 1 := by
  have hk : ∀ m : Int, 0 ≤ m → m < 2 → ¬ m + 1234 ≡ 0 [ZMOD bnOrder] := by
    intro m h0 h1
    interval_cases m <;> decide +kernel
  have hn : NoClash (ccsH * 11) (wts 2 (fun j => 17 + j) 0 (2 : Int).toNat) := by decide +kernel
  obtain ⟨p, pr, z, h1, h2, hzs, _, _, h3⟩ := C54_honest (fun _ => List.replicate 32 77) (fun _ => List.length_replicate) 2 2 1234
    2 3 11 (fun j => 13 + j) (fun j => 17 + j) (fun j => 19 + j) (by norm_num) (by norm_num) hk (by norm_num) (by norm_num)
    (by norm_num) (fun j => by positivity) (fun j => by positivity) (fun j => by positivity) hn (by decide +kernel)
  obtain ⟨p', pk, e1, e2, e3, e4, _, e6, e5⟩ := C54_setup 2 2 1234 hk
  obtain rfl : p = p' := Res.ok.inj (h1.symm.trans e1)
  obtain ⟨ds, pr', _, _, _, _, f3, f4, _⟩ := C54_proof (fun _ => List.replicate 32 77) (fun _ => List.length_replicate) 2 3 ccsH 1234 p
    11 (fun j => 13 + j) (fun j => 17 + j) (fun j => 19 + j) (by rw [e2]; norm_num) (by rw [e3]; norm_num)
    (fun d hd => (e5 d).1 (e2 ▸ hd)) e6 (by norm_num) (fun j => by positivity) (fun j => by positivity) (fun j => by positivity)
    (by rw [e2, e3]; exact hn)
  obtain rfl : pr = pr' := Option.some.inj (Res.ok.inj (h2.symm.trans f3))
  have hx : ulRaceExample = .ok (some (p, pr)) := by
    unfold ulRaceExample
    rw [h1, Res.ok_bind, h2]
    rfl
  have hc : (match ulRaceExample with
    | .ok (some (_, pr)) => pr.V.all (fun V => !V.z.isOne) &&
        decide (NoClash ((2 + ccsH * 3) * pr.c) (ccsH * pr.zr :: wts 2 (fun j => pr.zsig.getD j 0) 0 2)) &&
        !(pr.D.z.square.mul pr.D.z).square.minimal.isOne
    | _ => false) = true := by decide +kernel
  rw [hx] at hc
  simp only [Bool.and_eq_true, Bool.not_eq_true', decide_eq_true_eq, List.all_eq_true] at hc
  obtain ⟨⟨c1, c2⟩, c3⟩ := hc
  have hw : wts 2 z 0 (2 : Int).toNat = wts 2 (fun j => pr.zsig.getD j 0) 0 2 := by
    have z0 := hzs 0 (by decide)
    have z1 := hzs 1 (by decide)
    show [z 0 * 2 ^ 0, z 1 * 2 ^ 1] = [pr.zsig.getD 0 0 * 2 ^ 0, pr.zsig.getD 1 0 * 2 ^ 1]
    rw [List.getD_eq_getElem?_getD, List.getD_eq_getElem?_getD, z0, z1]
    rfl
  obtain ⟨b, q', h4, h5⟩ := h3 (fun V hV h => absurd h (by rw [c1 V hV]; decide)) (by rw [hw]; exact c2)
  obtain rfl : b = true := h5.2 (by rw [show (2 : Int) - 2 % 2 ^ Int.toNat 2 = 0 by decide, mul_zero])
  refine ⟨p, pr, q', _, h1, h2, h4, f4, ?_, fun h => ?_⟩
  · rw [Ne, bnG2_zsmul_zero, e2, e3]; decide +kernel
  · have := (GfP2.minimal_red (pr.D.z.square.mul pr.D.z).square).isOne.2 (by
      rw [GfP2.val_minimal, GfP2.val_square, GfP2.val_mul, GfP2.val_square, ← h]; ring)
    rw [c3] at this
    cases this

/-- What two goroutines do with it. -/
example : Effect (setupULH ccsVars 2 2 (some 1234) >>= fun p =>
    proveULH ccsVars (fun _ => List.replicate 32 77) 2 3 p 11 (fun j => 13 + j) (fun j => 17 + j) (fun j => 19 + j) >>= fun q =>
      BigM.ofRes (Res.ofOption q) >>= fun q =>
      verifyULRace ccsVars q p >>= fun both => verifyULH ccsVars q p >>= fun b => pure (both, b)) ccsStart [] fun r _ =>
    r = ((false, true), false) := by
  obtain ⟨p, q, q', Q, h1, h2, h3, hD, hQ, hz⟩ := ulExample_race
  exact C88_ul_honest ccsStart_ready _ _ _ _ _ _ _ _ _ _ h1 h2 h3 hD hQ hz

/-! ## Ranges -/

/-- C88: the same for a range proof and `Verify`, if the goroutines meet in the first half. -/
theorem C88_range_race (hr : CcsReady g s) {p : CcsParamsH} {q1 q2 : ProofULH} (hp : Live s p) (hq : Live s (⟨some q1, some q2⟩ : CcsProofH))
    (hgp : Disj g.cells (HeapObj.cells p)) (hgq : Disj g.cells (HeapObj.cells (⟨some q1, some q2⟩ : CcsProofH)))
    (hpq : Disj (HeapObj.cells p) (HeapObj.cells (⟨some q1, some q2⟩ : CcsProofH))) (hk : KeyOk (HeapObj.val s.mem p.p.kp)) {w : CcsProof}
    (hok : ccsVerify (HeapObj.val s.mem (⟨some q1, some q2⟩ : CcsProofH)) (some (HeapObj.val s.mem p)) = .ok (true, w)) {Q : BG2}
    (hD : Rep2 (HeapObj.val s.mem q1.D) Q) (hQ : Q ≠ 0) (hz : (HeapObj.val s.mem q1.D).z.val ^ 6 ≠ 1) :
    Effect (ccsVerifyRace g ⟨some q1, some q2⟩ (some p)) s (CcsProofH.written ⟨some q1, some q2⟩) fun r s' => r = (false, true) ∧
      OffTwist (HeapObj.val s'.mem q1.D) ∧
      Effect (ccsVerifyH g ⟨some q1, some q2⟩ (some p)) s' (CcsProofH.written ⟨some q1, some q2⟩) fun b s'' => b = false ∧
        HeapObj.val s''.mem (⟨some q1, some q2⟩ : CcsProofH) = HeapObj.val s'.mem (⟨some q1, some q2⟩ : CcsProofH) := by
  have sub1 : (HeapObj.cells q1).Sublist (HeapObj.cells (⟨some q1, some q2⟩ : CcsProofH)) := List.sublist_append_left _ _
  have sub2 : (HeapObj.cells q2).Sublist (HeapObj.cells (⟨some q1, some q2⟩ : CcsProofH)) := List.sublist_append_right _ _
  have hq1 : Live s q1 := liveCells_sub hq sub1
  have hq2 : Live s q2 := liveCells_sub hq sub2
  have d12 : Disj (HeapObj.cells q1) (HeapObj.cells q2) := fun c h1 h2 => (List.nodup_append.1 hq.1).2.2 c h1 c h2 rfl
  have hp' : Live s p.p := hp
  -- the verdicts on values
  obtain ⟨w1, v1, hok⟩ := Res.bind_eq_ok.1 (show (verifyUL (HeapObj.val s.mem q1) (HeapObj.val s.mem p.p) >>= fun first =>
    verifyUL (HeapObj.val s.mem q2) (HeapObj.val s.mem p.p) >>= fun second =>
      Res.ok (first.1 && second.1, (⟨some first.2, some second.2⟩ : CcsProof))) = _ from hok)
  obtain ⟨w2, v2, hok⟩ := Res.bind_eq_ok.1 hok
  obtain ⟨b1, b2⟩ := (Bool.and_eq_true _ _).mp (Prod.mk.inj (Res.ok.inj hok)).1
  obtain ⟨w1b, w1p⟩ := w1
  obtain ⟨w2b, w2p⟩ := w2
  obtain rfl : w1b = true := b1
  obtain rfl : w2b = true := b2
  -- the first half
  have gq1 := disj_right hgq sub1
  have gq2 := disj_right hgq sub2
  have pq1 := disj_right hpq sub1
  have pq2 := disj_right hpq sub2
  obtain ⟨r, s1, e1, m1, n1, k1, ⟨⟨⟨rfl, -, -, hoff, hrej⟩, hr1⟩, lp1, vp1⟩, l2, u2⟩ := C84_others (C84_others
    (C84_ready hr (C88_ul_race hr hp' hq1 hgp gq1 pq1 hk v1 hD hQ hz) (disj_right gq1 q1.sub_written)) hp'
    (disj_right pq1 q1.sub_written)) hq2 (disj_right (disj_symm d12) q1.sub_written)
  have lq1 : Live s1 q1 := ⟨hq1.1, fun c hc => (hq1.2 c hc).trans_le n1⟩
  have hk1 : KeyOk (HeapObj.val s1.mem p.p.kp) := by
    rw [show HeapObj.val s1.mem p.p.kp = HeapObj.val s.mem p.p.kp from congrArg ParamsUL.kp vp1]; exact hk
  have x1 : verifyUL (HeapObj.val s1.mem q1) (HeapObj.val s1.mem p.p) = .ok (false, HeapObj.val s1.mem q1) := by
    obtain ⟨b, t, et, -, -, -, rfl, ev⟩ := hrej
    have hf := C84_verifyUL hr1 lp1 lq1 hgp gq1 pq1 hk1
    cases hc : verifyUL (HeapObj.val s1.mem q1) (HeapObj.val s1.mem p.p) with
    | panic => rw [hf.1 hc] at et; cases et
    | ok v =>
      obtain ⟨b', t', et', -, -, -, h1, -, h2⟩ := hf.2 v hc
      rw [et] at et'
      cases et'
      exact congrArg Res.ok (Prod.ext h1.symm (h2.symm.trans ev))
  -- the second half, twice
  rw [← vp1, ← u2] at v2
  obtain ⟨b3, s2, e2, m2, n2, k2, ⟨⟨⟨rfl, l3, u3⟩, hr2⟩, lp2, vp2⟩, lq2, uq2⟩ := C84_others (C84_others (C84_ready hr1
    ((C84_verifyUL hr1 lp1 l2 hgp gq2 pq2 hk1).2 _ v2) (disj_right gq2 q2.sub_written)) lp1 (disj_right pq2 q2.sub_written)) lq1
    (disj_right d12 q2.sub_written)
  have v3 := C64_ul _ _ _ _ v2
  rw [← vp2, show w2p = HeapObj.val s2.mem q2 from u3.symm] at v3
  have hk2 : KeyOk (HeapObj.val s2.mem p.p.kp) := by
    rw [show HeapObj.val s2.mem p.p.kp = HeapObj.val s1.mem p.p.kp from congrArg ParamsUL.kp vp2]; exact hk1
  obtain ⟨b4, s3, e3, m3, n3, k3, ⟨⟨⟨rfl, l4, u4⟩, hr3⟩, lp3, vp3⟩, lq3, uq3⟩ := C84_others (C84_others (C84_ready hr2
    ((C84_verifyUL hr2 lp2 l3 hgp gq2 pq2 hk2).2 _ v3) (disj_right gq2 q2.sub_written)) lp2 (disj_right pq2 q2.sub_written)) lq2
    (disj_right d12 q2.sub_written)
  refine ⟨(false, true), s3, ?_, m3, n1.trans (n2.trans n3), fun c hc hn => ?_, rfl, ?_, ?_⟩
  · show (verifyULRace g q1 p.p s >>= fun r => verifyULH g q2 p.p r.2 >>= fun a => verifyULH g q2 p.p a.2 >>= fun b =>
      (pure (r.1.1 && b.1, r.1.2 && a.1) : BigM _) b.2) = _
    rw [e1]
    show (verifyULH g q2 p.p s1 >>= fun a => verifyULH g q2 p.p a.2 >>= fun b => (pure (false && b.1, true && a.1) : BigM _) b.2) = _
    rw [e2]
    show (verifyULH g q2 p.p s2 >>= fun b => (pure (false && b.1, true && true) : BigM _) b.2) = _
    rw [e3]
    rfl
  · have hn1 : c ∉ q1.written := fun h => hn (List.mem_append_left _ h)
    have hn2 : c ∉ q2.written := fun h => hn (List.mem_append_right _ h)
    rw [k3 c (hc.trans_le (n1.trans n2)) hn2, k2 c (hc.trans_le n1) hn2, k1 c hc hn1]
  · have : (HeapObj.val s3.mem q1).D = (HeapObj.val s1.mem q1).D := by rw [uq3, uq2]
    rw [show HeapObj.val s3.mem q1.D = HeapObj.val s1.mem q1.D from this]
    exact hoff
  · have hk3 : KeyOk (HeapObj.val s3.mem p.p.kp) := by
      rw [show HeapObj.val s3.mem p.p.kp = HeapObj.val s2.mem p.p.kp from congrArg ParamsUL.kp vp3]; exact hk2
    have y1 : verifyUL (HeapObj.val s3.mem q1) (HeapObj.val s3.mem p.p) = .ok (false, HeapObj.val s3.mem q1) := by
      rw [uq3, uq2, vp3, vp2]; exact x1
    have y2 : verifyUL (HeapObj.val s3.mem q2) (HeapObj.val s3.mem p.p) = .ok (true, HeapObj.val s3.mem q2) := by
      rw [vp3, show HeapObj.val s3.mem q2 = HeapObj.val s2.mem q2 from u4]; exact v3
    have y : ccsVerify (HeapObj.val s3.mem (⟨some q1, some q2⟩ : CcsProofH)) (HeapObj.val s3.mem (some p)) =
        .ok (false, HeapObj.val s3.mem (⟨some q1, some q2⟩ : CcsProofH)) := by
      show (verifyUL (HeapObj.val s3.mem q1) (HeapObj.val s3.mem p.p) >>= fun first =>
        verifyUL (HeapObj.val s3.mem q2) (HeapObj.val s3.mem p.p) >>= fun second =>
          Res.ok (first.1 && second.1, (⟨some first.2, some second.2⟩ : CcsProof))) = _
      rw [y1, Res.ok_bind, y2]
      rfl
    have lq : Live s3 (⟨some q1, some q2⟩ : CcsProofH) := ⟨hq.1, fun c hc => (hq.2 c hc).trans_le (n1.trans (n2.trans n3))⟩
    obtain ⟨b, s4, e4, a1, a2, a3, h1, -, h2⟩ := (C84_verify hr3 (p := some p) (q := ⟨some q1, some q2⟩) lp3 lq hgp hgq hpq
      (fun p' h => by cases h; exact hk3)).2 _ y
    exact ⟨b, s4, e4, a1, a2, a3, h1, h2⟩

/-- C88: so it goes for an honest prover and honest parameters: `Setup`, `Prove`, `Verify` in two goroutines, and `Verify` once more,
for a proof which the model on values accepts. -/
theorem C88_range_honest (hr : CcsReady g s) (sha : List UInt8 → List UInt8) (a b : Int) (rnd : Option Int) (x r : Int)
    (w1 w2 : ULRandom) {p : CcsParams} {q1 q2 : ProofUL} {q' : CcsProof} (h1 : ccsSetup a b rnd = .ok (some p))
    (h2 : ccsProve sha (some p) x r w1 w2 = .ok ⟨some q1, some q2⟩) (h3 : ccsVerify ⟨some q1, some q2⟩ (some p) = .ok (true, q'))
    {Q : BG2} (hD : Rep2 q1.D Q) (hQ : Q ≠ 0) (hz : q1.D.z.val ^ 6 ≠ 1) :
    Effect (ccsSetupH g a b rnd >>= fun p => ccsProveH g sha p x r w1 w2 >>= fun q =>
      ccsVerifyRace g q p >>= fun both => ccsVerifyH g q p >>= fun b => pure (both, b)) s [] fun r _ => r = ((false, true), false) := by
  obtain ⟨o, s1, e1, _, n1, k1, ⟨l1, v1, _, f1⟩, hr1⟩ := C84_ready hr ((C84_setup hr a b rnd).2 _ h1) (fun _ _ h => by cases h)
  cases o with
  | none => cases v1
  | some p' =>
    obtain rfl := Option.some.inj v1
    obtain ⟨⟨o1, o2⟩, s2, e2, _, n2, k2, ⟨⟨l2, v2, _, f2⟩, hr2⟩, l3, v3⟩ := C84_others (C84_ready hr1
      ((C84_prove hr1 (p := some p') l1 sha x r w1 w2).2 _ h2) (fun _ _ h => by cases h)) (a := p') l1 (fun _ _ h => by cases h)
    cases o1 with
    | none => cases congrArg CcsProof.p1 v2
    | some o1 =>
    cases o2 with
    | none => cases congrArg CcsProof.p2 v2
    | some o2 =>
      obtain rfl := Option.some.inj (congrArg CcsProof.p1 v2)
      obtain rfl := Option.some.inj (congrArg CcsProof.p2 v2)
      have hw : ∀ c ∈ CcsProofH.written ⟨some o1, some o2⟩, c ∈ HeapObj.cells (⟨some o1, some o2⟩ : CcsProofH) :=
        fun c hc => (List.Sublist.append o1.sub_written o2.sub_written).subset hc
      obtain ⟨b, s3, e3, _, n3, k3, rfl, _, b', s4, e4, n5, n4, k4, rfl, _⟩ := C88_range_race hr2 (p := p') (q1 := o1) (q2 := o2) l3 l2
        (disj_new hr.live.2 (f1 rfl)) (disj_new hr1.live.2 (f2 rfl)) (disj_new l1.2 (f2 rfl))
        (by rw [show HeapObj.val s2.mem p'.p.kp = (HeapObj.val s1.mem p').p.kp by rw [← v3]; rfl]; exact (C84_key rnd).2.2.2 a b _ h1)
        (v3.symm ▸ h3) hD hQ hz
      refine ⟨_, s4, ?_, n5, n1.trans (n2.trans (n3.trans n4)), fun c hc _ => ?_, rfl⟩
      · show (ccsSetupH g a b rnd s >>= fun p => ccsProveH g sha p.1 x r w1 w2 p.2 >>= fun q =>
          ccsVerifyRace g q.1 p.1 q.2 >>= fun both => ccsVerifyH g q.1 p.1 both.2 >>= fun b => (pure (both.1, b.1) : BigM _) b.2) = _
        rw [e1]
        show (ccsProveH g sha (some p') x r w1 w2 s1 >>= fun q => ccsVerifyRace g q.1 (some p') q.2 >>= fun both =>
          ccsVerifyH g q.1 (some p') both.2 >>= fun b => (pure (both.1, b.1) : BigM _) b.2) = _
        rw [e2]
        show (ccsVerifyRace g ⟨some o1, some o2⟩ (some p') s2 >>= fun both => ccsVerifyH g ⟨some o1, some o2⟩ (some p') both.2 >>=
          fun b => (pure (both.1, b.1) : BigM _) b.2) = _
        rw [e3]
        show (ccsVerifyH g ⟨some o1, some o2⟩ (some p') s3 >>= fun b => (pure ((false, true), b.1) : BigM _) b.2) = _
        rw [e4]
        rfl
      · have hn : c ∉ CcsProofH.written ⟨some o1, some o2⟩ := fun h => absurd (hc.trans_le n1) (not_lt.2 (f2 rfl c (hw c h)))
        rw [k4 c (hc.trans_le (n1.trans (n2.trans n3))) hn, k3 c (hc.trans_le (n1.trans n2)) hn,
          k2 c (hc.trans_le n1) (by simp), k1 c hc (by simp)]

/-- Small randomness for one half. -/
def raceRandom : ULRandom := ⟨11, fun j => 13 + j, fun j => 17 + j, fun j => 19 + j⟩

/-- The range [0, 10), the value 5, the key 1234 and small randomness, with a constant hash function. -/
def rangeRaceExample : Res (CcsParams × CcsProof) := do
  let p ← ccsSetup 0 10 (some 1234)
  let p ← Res.ofOption p
  let pr ← ccsProve (fun _ => List.replicate 32 77) (some p) 5 3 raceRandom raceRandom
  .ok (p, pr)

/-- A proof as C88 asks for. -/
theorem rangeExample_race : ∃ p q1 q2 q' Q, ccsSetup 0 10 (some 1234) = .ok (some p) ∧
    ccsProve (fun _ => List.replicate 32 77) (some p) 5 3 raceRandom raceRandom = .ok ⟨some q1, some q2⟩ ∧
    ccsVerify ⟨some q1, some q2⟩ (some p) = .ok (true, q') ∧ Rep2 q1.D Q ∧ Q ≠ 0 ∧ q1.D.z.val ^ 6 ≠ 1 := by
  have hk : ∀ m : Int, 0 ≤ m → m < 57 → ¬ m + 1234 ≡ 0 [ZMOD bnOrder] := by
    intro m h0 h1
    interval_cases m <;> decide +kernel
  have hL : digits57 10 = 1 := by simp [digits57]
  have hw : raceRandom.Nonneg := ⟨by decide, fun j => show (0 : Int) ≤ 13 + j by positivity,
    fun j => show (0 : Int) ≤ 17 + j by positivity, fun j => show (0 : Int) ≤ 19 + j by positivity⟩
  have hn : NoClash (ccsH * raceRandom.m) (wts 57 raceRandom.s 0 1) := by decide +kernel
  have hd : ¬ ccsH * raceRandom.m + (wts 57 raceRandom.s 0 1).sum ≡ 0 [ZMOD bnOrder] := by decide +kernel
  obtain ⟨p, q1, q2, z1, z2, h1, h2, hzs, h3⟩ := C55_honest (fun _ => List.replicate 32 77) (fun _ => List.length_replicate) 0 10 1234
    5 3 raceRandom raceRandom (by norm_num) (by norm_num) (by norm_num) (by norm_num) (by norm_num) hk (by norm_num) hw hw
    (by rw [hL]; exact hn) (by rw [hL]; exact hn) (by rw [hL]; exact hd) (by rw [hL]; exact hd)
    (by rw [hL]; exact ⟨fun _ => by decide +kernel, fun h => absurd h (by norm_num)⟩)
    ⟨fun _ => by decide +kernel, fun h => absurd h (by norm_num)⟩
  have hx : rangeRaceExample = .ok (p, ⟨some q1, some q2⟩) := by
    unfold rangeRaceExample
    rw [h1]
    show (ccsProve _ (some p) _ _ _ _ >>= _) = _
    rw [h2]
    rfl
  have hc : (match rangeRaceExample with
    | .ok (_, ⟨some q1, some q2⟩) => q1.V.all (fun V => !V.z.isOne) && q2.V.all (fun V => !V.z.isOne) &&
        decide (NoClash ((52 + ccsH * 3) * q1.c) (ccsH * q1.zr :: wts 57 (fun j => q1.zsig.getD j 0) 0 1)) &&
        decide (NoClash ((5 + ccsH * 3) * q2.c) (ccsH * q2.zr :: wts 57 (fun j => q2.zsig.getD j 0) 0 1)) &&
        !(q1.D.z.square.mul q1.D.z).square.minimal.isOne
    | _ => false) = true := by decide +kernel
  rw [hx] at hc
  simp only [Bool.and_eq_true, Bool.not_eq_true', decide_eq_true_eq, List.all_eq_true] at hc
  obtain ⟨⟨⟨⟨c1, c2⟩, c3⟩, c4⟩, c5⟩ := hc
  rw [hL] at hzs h3
  obtain ⟨z10, z20⟩ := hzs 0 (by decide)
  have e1 : wts 57 z1 0 1 = wts 57 (fun j => q1.zsig.getD j 0) 0 1 := by
    show [z1 0 * 57 ^ 0] = [q1.zsig.getD 0 0 * 57 ^ 0]
    rw [List.getD_eq_getElem?_getD, z10]
    rfl
  have e2 : wts 57 z2 0 1 = wts 57 (fun j => q2.zsig.getD j 0) 0 1 := by
    show [z2 0 * 57 ^ 0] = [q2.zsig.getD 0 0 * 57 ^ 0]
    rw [List.getD_eq_getElem?_getD, z20]
    rfl
  obtain ⟨v, q', h4, h5, -⟩ := h3
    (fun V hV h => (List.mem_append.1 hV).elim (fun hV => absurd h (by rw [c1 V hV]; decide)) fun hV => absurd h (by rw [c2 V hV]; decide))
    ⟨fun _ => by rw [e1]; exact c3, fun h => absurd h (by norm_num)⟩ ⟨fun _ => by rw [e2]; exact c4, fun h => absurd h (by norm_num)⟩
  obtain rfl : v = true := h5 (by norm_num) (by norm_num) (by norm_num) (by norm_num)
  -- the point `D` of the first half
  obtain ⟨p', hp', hs⟩ := (C55_setup 0 10 1234 (by norm_num) hk).2 (by norm_num)
  obtain rfl := Option.some.inj (Res.ok.inj (h1.symm.trans hs))
  rw [hL] at hp'
  obtain ⟨p2, pk, g1, g2, g3, g4, _, g6, g5⟩ := C54_setup 57 (1 : Nat) 1234 hk
  obtain rfl : p' = p2 := Res.ok.inj (hp'.symm.trans g1)
  obtain ⟨ds, pr', _, _, _, _, f3, f4, _⟩ := C54_proof (fun _ => List.replicate 32 77) (fun _ => List.length_replicate) 52 3 ccsH 1234 p'
    11 raceRandom.v raceRandom.s raceRandom.t (by rw [g2]; norm_num) (by rw [g3]; norm_num)
    (fun d hd => (g5 d).1 (g2 ▸ hd)) g6 (by norm_num) hw.2.1 hw.2.2.1 hw.2.2.2 (by rw [g2, g3]; exact hn)
  obtain rfl : q1 = pr' := by
    unfold ccsProve at h2
    obtain ⟨o1, h6, h2⟩ := Res.bind_eq_ok.1 (show (proveUL _ (5 - 10 + p'.u ^ p'.l.toNat) 3 p' _ _ _ _ >>= _) = _ from h2)
    obtain ⟨o2, h7, h2⟩ := Res.bind_eq_ok.1 h2
    rw [g2, g3] at h6
    have : o1 = some q1 := congrArg CcsProof.p1 (Res.ok.inj h2)
    rw [this] at h6
    exact Option.some.inj (Res.ok.inj (h6.symm.trans f3))
  refine ⟨_, q1, q2, q', _, h1, h2, h4, f4, ?_, fun h => ?_⟩
  · rw [Ne, bnG2_zsmul_zero, g2, g3]; exact hd
  · have := (GfP2.minimal_red (q1.D.z.square.mul q1.D.z).square).isOne.2 (by
      rw [GfP2.val_minimal, GfP2.val_square, GfP2.val_mul, GfP2.val_square, ← h]; ring)
    rw [c5] at this
    cases this

/-- What two goroutines do with it. -/
example : Effect (ccsSetupH ccsVars 0 10 (some 1234) >>= fun p =>
    ccsProveH ccsVars (fun _ => List.replicate 32 77) p 5 3 raceRandom raceRandom >>= fun q =>
      ccsVerifyRace ccsVars q p >>= fun both => ccsVerifyH ccsVars q p >>= fun b => pure (both, b)) ccsStart [] fun r _ =>
    r = ((false, true), false) := by
  obtain ⟨p, q1, q2, q', Q, h1, h2, h3, hD, hQ, hz⟩ := rangeExample_race
  exact C88_range_honest ccsStart_ready _ _ _ _ _ _ _ _ h1 h2 h3 hD hQ hz

end Verif

import Verif.Lemmas.CcsHeapRange
import Verif.Props.CcsMisc
import Verif.Lemmas.CcsTotal

/-!
# C84, C85: ccs08 and bbsignatures with pointers

The functions of `Model/CcsHeap.lean` follow the call structure of the Go code on `big.Int` objects in memory: elements are changed
in place, parameters and proofs share objects with the package variables or with each other if the code makes them, and `Marshal`
rewrites the element it encodes.  C84 says that this makes no difference to the model on values (`Model/Ccs.lean`), and exactly which
objects change.  C85 concerns programs which use one set of parameters for many proofs.
-/

namespace Verif

variable {g : CcsGlobals} {s : BigHeap}

/-! ## C84 -/

/-- C84: `Keygen` makes a new key pair and changes nothing. -/
theorem C84_keygen (hr : CcsReady g s) (rnd : Option Int) : Effect (keygenH g rnd) s [] (IsResult s none (keygen rnd)) := by
  obtain ⟨k, s', e, h1, h2, h3, h⟩ := (hr.loc []).keygen hr.env rnd
  exact ⟨k, s', e, h.pool, h.next, h.keep, h.result ((holds_opt h1).key h2 h3)⟩

/-- C84: `Sign` makes a new signature, or nil, and changes nothing; it panics if the inverse does not exist. -/
theorem C84_sign (hr : CcsReady g s) (m sk : Int) : Follows (bbSignH g m sk) s [] (bbSign m sk) (IsResult s none) :=
  ((hr.loc []).bbSign hr.env m sk).follows fun _ _ _ ⟨h1, h⟩ => ⟨⟨_, h⟩, h.result (holds_opt h1)⟩

/-- C84: `verify` of bbsignatures gives the verdict and changes nothing: neither the signature nor the public key, which it uses
as an argument of `Add` and `Pair`. -/
theorem C84_bb_verify (hr : CcsReady g s) {sig : TwistP} {pubk : CurveP} (hs : Live s sig) (hp : Live s pubk)
    (hg : Disj g.cells (HeapObj.cells sig)) (m : Int)
    (hi : ∀ gm, G1.unmarshal (G1.marshal (G1.scalarBaseMult .new m)).1 = some gm →
      (gm.addSelf (HeapObj.val s.mem pubk)).Invertible) :
    Follows (bbVerifyH g sig m pubk) s [] (bbVerify (HeapObj.val s.mem sig) m (HeapObj.val s.mem pubk)) fun w b _ => b = w :=
  ((hr.loc []).bbVerify hr.env (.nil hs) (.nil hp) hg m hi).follows fun _ _ _ ⟨e, h⟩ => ⟨⟨_, h⟩, e⟩

/-- C84: `Commit` makes a new element and changes nothing. -/
theorem C84_commit (hr : CcsReady g s) {H : TwistP} (hH : Live s H) (x r : Int) :
    Effect (commitH g x r H) s [] (IsResult s none (commit x r (HeapObj.val s.mem H))) := by
  obtain ⟨C, s', e, h⟩ := (hr.loc []).commit hr.env (Or.inl (.nil hH)) x r
  exact ⟨C, s', e, h.pool, h.next, h.keep, Loc.result (E := [_]) h (holds_own _ _)⟩

/-- C84: `SetupSet` makes new parameters and changes nothing. -/
theorem C84_setupSet (hr : CcsReady g s) (S : List Int) (rnd : Option Int) :
    Follows (setupSetH g S rnd) s [] (setupSet S rnd) (IsResult s none) :=
  ((hr.loc []).setupSet hr.env S rnd).follows fun _ _ _ ⟨_, hE, h⟩ => ⟨⟨_, h⟩, h.result hE⟩

/-- C84: `SetupUL` makes new parameters and changes nothing. -/
theorem C84_setupUL (hr : CcsReady g s) (u l : Int) (rnd : Option Int) :
    Follows (setupULH g u l rnd) s [] (setupUL u l rnd) (IsResult s none) :=
  ((hr.loc []).setupUL hr.env u l rnd).follows fun _ _ _ ⟨_, hE, h⟩ => ⟨⟨_, h⟩, h.result hE⟩

/-- C84: `Setup` makes new parameters (nil after an error) and changes nothing. -/
theorem C84_setup (hr : CcsReady g s) (a b : Int) (rnd : Option Int) :
    Follows (ccsSetupH g a b rnd) s [] (ccsSetup a b rnd) (IsResult s none) :=
  ((hr.loc []).ccsSetup hr.env a b rnd).follows fun _ _ _ ⟨_, hE, h⟩ => ⟨⟨_, h⟩, h.result hE⟩

/-- C84: the keys in the parameters can be used in `Pair`. -/
theorem C84_key (rnd : Option Int) :
    KeyOk (keygen rnd) ∧ (∀ S p, setupSet S rnd = .ok p → KeyOk p.kp) ∧ (∀ u l p, setupUL u l rnd = .ok p → KeyOk p.kp) ∧
    ∀ a b p, ccsSetup a b rnd = .ok (some p) → KeyOk p.p.kp := by
  have h0 := keyOk_keygen rnd
  have h2 : ∀ u l p, setupUL u l rnd = .ok p → KeyOk p.kp := by
    intro u l p h
    unfold setupUL at h
    generalize keygen rnd = k at *
    simp only [Res.bind_eq_ok, Res.ok.injEq] at h
    obtain ⟨_, _, rfl⟩ := h
    exact h0
  refine ⟨h0, fun S p h => ?_, h2, fun a b p h => ?_⟩
  · unfold setupSet at h
    generalize keygen rnd = k at *
    simp only [Res.bind_eq_ok, Res.ok.injEq] at h
    obtain ⟨_, _, rfl⟩ := h
    exact h0
  · unfold ccsSetup at h
    split at h
    · cases h
    split at h
    · simp only [Res.bind_eq_ok] at h
      obtain ⟨q, hq, h⟩ := h
      obtain rfl := Option.some.inj (Res.ok.inj h)
      exact h2 _ _ _ hq
    · cases h

/-- C84: `ProveSet` makes a new proof, or nil, and changes nothing: not the parameters, and not the package variables. -/
theorem C84_proveSet (hr : CcsReady g s) {p : ParamsSetH} (hp : Live s p) (sha : List UInt8 → List UInt8) (x r m v σ t : Int) :
    Follows (proveSetH g sha x r p m v σ t) s [] (proveSet sha x r (HeapObj.val s.mem p) m v σ t) (IsResult s none) :=
  ((hr.loc []).proveSet' hr.env sha x r (.nil hp) m v σ t).follows fun _ _ _ ⟨_, hE, h⟩ => ⟨⟨_, h⟩, h.result hE⟩

/-- C84: `ProveUL` makes a new proof, or nil, and changes nothing. -/
theorem C84_proveUL (hr : CcsReady g s) {p : ParamsULH} (hp : Live s p) (sha : List UInt8 → List UInt8) (x r m : Int)
    (v σ t : Nat → Int) :
    Follows (proveULH g sha x r p m v σ t) s [] (proveUL sha x r (HeapObj.val s.mem p) m v σ t) (IsResult s none) :=
  ((hr.loc []).proveUL' hr.env sha x r (.nil hp) m v σ t).follows fun _ _ _ ⟨_, hE, h⟩ => ⟨⟨_, h⟩, h.result hE⟩

/-- C84: `Prove` makes a new proof and changes nothing; with nil parameters it panics. -/
theorem C84_prove (hr : CcsReady g s) {p : Option CcsParamsH} (hp : Live s p) (sha : List UInt8 → List UInt8) (x r : Int)
    (w1 w2 : ULRandom) :
    Follows (ccsProveH g sha p x r w1 w2) s [] (ccsProve sha (HeapObj.val s.mem p) x r w1 w2) (IsResult s none) :=
  ((hr.loc []).ccsProve hr.env sha (.nil hp) x r w1 w2).follows fun _ _ _ ⟨_, hE, h⟩ => ⟨⟨_, h⟩, h.result hE⟩

/-- C84: `VerifySet` gives the verdict, changes at most `D` and `a` of the proof, and leaves the proof as the model on values says.
The conditions hold when the parameters and the proof were made by `SetupSet` and `ProveSet`: new objects are made of cells that did
not exist before. -/
theorem C84_verifySet (hr : CcsReady g s) {p : ParamsSetH} {q : ProofSetH} (hp : Live s p) (hq : Live s q)
    (hgp : Disj g.cells (HeapObj.cells p)) (hgq : Disj g.cells (HeapObj.cells q))
    (hpq : Disj (HeapObj.cells p) (HeapObj.cells q)) (hk : KeyOk (HeapObj.val s.mem p.kp)) :
    Follows (verifySetH g q p) s (HeapObj.cells q.D ++ HeapObj.cells q.a) (verifySet (HeapObj.val s.mem q) (HeapObj.val s.mem p))
      fun w b s' => b = w.1 ∧ Live s' q ∧ HeapObj.val s'.mem q = w.2 :=
  Sim.verifySet hr hp hq hgp hgq hpq hk

/-- C84: `VerifyUL` gives the verdict, changes at most `D` and the `a[i]` of the proof, and leaves the proof as the model on values
says. -/
theorem C84_verifyUL (hr : CcsReady g s) {p : ParamsULH} {q : ProofULH} (hp : Live s p) (hq : Live s q)
    (hgp : Disj g.cells (HeapObj.cells p)) (hgq : Disj g.cells (HeapObj.cells q))
    (hpq : Disj (HeapObj.cells p) (HeapObj.cells q)) (hk : KeyOk (HeapObj.val s.mem p.kp)) :
    Follows (verifyULH g q p) s q.written (verifyUL (HeapObj.val s.mem q) (HeapObj.val s.mem p))
      fun w b s' => b = w.1 ∧ Live s' q ∧ HeapObj.val s'.mem q = w.2 :=
  Sim.verifyUL hr hp hq hgp hgq hpq hk

/-- C84: `Verify` gives the verdict, changes at most `D` and the `a[i]` of the two halves of the proof, and leaves the proof as the
model on values says; with nil parameters, or with half a proof, it panics. -/
theorem C84_verify (hr : CcsReady g s) {p : Option CcsParamsH} {q : CcsProofH} (hp : Live s p) (hq : Live s q)
    (hgp : Disj g.cells (HeapObj.cells p)) (hgq : Disj g.cells (HeapObj.cells q))
    (hpq : Disj (HeapObj.cells p) (HeapObj.cells q)) (hk : ∀ p', p = some p' → KeyOk (HeapObj.val s.mem p'.p.kp)) :
    Follows (ccsVerifyH g q p) s q.written (ccsVerify (HeapObj.val s.mem q) (HeapObj.val s.mem p))
      fun w b s' => b = w.1 ∧ Live s' q ∧ HeapObj.val s'.mem q = w.2 :=
  Sim.verify hr hp hq hgp hgq hpq hk

/-- C84: after any call that changes at most `W`, the package variables are intact if none of them is in `W`. -/
theorem C84_ready {α : Type} {m : BigM α} {W : List Cell} {Q : α → BigHeap → Prop} (hr : CcsReady g s) (h : Effect m s W Q)
    (hW : Disj g.cells W) : Effect m s W fun r s' => Q r s' ∧ CcsReady g s' := by
  obtain ⟨r, s', e, h1, h2, h3, hQ⟩ := h
  have hk : ∀ c ∈ g.cells, s'.mem c = s.mem c := fun c hc => h3 c (hr.live.2 c hc) (hW c hc)
  have he : Env g s W := ⟨hr, hW⟩
  have hl : Loc s W s' [] := ⟨h1, h2, h3, .nil, fun _ h => by cases h⟩
  exact ⟨r, s', e, h1, h2, h3, hQ, h1, ⟨hr.live.1, fun c hc => (hr.live.2 c hc).trans_le h2⟩, (hl.bn he).2,
    (hl.old he.curveGen).2, (hl.old he.twistGen).2, (hl.old he.twistB).2, (hl.old he.G1).2, (hl.old he.E).2⟩

/-- C84: and every object without a cell in `W` has kept its value. -/
theorem C84_others {α : Type} {m : BigM α} {W : List Cell} {Q : α → BigHeap → Prop} {A V : Type} [HeapObj A V] [HeapLaw A] {a : A}
    (h : Effect m s W Q) (ha : Live s a) (hW : Disj (HeapObj.cells a) W) :
    Effect m s W fun r s' => Q r s' ∧ Live s' a ∧ HeapObj.val s'.mem a = HeapObj.val s.mem a := by
  obtain ⟨r, s', e, h1, h2, h3, hQ⟩ := h
  have hl : Loc s W s' [] := ⟨h1, h2, h3, .nil, fun _ h => by cases h⟩
  exact ⟨r, s', e, h1, h2, h3, hQ, hl.old ⟨ha, rfl, hW⟩⟩

private theorem disj_empty (l : List Cell) : Disj l [] := fun _ _ h => by cases h

private theorem disj_new {n : Nat} {l l' : List Cell} (h : ∀ c ∈ l, c < n) (h' : ∀ c ∈ l', n ≤ c) : Disj l l' :=
  fun c hc hc' => absurd (h c hc) (not_lt.2 (h' c hc'))

/-- C84: `SetupSet`, `ProveSet` and `VerifySet` one after the other: the verdict is that of the model on values, and no object that
existed before has changed. -/
theorem C84_run_set (hr : CcsReady g s) (sha : List UInt8 → List UInt8) (S : List Int) (rnd : Option Int) (x r m v σ t : Int)
    {p : ParamsSet} {q q' : ProofSet} {b : Bool} (h1 : setupSet S rnd = .ok p) (h2 : proveSet sha x r p m v σ t = .ok (some q))
    (h3 : verifySet q p = .ok (b, q')) :
    Effect (setupSetH g S rnd >>= fun p => proveSetH g sha x r p m v σ t >>= fun q => BigM.ofRes (Res.ofOption q) >>= fun q =>
      verifySetH g q p) s [] fun r s' => r = b ∧ CcsReady g s' := by
  obtain ⟨p', s1, e1, _, n1, k1, ⟨l1, rfl, _, f1⟩, hr1⟩ := C84_ready hr ((C84_setupSet hr S rnd).2 _ h1) (disj_empty _)
  obtain ⟨o, s2, e2, _, n2, k2, ⟨⟨l2, v2, _, f2⟩, hr2⟩, l3, v3⟩ := C84_others (C84_ready hr1
    ((C84_proveSet hr1 l1 sha x r m v σ t).2 _ h2) (disj_empty _)) (a := p') l1 (disj_empty _)
  cases o with
  | none => cases v2
  | some o =>
    obtain rfl := Option.some.inj v2
    have d1 : Disj g.cells (HeapObj.cells p') := disj_new hr.live.2 (f1 rfl)
    have d2 : Disj g.cells (HeapObj.cells o) := disj_new hr1.live.2 (f2 rfl)
    have hw : ∀ c ∈ HeapObj.cells o.D ++ HeapObj.cells o.a, c ∈ HeapObj.cells o := fun c hc => by
      show c ∈ HeapObj.cells o.V ++ HeapObj.cells o.D ++ HeapObj.cells o.C ++ HeapObj.cells o.a
      simp only [List.mem_append] at hc ⊢
      tauto
    obtain ⟨b', s3, e3, n4, n3, k3, ⟨rfl, _⟩, hr3⟩ := C84_ready hr2 ((C84_verifySet hr2 l3 l2 d1 d2 (disj_new l1.2 (f2 rfl))
      (by rw [show HeapObj.val s2.mem p'.kp = (HeapObj.val s1.mem p').kp by rw [← v3]; rfl]
          exact (C84_key rnd).2.1 S _ h1)).2 _ (v3.symm ▸ h3)) (fun c hc hc' => d2 c hc (hw c hc'))
    refine ⟨_, s3, ?_, n4, n1.trans (n2.trans n3), fun c hc _ => ?_, rfl, hr3⟩
    · show (setupSetH g S rnd s >>= fun p => proveSetH g sha x r p.1 m v σ t p.2 >>= fun q =>
        BigM.ofRes (Res.ofOption q.1) q.2 >>= fun q => verifySetH g q.1 p.1 q.2) = _
      rw [e1]
      show (proveSetH g sha x r p' m v σ t s1 >>= fun q =>
        BigM.ofRes (Res.ofOption q.1) q.2 >>= fun q => verifySetH g q.1 p' q.2) = _
      rw [e2]
      exact e3
    · rw [k3 c (hc.trans_le (n1.trans n2)) fun h => absurd (hc.trans_le n1) (not_lt.2 (f2 rfl c (hw c h))),
        k2 c (hc.trans_le n1) (by simp), k1 c hc (by simp)]

/-- C84: `Keygen`, `Sign` and `verify` one after the other, unless the message equals the secret key (then `Add` doubles in place). -/
theorem C84_run_bb (hr : CcsReady g s) (k m : Int) (hc : m ≡ 0 [ZMOD bnOrder] ∨ ¬ m ≡ k [ZMOD bnOrder]) {y : CurvePoint}
    {sig : TwistPoint} {b : Option Bool} (h1 : (keygen (some k)).pubk = some y) (h2 : bbSign m k = .ok (some sig))
    (h3 : bbVerify sig m y = .ok b) :
    Effect (keygenH g (some k) >>= fun kp => bbSignH g m k >>= fun o => BigM.ofRes (Res.ofOption o) >>= fun sig =>
      BigM.ofRes (Res.ofOption kp.pubk) >>= fun y => bbVerifyH g sig m y) s [] fun r s' => r = b ∧ CcsReady g s' := by
  obtain ⟨kp, s1, e1, _, n1, k1, ⟨l1, w1, _, f1⟩, hr1⟩ := C84_ready hr (C84_keygen hr (some k)) (disj_empty _)
  obtain ⟨o, s2, e2, _, n2, k2, ⟨⟨l2, v2, _, f2⟩, hr2⟩, l3, v3⟩ := C84_others (C84_ready hr1
    ((C84_sign hr1 m k).2 _ h2) (disj_empty _)) (a := kp) l1 (disj_empty _)
  rw [w1] at v3
  have v4 : HeapObj.val s2.mem kp.pubk = some y := (congrArg KeygenResult.pubk v3).trans h1
  obtain ⟨pubk, privk, err⟩ := kp
  cases o with
  | none => cases v2
  | some o => cases pubk with
    | none => cases v4
    | some pubk =>
      obtain rfl := Option.some.inj v2
      have v4 : HeapObj.val s2.mem pubk = y := Option.some.inj v4
      obtain ⟨pk, hpk, hrep⟩ := C50_keygen k
      rw [hpk] at h1
      obtain rfl : pk = y := Option.some.inj h1
      have hi : ∀ gm, G1.unmarshal (G1.marshal (G1.scalarBaseMult .new m)).1 = some gm →
          (gm.addSelf (HeapObj.val s2.mem pubk)).Invertible := by
        intro gm hgm
        obtain ⟨gm', hgm', hr'⟩ := C38_roundtrip _ _ (C34_scalarBaseMult .new m)
        rw [hgm] at hgm'
        obtain rfl := Option.some.inj hgm'
        rw [v4]
        exact CurvePoint.invertible_of_rep (addSelf_exp1 hr' hrep hc)
      obtain ⟨b', s3, e3, n4, n3, k3, rfl, hr3⟩ := C84_ready hr2 ((C84_bb_verify hr2 (sig := o) (pubk := pubk) l2 l3
        (disj_new hr1.live.2 (f2 rfl)) m hi).2 _ (v4.symm ▸ h3)) (disj_empty _)
      refine ⟨_, s3, ?_, n4, n1.trans (n2.trans n3), fun c hc _ => ?_, rfl, hr3⟩
      · show (keygenH g (some k) s >>= fun kp => bbSignH g m k kp.2 >>= fun o => BigM.ofRes (Res.ofOption o.1) o.2 >>= fun sig =>
          BigM.ofRes (Res.ofOption kp.1.pubk) sig.2 >>= fun y => bbVerifyH g sig.1 m y.1 y.2) = _
        rw [e1]
        show (bbSignH g m k s1 >>= fun o => BigM.ofRes (Res.ofOption o.1) o.2 >>= fun sig =>
          BigM.ofRes (Res.ofOption (some pubk)) sig.2 >>= fun y => bbVerifyH g sig.1 m y.1 y.2) = _
        rw [e2]
        exact e3
      · rw [k3 c (hc.trans_le (n1.trans n2)) (by simp), k2 c (hc.trans_le n1) (by simp), k1 c hc (by simp)]

/-- C84: the same for `SetupUL`, `ProveUL` and `VerifyUL`. -/
theorem C84_run_ul (hr : CcsReady g s) (sha : List UInt8 → List UInt8) (u l : Int) (rnd : Option Int) (x r m : Int)
    (v σ t : Nat → Int) {p : ParamsUL} {q q' : ProofUL} {b : Bool} (h1 : setupUL u l rnd = .ok p)
    (h2 : proveUL sha x r p m v σ t = .ok (some q)) (h3 : verifyUL q p = .ok (b, q')) :
    Effect (setupULH g u l rnd >>= fun p => proveULH g sha x r p m v σ t >>= fun q => BigM.ofRes (Res.ofOption q) >>= fun q =>
      verifyULH g q p) s [] fun r s' => r = b ∧ CcsReady g s' := by
  obtain ⟨p', s1, e1, _, n1, k1, ⟨l1, rfl, _, f1⟩, hr1⟩ := C84_ready hr ((C84_setupUL hr u l rnd).2 _ h1) (disj_empty _)
  obtain ⟨o, s2, e2, _, n2, k2, ⟨⟨l2, v2, _, f2⟩, hr2⟩, l3, v3⟩ := C84_others (C84_ready hr1
    ((C84_proveUL hr1 l1 sha x r m v σ t).2 _ h2) (disj_empty _)) (a := p') l1 (disj_empty _)
  cases o with
  | none => cases v2
  | some o =>
    obtain rfl := Option.some.inj v2
    have d1 : Disj g.cells (HeapObj.cells p') := disj_new hr.live.2 (f1 rfl)
    have d2 : Disj g.cells (HeapObj.cells o) := disj_new hr1.live.2 (f2 rfl)
    have hw : ∀ c ∈ o.written, c ∈ HeapObj.cells o := fun c hc => o.sub_written.subset hc
    obtain ⟨b', s3, e3, n4, n3, k3, ⟨rfl, _⟩, hr3⟩ := C84_ready hr2 ((C84_verifyUL hr2 l3 l2 d1 d2 (disj_new l1.2 (f2 rfl))
      (by rw [show HeapObj.val s2.mem p'.kp = (HeapObj.val s1.mem p').kp by rw [← v3]; rfl]
          exact (C84_key rnd).2.2.1 u l _ h1)).2 _ (v3.symm ▸ h3)) (fun c hc hc' => d2 c hc (hw c hc'))
    refine ⟨_, s3, ?_, n4, n1.trans (n2.trans n3), fun c hc _ => ?_, rfl, hr3⟩
    · show (setupULH g u l rnd s >>= fun p => proveULH g sha x r p.1 m v σ t p.2 >>= fun q =>
        BigM.ofRes (Res.ofOption q.1) q.2 >>= fun q => verifyULH g q.1 p.1 q.2) = _
      rw [e1]
      show (proveULH g sha x r p' m v σ t s1 >>= fun q =>
        BigM.ofRes (Res.ofOption q.1) q.2 >>= fun q => verifyULH g q.1 p' q.2) = _
      rw [e2]
      exact e3
    · rw [k3 c (hc.trans_le (n1.trans n2)) fun h => absurd (hc.trans_le n1) (not_lt.2 (f2 rfl c (hw c h))),
        k2 c (hc.trans_le n1) (by simp), k1 c hc (by simp)]

/-! ## C85 -/

/-- The proofs in memory are those made: as they were made, or as a verification has left them. -/
private structure Kept (g : CcsGlobals) (p : CcsParamsH) (vp : CcsParams) (n : Nat) (s : BigHeap) (made : List CcsProofH)
    (vs : List CcsProof) : Prop where
  live : Live s made
  new : ∀ c ∈ HeapObj.cells made, n ≤ c
  len : made.length = vs.length
  val : ∀ (j : Nat) (q : CcsProofH) (v : CcsProof), made[j]? = some q → vs[j]? = some v →
    HeapObj.val s.mem q = v ∨ ∃ b, ccsVerify v (some vp) = .ok (b, HeapObj.val s.mem q)

private theorem cells_getElem {made : List CcsProofH} {j : Nat} {q : CcsProofH} (h : made[j]? = some q) :
    (HeapObj.cells q).Sublist (HeapObj.cells made) :=
  List.sublist_flatten_of_mem (List.mem_map_of_mem (List.mem_of_getElem? h))

private theorem cells_apart {made : List CcsProofH} (hn : (HeapObj.cells made).Nodup) {i j : Nat} {q q' : CcsProofH}
    (hi : made[i]? = some q) (hj : made[j]? = some q') (hij : i ≠ j) : Disj (HeapObj.cells q) (HeapObj.cells q') := by
  have h := (List.nodup_flatten.1 hn).2
  have key : ∀ {i j : Nat} {q q' : CcsProofH}, made[i]? = some q → made[j]? = some q' → i < j →
      Disj (HeapObj.cells q) (HeapObj.cells q') := by
    intro i j q q' hi hj hij c hc hc'
    obtain ⟨hi1, hi2⟩ := List.getElem?_eq_some_iff.1 hi
    obtain ⟨hj1, hj2⟩ := List.getElem?_eq_some_iff.1 hj
    have := List.pairwise_iff_getElem.1 h i j (by simpa using hi1) (by simpa using hj1) hij
    simp only [List.getElem_map, hi2, hj2] at this
    exact this hc hc'
  rcases Nat.lt_or_gt_of_ne hij with h1 | h1
  · exact key hi hj h1
  · exact disj_symm (key hj hi h1)

private theorem written_sub (q : CcsProofH) : q.written.Sublist (HeapObj.cells q) := by
  obtain ⟨o1, o2⟩ := q
  have h : ∀ o : Option ProofULH, (o.elim [] ProofULH.written).Sublist (HeapObj.cells o) := by
    intro o
    cases o with
    | none => exact List.Sublist.refl _
    | some q => exact q.sub_written
  exact List.Sublist.append (h o1) (h o2)

private theorem session {p : CcsParamsH} {vp : CcsParams} {s0 : BigHeap} (hr0 : CcsReady g s0) (hp0 : Live s0 p)
    (hv0 : HeapObj.val s0.mem p = vp)
    (hgp : Disj g.cells (HeapObj.cells p)) (hk : KeyOk vp.p.kp) (sha : List UInt8 → List UInt8) {vs : List CcsProof}
    {cs : List CcsCall} {bs : List Bool} (h : CcsSession sha vp vs cs bs) :
    ∀ {s : BigHeap} {made : List CcsProofH}, s.pool = none → s0.next ≤ s.next → (∀ c < s0.next, s.mem c = s0.mem c) →
      Kept g p vp s0.next s made vs →
      ∃ s', ccsSessionH g sha p made cs s = .ok (bs, s') ∧ s'.pool = none ∧ s0.next ≤ s'.next ∧
        ∀ c < s0.next, s'.mem c = s0.mem c := by
  induction h with
  | nil vs => exact fun {s made} h1 h2 h3 _ => ⟨s, rfl, h1, h2, h3⟩
  | @prove vs x r w1 w2 v cs bs hv _ ih =>
    intro s made h1 h2 h3 hm
    have hl : Loc s0 [] s [] := ⟨h1, h2, fun c hc _ => h3 c hc, .nil, fun _ h => by cases h⟩
    obtain ⟨lp, ep⟩ := hl.old (.nil hp0)
    rw [hv0] at ep
    have hrs : CcsReady g s := by
      have he := hr0.env
      exact ⟨h1, ⟨hr0.live.1, fun c hc => (hr0.live.2 c hc).trans_le h2⟩, (hl.bn he).2, (hl.old he.curveGen).2,
        (hl.old he.twistGen).2, (hl.old he.twistB).2, (hl.old he.G1).2, (hl.old he.E).2⟩
    have hP := (C84_prove hrs (p := some p) lp sha x r w1 w2).2
    rw [show HeapObj.val s.mem (some p) = some vp from congrArg some ep] at hP
    obtain ⟨q, s1, e, n1, n2, n3, l1, l2, _, l4⟩ := hP v hv
    have hc : HeapObj.cells (made ++ [q]) = HeapObj.cells made ++ HeapObj.cells q := by
      show ((made ++ [q]).map HeapObj.cells).flatten = (made.map HeapObj.cells).flatten ++ _
      rw [List.map_append, List.flatten_append]
      simp
    have hK : Kept g p vp s0.next s1 (made ++ [q]) (vs ++ [v]) := ?_
    · obtain ⟨s', e', r'⟩ := ih n1 (h2.trans n2) (fun c hc => (n3 c (hc.trans_le h2) (by simp)).trans (h3 c hc)) hK
      refine ⟨s', ?_, r'⟩
      show (ccsProveH g sha (some p) x r w1 w2 s >>= fun a => ccsSessionH g sha p (made ++ [a.1]) cs a.2) = _
      rw [e]; exact e'
    · refine ⟨⟨?_, fun c h => ?_⟩, fun c h => ?_, by simp [hm.len], fun j a w ha hw => ?_⟩
      · rw [hc, List.nodup_append]
        refine ⟨hm.live.1, l1.1, fun a ha b hb hab => ?_⟩
        subst hab
        exact absurd (hm.live.2 a ha) (not_lt.2 (l4 rfl a hb))
      · rw [hc, List.mem_append] at h
        exact h.elim (fun h => (hm.live.2 c h).trans_le n2) fun h => l1.2 c h
      · rw [hc, List.mem_append] at h
        exact h.elim (fun h => hm.new c h) fun h => h2.trans (l4 rfl c h)
      · by_cases hj : j < made.length
        · rw [List.getElem?_append_left hj] at ha
          rw [List.getElem?_append_left (hm.len ▸ hj)] at hw
          have hs := cells_getElem ha
          have he : HeapObj.val s1.mem a = HeapObj.val s.mem a :=
            HeapLaw.congr fun c hc => n3 c (hm.live.2 c (hs.subset hc)) (by simp)
          rw [he]
          exact hm.val j a w ha hw
        · have hj' : j = made.length := by
            have := (List.getElem?_eq_some_iff.1 ha).1
            simp at this
            omega
          subst hj'
          rw [List.getElem?_append_right (le_refl _), Nat.sub_self] at ha
          rw [hm.len, List.getElem?_append_right (le_refl _), Nat.sub_self] at hw
          obtain rfl := Option.some.inj ha
          obtain rfl := Option.some.inj hw
          exact Or.inl l2
  | @verify vs i v v' b cs bs hi hv _ ih =>
    intro s made h1 h2 h3 hm
    have hl : Loc s0 [] s [] := ⟨h1, h2, fun c hc _ => h3 c hc, .nil, fun _ h => by cases h⟩
    obtain ⟨lp, ep⟩ := hl.old (.nil hp0)
    rw [hv0] at ep
    have hrs : CcsReady g s := by
      have he := hr0.env
      exact ⟨h1, ⟨hr0.live.1, fun c hc => (hr0.live.2 c hc).trans_le h2⟩, (hl.bn he).2, (hl.old he.curveGen).2,
        (hl.old he.twistGen).2, (hl.old he.twistB).2, (hl.old he.G1).2, (hl.old he.E).2⟩
    have hil : i < made.length := hm.len ▸ (List.getElem?_eq_some_iff.1 hi).1
    obtain ⟨q, hq⟩ : ∃ q, made[i]? = some q := ⟨_, List.getElem?_eq_getElem hil⟩
    have hs := cells_getElem hq
    have dn : ∀ l : List Cell, (∀ c ∈ l, c < s0.next) → Disj l (HeapObj.cells q) := fun l hl c hc hc' =>
      absurd (hl c hc) (not_lt.2 (hm.new c (hs.subset hc')))
    have hV := (C84_verify hrs (p := some p) (q := q) lp (liveCells_sub hm.live hs) hgp (dn _ hr0.live.2) (dn _ hp0.2)
      (fun p' hp' => by
        obtain rfl := Option.some.inj hp'
        rw [show HeapObj.val s.mem p.p.kp = vp.p.kp by rw [← ep]; rfl]
        exact hk)).2
    rw [show HeapObj.val s.mem (some p) = some vp from congrArg some ep] at hV
    obtain ⟨v'', hv1, hv2⟩ : ∃ v'', ccsVerify (HeapObj.val s.mem q) (some vp) = .ok (b, v'') ∧ ccsVerify v (some vp) = .ok (b, v'') := by
      rcases hm.val i q v hq hi with h | ⟨b', h⟩
      · rw [h]; exact ⟨v', hv, hv⟩
      · have h' := h
        rw [hv] at h
        obtain ⟨rfl, h⟩ := Prod.mk.inj (Res.ok.inj h)
        exact ⟨_, C64_range _ _ _ _ h', h'⟩
    obtain ⟨b', s1, e, n1, n2, n3, rfl, l1, l2⟩ := hV _ hv1
    have hw := written_sub q
    have hK : Kept g p vp s0.next s1 made vs := ?_
    · obtain ⟨s', e', r'⟩ := ih n1 (h2.trans n2) (fun c hc => (n3 c (hc.trans_le h2) fun h =>
        absurd hc (not_lt.2 (hm.new c (hs.subset (hw.subset h))))).trans (h3 c hc)) hK
      refine ⟨s', ?_, r'⟩
      show ((BigM.ofRes (idx made i) s) >>= fun a => ccsVerifyH g a.1 (some p) a.2 >>= fun b =>
        ccsSessionH g sha p made cs b.2 >>= fun r => Res.ok (b.1 :: r.1, r.2)) = _
      have e0 : idx made i = .ok q := by unfold idx; rw [hq]; rfl
      rw [e0]
      show (ccsVerifyH g q (some p) s >>= fun b => ccsSessionH g sha p made cs b.2 >>= fun r => Res.ok (b.1 :: r.1, r.2)) = _
      rw [e]
      show (ccsSessionH g sha p made cs s1 >>= fun r => Res.ok (_ :: r.1, r.2)) = _
      rw [e']; rfl
    · refine ⟨⟨hm.live.1, fun c hc => (hm.live.2 c hc).trans_le n2⟩, hm.new, hm.len, fun j a w ha hw' => ?_⟩
      by_cases hij : i = j
      · subst hij
        obtain rfl := Option.some.inj (hq.symm.trans ha)
        obtain rfl := Option.some.inj (hi.symm.trans hw')
        rw [l2]
        exact Or.inr ⟨_, hv2⟩
      · have hd := cells_apart hm.live.1 ha hq (Ne.symm hij)
        have he : HeapObj.val s1.mem a = HeapObj.val s.mem a :=
          HeapLaw.congr fun c hc => n3 c (hm.live.2 c ((cells_getElem ha).subset hc)) fun h => hd c hc (hw.subset h)
        rw [he]
        exact hm.val j a w ha hw'

/-- C85: one set of parameters for any sequence of `Prove` and `Verify` calls in any order, with any proof verified any number of
times: every verdict is that of the model on values for the proof as it was made, and nothing that existed before the session has
changed, in particular the parameters. -/
theorem C85_session (hr : CcsReady g s) {p : CcsParamsH} (hp : Live s p) (hgp : Disj g.cells (HeapObj.cells p))
    (hk : KeyOk (HeapObj.val s.mem p.p.kp)) (sha : List UInt8 → List UInt8) {cs : List CcsCall} {bs : List Bool}
    (h : CcsSession sha (HeapObj.val s.mem p) [] cs bs) :
    Effect (ccsSessionH g sha p [] cs) s [] fun r s' => r = bs ∧ CcsReady g s' ∧ HeapObj.val s'.mem p = HeapObj.val s.mem p := by
  obtain ⟨s', e, h1, h2, h3⟩ := session hr hp rfl hgp hk sha h hr.pool (le_refl _) (fun _ _ => rfl)
    (made := []) ⟨⟨List.nodup_nil, fun _ h => by cases h⟩, (fun _ h => by cases h), rfl, fun _ _ _ h => by cases h⟩
  have he : Effect (ccsSessionH g sha p [] cs) s [] fun r _ => r = bs := ⟨bs, s', e, h1, h2, fun c hc _ => h3 c hc, rfl⟩
  obtain ⟨r, t, e1, f1, f2, f3, ⟨f4, f5⟩, _, f6⟩ :=
    C84_others (C84_ready hr he (fun _ _ h => by cases h)) (a := p) hp (fun _ _ h => by cases h)
  exact ⟨r, t, e1, f1, f2, f3, f4, f5, f6⟩

/-- C85: the same for a session which begins with `Setup`. -/
theorem C85_from_setup (hr : CcsReady g s) (sha : List UInt8 → List UInt8) {a b : Int} {rnd : Option Int} {vp : CcsParams}
    {cs : List CcsCall} {bs : List Bool} (hs : ccsSetup a b rnd = .ok (some vp)) (h : CcsSession sha vp [] cs bs) :
    Effect (ccsSetupH g a b rnd >>= fun p => BigM.ofRes (Res.ofOption p) >>= fun p => ccsSessionH g sha p [] cs) s []
      fun r s' => r = bs ∧ CcsReady g s' := by
  obtain ⟨p, s1, e, n1, n2, n3, ⟨l1, l2, _, l4⟩, hr1⟩ := C84_ready hr ((C84_setup hr a b rnd).2 _ hs) (fun _ _ h => by cases h)
  cases p with
  | none => cases l2
  | some p =>
    have l2 : HeapObj.val s1.mem p = vp := Option.some.inj l2
    have hgp : Disj g.cells (HeapObj.cells p) := fun c hc hc' => absurd (hr.live.2 c hc) (not_lt.2 (l4 rfl c hc'))
    have hk : KeyOk (HeapObj.val s1.mem p.p.kp) := by
      rw [show HeapObj.val s1.mem p.p.kp = vp.p.kp by rw [← l2]; rfl]
      exact (C84_key rnd).2.2.2 a b vp hs
    obtain ⟨r, s2, e2, m1, m2, m3, m4, m5, _⟩ := C85_session hr1 (p := p) l1 hgp hk sha (l2.symm ▸ h)
    refine ⟨r, s2, ?_, m1, n2.trans m2, fun c hc hc' => (m3 c (hc.trans_le n2) hc').trans (n3 c hc hc'), m4, m5⟩
    show (ccsSetupH g a b rnd s >>= fun p => (BigM.ofRes (Res.ofOption p.1) p.2) >>= fun p => ccsSessionH g sha p.1 [] cs p.2) = _
    rw [e]
    exact e2

/-- C85: with parameters made by `Setup` no session panics, whatever the secrets, the blinding numbers and the randomness are, as
long as it verifies only proofs which it has made. -/
theorem C85_total (sha : List UInt8 → List UInt8) (hsha : ∀ b, sha b ≠ []) {a b sk : Int} (hb : b < 2 ^ 63)
    (hk : ∀ m, 0 ≤ m → m < 57 → ¬ m + sk ≡ 0 [ZMOD bnOrder]) {p : CcsParams} (hp : ccsSetup a b (some sk) = .ok (some p))
    (cs : List CcsCall) (hcs : CcsCallsOk 0 cs) : ∃ bs, CcsSession sha p [] cs bs := by
  have hg := ccsGood_setup hb hk hp
  have key : ∀ (cs : List CcsCall) (made : List CcsProof), CcsCallsOk made.length cs → (∀ q ∈ made, CcsShape p.p.l.toNat q) →
      ∃ bs, CcsSession sha p made cs bs := by
    intro cs
    induction cs with
    | nil => exact fun made _ _ => ⟨[], .nil made⟩
    | cons c cs ih =>
      intro made hcs hm
      cases c with
      | prove x r w1 w2 =>
        obtain ⟨q, h1, h2⟩ := ccsProve_total sha hsha hg x r w1 w2
        obtain ⟨bs, h⟩ := ih (made ++ [q]) (by rw [List.length_append]; exact hcs) (by
          simp only [List.mem_append, List.mem_singleton]
          rintro q' (h | rfl)
          · exact hm q' h
          · exact h2)
        exact ⟨bs, .prove h1 h⟩
      | verify i =>
        obtain ⟨hi, hcs⟩ := hcs
        obtain ⟨b, q', h1⟩ := ccsVerify_total hg (hm _ (List.getElem_mem hi))
        obtain ⟨bs, h⟩ := ih made hcs hm
        exact ⟨b :: bs, .verify (List.getElem?_eq_getElem hi) h1 h⟩
  exact key cs [] hcs fun _ h => by cases h

/-! ## Cases -/

/-- A memory with the package variables in cells 0 to 40. -/
def ccsHeapWith (p6 p3 p2 p23 : GfP2) (s3 s23 s6 : Int) (c : CurvePoint) (t : TwistPoint) (b : GfP2) (u : CurvePoint) (e : GfP12) :
    BigHeap :=
  ⟨fun i => [p6.x, p6.y, p3.x, p3.y, p2.x, p2.y, p23.x, p23.y, s3, s23, s6, c.x, c.y, c.z, c.t, t.x.x, t.x.y, t.y.x, t.y.y, t.z.x,
    t.z.y, t.t.x, t.t.y, b.x, b.y, u.x, u.y, u.z, u.t, e.x.x.x, e.x.x.y, e.x.y.x, e.x.y.y, e.x.z.x, e.x.z.y, e.y.x.x, e.y.x.y,
    e.y.y.x, e.y.y.y, e.y.z.x, e.y.z.y].getD i 0, 41, none⟩

def ccsVars : CcsGlobals :=
  ⟨⟨⟨0, 1⟩, ⟨2, 3⟩, ⟨4, 5⟩, ⟨6, 7⟩, 8, 9, 10⟩, ⟨11, 12, 13, 14⟩, ⟨⟨15, 16⟩, ⟨17, 18⟩, ⟨19, 20⟩, ⟨21, 22⟩⟩, ⟨23, 24⟩,
    ⟨25, 26, 27, 28⟩,
    ⟨⟨⟨29, 30⟩, ⟨31, 32⟩, ⟨33, 34⟩⟩, ⟨⟨35, 36⟩, ⟨37, 38⟩, ⟨39, 40⟩⟩⟩⟩

def ccsStart : BigHeap :=
  ccsHeapWith xiToPMinus1Over6 xiToPMinus1Over3 xiToPMinus1Over2 xiTo2PMinus2Over3 xiToPSquaredMinus1Over3
    xiTo2PSquaredMinus2Over3 xiToPSquaredMinus1Over6 .gen .gen twistB utilG1 utilE

/-- The memory when the program starts. -/
theorem ccsStart_ready : CcsReady ccsVars ccsStart := by
  have key : ∀ p6 p3 p2 p23 s3 s23 s6 c t b u e, let s := ccsHeapWith p6 p3 p2 p23 s3 s23 s6 c t b u e
      s.pool = none ∧ LiveCells s ccsVars.cells ∧ (HeapObj.val s.mem ccsVars.bn.p6 = p6 ∧ HeapObj.val s.mem ccsVars.bn.p3 = p3 ∧
        HeapObj.val s.mem ccsVars.bn.p2 = p2 ∧ HeapObj.val s.mem ccsVars.bn.p23 = p23 ∧ s.mem ccsVars.bn.s3 = s3 ∧
        s.mem ccsVars.bn.s23 = s23 ∧ s.mem ccsVars.bn.s6 = s6) ∧ HeapObj.val s.mem ccsVars.curveGen = c ∧
        HeapObj.val s.mem ccsVars.twistGen = t ∧ HeapObj.val s.mem ccsVars.twistB = b ∧ HeapObj.val s.mem ccsVars.G1 = u ∧
        HeapObj.val s.mem ccsVars.E = e := by
    intro p6 p3 p2 p23 s3 s23 s6 c t b u e s
    refine ⟨rfl, ?_, ⟨rfl, rfl, rfl, rfl, rfl, rfl, rfl⟩, rfl, rfl, rfl, rfl, rfl⟩
    simp [LiveCells, CcsGlobals.cells, BnGlobals.cells, HeapObj.cells, ccsVars, s, ccsHeapWith]
  obtain ⟨h1, h2, h3, h4, h5, h6, h7, h8⟩ := key xiToPMinus1Over6 xiToPMinus1Over3 xiToPMinus1Over2 xiTo2PMinus2Over3
    xiToPSquaredMinus1Over3 xiTo2PSquaredMinus2Over3 xiToPSquaredMinus1Over6 .gen .gen twistB utilG1 utilE
  exact ⟨h1, h2, h3, h4, h5, h6, h7, h8⟩

/-- `SetupUL` for `[0, 57^2)`, a proof for 1234, and its verification, there. -/
example (sha : List UInt8 → List UInt8) (hsha : ∀ b, sha b ≠ []) (w : ULRandom) :
    ∃ p q q' b, setupUL 57 2 (some 1234) = .ok p ∧ proveUL sha 1234 3 p w.m w.v w.s w.t = .ok (some q) ∧
      verifyUL q p = .ok (b, q') ∧
      Effect (setupULH ccsVars 57 2 (some 1234) >>= fun p => proveULH ccsVars sha 1234 3 p w.m w.v w.s w.t >>= fun q =>
        BigM.ofRes (Res.ofOption q) >>= fun q => verifyULH ccsVars q p) ccsStart [] fun r s' => r = b ∧ CcsReady ccsVars s' := by
  have hk : ∀ m : Int, 0 ≤ m → m < 57 → ¬ m + 1234 ≡ 0 [ZMOD bnOrder] := by
    intro m h0 h1
    interval_cases m <;> decide +kernel
  obtain ⟨p, pk, e1, e2, e3, e4, _, _, e5⟩ := C54_setup 57 2 1234 hk
  obtain ⟨q, h1, h2⟩ := proveUL_total sha hsha 1234 3 p w.m w.v w.s w.t (by rw [e2]; norm_num) (by rw [e3]; norm_num) fun d hd => by
    obtain ⟨o, ho, sig, _, rfl, _⟩ := (e5 d).1 (e2 ▸ hd)
    exact ⟨sig, ho⟩
  obtain ⟨b, q', h3⟩ := verifyUL_total q p (by rw [e4]; simp) h2
  exact ⟨p, q, q', b, e1, h1, h3, C84_run_ul ccsStart_ready sha 57 2 (some 1234) 1234 3 w.m w.v w.s w.t e1 h1 h3⟩

/-- `ProveSet` and `VerifySet` for the set `{12, 42, 61}` there. -/
example (sha : List UInt8 → List UInt8) (p : ParamsSet) (q q' : ProofSet) (b : Bool) (h1 : setupSet [12, 42, 61] (some 1234) = .ok p)
    (h2 : proveSet sha 42 3 p 5 7 11 13 = .ok (some q)) (h3 : verifySet q p = .ok (b, q')) :
    Effect (setupSetH ccsVars [12, 42, 61] (some 1234) >>= fun p => proveSetH ccsVars sha 42 3 p 5 7 11 13 >>= fun q =>
      BigM.ofRes (Res.ofOption q) >>= fun q => verifySetH ccsVars q p) ccsStart [] fun r s' => r = b ∧ CcsReady ccsVars s' :=
  C84_run_set ccsStart_ready sha _ _ _ _ _ _ _ _ h1 h2 h3

/-- A key pair, a signature of 5, and a commitment, there. -/
example : Effect (keygenH ccsVars (some 1234)) ccsStart [] (IsResult ccsStart none (keygen (some 1234))) ∧
    Follows (bbSignH ccsVars 5 1234) ccsStart [] (bbSign 5 1234) (IsResult ccsStart none) ∧
    Effect (commitH ccsVars 5 7 ccsVars.twistGen) ccsStart [] (IsResult ccsStart none (commit 5 7 .gen)) := by
  have hl : Live ccsStart ccsVars.twistGen := ccsStart_ready.env.twistGen.live
  have h := C84_commit ccsStart_ready hl 5 7
  rw [ccsStart_ready.env.twistGen.val] at h
  exact ⟨C84_keygen ccsStart_ready _, C84_sign ccsStart_ready _ _, h⟩

/-- A signature of 5 under the key 1234 made and accepted there. -/
example : Effect (keygenH ccsVars (some 1234) >>= fun kp => bbSignH ccsVars 5 1234 >>= fun o => BigM.ofRes (Res.ofOption o) >>= fun sig =>
    BigM.ofRes (Res.ofOption kp.pubk) >>= fun y => bbVerifyH ccsVars sig 5 y) ccsStart [] fun r s' =>
    r = some true ∧ CcsReady ccsVars s' := by
  obtain ⟨sig, pk, b, h1, h2, h3, h4⟩ := C49_sign_verify 5 5 1234 (by decide +kernel) (Or.inr (by decide +kernel))
  obtain rfl : b = true := h4.2 rfl
  exact C84_run_bb ccsStart_ready 1234 5 (Or.inr (by decide +kernel)) h2 h1 h3

/-- A session: parameters for [18, 200); a proof for 40, verified; a proof for 17, verified; the first proof again; and a proof for
a negative number, verified with the two others.  The verdicts for the first proof are the same each time. -/
example (sha : List UInt8 → List UInt8) (hsha : ∀ b, sha b ≠ []) (w : ULRandom) :
    let cs : List CcsCall := [.prove 40 3 w w, .verify 0, .prove 17 1 w w, .verify 1, .verify 0, .prove (-5) 2 w w, .verify 2,
      .verify 1, .verify 0]
    ∃ b0 b1 b2, Effect (ccsSetupH ccsVars 18 200 (some 1234) >>= fun p => BigM.ofRes (Res.ofOption p) >>= fun p =>
      ccsSessionH ccsVars sha p [] cs) ccsStart [] fun r s' => r = [b0, b1, b0, b2, b1, b0] ∧ CcsReady ccsVars s' := by
  intro cs
  have hk : ∀ m : Int, 0 ≤ m → m < 57 → ¬ m + 1234 ≡ 0 [ZMOD bnOrder] := by
    intro m h0 h1
    interval_cases m <;> decide +kernel
  obtain ⟨p, _, hp⟩ := (C55_setup 18 200 1234 (by norm_num) hk).2 (by norm_num)
  obtain ⟨bs, h⟩ := C85_total sha hsha (by norm_num) hk hp cs (by simp [cs, CcsCallsOk])
  have hE := C85_from_setup ccsStart_ready sha hp h
  simp only [cs] at h hE ⊢
  rcases h with _ | ⟨_, h⟩ | _
  rcases h with _ | _ | ⟨i1, v1, h⟩
  rcases h with _ | ⟨_, h⟩ | _
  rcases h with _ | _ | ⟨i2, v2, h⟩
  rcases h with _ | _ | ⟨i3, v3, h⟩
  rcases h with _ | ⟨_, h⟩ | _
  rcases h with _ | _ | ⟨i4, v4, h⟩
  rcases h with _ | _ | ⟨i5, v5, h⟩
  rcases h with _ | _ | ⟨i6, v6, h⟩
  rcases h with _ | _ | _
  simp only [List.nil_append, List.cons_append, List.getElem?_cons_zero, List.getElem?_cons_succ, Option.some.injEq] at i1 i2 i3 i4 i5 i6
  subst i1 i2 i3 i4 i5 i6
  rw [v1] at v3 v6
  rw [v2] at v5
  obtain ⟨rfl, -⟩ := Prod.mk.inj (Res.ok.inj v3)
  obtain ⟨rfl, -⟩ := Prod.mk.inj (Res.ok.inj v6)
  obtain ⟨rfl, -⟩ := Prod.mk.inj (Res.ok.inj v5)
  exact ⟨_, _, _, hE⟩

end Verif

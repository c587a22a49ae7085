import Verif.Lemmas.CcsCost
import Verif.Lemmas.GoProve
import Verif.Props.CcsRace

/-!
# C109: the pairings and scalar multiplications of `ccs08`
-/

namespace Verif

open CLog

/-- C109: the functions with a log have the results of those without. -/
theorem C109_same :
    (∀ S rnd, (setupSetC S rnd).res = setupSet S rnd) ∧ (∀ u l rnd, (setupULC u l rnd).res = setupUL u l rnd) ∧
    (∀ a b rnd, (ccsSetupC a b rnd).res = ccsSetup a b rnd) ∧
    (∀ sha x r p m v s t, (proveSetC sha x r p m v s t).res = proveSet sha x r p m v s t) ∧
    (∀ sha x r p m v s t, (proveULC sha x r p m v s t).res = proveUL sha x r p m v s t) ∧
    (∀ sha p x r w1 w2, (ccsProveC sha p x r w1 w2).res = ccsProve sha p x r w1 w2) ∧
    (∀ pr p, (verifySetC pr p).res = verifySet pr p) ∧ (∀ pr p, (verifyULC pr p).res = verifyUL pr p) ∧
    ∀ pr p, (ccsVerifyC pr p).res = ccsVerify pr p :=
  ⟨setupSetC_res, setupULC_res, ccsSetupC_res, proveSetC_res, proveULC_res, ccsProveC_res, verifySetC_res, verifyULC_res,
    ccsVerifyC_res⟩

/-! ## Setup -/

/-- The scalars of the signatures. -/
def signScalars (sk : Int) (ms : List Int) : List CcsEv :=
  ms.map fun m => .g2base ((modInverse ((m + sk) % bnOrder) bnOrder).getD 0)

private theorem bbSignC_log {m sk : Int} {o : Option TwistPoint} (h : bbSign m sk = .ok o) :
    (bbSignC m sk).log = [.g2base ((modInverse ((m + sk) % bnOrder) bnOrder).getD 0)] := by
  unfold bbSign at h
  unfold bbSignC
  obtain ⟨i, hi, -⟩ := Res.bind_eq_ok.1 h
  rw [log_lift hi, log_call]
  cases hc : modInverse ((m + sk) % bnOrder) bnOrder with
  | none => rw [hc] at hi; cases hi
  | some j => rw [hc] at hi; cases hi; rfl

private theorem signLoopC_log {sk : Int} : ∀ {ms : List Int} {acc out : List (Int × Option TwistPoint)},
    signLoop (some sk) ms acc = .ok out → (signLoopC (some sk) ms acc).log = signScalars sk ms
  | [], _, _, _ => rfl
  | m :: ms, acc, out, h => by
    obtain ⟨o, ho, h⟩ := Res.bind_eq_ok.1 (show (bbSign m sk >>= fun sig => signLoop (some sk) ms ((m, sig) :: acc)) = _ from h)
    show (lift (Res.ofOption (some sk)) >>= _ : CLog _).log = _
    rw [log_lift (r := Res.ofOption (some sk)) (a := sk) rfl, log_ok (by rw [bbSignC_res, ho]), bbSignC_log ho, signLoopC_log h]
    rfl

private theorem keygen_privk (k : Int) : (keygen (some k)).privk = some k := by
  simp only [keygen]
  cases G1.unmarshal (G1.marshal (G1.scalarBaseMult .new k)).1 <;> rfl

/-- C109: `SetupUL` makes one scalar multiplication for the key, one for each of the `u` signatures and one for `H`, and no pairing. -/
theorem C109_setupUL (u l k : Int) (p : ParamsUL) (h : setupUL u l (some k) = .ok p) :
    (setupULC u l (some k)).log = .g1base k :: signScalars k ((List.range u.toNat).map Int.ofNat) ++ [.g2base ccsH] := by
  unfold setupUL at h
  obtain ⟨out, ho, -⟩ := Res.bind_eq_ok.1 h
  unfold setupULC
  rw [log_ok (keygenC_res _), log_ok (by rw [signLoopC_res]; exact ho)]
  rw [keygen_privk] at ho ⊢
  rw [signLoopC_log ho]
  rfl

/-- C109: `SetupSet` the same with one signature for each element of the set. -/
theorem C109_setupSet (S : List Int) (k : Int) (p : ParamsSet) (h : setupSet S (some k) = .ok p) :
    (setupSetC S (some k)).log = .g1base k :: signScalars k S ++ [.g2base ccsH] := by
  unfold setupSet at h
  obtain ⟨out, ho, -⟩ := Res.bind_eq_ok.1 h
  unfold setupSetC
  rw [log_ok (keygenC_res _), log_ok (by rw [signLoopC_res]; exact ho)]
  rw [keygen_privk] at ho ⊢
  rw [signLoopC_log ho]
  rfl

/-! ## Proofs -/

/-- C109: the calls of `ProveSet`, when it makes a proof: one pairing, whatever the set. -/
theorem C109_proveSet (sha : List UInt8 → List UInt8) (x r : Int) (p : ParamsSet) (m v s t : Int) (pr : ProofSet)
    (h : proveSet sha x r p m v s t = .ok (some pr)) :
    (proveSetC sha x r p m v s t).log = [.g2mult m, .g2base s, .g2mult v, .pair, .gtmult s, .gtmult t, .g2base x, .g2mult r] := by
  unfold proveSet at h
  unfold proveSetC
  cases hl : p.signatures.lookup x with
  | none => rw [hl] at h; cases h
  | some A =>
    rw [hl] at h
    cases A with
    | none => cases h
    | some A =>
      obtain ⟨c, hc, h⟩ := Res.bind_eq_ok.1 (show (hashSet _ _ _ >>= fun c => Res.ofOption c >>= fun c => _) = _ from h)
      obtain ⟨c', hc', -⟩ := Res.bind_eq_ok.1 h
      show [CcsEv.g2mult m, .g2base s, .g2mult v, .pair, .gtmult s, .gtmult t, .g2base x, .g2mult r] ++
        (lift (hashSet sha (ccsA (G2.scalarMult A v) s t) _) >>= fun c => lift (Res.ofOption c) >>= fun c => _ : CLog _).log = _
      rw [log_lift hc, log_lift hc']
      rfl

/-- The calls of `ProveUL` for the digit `i`. -/
def proveDigit (u : Int) (v s t : Nat → Int) (i : Nat) : List CcsEv :=
  [.g2mult (v i), .pair, .gtmult (s i), .gtmult (t i), .g2base (s i * u ^ i % bnOrder)]

private theorem proveULLoopC_log (p : ParamsUL) (v s t : Nat → Int) : ∀ (ds : List Int) (i : Nat) (D : TwistPoint)
    (o : TwistPoint × List TwistPoint × List GfP12), proveULLoop p v s t i ds D = .ok (some o) →
    (proveULLoopC p v s t i ds D).log = (List.range' i ds.length).flatMap (proveDigit p.u v s t)
  | [], _, _, _, _ => rfl
  | d :: ds, i, D, o, h => by
    unfold proveULLoop at h
    unfold proveULLoopC
    cases hl : p.signatures.lookup d with
    | none => rw [hl] at h; cases h
    | some A =>
      rw [hl] at h
      cases A with
      | none => cases h
      | some A =>
        obtain ⟨rest, hr, h⟩ := Res.bind_eq_ok.1 (show (proveULLoop p v s t (i + 1) ds _ >>= _) = _ from h)
        cases rest with
        | none => cases h
        | some q =>
          have ih := proveULLoopC_log p v s t ds (i + 1) _ q hr
          show proveDigit p.u v s t i ++ (proveULLoopC p v s t (i + 1) ds _ >>= _ : CLog _).log = _
          rw [log_ok (by rw [proveULLoopC_res]; exact hr), ih, List.length_cons, List.range'_succ, List.flatMap_cons]
          congr 1
          exact List.append_nil _

/-- C109: the calls of `ProveUL`, when it makes a proof: one pairing for each digit. -/
theorem C109_proveUL (sha : List UInt8 → List UInt8) (x r : Int) (p : ParamsUL) (m : Int) (v s t : Nat → Int) (pr : ProofUL)
    (h : proveUL sha x r p m v s t = .ok (some pr)) :
    (proveULC sha x r p m v s t).log =
      .g2mult m :: (List.range p.l.toNat).flatMap (proveDigit p.u v s t) ++ [.g2base x, .g2mult r] := by
  unfold proveUL at h
  unfold proveULC
  obtain ⟨ds, hd, h⟩ := Res.bind_eq_ok.1 h
  obtain ⟨o, ho, h⟩ := Res.bind_eq_ok.1 h
  rw [log_lift hd, log_call, log_ok (by rw [proveULLoopC_res]; exact ho)]
  cases o with
  | none => cases h
  | some o =>
    rw [proveULLoopC_log p v s t ds 0 _ o ho, decompose_length hd, ← List.range_eq_range']
    obtain ⟨c, hc, h⟩ := Res.bind_eq_ok.1 h
    obtain ⟨c', hc', -⟩ := Res.bind_eq_ok.1 h
    show _ :: (_ ++ ([CcsEv.g2base x, .g2mult r] ++
      (lift (hashUL _ _ _) >>= fun c => lift (Res.ofOption c) >>= fun c => _ : CLog _).log)) = _
    rw [log_lift hc, log_lift hc']
    rfl

/-! ## Verification -/

/-- C109: the calls of `VerifySet`, whatever the verdict: two pairings. -/
theorem C109_verifySet (pr : ProofSet) (p : ParamsSet) (b : Bool) (pr' : ProofSet) (h : verifySet pr p = .ok (b, pr')) :
    (verifySetC pr p).log = [.g2mult pr.c, .g2mult pr.zr, .g2base pr.zsig, .pair, .gtmult pr.c, .pair, .gtmult pr.zsig,
      .gtmult pr.zv] := by
  unfold verifySet at h
  obtain ⟨pk, hpk, -⟩ := Res.bind_eq_ok.1 h
  show [CcsEv.g2mult pr.c, .g2mult pr.zr, .g2base pr.zsig] ++ (lift (Res.ofOption p.kp.pubk) >>= fun pubk => _ : CLog _).log = _
  rw [log_lift hpk]
  rfl

/-- The calls of `VerifyUL` for the digit `i`, in the first loop. -/
def verifyDigitD (u : Int) (zsig : List Int) (i : Nat) : List CcsEv := [.g2base (zsig.getD i 0 * u ^ i % bnOrder)]

/-- The calls of `VerifyUL` for the digit `i`, in the second loop. -/
def verifyDigitA (c : Int) (zsig zv : List Int) (i : Nat) : List CcsEv :=
  [.pair, .gtmult c, .pair, .gtmult (zsig.getD i 0), .gtmult (zv.getD i 0)]

private theorem idx_getD {l : List Int} {i : Nat} {z : Int} (h : idx l i = .ok z) : l.getD i 0 = z := by
  unfold idx at h
  rw [List.getD_eq_getElem?_getD]
  cases hc : l[i]? with
  | none => rw [hc] at h; cases h
  | some y => rw [hc] at h; cases h; rfl

private theorem verifyULDC_log (u : Int) (zsig : List Int) : ∀ (n i : Nat) (D D' : TwistPoint), verifyULD u zsig n i D = .ok D' →
    (verifyULDC u zsig n i D).log = (List.range' i n).flatMap (verifyDigitD u zsig)
  | 0, _, _, _, _ => rfl
  | n + 1, i, D, D', h => by
    unfold verifyULD at h
    obtain ⟨z, hz, h⟩ := Res.bind_eq_ok.1 h
    unfold verifyULDC
    rw [log_lift hz, log_call, verifyULDC_log u zsig n (i + 1) _ D' h, List.range'_succ, List.flatMap_cons, verifyDigitD, idx_getD hz]
    rfl

private theorem verifyULAC_log (pk : Option CurvePoint) (pr : ProofUL) : ∀ (n i : Nat) (r2 : Bool) (o : Bool × List GfP12),
    verifyULA pk pr n i r2 = .ok o → (verifyULAC pk pr n i r2).log = (List.range' i n).flatMap (verifyDigitA pr.c pr.zsig pr.zv)
  | 0, _, _, _, _ => rfl
  | n + 1, i, r2, o, h => by
    unfold verifyULA at h
    obtain ⟨V, hV, h⟩ := Res.bind_eq_ok.1 h
    obtain ⟨k, hk, h⟩ := Res.bind_eq_ok.1 h
    obtain ⟨z, hz, h⟩ := Res.bind_eq_ok.1 h
    obtain ⟨w, hw, h⟩ := Res.bind_eq_ok.1 h
    obtain ⟨a, ha, h⟩ := Res.bind_eq_ok.1 h
    obtain ⟨rest, hr, -⟩ := Res.bind_eq_ok.1 h
    simp only [ccsRhs] at hr
    unfold verifyULAC
    rw [log_lift hV, log_lift hk, log_call, log_call, log_call, log_lift hz, log_call, log_lift hw, log_call, log_lift ha,
      log_ok (by rw [verifyULAC_res]; exact hr), verifyULAC_log pk pr n (i + 1) _ rest hr, List.range'_succ, List.flatMap_cons,
      verifyDigitA, idx_getD hz, idx_getD hw, log_pure, List.append_nil]
    rfl

/-- C109: the calls of `VerifyUL`, whatever the verdict: two pairings for each digit. -/
theorem C109_verifyUL (pr : ProofUL) (p : ParamsUL) (b : Bool) (pr' : ProofUL) (h : verifyUL pr p = .ok (b, pr')) :
    (verifyULC pr p).log = [.g2mult pr.c, .g2mult pr.zr] ++ (List.range p.l.toNat).flatMap (verifyDigitD p.u pr.zsig) ++
      (List.range p.l.toNat).flatMap (verifyDigitA pr.c pr.zsig pr.zv) := by
  unfold verifyUL at h
  obtain ⟨D, hD, h⟩ := Res.bind_eq_ok.1 h
  obtain ⟨o, ho, -⟩ := Res.bind_eq_ok.1 h
  unfold verifyULC
  rw [log_call, log_call, log_ok (by rw [verifyULDC_res]; exact hD), log_ok (by rw [verifyULAC_res]; exact ho),
    verifyULDC_log _ _ _ _ _ _ hD, verifyULAC_log _ _ _ _ _ _ ho, log_pure, List.append_nil, List.range_eq_range']
  rfl

/-! ## Numbers of pairings -/

/-- The number of pairings in a log. -/
def pairings (l : List CcsEv) : Nat := l.count .pair

private theorem pairings_append (a b : List CcsEv) : pairings (a ++ b) = pairings a + pairings b := List.count_append

private theorem pairings_flatMap {f : Nat → List CcsEv} {k : Nat} (h : ∀ i, pairings (f i) = k) (l : List Nat) :
    pairings (l.flatMap f) = l.length * k := by
  induction l with
  | nil => simp [pairings]
  | cons a l ih => rw [List.flatMap_cons, pairings_append, ih, h, List.length_cons]; ring

private theorem pairings_proveDigit (u : Int) (v s t : Nat → Int) (i : Nat) : pairings (proveDigit u v s t i) = 1 := rfl
private theorem pairings_verifyDigitD (u : Int) (z : List Int) (i : Nat) : pairings (verifyDigitD u z i) = 0 := rfl
private theorem pairings_verifyDigitA (c : Int) (z w : List Int) (i : Nat) : pairings (verifyDigitA c z w i) = 2 := rfl

private theorem pairings_sign (sk : Int) (ms : List Int) : pairings (signScalars sk ms) = 0 := by
  rw [pairings, List.count_eq_zero]
  intro h
  obtain ⟨_, _, h⟩ := List.mem_map.1 h
  cases h

/-- C109: `ProveUL` computes `l` pairings and `VerifyUL` `2 l`; the comment on `paramsUL` says `2 l` and `3 l`. -/
theorem C109_count (sha : List UInt8 → List UInt8) (x r : Int) (p : ParamsUL) (m : Int) (v s t : Nat → Int) :
    (∀ pr, proveUL sha x r p m v s t = .ok (some pr) → pairings (proveULC sha x r p m v s t).log = p.l.toNat) ∧
    ∀ pr w, verifyUL pr p = .ok w → pairings (verifyULC pr p).log = 2 * p.l.toNat := by
  refine ⟨fun pr h => ?_, fun pr w h => ?_⟩
  · rw [C109_proveUL sha x r p m v s t pr h, ← List.singleton_append, pairings_append, pairings_append,
      pairings_flatMap (pairings_proveDigit p.u v s t), List.length_range]
    show 0 + _ * 1 + 0 = _
    omega
  · rw [C109_verifyUL pr p w.1 w.2 h, pairings_append, pairings_append, pairings_flatMap (pairings_verifyDigitD p.u pr.zsig),
      pairings_flatMap (pairings_verifyDigitA pr.c pr.zsig pr.zv), List.length_range]
    show 0 + _ * 0 + _ * 2 = _
    omega

private theorem pairings_bind {α β : Type} {m : CLog α} {f : α → CLog β} {j k : Nat} (h1 : pairings m.log ≤ j)
    (h2 : ∀ a, m.res = .ok a → pairings (f a).log ≤ k) : pairings (m >>= f).log ≤ j + k := by
  cases h : m.res with
  | panic => rw [log_panic h]; omega
  | ok a => rw [log_ok h, pairings_append]; exact Nat.add_le_add h1 (h2 a h)

private theorem pairings_lift {α β : Type} {r : Res α} {f : α → CLog β} {k : Nat}
    (h2 : ∀ a, r = .ok a → pairings (f a).log ≤ k) : pairings (lift r >>= f).log ≤ k := by
  have := pairings_bind (m := lift r) (j := 0) (f := f) (Nat.le_refl _) h2
  omega

private theorem proveULLoopC_le (p : ParamsUL) (v s t : Nat → Int) : ∀ (ds : List Int) (i : Nat) (D : TwistPoint),
    pairings (proveULLoopC p v s t i ds D).log ≤ ds.length
  | [], _, _ => Nat.le_refl 0
  | d :: ds, i, D => by
    unfold proveULLoopC
    cases hl : p.signatures.lookup d with
    | none => exact Nat.zero_le _
    | some A =>
      refine pairings_lift fun A _ => ?_
      refine (pairings_bind (m := call (.g2mult (v i)) _) (j := 0) (k := ds.length + 1) (Nat.le_refl 0) fun V _ => ?_).trans (by
        rw [List.length_cons]; omega)
      refine (pairings_bind (m := ccsAC V (s i) (t i)) (j := 1) (k := ds.length) (Nat.le_refl 1) fun a _ => ?_).trans (by omega)
      refine (pairings_bind (m := call (.g2base _) _) (j := 0) (k := ds.length) (Nat.le_refl 0) fun a _ => ?_).trans (by omega)
      refine (pairings_bind (j := ds.length) (k := 0) (proveULLoopC_le p v s t ds (i + 1) _) fun o _ => ?_)
      cases o <;> exact Nat.le_refl 0

private theorem verifyULDC_le (u : Int) (zsig : List Int) : ∀ (n i : Nat) (D : TwistPoint),
    pairings (verifyULDC u zsig n i D).log ≤ 0
  | 0, _, _ => Nat.le_refl 0
  | n + 1, i, D => by
    unfold verifyULDC
    refine pairings_lift fun z _ => ?_
    exact pairings_bind (m := call (.g2base _) _) (j := 0) (k := 0) (Nat.le_refl 0) fun _ _ => verifyULDC_le u zsig n (i + 1) _

private theorem verifyULAC_le (pk : Option CurvePoint) (pr : ProofUL) : ∀ (n i : Nat) (r2 : Bool),
    pairings (verifyULAC pk pr n i r2).log ≤ 2 * n
  | 0, _, _ => Nat.le_refl 0
  | n + 1, i, r2 => by
    unfold verifyULAC
    refine pairings_lift fun V _ => pairings_lift fun pk' _ => ?_
    refine (pairings_bind (m := call .pair _) (j := 1) (k := 1 + 2 * n) (Nat.le_refl 1) fun p1 _ => ?_).trans (by omega)
    refine (pairings_bind (m := call (.gtmult _) _) (j := 0) (k := 1 + 2 * n) (Nat.le_refl 0) fun p1 _ => ?_).trans (by omega)
    refine (pairings_bind (m := call .pair _) (j := 1) (k := 2 * n) (Nat.le_refl 1) fun p1 _ => ?_)
    refine pairings_lift fun z _ => ?_
    refine (pairings_bind (m := call (.gtmult _) _) (j := 0) (k := 2 * n) (Nat.le_refl 0) fun p1 _ => ?_).trans (by omega)
    refine pairings_lift fun w _ => ?_
    refine (pairings_bind (m := call (.gtmult _) _) (j := 0) (k := 2 * n) (Nat.le_refl 0) fun p1 _ => ?_).trans (by omega)
    refine pairings_lift fun a _ => ?_
    exact pairings_bind (j := 2 * n) (k := 0) (verifyULAC_le pk pr n (i + 1) _) fun o _ => Nat.le_refl 0

/-- C109: and never more, also when they return an error or panic, for proofs and parameters of any kind. -/
theorem C109_bound (sha : List UInt8 → List UInt8) (x r : Int) (p : ParamsUL) (m : Int) (v s t : Nat → Int) (pr : ProofUL) :
    pairings (proveULC sha x r p m v s t).log ≤ p.l.toNat ∧ pairings (verifyULC pr p).log ≤ 2 * p.l.toNat := by
  constructor
  · unfold proveULC
    refine pairings_lift fun ds hd => ?_
    rw [← decompose_length hd]
    refine (pairings_bind (m := call (.g2mult m) _) (j := 0) (k := ds.length) (Nat.le_refl 0) fun D _ => ?_).trans (by omega)
    refine pairings_bind (j := ds.length) (k := 0) (proveULLoopC_le p v s t ds 0 D) fun o _ => ?_
    cases o with
    | none => exact Nat.le_refl 0
    | some o =>
      refine pairings_bind (m := commitC x r p.H) (j := 0) (k := 0) (Nat.le_refl 0) fun C _ => ?_
      exact pairings_lift fun c _ => pairings_lift fun c _ => Nat.le_refl 0
  · unfold verifyULC
    refine (pairings_bind (m := call (.g2mult _) _) (j := 0) (k := 2 * p.l.toNat) (Nat.le_refl 0) fun D _ => ?_).trans (by omega)
    refine (pairings_bind (m := call (.g2mult _) _) (j := 0) (k := 2 * p.l.toNat) (Nat.le_refl 0) fun D _ => ?_).trans (by omega)
    refine (pairings_bind (j := 0) (k := 2 * p.l.toNat) (verifyULDC_le _ _ _ _ _) fun D _ => ?_).trans (by omega)
    exact pairings_bind (j := 2 * p.l.toNat) (k := 0) (verifyULAC_le _ _ _ _ _) fun D _ => Nat.le_refl 0

/-! ## Ranges -/

theorem digits57_le {b : Int} (hb : b < 2 ^ 63) : digits57 b ≤ 11 := by
  unfold digits57
  rw [Nat.digits_length_le_iff (by norm_num)]
  have : (b.toNat : Int) < 2 ^ 63 := by
    rcases le_total 0 b with h | h
    · rwa [Int.toNat_of_nonneg h]
    · rw [Int.toNat_eq_zero.2 h]; norm_num
  have h2 : b.toNat < 2 ^ 63 := by exact_mod_cast this
  exact h2.trans (by norm_num)

private theorem setup_ul {a b k : Int} {p : CcsParams} (hb : b < 2 ^ 63) (h : ccsSetup a b (some k) = .ok (some p)) :
    setupUL 57 (digits57 b) (some k) = .ok p.p ∧ p.p.l = digits57 b ∧ p.p.u = 57 ∧ p.a = a ∧ p.b = b ∧ a ≤ b ∧ b ≠ 1 := by
  unfold ccsSetup at h
  rw [digitCount_eq 64 b (hb.trans (by norm_num))] at h
  split at h
  · cases h
  rename_i h1
  split at h
  · rename_i h2
    obtain ⟨q, hq, h⟩ := Res.bind_eq_ok.1 h
    obtain rfl := Option.some.inj (Res.ok.inj h)
    refine ⟨hq, ?_, ?_, rfl, rfl, by omega, h2⟩
    · unfold setupUL at hq
      obtain ⟨_, _, hq⟩ := Res.bind_eq_ok.1 hq
      cases hq; rfl
    · unfold setupUL at hq
      obtain ⟨_, _, hq⟩ := Res.bind_eq_ok.1 hq
      cases hq; rfl
  · cases h

/-- C109: for a range with an end `b` of 64 bits there are at most 11 digits.  `Setup` makes 59 scalar multiplications and no pairing,
whatever the range; `Prove` two pairings for each base-57 digit of `b`, and `Verify` four. -/
theorem C109_range (sha : List UInt8 → List UInt8) (a b k x r : Int) (w1 w2 : ULRandom) (p : CcsParams) (hb : b < 2 ^ 63)
    (h : ccsSetup a b (some k) = .ok (some p)) :
    digits57 b ≤ 11 ∧ (ccsSetupC a b (some k)).log.length = 59 ∧ pairings (ccsSetupC a b (some k)).log = 0 ∧
    (∀ q1 q2, ccsProve sha (some p) x r w1 w2 = .ok ⟨some q1, some q2⟩ →
      pairings (ccsProveC sha (some p) x r w1 w2).log = 2 * digits57 b) ∧
    ∀ pr w, ccsVerify pr (some p) = .ok w → pairings (ccsVerifyC pr (some p)).log = 4 * digits57 b := by
  obtain ⟨hu, hl, -, -, -, hab, hb1⟩ := setup_ul hb h
  have hlog : (ccsSetupC a b (some k)).log =
      .g1base k :: signScalars k ((List.range (57 : Int).toNat).map Int.ofNat) ++ [.g2base ccsH] := by
    unfold ccsSetupC
    rw [if_neg (by omega), if_pos hb1, digitCount_eq 64 b (hb.trans (by norm_num))]
    rw [log_ok (by rw [setupULC_res]; exact hu), C109_setupUL 57 _ k p.p hu, log_pure, List.append_nil]
  refine ⟨digits57_le hb, ?_, ?_, fun q1 q2 h2 => ?_, fun pr w h2 => ?_⟩
  · rw [hlog]; simp [signScalars]
  · rw [hlog, ← List.singleton_append, pairings_append, pairings_append, pairings_sign]; rfl
  · unfold ccsProve at h2
    obtain ⟨o1, e1, h2⟩ := Res.bind_eq_ok.1 (show (proveUL _ _ _ _ _ _ _ _ >>= fun _ => _) = _ from h2)
    obtain ⟨o2, e2, h2⟩ := Res.bind_eq_ok.1 h2
    obtain rfl : o1 = some q1 := congrArg CcsProof.p1 (Res.ok.inj h2)
    obtain rfl : o2 = some q2 := congrArg CcsProof.p2 (Res.ok.inj h2)
    show pairings (proveULC sha _ r p.p w1.m w1.v w1.s w1.t >>= fun first => proveULC sha _ r p.p w2.m w2.v w2.s w2.t >>= fun second =>
      pure ⟨first, second⟩ : CLog CcsProof).log = _
    rw [log_ok (by rw [proveULC_res]; exact e1), log_ok (by rw [proveULC_res]; exact e2), pairings_append, pairings_append,
      (C109_count sha _ r p.p w1.m w1.v w1.s w1.t).1 _ e1, (C109_count sha _ r p.p w2.m w2.v w2.s w2.t).1 _ e2, hl,
      Int.toNat_natCast]
    show _ + (_ + 0) = _
    omega
  · unfold ccsVerify at h2
    obtain ⟨q1, f1, h2⟩ := Res.bind_eq_ok.1 (show (Res.ofOption pr.p1 >>= fun _ => _) = _ from h2)
    obtain ⟨o1, e1, h2⟩ := Res.bind_eq_ok.1 h2
    obtain ⟨q2, f2, h2⟩ := Res.bind_eq_ok.1 h2
    obtain ⟨o2, e2, -⟩ := Res.bind_eq_ok.1 h2
    show pairings (lift (Res.ofOption pr.p1) >>= fun p1 => verifyULC p1 p.p >>= fun first => lift (Res.ofOption pr.p2) >>= fun p2 =>
      verifyULC p2 p.p >>= fun second => pure (first.1 && second.1, ⟨some first.2, some second.2⟩) : CLog (Bool × CcsProof)).log = _
    rw [log_lift f1, log_ok (by rw [verifyULC_res]; exact e1), log_lift f2, log_ok (by rw [verifyULC_res]; exact e2), pairings_append,
      pairings_append, (C109_count sha x r p.p 0 w1.v w1.s w1.t).2 _ _ e1, (C109_count sha x r p.p 0 w1.v w1.s w1.t).2 _ _ e2, hl,
      Int.toNat_natCast]
    show _ + (_ + 0) = _
    omega

/-! ## What the calls tell -/

/-- C109: `VerifyUL` does not stop at a failed comparison: its calls depend on the numbers `c`, `zr`, `zsig` and `zv` of the proof
and on `u` and `l`, and on nothing else; an accepted and a rejected proof with the same numbers take the same calls. -/
theorem C109_no_shortcut (pr pr' : ProofUL) (p p' : ParamsUL) (w w' : Bool × ProofUL) (h : verifyUL pr p = .ok w)
    (h' : verifyUL pr' p' = .ok w') (hu : p.u = p'.u) (hl : p.l = p'.l) (hc : pr.c = pr'.c) (hr : pr.zr = pr'.zr)
    (hs : pr.zsig = pr'.zsig) (hv : pr.zv = pr'.zv) : (verifyULC pr p).log = (verifyULC pr' p').log := by
  rw [C109_verifyUL pr p w.1 w.2 h, C109_verifyUL pr' p' w'.1 w'.2 h', hu, hl, hc, hr, hs, hv]

/-- C109: the calls of the provers tell the secret and the factor that hides it in the commitment: `Commit` multiplies with them. -/
theorem C109_secret (sha : List UInt8 → List UInt8) (x x' r r' : Int) :
    (∀ (p p' : ParamsSet) m v s t m' v' s' t' q q', proveSet sha x r p m v s t = .ok (some q) →
      proveSet sha x' r' p' m' v' s' t' = .ok (some q') →
      (proveSetC sha x r p m v s t).log = (proveSetC sha x' r' p' m' v' s' t').log → x = x' ∧ r = r') ∧
    (∀ (p p' : ParamsUL) m v s t m' v' s' t' q q', proveUL sha x r p m v s t = .ok (some q) →
      proveUL sha x' r' p' m' v' s' t' = .ok (some q') →
      (proveULC sha x r p m v s t).log = (proveULC sha x' r' p' m' v' s' t').log → x = x' ∧ r = r') := by
  constructor
  · intro p p' m v s t m' v' s' t' q q' h h' e
    rw [C109_proveSet _ _ _ _ _ _ _ _ q h, C109_proveSet _ _ _ _ _ _ _ _ q' h'] at e
    simp only [List.cons.injEq, CcsEv.g2base.injEq, CcsEv.g2mult.injEq] at e
    tauto
  · intro p p' m v s t m' v' s' t' q q' h h' e
    rw [C109_proveUL _ _ _ _ _ _ _ _ q h, C109_proveUL _ _ _ _ _ _ _ _ q' h'] at e
    have := (List.append_inj' e rfl).2
    simp only [List.cons.injEq, CcsEv.g2base.injEq, CcsEv.g2mult.injEq] at this
    tauto

/-! ## Examples -/

/-- The set {1, 5, 9} and the element 5. -/
example : ∃ p q, setupSet [1, 5, 9] (some 1234) = .ok p ∧
    proveSet (fun _ => List.replicate 32 77) 5 3 p 11 13 17 19 = .ok (some q) ∧
    (proveSetC (fun _ => List.replicate 32 77) 5 3 p 11 13 17 19).log =
      [.g2mult 11, .g2base 17, .g2mult 13, .pair, .gtmult 17, .gtmult 19, .g2base 5, .g2mult 3] ∧
    (setupSetC [1, 5, 9] (some 1234)).log.length = 5 ∧ pairings (verifySetC q p).log = 2 := by
  obtain ⟨p, q, q', Q, h1, h2, h3, -⟩ := setExample_race
  refine ⟨p, q, h1, h2, C109_proveSet _ _ _ _ _ _ _ _ q h2, ?_, ?_⟩
  · rw [C109_setupSet _ _ p h1]; rfl
  · rw [C109_verifySet q p _ _ h3]; rfl

/-- The interval [0, 4) in base 2 and the value 2. -/
example : ∃ p q, setupUL 2 2 (some 1234) = .ok p ∧
    (proveULC (fun _ => List.replicate 32 77) 2 3 p 11 (fun j => 13 + j) (fun j => 17 + j) (fun j => 19 + j)).log =
      [.g2mult 11, .g2mult 13, .pair, .gtmult 17, .gtmult 19, .g2base 17, .g2mult 14, .pair, .gtmult 18, .gtmult 20, .g2base 36,
        .g2base 2, .g2mult 3] ∧
    (setupULC 2 2 (some 1234)).log.length = 4 ∧ pairings (verifyULC q p).log = 4 ∧ (verifyULC q p).log.length = 14 := by
  obtain ⟨p, q, q', Q, h1, h2, h3, -⟩ := ulExample_race
  obtain ⟨p', pk, e1, e2, e3, _⟩ := C54_setup 2 2 1234 (by intro m h0 h1; interval_cases m <;> decide +kernel)
  obtain rfl : p = p' := Res.ok.inj (h1.symm.trans e1)
  refine ⟨p, q, h1, ?_, ?_, ?_, ?_⟩
  · rw [C109_proveUL _ _ _ _ _ _ _ _ q h2, e2, e3]; decide
  · rw [C109_setupUL _ _ _ p h1]; rfl
  · rw [(C109_count (fun _ => []) 0 0 p 0 (fun _ => 0) (fun _ => 0) (fun _ => 0)).2 q _ h3, e3]; rfl
  · rw [C109_verifyUL q p _ _ h3, e3]; rfl

/-- The range [0, 10) and the value 5. -/
example : ∃ p q1 q2, ccsSetup 0 10 (some 1234) = .ok (some p) ∧
    pairings (ccsProveC (fun _ => List.replicate 32 77) (some p) 5 3 raceRandom raceRandom).log = 2 ∧
    pairings (ccsVerifyC ⟨some q1, some q2⟩ (some p)).log = 4 := by
  obtain ⟨p, q1, q2, q', Q, h1, h2, h3, -⟩ := rangeExample_race
  obtain ⟨-, -, -, g1, g2⟩ := C109_range (fun _ => List.replicate 32 77) 0 10 1234 5 3 raceRandom raceRandom p (by norm_num) h1
  have hL : digits57 10 = 1 := by simp [digits57]
  exact ⟨p, q1, q2, h1, by rw [g1 q1 q2 h2, hL], by rw [g2 _ _ h3, hL]⟩

end Verif

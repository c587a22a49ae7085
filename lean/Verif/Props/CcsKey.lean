import Verif.Props.CcsUL

/-!
# C80: the parameters given to a ccs08 prover contain the signing key

`SetupSet` and `SetupUL` store the whole key pair in the parameters, and `ProveSet`, `ProveUL` get these parameters.  Whoever
can make a proof can therefore sign further elements.  The proofs made with them have everything a correct verifier could
ask for: `V` is finite, the challenge is the hash of `a` and `D`, and the commitment is the one of the claimed value.
-/

namespace Verif

open Spec

/-- C80: the private key is in the parameters. -/
theorem C80_key (S : List Int) (u l sk : Int) :
    (∀ p, setupSet S (some sk) = .ok p → p.kp.privk = some sk) ∧ (∀ p, setupUL u l (some sk) = .ok p → p.kp.privk = some sk) := by
  obtain ⟨pk, h1, _⟩ := C50_keygen sk
  have e : (keygen (some sk)).privk = some sk := by rw [h1]
  constructor
  · intro p hp
    simp only [setupSet, Res.bind_eq_ok] at hp
    obtain ⟨_, _, h⟩ := hp
    cases h
    exact e
  · intro p hp
    simp only [setupUL, Res.bind_eq_ok] at hp
    obtain ⟨_, _, h⟩ := hp
    cases h
    exact e

/-- The attacker's parameters: the ones received, with signatures of further elements made with the key in them. -/
def ParamsSet.sign (p : ParamsSet) (ms : List Int) : Res ParamsSet := do
  let signatures ← signLoop p.kp.privk ms p.signatures
  .ok { p with signatures := signatures }

/-- The same for `paramsUL`. -/
def ParamsUL.sign (p : ParamsUL) (ms : List Int) : Res ParamsUL := do
  let signatures ← signLoop p.kp.privk ms p.signatures
  .ok { p with signatures := signatures }

/-- The condition which `VerifySet` should check and does not: the challenge is the hash. -/
def ProofSet.Hashed (sha : List UInt8 → List UInt8) (pr : ProofSet) : Prop :=
  ∃ c, hashSet sha pr.a pr.D = .ok (some c) ∧ pr.c = c % bnOrder

/-- The same for `VerifyUL`. -/
def ProofUL.Hashed (sha : List UInt8 → List UInt8) (pr : ProofUL) : Prop :=
  ∃ c, hashUL sha pr.a pr.D = .ok (some c) ∧ pr.c = c % bnOrder

theorem proveSet_hashed {sha : List UInt8 → List UInt8} {x r : Int} {p : ParamsSet} {m v s t : Int} {pr : ProofSet}
    (h : proveSet sha x r p m v s t = .ok (some pr)) : pr.Hashed sha := by
  unfold proveSet at h
  split at h
  · cases h
  · simp only [Res.bind_eq_ok] at h
    obtain ⟨_, _, c', h1, c, h2, h⟩ := h
    cases h
    cases c' with
    | none => cases h2
    | some c' =>
      obtain rfl : c' = c := Res.ok.inj h2
      exact ⟨c', h1, rfl⟩

/-- C80: set membership.  For every set, every key and every `x ≥ 0` which the key can sign, in the set or not: after
signing `x`, `ProveSet` makes a proof which `VerifySet` accepts for the original parameters, up to the exceptions of C51.
Its commitment is `Commit(x, r)`, its challenge the hash, and `V` is finite for `v ≢ 0`. -/
theorem C80_set (sha : List UInt8 → List UInt8) (hsha : ∀ b, (sha b).length = 32) (S : List Int)
    (x r sk m v s t : Int) (hS : ∀ m ∈ S, ¬ m + sk ≡ 0 [ZMOD bnOrder]) (hx : ¬ x + sk ≡ 0 [ZMOD bnOrder]) (hx0 : 0 ≤ x)
    (hr : 0 ≤ r) (hm : 0 ≤ m) (hv : 0 ≤ v) (hs : 0 ≤ s) (ht : 0 ≤ t)
    (h1 : NoClash (ccsH * m) [s]) (h2 : NoClash x [ccsH * r]) :
    ∃ p p' pr i, setupSet S (some sk) = .ok p ∧ p.sign [x] = .ok p' ∧ proveSet sha x r p' m v s t = .ok (some pr) ∧
      pr.C = commit x r p.H ∧ pr.Hashed sha ∧ i * (x + sk) ≡ 1 [ZMOD bnOrder] ∧ Rep2 pr.V ((i * v) • bnG2) ∧
      (PairOk pr.V → NoClash ((x + ccsH * r) * pr.c) [ccsH * pr.zr, pr.zsig] →
        ∃ pr', verifySet pr p = .ok (true, pr')) := by
  obtain ⟨p, pk, e1, e2, e3, e4, e5, _⟩ := C51_setup S sk hS
  obtain ⟨out, h3, h4⟩ := signLoop_spec sk [x] p.signatures (fun m hm => by rw [List.mem_singleton.1 hm]; exact hx)
  obtain ⟨o, ho, hsig⟩ := (h4 x).1 (List.mem_singleton.2 rfl)
  have hk := (C80_key S 0 0 sk).1 p e1
  obtain ⟨pr, i, f1, f2, f3, f4, f5, f6, f7, f8, f9, f10, f11, f12, f13, f14⟩ :=
    C51_proof sha hsha x r ccsH sk { p with signatures := out } m v s t o ho hsig e4 hm hv hs ht h1
  refine ⟨p, { p with signatures := out }, pr, i, e1, by rw [ParamsSet.sign, hk, h3, Res.ok_bind], f1, f5, proveSet_hashed f1,
    f2, f3, fun hok hn => ?_⟩
  obtain ⟨b, pr', g1, g2⟩ := C51_verdict pr p pk ccsH sk (i * v) _ _ _ e2 e3 e4 f3 hok f4
    (f5 ▸ commit_exp e4 hx0 hr h2) (f6 hok) f10
    (by rw [f12]; exact emod_order_nonneg _) (by rw [f13]; exact emod_order_nonneg _) (by rw [f14]; exact emod_order_nonneg _) hn
  refine ⟨pr', ?_⟩
  rw [g1, g2.2]
  have z1 : pr.zr ≡ m - r * pr.c [ZMOD bnOrder] := by rw [f12]; exact Int.mod_modEq _ _
  have z2 : pr.zsig ≡ s - x * pr.c [ZMOD bnOrder] := by rw [f13]; exact Int.mod_modEq _ _
  have z3 : pr.zv ≡ t - v * pr.c [ZMOD bnOrder] := by rw [f14]; exact Int.mod_modEq _ _
  generalize pr.c = c at *
  constructor
  · have := ((z1.mul_left ccsH).add_left ((x + ccsH * r) * c)).add z2
    refine this.trans ?_
    ring_nf
    rfl
  · have := ((z2.mul_left (i * v)).neg.add_left (sk * (i * v) * c)).add z3
    have h3 := (f2.mul_left (v * c)).add_left (t - i * v * s - v * c)
    ring_nf at this h3 ⊢
    exact this.trans h3

/-- The attacker's prover for `VerifyUL`: `ProveUL` (ccs08.go:197-258) with arbitrary integers `ds` in the place of the digits
of `x`. -/
def proveDigits (sha : List UInt8 → List UInt8) (ds : List Int) (x r : Int) (p : ParamsUL) (m : Int) (v s t : Nat → Int) :
    Res (Option ProofUL) := do
  let D := G2.scalarMult p.H m
  let res ← proveULLoop p v s t 0 ds D
  match res with
  | none => .ok none
  | some (D, V, a) => do
    let D := (TwistPoint.new.setInfinity).addSelf D
    let C := commit x r p.H
    let c ← hashUL sha a D
    let c ← Res.ofOption c
    let c := c % bnOrder
    let zr := (m - r * c) % bnOrder
    let n := ds.length
    let s := firsts s n
    let t := firsts t n
    let zsig := List.zipWith (fun si d => (si - d * c) % bnOrder) s ds
    let zv := List.zipWith (fun ti vi => (ti - vi * c) % bnOrder) t (firsts v n)
    .ok (some ⟨V, D, C, a, s, t, zsig, zv, c, m, zr⟩)

/-- `ProveUL` is this with the digits of `x`. -/
theorem proveUL_digits (sha : List UInt8 → List UInt8) (x r : Int) (p : ParamsUL) (m : Int) (v s t : Nat → Int) :
    proveUL sha x r p m v s t = decompose x p.u p.l >>= fun ds => proveDigits sha ds x r p m v s t := rfl

/-- C80: `[0, u^l)`.  For every base, length, key and every list of `l` numbers which the key can sign — however large — there
is a proof for the value `Σ ds[j]·u^j` which `VerifyUL` accepts for the original parameters, up to the exceptions of C54.  Its
commitment is `Commit(x, r)`, its challenge the hash. -/
theorem C80_ul (sha : List UInt8 → List UInt8) (hsha : ∀ b, (sha b).length = 32) (u l sk x r m : Int) (ds : List Int)
    (v s t : Nat → Int) (hk : ∀ m, 0 ≤ m → m < u → ¬ m + sk ≡ 0 [ZMOD bnOrder])
    (hd : ∀ d ∈ ds, ¬ d + sk ≡ 0 [ZMOD bnOrder]) (hlen : ds.length = l.toNat) (hxd : x = weighted u ds) (hx : 0 ≤ x)
    (hr : 0 ≤ r) (hm : 0 ≤ m) (hv : ∀ j, 0 ≤ v j) (hs : ∀ j, 0 ≤ s j) (ht : ∀ j, 0 ≤ t j)
    (h1 : NoClash (ccsH * m) (wts u s 0 l.toNat)) (h2 : NoClash x [ccsH * r]) :
    ∃ p p' pr z, setupUL u l (some sk) = .ok p ∧ p.sign ds = .ok p' ∧ proveDigits sha ds x r p' m v s t = .ok (some pr) ∧
      pr.C = commit x r p.H ∧ pr.Hashed sha ∧ (∀ j, j < l.toNat → pr.zsig[j]? = some (z j)) ∧
      ((∀ V ∈ pr.V, PairOk V) →
        NoClash ((x + ccsH * r) * pr.c) (ccsH * pr.zr :: wts u z 0 l.toNat) →
        ∃ pr', verifyUL pr p = .ok (true, pr')) := by
  obtain ⟨p, pk, e1, rfl, rfl, e2, e3, e4, e5⟩ := C54_setup u l sk hk
  obtain ⟨out, k3, k4⟩ := signLoop_spec sk ds p.signatures hd
  have hpk := (C80_key [] p.u p.l sk).2 p e1
  obtain ⟨D, Vs, as, g1, g2, g3, g4, g5⟩ := proveULLoop_spec { p with signatures := out } sk v s t hv hs ht ds 0 _ _
    (scalarMult_exp2 e4 m hm) (fun d hd => (k4 d).1 hd) (by rw [hlen]; exact h1)
  rw [hlen] at g2
  generalize ccsH = h at *
  obtain ⟨c, hc⟩ : ∃ c, hashUL sha as ((TwistPoint.new.setInfinity).addSelf D) = .ok (some c) := by
    unfold hashUL
    rw [C02_fromByteArray, if_neg]
    · exact ⟨_, rfl⟩
    · intro h0
      have := hsha ((as.map GT.string).flatten ++ G2.string ((TwistPoint.new.setInfinity).addSelf D))
      rw [h0] at this
      cases this
  obtain ⟨c', hc'⟩ : ∃ c', c' = c % bnOrder := ⟨_, rfl⟩
  have hc0 : 0 ≤ c' := by rw [hc']; exact emod_order_nonneg _
  have hj : ∀ j, j < p.l.toNat → ds[j]? = some (ds.getD j 0) := fun j hj => by
    rw [List.getD_eq_getElem?_getD, List.getElem?_eq_getElem (show j < ds.length by omega)]
    rfl
  have hex : ∀ j, ∃ e : Int, j < p.l.toNat → e * (ds.getD j 0 + sk) ≡ 1 [ZMOD bnOrder] ∧
      ∃ V a, Vs[j]? = some V ∧ as[j]? = some a ∧ Rep2 V ((e * v j) • bnG2) ∧
        (PairOk V → GExp a (t j - e * v j * s j)) := by
    intro j
    by_cases hj' : j < p.l.toNat
    · obtain ⟨e, V, a, f1, f2, f3, f4, f5⟩ := g5 j _ (hj j hj')
      rw [zero_add] at f4 f5
      exact ⟨e, fun _ => ⟨f3, V, a, f1, f2, f4, f5⟩⟩
    · exact ⟨0, fun hc => absurd hc hj'⟩
  choose e he using hex
  obtain ⟨pr, hpr⟩ : ∃ pr : ProofUL, pr = ⟨Vs, (TwistPoint.new.setInfinity).addSelf D, commit x r p.H, as,
    firsts s ds.length, firsts t ds.length, List.zipWith (fun si d => (si - d * c') % bnOrder) (firsts s ds.length) ds,
    List.zipWith (fun ti vi => (ti - vi * c') % bnOrder) (firsts t ds.length) (firsts v ds.length),
    c', m, (m - r * c') % bnOrder⟩ := ⟨_, rfl⟩
  have hfi : ∀ (f : Nat → Int) (j : Nat), j < p.l.toNat → (firsts f ds.length)[j]? = some (f j) := by
    intro f j hj
    simp [firsts, show j < ds.length by omega]
  have hz : ∀ j, j < p.l.toNat → pr.zsig[j]? = some ((s j - ds.getD j 0 * c') % bnOrder) := by
    intro j hj'
    rw [hpr]
    simp only [List.getElem?_zipWith, hfi s j hj', hj j hj']
  have hw : ∀ j, j < p.l.toNat → pr.zv[j]? = some ((t j - v j * c') % bnOrder) := by
    intro j hj'
    rw [hpr]
    simp only [List.getElem?_zipWith, hfi t j hj', hfi v j hj']
  refine ⟨p, { p with signatures := out }, pr, fun j => (s j - ds.getD j 0 * c') % bnOrder, e1, ?_, ?_, by rw [hpr],
    ⟨c, by rw [hpr]; exact hc, by rw [hpr, hc']⟩, hz, fun hok hn => ?_⟩
  · rw [ParamsUL.sign, hpk, k3, Res.ok_bind]
  · rw [hpr]
    unfold proveDigits
    simp only [g1, hc, Res.ok_bind, Res.ofOption_some, ← hc']
  have hD : Rep2 pr.D ((h * m + (wts p.u s 0 p.l.toNat).sum) • bnG2) := by rw [hpr]; exact infAdd_exp g2
  have hC : Rep2 pr.C ((x + h * r) • bnG2) := by rw [hpr]; exact commit_exp e4 hx hr h2
  have hcc : pr.c = c' := by rw [hpr]
  have hzr : pr.zr = (m - r * c') % bnOrder := by rw [hpr]
  have hVs : pr.V = Vs := by rw [hpr]
  have has : pr.a = as := by rw [hpr]
  obtain ⟨b, pr', w1, w2⟩ := C54_verdict pr p pk h sk _ _ (fun j => e j * v j) _
    (fun j => (t j - v j * c') % bnOrder) (fun j => t j - e j * v j * s j) e2 e3 e4 hD hC (by rw [hcc]; exact hc0)
    (by rw [hzr]; exact emod_order_nonneg _) (fun j hj' => by
      obtain ⟨_, V, a, q1, q2, q3, q4⟩ := he j hj'
      have hV := hok V (by rw [hVs]; exact List.mem_of_getElem? q1)
      exact ⟨V, a, by rw [hVs]; exact q1, by rw [has]; exact q2, hz j hj', hw j hj', emod_order_nonneg _, emod_order_nonneg _,
        q3, hV, q4 hV⟩) hn
  refine ⟨pr', ?_⟩
  rw [w1, w2.2]
  rw [hcc, hzr]
  have hwt : (wts p.u (fun j => ds.getD j 0) 0 p.l.toNat).sum = x := by
    rw [← hlen, wts_weighted p.u ds 0 (fun j => ds.getD j 0) (fun j hj' => by rw [zero_add]; exact hj j (by omega)), hxd,
      pow_zero, one_mul]
  have z1 : (m - r * c') % bnOrder ≡ m - r * c' [ZMOD bnOrder] := Int.mod_modEq _ _
  have z2 := wts_congr p.u (f := s) (g := fun j => (s j - ds.getD j 0 * c') % bnOrder) (c := c') (d := fun j => ds.getD j 0)
    p.l.toNat 0 (fun j _ _ => Int.mod_modEq _ _)
  rw [hwt] at z2
  clear hn w1 w2
  refine ⟨?_, fun j hj' => ?_⟩
  · have q1 := ((z1.mul_left h).add_left ((x + h * r) * c')).add z2
    refine q1.trans ?_
    ring_nf
    rfl
  · obtain ⟨he, _⟩ := he j hj'
    have y2 : (s j - ds.getD j 0 * c') % bnOrder ≡ s j - ds.getD j 0 * c' [ZMOD bnOrder] := Int.mod_modEq _ _
    have y3 : (t j - v j * c') % bnOrder ≡ t j - v j * c' [ZMOD bnOrder] := Int.mod_modEq _ _
    have := ((y2.mul_left (e j * v j)).neg.add_left (sk * (e j * v j) * c')).add y3
    have h3 := (he.mul_left (v j * c')).add_left (t j - e j * v j * s j - v j * c')
    beta_reduce
    generalize (s j - ds.getD j 0 * c') % bnOrder = A at *
    generalize (t j - v j * c') % bnOrder = B at *
    ring_nf at this h3 ⊢
    exact this.trans h3

/-- A concrete case: 9 is not in the set {1, 5}, and is accepted. -/
example : (match (do
      let p ← setupSet [1, 5] (some 1234)
      let p' ← p.sign [9]
      let pr ← proveSet (fun _ => List.replicate 32 77) 9 3 p' 11 13 17 19
      Res.ok (pr.map fun q => (p, q))) with
    | .ok (some (p, pr)) => decide ((9 : Int) ∉ [1, 5]) && !pr.V.z.isOne && p.signatures.length == 2 &&
        decide (NoClash ((9 + ccsH * 3) * pr.c) [ccsH * pr.zr, pr.zsig])
    | _ => false) = true := by decide +kernel

/-- Another: 1000 in the place of a digit for the interval `[0, 16)`. -/
example : weighted 4 [1000, 0] = 1000 ∧ (∀ d ∈ [1000, 0], ¬ d + (1234 : Int) ≡ 0 [ZMOD bnOrder]) ∧
    NoClash (ccsH * 11) (wts 4 (fun j => 17 + j) 0 2) ∧ NoClash 1000 [ccsH * 3] := by decide +kernel

end Verif

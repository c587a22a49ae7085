import Verif.Props.CcsSound

/-!
# C78: what the proofs of ccs08 show besides the fields `s`, `t` and `m`

C53 reads the secret from the fields `s`, `t`, `m`.  Here the other fields are considered.
-/

namespace Verif

/-- The random numbers of one call of `ProveSet` together with the blinding factor of the commitment. -/
structure SetRandom where
  r : Int
  m : Int
  v : Int
  s : Int
  t : Int
  deriving DecidableEq, Repr

/-- Reduced modulo `Order`, as random numbers are. -/
def SetRandom.Reduced (w : SetRandom) : Prop :=
  (0 ≤ w.r ∧ w.r < bnOrder) ∧ (0 ≤ w.m ∧ w.m < bnOrder) ∧ (0 ≤ w.v ∧ w.v < bnOrder) ∧ (0 ≤ w.s ∧ w.s < bnOrder) ∧
    (0 ≤ w.t ∧ w.t < bnOrder)

/-- The random numbers with which a proof for `x'` and the challenge `c` shows the same as a proof for `x`. -/
def moveSet (sk c x x' : Int) (w : SetRandom) : SetRandom :=
  let r := equivocate x w.r x'
  let v := w.v * (x' + sk) * (modInverse (x + sk) bnOrder).getD 0 % bnOrder
  ⟨r, (w.m + (r - w.r) * c) % bnOrder, v, (w.s + (x' - x) * c) % bnOrder, (w.t + (v - w.v) * c) % bnOrder⟩

theorem inverse_getD {a : Int} (h : ¬ a ≡ 0 [ZMOD bnOrder]) : (modInverse a bnOrder).getD 0 * a ≡ 1 [ZMOD bnOrder] := by
  obtain ⟨i, hi, _, h1⟩ := order_inverse h
  rw [hi]
  exact h1

theorem equivocate_spec (x r x' : Int) : ccsH * equivocate x r x' ≡ ccsH * r + x - x' [ZMOD bnOrder] := by
  have hi : ccsH * (modInverse ccsH bnOrder).getD 0 ≡ 1 [ZMOD bnOrder] := by decide +kernel
  have h3 : equivocate x r x' ≡ r + (x - x') * (modInverse ccsH bnOrder).getD 0 [ZMOD bnOrder] := Int.mod_modEq _ _
  generalize equivocate x r x' = e at *
  generalize (modInverse ccsH bnOrder).getD 0 = i at *
  generalize ccsH = h at *
  have h4 := h3.mul_left h
  have h5 := (hi.mul_left (x - x')).add_left (h * r)
  ring_nf at h4 h5 ⊢
  exact h4.trans h5

/-- C78: going from `x` to `x'` and back changes nothing, so `moveSet` is a bijection of the reduced random numbers:
equally many of them make a given proof for `x` and for `x'`. -/
theorem C78_bijection (sk c x x' : Int) (w : SetRandom) (hw : w.Reduced) (hx : ¬ x + sk ≡ 0 [ZMOD bnOrder])
    (hx' : ¬ x' + sk ≡ 0 [ZMOD bnOrder]) :
    (moveSet sk c x x' w).Reduced ∧ moveSet sk c x' x (moveSet sk c x x' w) = w := by
  have red : ∀ a : Int, 0 ≤ a % bnOrder ∧ a % bnOrder < bnOrder := fun a =>
    ⟨emod_order_nonneg a, Int.emod_lt_of_pos _ bnOrder_pos⟩
  refine ⟨⟨red _, red _, red _, red _, red _⟩, ?_⟩
  have uniq : ∀ {a b : Int}, 0 ≤ b ∧ b < bnOrder → a ≡ b [ZMOD bnOrder] → a % bnOrder = b := fun hb h =>
    Eq.trans h (Int.emod_eq_of_lt hb.1 hb.2)
  obtain ⟨r, m, v, s, t⟩ := w
  obtain ⟨hr, hm, hv, hs, ht⟩ := hw
  have er : equivocate x' (equivocate x r x') x = r := by
    refine uniq hr ?_
    have h1 : equivocate x r x' ≡ r + (x - x') * (modInverse ccsH bnOrder).getD 0 [ZMOD bnOrder] := Int.mod_modEq _ _
    refine (h1.add_right _).trans ?_
    ring_nf
    rfl
  have i1 := inverse_getD hx
  have i2 := inverse_getD hx'
  have ev : v * (x' + sk) * (modInverse (x + sk) bnOrder).getD 0 % bnOrder * (x + sk) *
      (modInverse (x' + sk) bnOrder).getD 0 % bnOrder = v := by
    refine uniq hv ?_
    have h1 : v * (x' + sk) * (modInverse (x + sk) bnOrder).getD 0 % bnOrder ≡
      v * (x' + sk) * (modInverse (x + sk) bnOrder).getD 0 [ZMOD bnOrder] := Int.mod_modEq _ _
    generalize v * (x' + sk) * (modInverse (x + sk) bnOrder).getD 0 % bnOrder = v' at *
    generalize (modInverse (x + sk) bnOrder).getD 0 = i at *
    generalize (modInverse (x' + sk) bnOrder).getD 0 = i' at *
    refine ((h1.mul_right (x + sk)).mul_right i').trans ?_
    have h2 := (i1.mul i2).mul_left v
    ring_nf at h2 ⊢
    exact h2
  simp only [moveSet]
  rw [er, ev]
  congr 1
  · refine uniq hm ?_
    refine ((Int.mod_modEq _ _).add_right _).trans ?_
    ring_nf
    rfl
  · refine uniq hs ?_
    refine ((Int.mod_modEq _ _).add_right _).trans ?_
    ring_nf
    rfl
  · refine uniq ht ?_
    refine ((Int.mod_modEq _ _).add_right _).trans ?_
    ring_nf
    rfl

example := C78_bijection 1234 7 5 9 ⟨3, 11, 13, 17, 19⟩ (by unfold SetRandom.Reduced; decide +kernel) (by decide +kernel) (by decide +kernel)

/-- The exponents of `V` and `a` after a move from `x` to `x'`. -/
theorem move_exponents {sk c x x' i i' v v' s s' t t' : Int} (hx : ¬ x + sk ≡ 0 [ZMOD bnOrder])
    (hi : i * (x + sk) ≡ 1 [ZMOD bnOrder]) (hi' : i' * (x' + sk) ≡ 1 [ZMOD bnOrder])
    (hv : v' = v * (x' + sk) * (modInverse (x + sk) bnOrder).getD 0 % bnOrder)
    (hs : s' = (s + (x' - x) * c) % bnOrder) (ht : t' = (t + (v' - v) * c) % bnOrder) :
    i * v ≡ i' * v' [ZMOD bnOrder] ∧ t - i * v * s ≡ t' - i' * v' * s' [ZMOD bnOrder] ∧
      (s - x * c) % bnOrder = (s' - x' * c) % bnOrder ∧ (t - v * c) % bnOrder = (t' - v' * c) % bnOrder := by
  have ev : v' ≡ v * (x' + sk) * i [ZMOD bnOrder] := by
    have k1 : v' ≡ v * (x' + sk) * (modInverse (x + sk) bnOrder).getD 0 [ZMOD bnOrder] := by
      rw [hv]; exact Int.mod_modEq _ _
    have k2 : (modInverse (x + sk) bnOrder).getD 0 ≡ i [ZMOD bnOrder] :=
      order_cancel hx ((inverse_getD hx).trans hi.symm)
    exact k1.trans (k2.mul_left _)
  have es : s' ≡ s + (x' - x) * c [ZMOD bnOrder] := by rw [hs]; exact Int.mod_modEq _ _
  have et : t' ≡ t + (v' - v) * c [ZMOD bnOrder] := by rw [ht]; exact Int.mod_modEq _ _
  clear hv hs ht
  have eV : i * v ≡ i' * v' [ZMOD bnOrder] := by
    have k := (hi'.mul_left (v * i))
    have k2 := ev.mul_left i'
    ring_nf at k k2 ⊢
    exact (k2.trans k).symm
  have evv : v' - v ≡ i * v * (x' - x) [ZMOD bnOrder] := by
    have k := hi.mul_left v
    refine ((ev.sub_right v)).trans ?_
    have k2 := (k.neg).add_left (v * (x' + sk) * i)
    refine Int.ModEq.trans ?_ (k2.symm.trans ?_)
    · ring_nf
      rfl
    · ring_nf
      rfl
  refine ⟨eV, ?_, ?_, ?_⟩
  · have k := (eV.symm.mul es).neg.add et
    have k2 := evv.mul_right c
    have k3 := k2.add_left (t - i * v * (s + (x' - x) * c))
    refine Int.ModEq.symm ?_
    have k4 : t' - i' * v' * s' ≡ t - i * v * (s + (x' - x) * c) + (v' - v) * c [ZMOD bnOrder] := by
      refine Int.ModEq.trans ?_ (k.trans ?_)
      · ring_nf
        rfl
      · ring_nf
        rfl
    refine k4.trans (k3.trans ?_)
    ring_nf
    rfl
  · have k := es.sub_right (x' * c)
    refine Int.ModEq.symm (k.trans ?_)
    ring_nf
    rfl
  · have k := et.sub_right (v' * c)
    refine Int.ModEq.symm (k.trans ?_)
    ring_nf
    rfl

/-- The exponent of `D` after a move from `x` to `x'`. -/
theorem move_D {c x x' h r r' m m' s s' : Int} (hr : h * r' ≡ h * r + x - x' [ZMOD bnOrder])
    (hm : m' ≡ m + (r' - r) * c [ZMOD bnOrder]) (hs : s' ≡ s + (x' - x) * c [ZMOD bnOrder]) :
    h * m + s ≡ h * m' + s' [ZMOD bnOrder] := by
  have k := ((hm.mul_left h).add hs)
  have k3 := (hr.mul_right c).add_left (h * m + s + (x' - x) * c - h * r * c)
  refine (k.trans ?_).symm
  ring_nf at k3 ⊢
  exact k3

/-- The part of a proof that `VerifySet` uses, group elements as their encodings. -/
def setView (pr : ProofSet) : List UInt8 × List UInt8 × List UInt8 × List UInt8 × Int × Int × Int × Int :=
  ((G2.marshal pr.V).1, (G2.marshal pr.D).1, (G2.marshal pr.C).1, (GT.marshal pr.a).1, pr.c, pr.zr, pr.zsig, pr.zv)

/-- C78: for every two elements `x`, `x'` of a set, a proof for `x` and the proof for `x'` with the random numbers of
`moveSet` agree in everything `VerifySet` uses, if they have the same challenge.  (The two hash functions stand for a
challenge computed in any way, or chosen by the verifier.) -/
theorem C78_set (sha sha' : List UInt8 → List UInt8) (hsha : ∀ b, (sha b).length = 32) (hsha' : ∀ b, (sha' b).length = 32)
    (S : List Int) (sk x x' : Int) (w w' : SetRandom) (c : Int) (hS : ∀ m ∈ S, ¬ m + sk ≡ 0 [ZMOD bnOrder])
    (hx : x ∈ S) (hx0 : 0 ≤ x) (hx' : x' ∈ S) (hx0' : 0 ≤ x') (hw : w.Reduced) (hw' : w' = moveSet sk c x x' w)
    (h1 : NoClash (ccsH * w.m) [w.s]) (h2 : NoClash x [ccsH * w.r])
    (h1' : NoClash (ccsH * w'.m) [w'.s]) (h2' : NoClash x' [ccsH * w'.r]) :
    ∃ p pr pr', setupSet S (some sk) = .ok p ∧ proveSet sha x w.r p w.m w.v w.s w.t = .ok (some pr) ∧
      proveSet sha' x' w'.r p w'.m w'.v w'.s w'.t = .ok (some pr') ∧
      (pr.c = c → pr'.c = c → PairOk pr.V → PairOk pr'.V → setView pr = setView pr') := by
  have hwr' : w'.Reduced := hw' ▸ (C78_bijection sk c x x' w hw (hS x hx) (hS x' hx')).1
  obtain ⟨p, pk, e1, e2, e3, e4, e5, _⟩ := C51_setup S sk hS
  obtain ⟨o, ho, hsig⟩ := e5 x hx
  obtain ⟨o', ho', hsig'⟩ := e5 x' hx'
  obtain ⟨pr, i, f1, f2, f3, f4, f5, f6, _, _, _, _, _, f12, f13, f14⟩ :=
    C51_proof sha hsha x w.r ccsH sk p w.m w.v w.s w.t o ho hsig e4 hw.2.1.1 hw.2.2.1.1 hw.2.2.2.1.1 hw.2.2.2.2.1 h1
  obtain ⟨pr', i', g1, g2, g3, g4, g5, g6, _, _, _, _, _, g12, g13, g14⟩ :=
    C51_proof sha' hsha' x' w'.r ccsH sk p w'.m w'.v w'.s w'.t o' ho' hsig' e4 hwr'.2.1.1 hwr'.2.2.1.1 hwr'.2.2.2.1.1
      hwr'.2.2.2.2.1 h1'
  refine ⟨p, pr, pr', e1, f1, g1, fun hc hc' hV hV' => ?_⟩
  obtain ⟨eV, ea, z2, z3⟩ := move_exponents (c := c) (t := w.t) (s := w.s) (v := w.v) (hS x hx) f2 g2
    (v' := w'.v) (s' := w'.s) (t' := w'.t) (by rw [hw']; rfl) (by rw [hw']; rfl) (by rw [hw']; rfl)
  have er : ccsH * w'.r ≡ ccsH * w.r + x - x' [ZMOD bnOrder] := by rw [hw']; exact equivocate_spec x w.r x'
  have em : w'.m ≡ w.m + (w'.r - w.r) * c [ZMOD bnOrder] := by rw [hw']; exact Int.mod_modEq _ _
  have es : w'.s ≡ w.s + (x' - x) * c [ZMOD bnOrder] := by rw [hw']; exact Int.mod_modEq _ _
  have eD : ccsH * w.m + w.s ≡ ccsH * w'.m + w'.s [ZMOD bnOrder] := move_D er em es
  have eC : x + ccsH * w.r ≡ x' + ccsH * w'.r [ZMOD bnOrder] := by
    have k := er.add_left x'
    refine (k.trans ?_).symm
    ring_nf
    rfl
  have z1 : pr.zr = pr'.zr := by
    rw [f12, g12, hc, hc']
    have k := em.sub_right (w'.r * c)
    refine Int.ModEq.symm (k.trans ?_)
    ring_nf
    rfl
  rw [setView, setView, (marshal_exp2 f3 g3).2 eV, (marshal_exp2 f4 g4).2 eD, f5, g5,
    (marshal_exp2 (commit_exp e4 hx0 hw.1.1 h2) (commit_exp e4 hx0' hwr'.1.1 h2')).2 eC,
    ((f6 hV).marshal_eq (g6 hV')).2 ea, f13, g13, f14, g14, hc, hc', z1, z2, z3]

/-! ## The digits -/

/-- The random numbers of one call of `ProveUL` together with the blinding factor of the commitment. -/
structure ULRandomness where
  r : Int
  m : Int
  v : Nat → Int
  s : Nat → Int
  t : Nat → Int

/-- Reduced modulo `Order`, as random numbers are. -/
def ULRandomness.Reduced (w : ULRandomness) : Prop :=
  (0 ≤ w.r ∧ w.r < bnOrder) ∧ (0 ≤ w.m ∧ w.m < bnOrder) ∧ (∀ j, 0 ≤ w.v j ∧ w.v j < bnOrder) ∧
    (∀ j, 0 ≤ w.s j ∧ w.s j < bnOrder) ∧ (∀ j, 0 ≤ w.t j ∧ w.t j < bnOrder)

/-- `moveSet` for every digit; `d` and `d'` are the digits of `x` and `x'`. -/
def moveUL (sk c x x' : Int) (d d' : Nat → Int) (w : ULRandomness) : ULRandomness :=
  let r := equivocate x w.r x'
  let v := fun j => w.v j * (d' j + sk) * (modInverse (d j + sk) bnOrder).getD 0 % bnOrder
  ⟨r, (w.m + (r - w.r) * c) % bnOrder, v, fun j => (w.s j + (d' j - d j) * c) % bnOrder,
    fun j => (w.t j + (v j - w.v j) * c) % bnOrder⟩

theorem wts_sub (u : Int) (d d' : Nat → Int) : ∀ n i : Nat,
    (wts u (fun j => d j - d' j) i n).sum = (wts u d i n).sum - (wts u d' i n).sum
  | 0, _ => by simp [wts]
  | n + 1, i => by
    simp only [wts, List.sum_cons, wts_sub u d d' n (i + 1)]
    ring

/-- C78: `moveUL` is a bijection of the reduced random numbers. -/
theorem C78_ul_bijection (sk c x x' : Int) (d d' : Nat → Int) (w : ULRandomness) (hw : w.Reduced)
    (hd : ∀ j, ¬ d j + sk ≡ 0 [ZMOD bnOrder]) (hd' : ∀ j, ¬ d' j + sk ≡ 0 [ZMOD bnOrder]) :
    (moveUL sk c x x' d d' w).Reduced ∧ moveUL sk c x' x d' d (moveUL sk c x x' d d' w) = w := by
  have red : ∀ a : Int, 0 ≤ a % bnOrder ∧ a % bnOrder < bnOrder := fun a =>
    ⟨emod_order_nonneg a, Int.emod_lt_of_pos _ bnOrder_pos⟩
  refine ⟨⟨red _, red _, fun _ => red _, fun _ => red _, fun _ => red _⟩, ?_⟩
  obtain ⟨r, m, v, s, t⟩ := w
  obtain ⟨hr, hm, hv, hs, ht⟩ := hw
  have key : ∀ j, moveSet sk c (d' j) (d j) (moveSet sk c (d j) (d' j) ⟨0, 0, v j, s j, t j⟩) = ⟨0, 0, v j, s j, t j⟩ :=
    fun j => (C78_bijection sk c (d j) (d' j) ⟨0, 0, v j, s j, t j⟩ ⟨red 0, red 0, hv j, hs j, ht j⟩ (hd j) (hd' j)).2
  have uniq : ∀ {a b : Int}, 0 ≤ b ∧ b < bnOrder → a ≡ b [ZMOD bnOrder] → a % bnOrder = b := fun hb h =>
    Eq.trans h (Int.emod_eq_of_lt hb.1 hb.2)
  have er : equivocate x' (equivocate x r x') x = r := by
    refine uniq hr ?_
    have h1 : equivocate x r x' ≡ r + (x - x') * (modInverse ccsH bnOrder).getD 0 [ZMOD bnOrder] := Int.mod_modEq _ _
    refine (h1.add_right _).trans ?_
    ring_nf
    rfl
  simp only [moveUL, ULRandomness.mk.injEq]
  refine ⟨er, ?_, funext fun j => congrArg SetRandom.v (key j), funext fun j => congrArg SetRandom.s (key j),
    funext fun j => congrArg SetRandom.t (key j)⟩
  rw [er]
  refine uniq hm ?_
  refine ((Int.mod_modEq _ _).add_right _).trans ?_
  ring_nf
  rfl

example := C78_ul_bijection 1234 7 27 9 (fun _ => 3) (fun _ => 1) ⟨3, 11, fun _ => 13, fun _ => 17, fun _ => 19⟩
  ⟨by decide +kernel, by decide +kernel, fun _ => (by decide +kernel : (0 : Int) ≤ 13 ∧ 13 < bnOrder),
    fun _ => (by decide +kernel : (0 : Int) ≤ 17 ∧ 17 < bnOrder), fun _ => (by decide +kernel : (0 : Int) ≤ 19 ∧ 19 < bnOrder)⟩
  (fun _ => by decide +kernel) (fun _ => by decide +kernel)

/-- The part of a proof that `VerifyUL` uses, group elements as their encodings. -/
def ulView (pr : ProofUL) (l : Nat) : List UInt8 × List UInt8 × Int × Int ×
    List (Option (List UInt8) × Option (List UInt8) × Option Int × Option Int) :=
  ((G2.marshal pr.D).1, (G2.marshal pr.C).1, pr.c, pr.zr, (List.range l).map fun j =>
    (pr.V[j]?.map fun V => (G2.marshal V).1, pr.a[j]?.map fun a => (GT.marshal a).1, pr.zsig[j]?, pr.zv[j]?))

/-- C78: for every two secrets `x`, `x'` in `[0, u^l)`, a proof for `x` and the proof for `x'` with the random numbers of
`moveUL` agree in everything `VerifyUL` uses, if they have the same challenge. -/
theorem C78_ul (sha sha' : List UInt8 → List UInt8) (hsha : ∀ b, (sha b).length = 32) (hsha' : ∀ b, (sha' b).length = 32)
    (u l sk x x' : Int) (ds ds' : List Int) (w w' : ULRandomness) (c : Int) (hu : 1 ≤ u) (hl : 0 ≤ l)
    (hk : ∀ m, 0 ≤ m → m < u → ¬ m + sk ≡ 0 [ZMOD bnOrder])
    (hx : 0 ≤ x ∧ x < u ^ l.toNat) (hx' : 0 ≤ x' ∧ x' < u ^ l.toNat)
    (hds : decompose x u l = .ok ds) (hds' : decompose x' u l = .ok ds') (hw : w.Reduced)
    (hw' : w' = moveUL sk c x x' (fun j => ds.getD j 0) (fun j => ds'.getD j 0) w)
    (h1 : NoClash (ccsH * w.m) (wts u w.s 0 l.toNat)) (h2 : NoClash x [ccsH * w.r])
    (h1' : NoClash (ccsH * w'.m) (wts u w'.s 0 l.toNat)) (h2' : NoClash x' [ccsH * w'.r]) :
    ∃ p pr pr', setupUL u l (some sk) = .ok p ∧ proveUL sha x w.r p w.m w.v w.s w.t = .ok (some pr) ∧
      proveUL sha' x' w'.r p w'.m w'.v w'.s w'.t = .ok (some pr') ∧
      (pr.c = c → pr'.c = c → (∀ V ∈ pr.V, PairOk V) → (∀ V ∈ pr'.V, PairOk V) →
        ulView pr l.toNat = ulView pr' l.toNat) := by
  have hd0 : ∀ ds : List Int, ∀ x, decompose x u l = .ok ds → ∀ j, ¬ ds.getD j 0 + sk ≡ 0 [ZMOD bnOrder] := by
    intro ds x hds j
    obtain ⟨ds', e, _, hr, _⟩ := C08_decompose x u l hu hl
    obtain rfl : ds = ds' := by rw [hds] at e; exact Res.ok.inj e
    rw [List.getD_eq_getElem?_getD]
    cases hj : ds[j]? with
    | none => exact hk 0 le_rfl (by omega)
    | some y =>
      obtain ⟨y0, y1⟩ := hr y (List.mem_of_getElem? hj)
      exact hk y y0 y1
  have hwr' : w'.Reduced := hw' ▸ (C78_ul_bijection sk c x x' _ _ w hw (hd0 ds x hds) (hd0 ds' x' hds')).1
  obtain ⟨p, pk, e1, rfl, rfl, e2, e3, e4, e5⟩ := C54_setup u l sk hk
  obtain ⟨hwr, hwm, hwv, hws, hwt⟩ := hw
  obtain ⟨hwr1, hwm1, hwv1, hws1, hwt1⟩ := hwr'
  obtain ⟨_, pr, e, d, f1, f2, f3, f4, f5, f6, _, _, _, _, _, f12⟩ :=
    C54_proof sha hsha x w.r ccsH sk p w.m w.v w.s w.t hu hl (fun d hd => (e5 d).1 hd) e4 hwm.1 (fun j => (hwv j).1)
      (fun j => (hws j).1) (fun j => (hwt j).1) h1
  obtain ⟨_, pr', e', d', g1, g2, g3, g4, g5, g6, _, _, _, _, _, g12⟩ :=
    C54_proof sha' hsha' x' w'.r ccsH sk p w'.m w'.v w'.s w'.t hu hl (fun d hd => (e5 d).1 hd) e4 hwm1.1 (fun j => (hwv1 j).1)
      (fun j => (hws1 j).1) (fun j => (hwt1 j).1) h1'
  refine ⟨p, pr, pr', e1, f3, g3, fun hc hc' hV hV' => ?_⟩
  rw [hds] at f1
  obtain rfl := Res.ok.inj f1
  rw [hds'] at g1
  obtain rfl := Res.ok.inj g1
  have hdj : ∀ j, j < p.l.toNat → ds.getD j 0 = d j := fun j hj => by
    rw [List.getD_eq_getElem?_getD, (f6 j hj).1]; rfl
  have hdj' : ∀ j, j < p.l.toNat → ds'.getD j 0 = d' j := fun j hj => by
    rw [List.getD_eq_getElem?_getD, (g6 j hj).1]; rfl
  have er : ccsH * w'.r ≡ ccsH * w.r + x - x' [ZMOD bnOrder] := by rw [hw']; exact equivocate_spec x w.r x'
  have em : w'.m ≡ w.m + (w'.r - w.r) * c [ZMOD bnOrder] := by rw [hw']; exact Int.mod_modEq _ _
  have sumx : (wts p.u d 0 p.l.toNat).sum = x := by
    obtain ⟨ds', w1, _, _, w2⟩ := C08_decompose x p.u p.l hu hl
    obtain rfl : ds = ds' := by rw [hds] at w1; exact Res.ok.inj w1
    rw [← f2, wts_weighted p.u ds 0 d (fun j hj => by rw [zero_add]; exact (f6 j (by omega)).1), w2,
      pow_zero, one_mul, Int.emod_eq_of_lt hx.1 hx.2]
  have sumx' : (wts p.u d' 0 p.l.toNat).sum = x' := by
    obtain ⟨ds, w1, _, _, w2⟩ := C08_decompose x' p.u p.l hu hl
    obtain rfl : ds' = ds := by rw [hds'] at w1; exact Res.ok.inj w1
    rw [← g2, wts_weighted p.u ds' 0 d' (fun j hj => by rw [zero_add]; exact (g6 j (by omega)).1), w2,
      pow_zero, one_mul, Int.emod_eq_of_lt hx'.1 hx'.2]
  have es : (wts p.u w'.s 0 p.l.toNat).sum ≡ (wts p.u w.s 0 p.l.toNat).sum + (x' - x) * c [ZMOD bnOrder] := by
    have k := wts_congr p.u (f := w.s) (g := w'.s) (c := c) (d := fun j => d j - d' j) p.l.toNat 0 (fun j _ hj => by
      have hj' : j < p.l.toNat := by omega
      have k : w'.s j ≡ w.s j + (ds'.getD j 0 - ds.getD j 0) * c [ZMOD bnOrder] := by rw [hw']; exact Int.mod_modEq _ _
      rw [hdj j hj', hdj' j hj'] at k
      refine k.trans ?_
      ring_nf
      rfl)
    have k2 : (wts p.u (fun j => d j - d' j) 0 p.l.toNat).sum = x - x' := by
      rw [← sumx, ← sumx']
      exact wts_sub p.u d d' _ _
    rw [k2] at k
    refine k.trans ?_
    ring_nf
    rfl
  have eD := move_D er em es
  have eC : x + ccsH * w.r ≡ x' + ccsH * w'.r [ZMOD bnOrder] := by
    have k := er.add_left x'
    refine (k.trans ?_).symm
    ring_nf
    rfl
  have z1 : pr.zr = pr'.zr := by
    rw [f12, g12, hc, hc']
    have k := em.sub_right (w'.r * c)
    refine Int.ModEq.symm (k.trans ?_)
    ring_nf
    rfl
  rw [ulView, ulView, (marshal_exp2 f4 g4).2 eD, f5, g5,
    (marshal_exp2 (commit_exp e4 hx.1 hwr.1 h2) (commit_exp e4 hx'.1 hwr1.1 h2')).2 eC, z1, hc, hc']
  congr 4
  refine List.map_congr_left fun j hj => ?_
  have hj' := List.mem_range.1 hj
  obtain ⟨j1, j2, V, a, j3, j4, j5, j6, j7, j8⟩ := f6 j hj'
  obtain ⟨k1, k2, V', a', k3, k4, k5, k6, k7, k8⟩ := g6 j hj'
  have hnd : ¬ d j + sk ≡ 0 [ZMOD bnOrder] := hdj j hj' ▸ hd0 ds x hds j
  obtain ⟨eV, ea, y2, y3⟩ := move_exponents (c := c) (t := w.t j) (s := w.s j) (v := w.v j) hnd j2 k2
    (v' := w'.v j) (s' := w'.s j) (t' := w'.t j) (by rw [hw', ← hdj j hj', ← hdj' j hj']; rfl)
    (by rw [hw', ← hdj j hj', ← hdj' j hj']; rfl) (by rw [hw']; rfl)
  rw [j3, k3, j4, k4, j7, k7, j8, k8, hc, hc', y2, y3]
  simp only [Option.map_some]
  rw [(marshal_exp2 j5 k5).2 eV, ((j6 (hV V (List.mem_of_getElem? j3))).marshal_eq (k6 (hV' V' (List.mem_of_getElem? k3)))).2 ea]

/-! ## Concrete cases -/

/-- Random numbers of a proof for 5 in the set {1, 5, 9} with the key 1234 and the challenge 7, moved to the element 9. -/
def moveExample : SetRandom := ⟨3, 11, 13, 17, 19⟩

/-- A hash function that returns 7. -/
def shaSeven : List UInt8 → List UInt8 := fun _ => List.replicate 31 0 ++ [7]

/-- The hypotheses of `C78_set` hold there. -/
example : moveExample.Reduced ∧ moveSet 1234 7 5 9 moveExample ≠ moveExample ∧
    NoClash (ccsH * moveExample.m) [moveExample.s] ∧ NoClash 5 [ccsH * moveExample.r] ∧
    NoClash (ccsH * (moveSet 1234 7 5 9 moveExample).m) [(moveSet 1234 7 5 9 moveExample).s] ∧
    NoClash 9 [ccsH * (moveSet 1234 7 5 9 moveExample).r] := by
  unfold SetRandom.Reduced
  decide +kernel

/-- Both proofs have the challenge 7 and a `V` that is not normalised. -/
example : (match (do
      let p ← setupSet [1, 5, 9] (some 1234)
      let w := moveExample
      let w' := moveSet 1234 7 5 9 w
      let a ← proveSet shaSeven 5 w.r p w.m w.v w.s w.t
      let b ← proveSet shaSeven 9 w'.r p w'.m w'.v w'.s w'.t
      Res.ok (a, b)) with
    | .ok (some a, some b) => decide (a.c = 7) && decide (b.c = 7) && (!a.V.z.isOne) && (!b.V.z.isOne)
    | _ => false) = true := by decide +kernel

/-- The hypotheses of `C78_ul` for the interval `[0, 4^3)` and the secrets 27 and 9. -/
example : decompose 27 4 3 = .ok [3, 2, 1] ∧ decompose 9 4 3 = .ok [1, 2, 0] ∧
    (∀ m, 0 ≤ m → m < 4 → ¬ m + (1234 : Int) ≡ 0 [ZMOD bnOrder]) ∧
    NoClash (ccsH * 11) (wts 4 (fun j => 17 + j) 0 3) ∧ NoClash 27 [ccsH * 3] ∧
    (let w' := moveUL 1234 7 27 9 (fun j => [3, 2, 1].getD j 0) (fun j => [1, 2, 0].getD j 0)
        ⟨3, 11, fun j => 13 + j, fun j => 17 + j, fun j => 19 + j⟩
     NoClash (ccsH * w'.m) (wts 4 w'.s 0 3) ∧ NoClash 9 [ccsH * w'.r]) := by
  refine ⟨by decide +kernel, by decide +kernel, fun m h0 h1 => ?_, by decide +kernel, by decide +kernel, by decide +kernel⟩
  interval_cases m <;> decide +kernel

/-- The `D` that `ProveSet` hashes. -/
def hashedD (H : TwistPoint) (m s : Int) : TwistPoint :=
  (TwistPoint.new.setInfinity).addSelf ((G2.scalarMult H m).addSelf (G2.scalarBaseMult s))

/-- C78: the challenge computed by the code is not a function of the group elements (C65): it is made from the projective
coordinates of `D`, which differ for `x` and `x'`.  In the example `D` is the same group element and the hashed bytes differ. -/
theorem C78_challenge : ∃ (w : SetRandom) (c x x' sk : Int), w.Reduced ∧
    (G2.marshal (hashedD (G2.scalarBaseMult ccsH) w.m w.s)).1 =
      (G2.marshal (hashedD (G2.scalarBaseMult ccsH) (moveSet sk c x x' w).m (moveSet sk c x x' w).s)).1 ∧
    ∀ a : GfP12, GT.string a ++ G2.string (hashedD (G2.scalarBaseMult ccsH) w.m w.s) ≠
      GT.string a ++ G2.string (hashedD (G2.scalarBaseMult ccsH) (moveSet sk c x x' w).m (moveSet sk c x x' w).s) := by
  refine ⟨moveExample, 7, 5, 9, 1234, by unfold SetRandom.Reduced; decide +kernel, by decide +kernel, fun a h => ?_⟩
  have h1 := ((C65_set _ _ _ _).1 h).2.2.2
  rw [GfP2.val_eq_iff] at h1
  revert h1
  decide +kernel

end Verif

import Verif.Model.BnText
import Verif.Lemmas.Transcript
import Verif.Props.CcsMisc

/-!
# C82: the operations of `GT`; C83: printed group elements
-/

namespace Verif

/-! ## C82 -/

/-- What programs can make in `GT` from pairings: the arguments of `Pair` are a `G1` element and an element of the
group of `G2` (not a negated one, C58), and scalars of `ScalarMult` are not negative (C43). -/
inductive GTElem : GfP12 → Prop
  | pair {b : CurvePoint} {a : TwistPoint} {P : BG1} {k : Int} (hb : Rep1 b P) (ha : Rep2 a (k • bnG2)) (hok : PairOk a) :
      GTElem (pair b a)
  | add {x y : GfP12} (hx : GTElem x) (hy : GTElem y) : GTElem (GT.add x y)
  | neg {x : GfP12} (hx : GTElem x) : GTElem (GT.neg x)
  | invert {x : GfP12} (hx : GTElem x) : GTElem (GT.invert x)
  | scalarMult {x : GfP12} (hx : GTElem x) (k : Int) (hk : 0 ≤ k) : GTElem (GT.scalarMult x k)
  | exp {x : GfP12} (hx : GTElem x) (e : GfP12) (k : Int) : GTElem (GT.exp e x k).1
  | unmarshal {x y : GfP12} (hx : GTElem x) (h : GT.unmarshal (GT.marshal x).1 = some y) : GTElem y
  | marshalled {x : GfP12} (hx : GTElem x) : GTElem (GT.marshal x).2
  | tested {x : GfP12} (hx : GTElem x) : GTElem (GT.isZero x).2
  | tested' {x : GfP12} (hx : GTElem x) : GTElem (GT.isOne x).2

theorem GExp.of_val {x y : GfP12} {k : Int} (hx : GExp x k) (h : y.val = x.val) : GExp y k := h.trans hx

theorem GExp.exp {x : GfP12} {k : Int} (hx : GExp x k) (e : GfP12) (n : Int) : GExp (GT.exp e x n).1 (k * n) := by
  rw [GExp, (C43_exp e x (by rw [hx]; exact Units.ne_zero _) n).1, hx, zpow_mul]
  exact (Units.val_zpow_eq_zpow_val _ _).symm

theorem GTElem.gexp {x : GfP12} (h : GTElem x) : ∃ k, GExp x k := by
  induction h with
  | @pair b a P k hb ha hok =>
    obtain ⟨n, _, rfl⟩ := C37_cyclic P
    exact ⟨n * k, GExp.pair (by rw [natCast_zsmul]; exact hb) ha hok⟩
  | add _ _ ihx ihy => obtain ⟨k, hk⟩ := ihx; obtain ⟨l, hl⟩ := ihy; exact ⟨_, hk.mul hl⟩
  | neg _ ih => obtain ⟨k, hk⟩ := ih; exact ⟨_, hk.invert⟩
  | invert _ ih => obtain ⟨k, hk⟩ := ih; exact ⟨_, hk.invert⟩
  | scalarMult _ n hn ih => obtain ⟨k, hk⟩ := ih; exact ⟨_, hk.scalarMult hn⟩
  | exp _ e n ih => obtain ⟨k, hk⟩ := ih; exact ⟨_, hk.exp e n⟩
  | @unmarshal x y _ h ih =>
    obtain ⟨k, hk⟩ := ih
    rw [(C40_marshal x x).2.1] at h
    cases h
    exact ⟨k, hk.of_val (C40_marshal x x).2.2.1⟩
  | @marshalled x _ ih => obtain ⟨k, hk⟩ := ih; exact ⟨k, hk.of_val (C40_marshal x x).2.2.2.1⟩
  | @tested x _ ih => obtain ⟨k, hk⟩ := ih; exact ⟨k, hk.of_val (C40_marshal x x).2.2.1⟩
  | @tested' x _ ih => obtain ⟨k, hk⟩ := ih; exact ⟨k, hk.of_val (C40_marshal x x).2.2.1⟩

theorem gtElem_utilE : GTElem utilE :=
  .pair (k := 1) rep1_utilG1 (C36_scalarBaseMult 1 (by decide)) (by
    unfold PairOk
    rw [← GfP2.val_one, GfP2.val_eq_iff]
    decide +kernel)

theorem gt_string_eq (x y : GfP12) : GT.string x = GT.string y ↔ x.val = y.val := by
  constructor
  · intro h
    simp only [GT.string, List.append_cancel_left_eq] at h
    exact (GfP12.string_split (r := []) (r' := []) (by rw [List.append_nil, List.append_nil]; exact h)).1
  · intro h
    rw [GT.string, GT.string, GfP12.string_congr h]

/-- C82: `GT` with its methods is the group of integers modulo `Order`: `log` maps the pairing of the generators to 1,
takes every value, turns `Add` into addition, `Neg` and `Invert` into negation, `ScalarMult` and `Exp` into
multiplication by the scalar; `IsOne` tests for 0, `IsZero` is never true; `Marshal` and `String` give the same bytes
exactly for the same element. -/
theorem C82_group : ∃ log : GfP12 → ZMod bnNn, log utilE = 1 ∧ (∀ k, ∃ x, GTElem x ∧ log x = k) ∧
    (∀ x y, GTElem x → GTElem y → log (GT.add x y) = log x + log y) ∧
    (∀ x, GTElem x → log (GT.neg x) = -log x ∧ log (GT.invert x) = -log x) ∧
    (∀ x k, GTElem x → 0 ≤ k → log (GT.scalarMult x k) = k * log x) ∧
    (∀ x e k, GTElem x → log (GT.exp e x k).1 = k * log x) ∧
    (∀ x, GTElem x → ((GT.isOne x).1 = true ↔ log x = 0) ∧ (GT.isZero x).1 = false ∧
      log (GT.isOne x).2 = log x ∧ log (GT.isZero x).2 = log x ∧ log (GT.marshal x).2 = log x) ∧
    (∀ x y, GTElem x → GTElem y → ((GT.marshal x).1 = (GT.marshal y).1 ↔ log x = log y) ∧
      (GT.string x = GT.string y ↔ log x = log y)) := by
  classical
  let log : GfP12 → ZMod bnNn := fun x => if h : ∃ k, GExp x k then ((h.choose : Int) : ZMod bnNn) else 0
  have hcast : ∀ k l : Int, ((k : Int) : ZMod bnNn) = l ↔ k ≡ l [ZMOD bnOrder] := by
    intro k l
    rw [ZMod.intCast_eq_intCast_iff, bnNn_cast]
  have hlog : ∀ {x : GfP12} {k : Int}, GExp x k → log x = k := by
    intro x k hk
    have h : ∃ k, GExp x k := ⟨k, hk⟩
    show (if h : ∃ k, GExp x k then ((h.choose : Int) : ZMod bnNn) else 0) = k
    rw [dif_pos h, hcast]
    exact (h.choose_spec.val_eq hk).1 rfl
  have hz : ∀ {x : GfP12} {k : Int}, GExp x k → GExp x.minimal k := fun {x} _ hk => hk.of_val (C40_marshal x x).2.2.1
  refine ⟨log, by rw [hlog gexp_utilE, Int.cast_one], ?_, ?_, ?_, ?_, ?_, ?_, ?_⟩
  · intro k
    refine ⟨GT.scalarMult utilE k.val, .scalarMult gtElem_utilE _ (Int.natCast_nonneg _), ?_⟩
    rw [hlog (gexp_utilE.scalarMult (Int.natCast_nonneg _)), one_mul, Int.cast_natCast]
    have : NeZero bnNn := ⟨by decide +kernel⟩
    exact ZMod.natCast_zmod_val k
  · intro x y hx hy
    obtain ⟨k, hk⟩ := hx.gexp
    obtain ⟨l, hl⟩ := hy.gexp
    rw [GT.add, hlog (hk.mul hl), hlog hk, hlog hl, Int.cast_add]
  · intro x hx
    obtain ⟨k, hk⟩ := hx.gexp
    rw [GT.neg, GT.invert, hlog hk.invert, hlog hk, Int.cast_neg]
    exact ⟨rfl, rfl⟩
  · intro x n hx hn
    obtain ⟨k, hk⟩ := hx.gexp
    rw [hlog (hk.scalarMult hn), hlog hk, Int.cast_mul, mul_comm]
  · intro x e n hx
    obtain ⟨k, hk⟩ := hx.gexp
    rw [hlog (hk.exp e n), hlog hk, Int.cast_mul, mul_comm]
  · intro x hx
    obtain ⟨k, hk⟩ := hx.gexp
    refine ⟨?_, ?_, (hlog (hz hk)).trans (hlog hk).symm, (hlog (hz hk)).trans (hlog hk).symm,
      (hlog (hk.of_val (C40_marshal x x).2.2.2.1)).trans (hlog hk).symm⟩
    · rw [GT.isOne, hk.isOne, hlog hk, ← hcast, Int.cast_zero]
    · rw [GT.isZero, Bool.eq_false_iff, ne_eq, GfP12.isZero_iff, hk]
      exact Units.ne_zero _
  · intro x y hx hy
    obtain ⟨k, hk⟩ := hx.gexp
    obtain ⟨l, hl⟩ := hy.gexp
    rw [gt_string_eq, hk.val_eq hl, hk.marshal_eq hl, hlog hk, hlog hl, hcast]
    exact ⟨Iff.rfl, Iff.rfl⟩

/-- C82: outside the group the names mislead: 384 zero bytes are accepted by `Unmarshal` and give an element for which
`IsZero` is true; it absorbs every other element in `Add`. -/
theorem C82_zero : ∃ z, GT.unmarshal (List.replicate 384 0) = some z ∧ (GT.isZero z).1 = true ∧
    ∀ x, (GT.isZero (GT.add x z)).1 = true ∧ (GT.isZero (GT.add z x)).1 = true := by
  refine ⟨GfP12.zero, by decide +kernel, by decide +kernel, fun x => ?_⟩
  simp only [GT.isZero, GT.add, GfP12.isZero_iff, GfP12.val_mul, GfP12.val_zero, mul_zero, zero_mul, and_self]

/-- Elements of the group other than the pairing of the generators, and different ones. -/
example : GTElem (GT.add (GT.neg utilE) (GT.scalarMult utilE 7)) ∧ GTElem (GT.exp utilE utilE (-3)).1 ∧
    (GT.marshal (GT.add (GT.neg utilE) (GT.scalarMult utilE 7))).1 ≠ (GT.marshal (GT.exp utilE utilE (-3)).1).1 := by
  refine ⟨.add (.neg gtElem_utilE) (.scalarMult gtElem_utilE 7 (by decide)), .exp gtElem_utilE _ _, ?_⟩
  rw [ne_eq, GT.add, GT.neg, (gexp_utilE.invert.mul (gexp_utilE.scalarMult (n := 7) (by decide))).marshal_eq (gexp_utilE.exp utilE (-3))]
  decide +kernel

/-! ## C83 -/

theorem curve_string_inj {a b : CurvePoint} :
    a.string.1 = b.string.1 ↔ a.makeAffine.x = b.makeAffine.x ∧ a.makeAffine.y = b.makeAffine.y := by
  constructor
  · intro h
    simp only [CurvePoint.string, List.append_assoc, List.cons_append, List.nil_append, List.cons.injEq, true_and] at h
    obtain ⟨h1, h2⟩ := split_unique (decimal_noSep _).1 (decimal_noSep _).1 h
    simp only [List.cons.injEq, true_and] at h2
    obtain ⟨h3, _⟩ := split_unique (decimal_noSep _).2 (decimal_noSep _).2 h2
    exact ⟨Option.some.inj (decimal_injective h1), Option.some.inj (decimal_injective h3)⟩
  · rintro ⟨h1, h2⟩
    simp only [CurvePoint.string, h1, h2]

/-- A point with `z = 1` has reduced coordinates. -/
def Canonical (a : CurvePoint) : Prop := a.z = 1 → 0 ≤ a.x ∧ a.x < bnP ∧ 0 ≤ a.y ∧ a.y < bnP

theorem makeAffine_reduced {a : CurvePoint} {Q : BG1} (ha : Rep1 a Q) (h : Canonical a) :
    a.makeAffine.x % bnP = a.makeAffine.x ∧ a.makeAffine.y % bnP = a.makeAffine.y := by
  unfold CurvePoint.makeAffine
  by_cases hz : a.z.natAbs = 1
  · have : a.z = 1 := by have := ha.2.1; omega
    obtain ⟨h1, h2, h3, h4⟩ := h this
    rw [if_pos hz]
    exact ⟨Int.emod_eq_of_lt h1 h2, Int.emod_eq_of_lt h3 h4⟩
  · rw [if_neg hz]
    split
    · exact ⟨rfl, rfl⟩
    · exact ⟨Int.emod_emod_of_dvd _ dvd_rfl, Int.emod_emod_of_dvd _ dvd_rfl⟩

/-- C83: `G1.String` writes to the element, but does not change the point; equal texts are texts of the same point; and
for points whose coordinates are reduced if `z = 1`, the text depends on the point only. -/
theorem C83_G1 (a b : CurvePoint) (Q R : BG1) (ha : Rep1 a Q) (hb : Rep1 b R) :
    Rep1 (G1.string a).2 Q ∧ ((G1.string a).1 = (G1.string b).1 → Q = R) ∧
    (Canonical a → Canonical b → ((G1.string a).1 = (G1.string b).1 ↔ Q = R)) := by
  have hs : (G1.string a).1 = (G1.string b).1 ↔
      a.makeAffine.x = b.makeAffine.x ∧ a.makeAffine.y = b.makeAffine.y := by
    rw [← curve_string_inj]
    simp only [G1.string, List.append_cancel_left_eq]
  have h1 : (G1.string a).1 = (G1.string b).1 → Q = R := by
    rw [hs, ← C38_injective a b Q R ha hb]
    rintro ⟨e1, e2⟩
    simp only [G1.marshal, e1, e2]
  refine ⟨CurvePoint.makeAffine_rep ha, h1, fun ca cb => ⟨h1, ?_⟩⟩
  rintro rfl
  rw [hs]
  by_cases hQ : Q = 0
  · subst hQ
    rw [CurvePoint.makeAffine_infinity ha, CurvePoint.makeAffine_infinity hb]
    exact ⟨rfl, rfl⟩
  · obtain ⟨e1, e2⟩ := ((ha.affine hQ).inj (hb.affine hQ)).1 rfl
    have := (bf_eq_iff _ _).1 e1
    have := (bf_eq_iff _ _).1 e2
    have := makeAffine_reduced ha ca
    have := makeAffine_reduced hb cb
    omega

/-- `3·g + 4·g` and `7·g`, which are different objects for one point. -/
example := C83_G1 (CurvePoint.add .new (G1.scalarBaseMult .new 3) (G1.scalarBaseMult .new 4)) (G1.scalarBaseMult .new 7) _ _
  (C34_add _ _ _ _ _ (C34_scalarBaseMult .new 3) (C34_scalarBaseMult .new 4)) (C34_scalarBaseMult .new 7)

/-- C83: exactly the points with unreduced coordinates and `z = 1` print differently from the result of sending them
through `Marshal` and `Unmarshal`. -/
theorem C83_G1_canonical (a : CurvePoint) (Q : BG1) (ha : Rep1 a Q) :
    ∃ p, G1.unmarshal (G1.marshal a).1 = some p ∧ Rep1 p Q ∧ Canonical p ∧
      ((G1.string a).1 = (G1.string p).1 ↔ Canonical a) := by
  obtain ⟨p, hp, hr⟩ := C38_roundtrip a Q ha
  have hc : Canonical p := by
    intro hz
    obtain ⟨h1, h2, h3⟩ := emod_range a.makeAffine.x
    obtain ⟨h4, h5, h6⟩ := emod_range a.makeAffine.y
    simp only [G1.marshal, G1.unmarshal_words h1 h3 h4 h6] at hp
    split at hp
    · cases hp
      cases hz
    split at hp
    · cases hp
    cases hp
    exact ⟨h1, h2, h4, h5⟩
  refine ⟨p, hp, hr, hc, ?_⟩
  refine ⟨fun h => ?_, fun h => ((C83_G1 a p Q Q ha hr).2.2 h hc).2 rfl⟩
  intro hz
  have h' : a.makeAffine.x = p.makeAffine.x ∧ a.makeAffine.y = p.makeAffine.y := by
    rw [← curve_string_inj]
    simpa only [G1.string, List.append_cancel_left_eq] using h
  have hm : a.makeAffine = a := by
    rw [CurvePoint.makeAffine, if_pos (by rw [hz]; rfl)]
  obtain ⟨h1, h2⟩ := makeAffine_reduced hr hc
  rw [← h'.1, hm] at h1
  rw [← h'.2, hm] at h2
  have := emod_range a.x
  have := emod_range a.y
  omega

example := C83_G1_canonical (G1.scalarBaseMult .new (-7)) _ (C34_scalarBaseMult .new (-7))

/-- C83: such points are common: the generator is one (its text has the negative `y` of the source), and `Neg` makes them. -/
theorem C83_G1_witness : ¬ Canonical .gen ∧ Rep1 .gen bnG1 ∧
    (G1.string .gen).1 = "bn256.G1(1, -2)".toUTF8.toList ∧
    (∃ p, G1.unmarshal (G1.marshal .gen).1 = some p ∧ Rep1 p bnG1 ∧ (G1.string p).1 ≠ (G1.string .gen).1 ∧
      ¬ Canonical p.neg) ∧
    (∀ a : CurvePoint, Rep1 a 0 → (G1.string a).1 = "bn256.G1(0, 1)".toUTF8.toList) := by
  have hn : ¬ Canonical .gen := fun h => absurd (h rfl).2.2.1 (by decide)
  refine ⟨hn, rep1_gen, by decide +kernel, ?_, fun a ha => ?_⟩
  · obtain ⟨p, hp, hr, hc, h⟩ := C83_G1_canonical .gen bnG1 rep1_gen
    refine ⟨p, hp, hr, fun e => hn (h.1 e.symm), fun hc' => ?_⟩
    have e : G1.unmarshal (G1.marshal .gen).1 = some ⟨1, bnP - 2, 1, 1⟩ := by decide +kernel
    rw [e] at hp
    cases hp
    exact absurd (hc' rfl).2.2.1 (by decide +kernel)
  · rw [G1.string, CurvePoint.string, CurvePoint.makeAffine_infinity ha]
    decide +kernel

/-- Canonical elements: a multiple of the generator with `z ≠ 1`, and what `Unmarshal` returns. -/
example : Rep1 (G1.scalarBaseMult .new 5) ((5 : Int) • bnG1) ∧ (G1.scalarBaseMult .new 5).z ≠ 1 ∧
    Canonical (G1.scalarBaseMult .new 5) := by
  have h : (G1.scalarBaseMult .new 5).z ≠ 1 := by decide +kernel
  exact ⟨C34_scalarBaseMult _ _, h, fun h' => absurd h' h⟩

/-- C83: the texts of two `G2` elements are equal exactly if the stored projective coordinates are equal modulo `p`; then
they are the same point.  The converse is false (`C65_not_canonical`), but holds for finite points after `Marshal`. -/
theorem C83_G2 (a b : TwistPoint) (Q R : BG2) (ha : Rep2 a Q) (hb : Rep2 b R) :
    (G2.string a = G2.string b ↔ a.x.val = b.x.val ∧ a.y.val = b.y.val ∧ a.z.val = b.z.val) ∧
    (G2.string a = G2.string b → Q = R) ∧
    (Q ≠ 0 → R ≠ 0 → (G2.string (G2.marshal a).2 = G2.string (G2.marshal b).2 ↔ Q = R)) := by
  have hs : ∀ a b : TwistPoint,
      G2.string a = G2.string b ↔ a.x.val = b.x.val ∧ a.y.val = b.y.val ∧ a.z.val = b.z.val := by
    intro a b
    simp only [G2.string, List.append_cancel_left_eq]
    refine ⟨TwistPoint.string_inj, fun ⟨h1, h2, h3⟩ => ?_⟩
    rw [TwistPoint.string, TwistPoint.string, GfP2.string_congr h1, GfP2.string_congr h2, GfP2.string_congr h3]
  have h1 : ∀ a b : TwistPoint, Rep2 a Q → Rep2 b R → G2.string a = G2.string b → Q = R := by
    intro a b ha hb h
    obtain ⟨e1, e2, e3⟩ := (hs a b).1 h
    have h2 := ha.1
    rw [e1, e2, e3] at h2
    refine Rep2.unique (a := b) ⟨h2, hb.2⟩ hb
  refine ⟨hs a b, h1 a b ha hb, fun hQ hR => ?_⟩
  obtain ⟨r1, z1⟩ := (C36_makeAffine a Q ha).1 hQ
  obtain ⟨r2, z2⟩ := (C36_makeAffine b R hb).1 hR
  refine ⟨h1 _ _ r1 r2, ?_⟩
  rintro rfl
  obtain ⟨e1, e2⟩ := ((ha.affine hQ).inj (hb.affine hQ)).1 rfl
  exact (hs _ _).2 ⟨e1, e2, by rw [G2.marshal, G2.marshal, z1, z2]⟩

/-- The same finite `G2` element with two texts, which agree after `Marshal`. -/
example : Rep2 (G2.scalarBaseMult 5) ((5 : Int) • bnG2) ∧ (5 : Int) • bnG2 ≠ 0 ∧
    G2.string (G2.scalarBaseMult 5) ≠ G2.string (G2.marshal (G2.scalarBaseMult 5)).2 := by
  refine ⟨C36_scalarBaseMult 5 (by decide), ?_, fun h => ?_⟩
  · rw [ne_eq, bnG2_zsmul_zero]
    decide +kernel
  · have hr := C36_scalarBaseMult 5 (by decide)
    have h5 : (5 : Int) • bnG2 ≠ 0 := by
      rw [ne_eq, bnG2_zsmul_zero]
      decide +kernel
    have h1 := ((C83_G2 _ _ _ _ hr ((C36_makeAffine _ _ hr).1 h5).1).1.1 h).2.2
    rw [GfP2.val_eq_iff] at h1
    revert h1
    decide +kernel

end Verif

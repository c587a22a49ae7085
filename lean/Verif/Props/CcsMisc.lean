import Verif.Props.CcsUL

/-! # C63-C66: commitments, repeated verification and challenge of ccs08 -/

namespace Verif

/-! ## C63 -/

/-- C63: the commitments of `(x, r)` and `(x', r')` are equal exactly when `x + h·r ≡ x' + h·r'`,
`h` being the discrete logarithm of `H`, which is a constant in the source. -/
theorem C63_equal (x r x' r' h : Int) (H : TwistPoint) (hH : Rep2 H (h • bnG2)) (hx : 0 ≤ x) (hr : 0 ≤ r)
    (hx' : 0 ≤ x') (hr' : 0 ≤ r') (h1 : NoClash x [h * r]) (h2 : NoClash x' [h * r']) :
    (G2.marshal (commit x r H)).1 = (G2.marshal (commit x' r' H)).1 ↔
      x + h * r ≡ x' + h * r' [ZMOD bnOrder] :=
  marshal_exp2 (commit_exp hH hx hr h1) (commit_exp hH hx' hr' h2)

example := C63_equal 5 3 1000000 4 ccsH (G2.scalarBaseMult ccsH) (C36_scalarBaseMult _ (by decide +kernel)) (by decide) (by decide)
  (by decide) (by decide) (by decide +kernel) (by decide +kernel)

/-- The blinding factor that opens the commitment of `(x, r)` to `x'`. -/
def equivocate (x r x' : Int) : Int :=
  (r + (x - x') * (modInverse ccsH bnOrder).getD 0) % bnOrder

/-- C63: commitments are not binding: everybody can open the commitment of `(x, r)` to every `x'`. -/
theorem C63_not_binding (x r x' : Int) (hx : 0 ≤ x) (hr : 0 ≤ r) (hx' : 0 ≤ x') (h1 : NoClash x [ccsH * r])
    (h2 : NoClash x' [ccsH * equivocate x r x']) :
    (G2.marshal (commit x r (G2.scalarBaseMult ccsH))).1 =
      (G2.marshal (commit x' (equivocate x r x') (G2.scalarBaseMult ccsH))).1 := by
  refine (C63_equal x r x' (equivocate x r x') ccsH _ (C36_scalarBaseMult _ (by decide)) hx hr hx' (emod_order_nonneg _) h1 h2).2 ?_
  have hi : ccsH * (modInverse ccsH bnOrder).getD 0 ≡ 1 [ZMOD bnOrder] := by decide +kernel
  have h3 : equivocate x r x' ≡ r + (x - x') * (modInverse ccsH bnOrder).getD 0 [ZMOD bnOrder] :=
    Int.mod_modEq _ _
  generalize equivocate x r x' = e at *
  generalize (modInverse ccsH bnOrder).getD 0 = i at *
  generalize ccsH = h at *
  have h4 := (h3.mul_left h).add_left x'
  have h5 := (hi.mul_left (x - x')).add_left (x' + h * r)
  ring_nf at h4 h5 ⊢
  exact (h4.trans h5).symm

/-- A commitment to 5 opened as one to a million. -/
example := C63_not_binding 5 3 1000000 (by decide) (by decide) (by decide) (by decide +kernel) (by decide +kernel)

/-- Every element of the subgroup is the commitment of every value (`r' = (k - x')/h`), so a
commitment carries no information about the value at all. -/
theorem C63_hiding (k x : Int) (hx : 0 ≤ x) (hn : NoClash x [ccsH * equivocate k 0 x]) :
    Rep2 (commit x (equivocate k 0 x) (G2.scalarBaseMult ccsH)) (k • bnG2) := by
  refine rep2_congr ?_ (commit_exp (C36_scalarBaseMult _ (by decide)) hx (emod_order_nonneg _) hn)
  have hi : ccsH * (modInverse ccsH bnOrder).getD 0 ≡ 1 [ZMOD bnOrder] := by decide +kernel
  have h3 : equivocate k 0 x ≡ 0 + (k - x) * (modInverse ccsH bnOrder).getD 0 [ZMOD bnOrder] :=
    Int.mod_modEq _ _
  generalize (modInverse ccsH bnOrder).getD 0 = i at *
  generalize ccsH = h at *
  have h4 := (h3.mul_left h).add_left x
  have h5 := (hi.mul_left (k - x)).add_left x
  ring_nf at h4 h5 ⊢
  exact h4.trans h5

example : NoClash 5 [ccsH * 3] ∧ NoClash 1000000 [ccsH * equivocate 5 3 1000000] ∧
    NoClash 5 [ccsH * equivocate 42 0 5] := by decide +kernel

/-- C63: the exception is real: for `h·r ≡ x` the two factors are equal, and the in-place addition
gives coordinates that are not a point of the curve. -/
theorem C63_coincidence :
    ∃ r, ccsH * r ≡ 5 [ZMOD bnOrder] ∧ ∀ R : BG2, ¬ Rep2 (commit 5 r (G2.scalarBaseMult ccsH)) R := by
  refine ⟨equivocate 5 0 0, by decide +kernel, fun R h => ?_⟩
  have hb : Rep2 (G2.scalarMult (G2.scalarBaseMult ccsH) (equivocate 5 0 0)) ((5 : Int) • bnG2) :=
    rep2_congr (by decide +kernel) (scalarMult_exp2 (C36_scalarBaseMult ccsH (by decide)) (equivocate 5 0 0)
      (emod_order_nonneg _))
  have h5 : (5 : Int) • bnG2 ≠ 0 := by rw [ne_eq, bnG2_zsmul_zero]; decide +kernel
  rw [commit, TwistPoint.addSelf_eq (C36_scalarBaseMult 5 (by decide)) hb h5] at h
  have h0 : G2.unmarshal (G2.marshal (TwistPoint.doubleSelf (G2.scalarBaseMult 5))).1 = none := by
    decide +kernel
  obtain ⟨q, hq, _⟩ := C39_roundtrip _ _ h
  rw [h0] at hq
  cases hq

/-! ## C64 -/

theorem makeAffine_one (D : TwistPoint) : D.makeAffine.z.isOne = true := by
  unfold TwistPoint.makeAffine
  split
  · assumption
  · rfl

theorem makeAffine_idem (D : TwistPoint) : D.makeAffine.makeAffine = D.makeAffine :=
  (C58_invariant D.makeAffine []).2.2.2 (makeAffine_one D)

theorem unmarshal_marshal_gt (a : GfP12) : GT.unmarshal (GT.marshal a).1 = some a.minimal := by
  rw [GT.marshal_eq, GT.unmarshal_coords _ a.minimal_coords]

theorem GfP2.minimal_idem (a : GfP2) : a.minimal.minimal = a.minimal := by
  have h : ∀ x : Int, (if (if x < 0 ∨ x ≥ bnP then x % bnP else x) < 0 ∨
      (if x < 0 ∨ x ≥ bnP then x % bnP else x) ≥ bnP then
        (if x < 0 ∨ x ≥ bnP then x % bnP else x) % bnP
      else if x < 0 ∨ x ≥ bnP then x % bnP else x) = if x < 0 ∨ x ≥ bnP then x % bnP else x := by
    intro x
    by_cases hx : x < 0 ∨ x ≥ bnP
    · simp only [if_pos hx, Int.emod_emod_of_dvd x (dvd_refl bnP), ite_self]
    · simp only [if_neg hx]
  unfold GfP2.minimal
  exact congrArg₂ GfP2.mk (h a.x) (h a.y)

theorem GfP12.minimal_idem (a : GfP12) : a.minimal.minimal = a.minimal := by
  simp [GfP12.minimal, GfP6.minimal, GfP2.minimal_idem]

/-- C64: `VerifySet` may be repeated: on the proof as the first call leaves it, every further call
returns the same verdict and changes nothing more. -/
theorem C64_set (pr pr' : ProofSet) (p : ParamsSet) (b : Bool) (h : verifySet pr p = .ok (b, pr')) :
    verifySet pr' p = .ok (b, pr') := by
  unfold verifySet at h ⊢
  simp only [Res.bind_eq_ok] at h
  obtain ⟨pk, hpk, h⟩ := h
  simp only [Res.ok.injEq, Prod.mk.injEq] at h
  obtain ⟨h1, rfl⟩ := h
  simp only [hpk, Res.ok_bind, G2.marshal, GT.marshal, makeAffine_idem, GfP12.minimal_idem]
  simp only [G2.marshal, GT.marshal] at h1
  rw [h1]

/-- C64: what `VerifySet` leaves behind: `D` has `z = 1` and the encoding it had before, `a` is the value
which decoding its own encoding gives, and the other fields are as before. -/
theorem C64_set_after (pr pr' : ProofSet) (p : ParamsSet) (b : Bool) (h : verifySet pr p = .ok (b, pr')) :
    pr' = { pr with D := pr'.D, a := pr'.a } ∧ pr'.D.z.isOne = true ∧
    (G2.marshal pr'.D).1 = (G2.marshal pr.D).1 ∧ GT.unmarshal (GT.marshal pr.a).1 = some pr'.a := by
  unfold verifySet at h
  simp only [Res.bind_eq_ok] at h
  obtain ⟨pk, hpk, h⟩ := h
  simp only [Res.ok.injEq, Prod.mk.injEq] at h
  obtain ⟨_, rfl⟩ := h
  exact ⟨rfl, makeAffine_one _, by simp only [G2.marshal, makeAffine_idem], unmarshal_marshal_gt _⟩

theorem verifyULA_a (pk : Option CurvePoint) (pr : ProofUL) : ∀ (n i : Nat) (r2 b : Bool) (as : List GfP12),
    verifyULA pk pr n i r2 = .ok (b, as) →
    as.length = n ∧ ∀ j, j < n → as[j]? = (pr.a[i + j]?).map GfP12.minimal
  | 0, _, _, _, _, h => by cases h; simp
  | n + 1, i, r2, b, as, h => by
    rw [verifyULA] at h
    simp only [Res.bind_eq_ok] at h
    obtain ⟨V, _, pk', _, z, _, w, _, a, ha, rest, hr, h⟩ := h
    simp only [Res.ok.injEq, Prod.mk.injEq] at h
    obtain ⟨_, rfl⟩ := h
    obtain ⟨h1, h2⟩ := verifyULA_a pk pr n (i + 1) _ rest.1 rest.2 hr
    refine ⟨by simp [h1], fun j hj => ?_⟩
    cases j with
    | zero =>
      have ha' : pr.a[i]? = some a := by
        unfold idx at ha
        cases hh : pr.a[i]? with
        | none => rw [hh] at ha; cases ha
        | some a' => rw [hh] at ha; cases ha; rfl
      simp [ha', GT.marshal]
    | succ j =>
      rw [List.getElem?_cons_succ, h2 j (by omega), show i + 1 + j = i + (j + 1) by omega]

theorem verifyULA_again (pk : Option CurvePoint) (pr : ProofUL) (D : TwistPoint) (a' : List GfP12) :
    ∀ (n i : Nat) (r2 : Bool), (∀ j, i ≤ j → j < i + n → a'[j]? = (pr.a[j]?).map GfP12.minimal) →
    verifyULA pk { pr with D := D, a := a' } n i r2 = verifyULA pk pr n i r2
  | 0, _, _, _ => rfl
  | n + 1, i, r2, h => by
    have ih := fun r2 => verifyULA_again pk pr D a' n (i + 1) r2 (fun j h1 h2 => h j (by omega) (by omega))
    rw [verifyULA, verifyULA]
    simp only [ih, idx, h i (le_refl i) (by omega)]
    cases hh : pr.a[i]? with
    | none => rfl
    | some a =>
      simp only [Option.map_some, Res.ofOption_some, Res.ok_bind, GT.marshal, GfP12.minimal_idem]

/-- C64: what `VerifyUL` leaves behind: `D` and the first `l` values of `a` are normalised as in
`C64_set_after`, everything else is as before. -/
theorem C64_ul_after (pr pr' : ProofUL) (p : ParamsUL) (b : Bool) (h : verifyUL pr p = .ok (b, pr')) :
    pr' = { pr with D := pr'.D, a := pr'.a } ∧ pr'.D.z.isOne = true ∧
    (G2.marshal pr'.D).1 = (G2.marshal pr.D).1 ∧
    (∀ j, j < p.l.toNat → pr'.a[j]? = (pr.a[j]?).bind fun a => GT.unmarshal (GT.marshal a).1) ∧
    ∀ j, p.l.toNat ≤ j → pr'.a[j]? = pr.a[j]? := by
  unfold verifyUL at h
  simp only [Res.bind_eq_ok] at h
  obtain ⟨D, hD, res, hA, h⟩ := h
  simp only [Res.ok.injEq, Prod.mk.injEq] at h
  obtain ⟨_, rfl⟩ := h
  obtain ⟨l1, l2⟩ := verifyULA_a p.kp.pubk pr p.l.toNat 0 true res.1 res.2 hA
  refine ⟨rfl, makeAffine_one _, by simp only [G2.marshal, makeAffine_idem], fun j hj => ?_, fun j hj => ?_⟩
  · simp only
    rw [List.getElem?_append_left (by omega), l2 j hj, zero_add]
    cases pr.a[j]? with
    | none => rfl
    | some a => simp [unmarshal_marshal_gt]
  · simp only
    rw [List.getElem?_append_right (by omega), l1, List.getElem?_drop]
    congr 1; omega

/-- C64: the same for `VerifyUL`. -/
theorem C64_ul (pr pr' : ProofUL) (p : ParamsUL) (b : Bool) (h : verifyUL pr p = .ok (b, pr')) :
    verifyUL pr' p = .ok (b, pr') := by
  unfold verifyUL at h ⊢
  simp only [Res.bind_eq_ok] at h
  obtain ⟨D, hD, res, hA, h⟩ := h
  simp only [Res.ok.injEq, Prod.mk.injEq] at h
  obtain ⟨h1, rfl⟩ := h
  obtain ⟨l1, l2⟩ := verifyULA_a p.kp.pubk pr p.l.toNat 0 true res.1 res.2 hA
  have hag := verifyULA_again p.kp.pubk pr (G2.marshal pr.D).2 (res.2 ++ pr.a.drop p.l.toNat) p.l.toNat 0 true
    (fun j _ hj => by
      rw [List.getElem?_append_left (by omega), l2 j (by omega), zero_add])
  have hm : G2.marshal (G2.marshal pr.D).2 = G2.marshal pr.D := by
    simp only [G2.marshal, makeAffine_idem]
  simp only [hD, Res.ok_bind, hag, hA, hm]
  rw [h1]
  simp [l1]

/-- C64: and for `Verify`. -/
theorem C64_range (pr pr' : CcsProof) (p : Option CcsParams) (b : Bool) (h : ccsVerify pr p = .ok (b, pr')) :
    ccsVerify pr' p = .ok (b, pr') := by
  unfold ccsVerify at h ⊢
  simp only [Res.bind_eq_ok] at h
  obtain ⟨q, hq, p1, _, f, hf, p2, _, g, hg, h⟩ := h
  simp only [Res.ok.injEq, Prod.mk.injEq] at h
  obtain ⟨h1, rfl⟩ := h
  simp only [hq, Res.ok_bind, Res.ofOption_some, C64_ul _ _ _ _ hf, C64_ul _ _ _ _ hg, h1]

/-- A verification that changes the proof: the stored `D` of this proof is not affine. -/
example : (G2.marshal (G2.scalarBaseMult 5)).2 ≠ G2.scalarBaseMult 5 := by decide +kernel

/-! ## C65 -/

theorem decimalNat_digit (n : Nat) : ∀ c ∈ decimalNat n, c ≠ 44 ∧ c ≠ 41 := by
  intro c hc
  unfold decimalNat at hc
  split at hc
  · simp at hc; subst hc; decide
  · simp only [List.mem_map, List.mem_reverse] at hc
    obtain ⟨d, hd, rfl⟩ := hc
    have := Nat.digits_lt_base (by norm_num : 1 < 10) hd
    interval_cases d <;> decide

theorem map_digit_inj : ∀ {a b : List Nat}, (∀ d ∈ a, d < 10) → (∀ d ∈ b, d < 10) →
    a.map (fun d => UInt8.ofNat (48 + d)) = b.map (fun d => UInt8.ofNat (48 + d)) → a = b
  | [], [], _, _, _ => rfl
  | [], _ :: _, _, _, h => by simp at h
  | _ :: _, [], _, _, h => by simp at h
  | x :: a, y :: b, ha, hb, h => by
    simp only [List.map_cons, List.cons.injEq] at h
    have hx := ha x List.mem_cons_self
    have hy := hb y List.mem_cons_self
    have h1 := congrArg UInt8.toNat h.1
    rw [UInt8.toNat_ofNat', UInt8.toNat_ofNat', Nat.mod_eq_of_lt (by omega), Nat.mod_eq_of_lt (by omega)] at h1
    rw [map_digit_inj (fun d hd => ha d (List.mem_cons_of_mem _ hd))
      (fun d hd => hb d (List.mem_cons_of_mem _ hd)) h.2, show x = y by omega]

theorem decimalNat_inj {n m : Nat} (h : decimalNat n = decimalNat m) : n = m := by
  have hz : ∀ k, k ≠ 0 → (Nat.digits 10 k).reverse.map (fun d => UInt8.ofNat (48 + d)) ≠ [48] := by
    intro k hk hc
    have h1 : ((Nat.digits 10 k).map (fun d => UInt8.ofNat (48 + d))).reverse = [48] := by
      rw [← List.map_reverse]; exact hc
    have h2 := congrArg List.reverse h1
    rw [List.reverse_reverse, List.reverse_singleton] at h2
    obtain ⟨d, hd⟩ := List.length_eq_one_iff.1 (by simpa using congrArg List.length h2)
    rw [hd] at h2
    have hlt : d < 10 := Nat.digits_lt_base (by norm_num : 1 < 10) (by rw [hd]; simp)
    have : d = 0 := by
      simp only [List.map_cons, List.map_nil, List.cons.injEq, and_true] at h2
      interval_cases d <;> first | rfl | (exact absurd h2 (by decide))
    have := Nat.ofDigits_digits 10 k
    rw [hd] at this
    simp_all
  unfold decimalNat at h
  split at h <;> split at h
  · omega
  · exact absurd h.symm (hz m ‹_›)
  · exact absurd h (hz n ‹_›)
  · have h1 : (Nat.digits 10 n).reverse = (Nat.digits 10 m).reverse := by
      exact map_digit_inj (fun d hd => Nat.digits_lt_base (by norm_num : 1 < 10) (List.mem_reverse.1 hd))
        (fun d hd => Nat.digits_lt_base (by norm_num : 1 < 10) (List.mem_reverse.1 hd)) h
    exact Nat.digits_inj_iff.1 (List.reverse_injective h1)

/-- Strings without the separator followed by the separator: unique splitting. -/
theorem split_at_sep {c : UInt8} : ∀ {a b r r' : List UInt8}, (∀ x ∈ a, x ≠ c) → (∀ x ∈ b, x ≠ c) →
    a ++ c :: r = b ++ c :: r' → a = b ∧ r = r'
  | [], [], _, _, _, _, h => ⟨rfl, by simpa using h⟩
  | [], y :: b, _, _, _, hb, h => by
    simp only [List.nil_append, List.cons_append, List.cons.injEq] at h
    exact absurd h.1.symm (hb y List.mem_cons_self)
  | y :: a, [], _, _, ha, _, h => by
    simp only [List.nil_append, List.cons_append, List.cons.injEq] at h
    exact absurd h.1 (ha y List.mem_cons_self)
  | x :: a, y :: b, r, r', ha, hb, h => by
    simp only [List.cons_append, List.cons.injEq] at h
    obtain ⟨h1, h2⟩ := split_at_sep (fun z hz => ha z (List.mem_cons_of_mem _ hz))
      (fun z hz => hb z (List.mem_cons_of_mem _ hz)) h.2
    exact ⟨by rw [h.1, h1], h2⟩

theorem emod_toNat_eq {x y : Int} (h : (x % bnP).toNat = (y % bnP).toNat) : x ≡ y [ZMOD bnP] := by
  have h1 := Int.emod_nonneg x (b := bnP) (by decide +kernel)
  have h2 := Int.emod_nonneg y (b := bnP) (by decide +kernel)
  show x % bnP = y % bnP
  omega

theorem GfP2.string_split {a b : GfP2} {r r' : List UInt8} (h : a.string ++ r = b.string ++ r') :
    a.val = b.val ∧ r = r' := by
  simp only [GfP2.string, List.append_assoc, List.cons_append, List.cons.injEq,
    true_and, List.nil_append] at h
  obtain ⟨h1, h2⟩ := split_at_sep (fun x hx => (decimalNat_digit _ x hx).1)
    (fun x hx => (decimalNat_digit _ x hx).1) h
  obtain ⟨h3, h4⟩ := split_at_sep (fun x hx => (decimalNat_digit _ x hx).2)
    (fun x hx => (decimalNat_digit _ x hx).2) h2
  exact ⟨(GfP2.val_eq_iff a b).2 ⟨emod_toNat_eq (decimalNat_inj h1), emod_toNat_eq (decimalNat_inj h3)⟩, h4⟩

theorem GfP6.string_split {a b : GfP6} {r r' : List UInt8} (h : a.string ++ r = b.string ++ r') :
    a.val = b.val ∧ r = r' := by
  simp only [GfP6.string, List.append_assoc, List.cons_append, List.cons.injEq, true_and, List.nil_append] at h
  obtain ⟨h1, h2⟩ := GfP2.string_split h
  simp only [List.cons.injEq, true_and] at h2
  obtain ⟨h3, h4⟩ := GfP2.string_split h2
  simp only [List.cons.injEq, true_and] at h4
  obtain ⟨h5, h6⟩ := GfP2.string_split h4
  simp only [List.cons.injEq, true_and] at h6
  exact ⟨(GfP6.val_eq_iff a b).2 ⟨h1, h3, h5⟩, h6⟩

theorem GfP12.string_split {a b : GfP12} {r r' : List UInt8} (h : a.string ++ r = b.string ++ r') :
    a.val = b.val ∧ r = r' := by
  simp only [GfP12.string, List.append_assoc, List.cons_append, List.cons.injEq, true_and, List.nil_append] at h
  obtain ⟨h1, h2⟩ := GfP6.string_split h
  simp only [List.cons.injEq, true_and] at h2
  obtain ⟨h3, h4⟩ := GfP6.string_split h2
  simp only [List.cons.injEq, true_and] at h4
  exact ⟨(GfP12.val_eq_iff a b).2 ⟨h1, h3⟩, h4⟩

theorem TwistPoint.string_inj {a b : TwistPoint} (h : a.string = b.string) :
    a.x.val = b.x.val ∧ a.y.val = b.y.val ∧ a.z.val = b.z.val := by
  simp only [TwistPoint.string, List.append_assoc, List.cons_append, List.cons.injEq, true_and,
    List.nil_append] at h
  obtain ⟨h1, h2⟩ := GfP2.string_split h
  simp only [List.cons.injEq, true_and] at h2
  obtain ⟨h3, h4⟩ := GfP2.string_split h2
  simp only [List.cons.injEq, true_and] at h4
  exact ⟨h1, h3, (GfP2.string_split h4).1⟩

theorem GfP2.string_congr {a b : GfP2} (h : a.val = b.val) : a.string = b.string := by
  obtain ⟨h1, h2⟩ := (GfP2.val_eq_iff a b).1 h
  simp only [GfP2.string, h1, h2]

theorem GfP12.string_congr {a b : GfP12} (h : a.val = b.val) : a.string = b.string := by
  obtain ⟨h1, h2⟩ := (GfP12.val_eq_iff a b).1 h
  obtain ⟨h3, h4, h5⟩ := (GfP6.val_eq_iff _ _).1 h1
  obtain ⟨h6, h7, h8⟩ := (GfP6.val_eq_iff _ _).1 h2
  simp only [GfP12.string, GfP6.string, GfP2.string_congr h3, GfP2.string_congr h4, GfP2.string_congr h5,
    GfP2.string_congr h6, GfP2.string_congr h7, GfP2.string_congr h8]

/-- C65: the bytes hashed by `Hash` determine, and are determined by, the values of all the `a[i]`,
how many there are, and the three projective coordinates stored in `D`. -/
theorem C65_preimage : ∀ (a a' : List GfP12) (D D' : TwistPoint),
    (a.map GT.string).flatten ++ G2.string D = (a'.map GT.string).flatten ++ G2.string D' ↔
      a.map GfP12.val = a'.map GfP12.val ∧ D.x.val = D'.x.val ∧ D.y.val = D'.y.val ∧ D.z.val = D'.z.val := by
  intro a a' D D'
  constructor
  · intro h
    induction a generalizing a' with
    | nil =>
      cases a' with
      | nil =>
        simp only [List.map_nil, List.flatten_nil, List.nil_append, G2.string, List.append_cancel_left_eq] at h
        exact ⟨rfl, TwistPoint.string_inj h⟩
      | cons y a' => simp [GT.string, G2.string] at h
    | cons x a ih =>
      cases a' with
      | nil => simp [GT.string, G2.string] at h
      | cons y a' =>
        simp only [List.map_cons, List.flatten_cons, List.append_assoc, GT.string, List.append_cancel_left_eq] at h
        obtain ⟨h1, h2⟩ := GfP12.string_split h
        obtain ⟨h3, h4⟩ := ih a' h2
        exact ⟨by rw [List.map_cons, List.map_cons, h1, h3], h4⟩
  · rintro ⟨h1, h2, h3, h4⟩
    have hD : G2.string D = G2.string D' := by
      simp only [G2.string, TwistPoint.string, GfP2.string_congr h2, GfP2.string_congr h3, GfP2.string_congr h4]
    rw [hD]
    congr 2
    apply List.ext_getElem
    · simpa using congrArg List.length h1
    · intro j j1 j2
      simp only [List.getElem_map, GT.string]
      have := List.getElem_of_eq h1 (by simpa using j1)
      simp only [List.getElem_map] at this
      rw [GfP12.string_congr this]

/-- C65: the same for `HashSet`. -/
theorem C65_set (a a' : GfP12) (D D' : TwistPoint) :
    GT.string a ++ G2.string D = GT.string a' ++ G2.string D' ↔
      a.val = a'.val ∧ D.x.val = D'.x.val ∧ D.y.val = D'.y.val ∧ D.z.val = D'.z.val := by
  have h := C65_preimage [a] [a'] D D'
  simpa using h

/-- C65: the hash does not depend on the group element `D` alone: the same element is hashed
differently after `Marshal` (which `VerifySet` applies to the proof) has made it affine, so the
challenge cannot be recomputed from a proof that was verified or serialised. -/
theorem C65_not_canonical :
    ∃ D : TwistPoint, Rep2 D ((5 : Int) • bnG2) ∧ Rep2 (G2.marshal D).2 ((5 : Int) • bnG2) ∧
      ∀ a : GfP12, GT.string a ++ G2.string D ≠ GT.string a ++ G2.string (G2.marshal D).2 := by
  refine ⟨G2.scalarBaseMult 5, C36_scalarBaseMult 5 (by decide), ?_, fun a h => ?_⟩
  · refine (C39_length _ _ (C36_scalarBaseMult 5 (by decide))).2.1 ?_
    rw [ne_eq, bnG2_zsmul_zero]
    decide +kernel
  · have h1 := ((C65_set _ _ _ _).1 h).2.2.2
    rw [GfP2.val_eq_iff] at h1
    revert h1
    decide +kernel

/-! ## C66 -/

/-- C66: recomputing the challenge would not make the verifier sound.  For every set, every key, and
every `x ≥ 0` (in the set or not) there is a proof, with `V` the neutral element, whose challenge is the
hash of its own `a` and `D`, whose commitment is `Commit(x, r)`, and which `VerifySet` accepts. -/
theorem C66_infinity (sha : List UInt8 → List UInt8) (hsha : ∀ b, (sha b).length = 32) (p : ParamsSet)
    (pk : CurvePoint) (h sk x r m s t : Int) (hpk : p.kp.pubk = some pk) (hy : Rep1 pk (sk • bnG1))
    (hH : Rep2 p.H (h • bnG2)) (hx : 0 ≤ x) (hr : 0 ≤ r) (hm : 0 ≤ m) (hs : 0 ≤ s) (ht : 0 ≤ t) (h1 : NoClash (h * m) [s])
    (h2 : NoClash x [h * r]) :
    ∃ pr c, pr.C = commit x r p.H ∧ hashSet sha pr.a pr.D = .ok (some c) ∧ pr.c = c % bnOrder ∧
      (NoClash ((x + h * r) * pr.c) [h * pr.zr, pr.zsig] → ∃ pr', verifySet pr p = .ok (true, pr')) := by
  have hD := addSelf_exp2 (scalarMult_exp2 hH m hm) (C36_scalarBaseMult s hs) h1.1
  generalize (G2.scalarMult p.H m).addSelf (G2.scalarBaseMult s) = D at hD
  obtain ⟨c, hc⟩ : ∃ c, hashSet sha (GT.scalarMult utilE t) D = .ok (some c) := by
    unfold hashSet
    rw [C02_fromByteArray, if_neg]
    · exact ⟨_, rfl⟩
    · intro h0
      have := hsha (GT.string (GT.scalarMult utilE t) ++ G2.string D)
      rw [h0] at this
      cases this
  obtain ⟨c', hc'⟩ : ∃ c', c % bnOrder = c' := ⟨_, rfl⟩
  obtain ⟨zr, hzr⟩ : ∃ z, (m - r * c') % bnOrder = z := ⟨_, rfl⟩
  obtain ⟨zs, hzs⟩ : ∃ z, (s - x * c') % bnOrder = z := ⟨_, rfl⟩
  have hc0 : 0 ≤ c' := hc' ▸ emod_order_nonneg c
  have hz0 : 0 ≤ zs := hzs ▸ emod_order_nonneg _
  have hinf : PairOk TwistPoint.new.setInfinity := fun hz => absurd hz (by decide +kernel)
  have ha := gexp_utilE.scalarMult ht
  generalize GT.scalarMult utilE t = a at ha hc
  generalize hV : TwistPoint.new.setInfinity = V at hinf
  have hV' : Rep2 V ((0 : Int) • bnG2) := hV ▸ rep2_newInf
  refine ⟨⟨V, D, commit x r p.H, a, s, t, zs, t, c', m, zr⟩, c, rfl, hc, hc'.symm, fun hn => ?_⟩
  obtain ⟨b, pr', g1, g2⟩ := C51_verdict ⟨V, D, commit x r p.H, a, s, t, zs, t, c', m, zr⟩ p pk h sk 0
    (h * m + s) (x + h * r) (1 * t) hpk hy hH hV' hinf hD (commit_exp hH hx hr h2) ha hc0
    (hzr ▸ emod_order_nonneg _) hz0 ht hn
  refine ⟨pr', ?_⟩
  rw [g1, g2.2]
  have z1 : zr ≡ m - r * c' [ZMOD bnOrder] := hzr ▸ Int.mod_modEq _ _
  have z2 : zs ≡ s - x * c' [ZMOD bnOrder] := hzs ▸ Int.mod_modEq _ _
  constructor
  · have := ((z1.mul_left h).add_left ((x + h * r) * c')).add z2
    refine this.trans ?_
    ring_nf
    rfl
  · show sk * 0 * c' - 0 * zs + t ≡ 1 * t [ZMOD bnOrder]
    ring_nf
    rfl

/-- The hypotheses hold for `x = 1000`, with the constants of the example of C51. -/
example : NoClash (ccsH * 11) [17] ∧ NoClash 1000 [ccsH * 3] := by decide +kernel

/-- C66 for `VerifyUL`: for all `u`, all `l ≥ 1`, every key and every `x ≥ 0` (below `u^l` or not) there is a proof, with all `V` the
neutral element, whose challenge is the hash of its own `a` and `D` as `ProveUL` computes it, whose commitment is `Commit(x, r)`, and which
`VerifyUL` accepts. -/
theorem C66_ul (sha : List UInt8 → List UInt8) (hsha : ∀ b, (sha b).length = 32) (p : ParamsUL)
    (pk : CurvePoint) (h sk x r m : Int) (s t : Nat → Int) (hpk : p.kp.pubk = some pk) (hy : Rep1 pk (sk • bnG1))
    (hH : Rep2 p.H (h • bnG2)) (hl : 1 ≤ p.l) (hx : 0 ≤ x) (hr : 0 ≤ r) (ht : ∀ j, 0 ≤ t j) (h2 : NoClash x [h * r]) :
    ∃ pr c z, pr.C = commit x r p.H ∧ hashUL sha pr.a pr.D = .ok (some c) ∧ pr.c = c % bnOrder ∧
      (∀ j, j < p.l.toNat → pr.zsig[j]? = some (z j)) ∧ (∀ V ∈ pr.V, V = TwistPoint.new.setInfinity) ∧ pr.V.length = p.l.toNat ∧
      (NoClash ((x + h * r) * pr.c) (h * pr.zr :: wts p.u z 0 p.l.toNat) → ∃ pr', verifyUL pr p = .ok (true, pr')) := by
  have hD := rep2_congr (Int.mod_modEq (h * m + (wts p.u s 0 p.l.toNat).sum) bnOrder)
    (C36_scalarBaseMult _ (emod_order_nonneg (h * m + (wts p.u s 0 p.l.toNat).sum)))
  generalize G2.scalarBaseMult ((h * m + (wts p.u s 0 p.l.toNat).sum) % bnOrder) = D at hD
  have hE : ∀ j, GExp (GT.scalarMult utilE (t j)) (1 * t j) := fun j => gexp_utilE.scalarMult (ht j)
  obtain ⟨a, ha⟩ : ∃ a : Nat → GfP12, ∀ j, GExp (a j) (1 * t j) := ⟨_, hE⟩
  obtain ⟨c, hc⟩ : ∃ c, hashUL sha ((List.range p.l.toNat).map a) D = .ok (some c) := by
    unfold hashUL
    rw [C02_fromByteArray, if_neg]
    · exact ⟨_, rfl⟩
    · intro h0
      have := hsha ((((List.range p.l.toNat).map a).map GT.string).flatten ++ G2.string D)
      rw [h0] at this
      cases this
  obtain ⟨c', hc'⟩ : ∃ c', c % bnOrder = c' := ⟨_, rfl⟩
  obtain ⟨zr, hzr⟩ : ∃ z, (m - r * c') % bnOrder = z := ⟨_, rfl⟩
  have hc0 : 0 ≤ c' := hc' ▸ emod_order_nonneg c
  have hinf : PairOk TwistPoint.new.setInfinity := fun hz => absurd hz (by decide +kernel)
  generalize hV : TwistPoint.new.setInfinity = V at hinf
  have hV' : Rep2 V ((0 : Int) • bnG2) := hV ▸ rep2_newInf
  obtain ⟨d, hd⟩ : ∃ d : Nat → Int, d = fun j => if j = 0 then x else 0 := ⟨_, rfl⟩
  obtain ⟨z, hz⟩ : ∃ z : Nat → Int, ∀ j, z j = (s j - d j * c') % bnOrder := ⟨_, fun _ => rfl⟩
  have hsum : ∀ n i, 1 ≤ i → (wts p.u d i n).sum = 0 := by
    intro n
    induction n with
    | zero => intro i _; rfl
    | succ n ih =>
      intro i hi
      rw [wts, List.sum_cons, ih (i + 1) (by omega), hd]
      simp [show i ≠ 0 by omega]
  have hw : (wts p.u d 0 p.l.toNat).sum = x := by
    obtain ⟨n, hn⟩ : ∃ n, p.l.toNat = n + 1 := ⟨p.l.toNat - 1, by omega⟩
    rw [hn, wts, List.sum_cons, hsum n (0 + 1) (by omega), hd]
    simp
  have get : ∀ {β : Type} (f : Nat → β) (j : Nat), j < p.l.toNat → ((List.range p.l.toNat).map f)[j]? = some (f j) := by
    intro β f j hj
    simp [hj]
  refine ⟨⟨List.replicate p.l.toNat V, D, commit x r p.H, (List.range p.l.toNat).map a, firsts s p.l.toNat, firsts t p.l.toNat,
    (List.range p.l.toNat).map z, (List.range p.l.toNat).map t, c', m, zr⟩, c, z, rfl, hc, hc'.symm, fun j hj => get z j hj,
    fun W hW => List.eq_of_mem_replicate hW, List.length_replicate, fun hn => ?_⟩
  obtain ⟨b, pr', g1, g2⟩ := C54_verdict ⟨List.replicate p.l.toNat V, D, commit x r p.H, (List.range p.l.toNat).map a, firsts s p.l.toNat,
    firsts t p.l.toNat, (List.range p.l.toNat).map z, (List.range p.l.toNat).map t, c', m, zr⟩ p pk h sk _ (x + h * r) (fun _ => 0) z t
    (fun j => 1 * t j) hpk hy hH hD (commit_exp hH hx hr h2) hc0 (hzr ▸ emod_order_nonneg _)
    (fun j hj => ⟨V, a j, by simp [hj], get a j hj, get z j hj, get t j hj, hz j ▸ emod_order_nonneg _, ht j, hV', hinf, ha j⟩) hn
  refine ⟨pr', ?_⟩
  rw [g1, g2.2]
  have z1 : zr ≡ m - r * c' [ZMOD bnOrder] := hzr ▸ Int.mod_modEq _ _
  have z2 := wts_congr p.u (f := s) (g := z) (c := c') (d := d) p.l.toNat 0 (fun j _ _ => hz j ▸ Int.mod_modEq _ _)
  rw [hw] at z2
  constructor
  · have := ((z1.mul_left h).add_left ((x + h * r) * c')).add z2
    refine this.trans ?_
    ring_nf
    rfl
  · intro j _
    show sk * 0 * c' - 0 * z j + t j ≡ 1 * t j [ZMOD bnOrder]
    ring_nf
    rfl

/-- The hypotheses hold for `x = 1000` and the parameters for `[0, 4^3)`. -/
example : ∃ p pk, setupUL 4 3 (some 1234) = .ok p ∧ p.kp.pubk = some pk ∧ Rep1 pk ((1234 : Int) • bnG1) ∧ Rep2 p.H (ccsH • bnG2) ∧ 1 ≤ p.l ∧
    NoClash 1000 [ccsH * 3] := by
  obtain ⟨p, pk, h1, _, h3, h4, h5, h6, _⟩ := C54_setup 4 3 1234 (by intro m h0 h1; interval_cases m <;> decide +kernel)
  exact ⟨p, pk, h1, h4, h5, h6, by rw [h3]; decide, by decide +kernel⟩

/-- C66 for `Verify`: the same for a range proof. The two halves hold the commitments that `Prove` would make for `x` (`x - b + u^l` and
`x - a`), and `x` may lie above the interval. -/
theorem C66_range (sha : List UInt8 → List UInt8) (hsha : ∀ b, (sha b).length = 32) (p : CcsParams)
    (pk : CurvePoint) (h sk x r : Int) (m : Bool → Int) (s t : Bool → Nat → Int) (hpk : p.p.kp.pubk = some pk) (hy : Rep1 pk (sk • bnG1))
    (hH : Rep2 p.p.H (h • bnG2)) (hl : 1 ≤ p.p.l) (hx : p.a ≤ x) (hb : p.b ≤ x + p.p.u ^ p.p.l.toNat) (hr : 0 ≤ r)
    (ht : ∀ i j, 0 ≤ t i j) (h1 : NoClash (x - p.b + p.p.u ^ p.p.l.toNat) [h * r]) (h2 : NoClash (x - p.a) [h * r]) :
    ∃ q1 q2 : ProofUL, ∃ c1 c2 z1 z2, q1.C = commit (x - p.b + p.p.u ^ p.p.l.toNat) r p.p.H ∧ q2.C = commit (x - p.a) r p.p.H ∧
      hashUL sha q1.a q1.D = .ok (some c1) ∧ q1.c = c1 % bnOrder ∧ hashUL sha q2.a q2.D = .ok (some c2) ∧ q2.c = c2 % bnOrder ∧
      (∀ j, j < p.p.l.toNat → q1.zsig[j]? = some (z1 j)) ∧ (∀ j, j < p.p.l.toNat → q2.zsig[j]? = some (z2 j)) ∧
      (NoClash ((x - p.b + p.p.u ^ p.p.l.toNat + h * r) * q1.c) (h * q1.zr :: wts p.p.u z1 0 p.p.l.toNat) →
        NoClash ((x - p.a + h * r) * q2.c) (h * q2.zr :: wts p.p.u z2 0 p.p.l.toNat) →
        ∃ q, ccsVerify ⟨some q1, some q2⟩ (some p) = .ok (true, q)) := by
  obtain ⟨q1, c1, z1, a1, a2, a3, a4, _, _, a5⟩ := C66_ul sha hsha p.p pk h sk (x - p.b + p.p.u ^ p.p.l.toNat) r (m false) (s false)
    (t false) hpk hy hH hl (by omega) hr (ht false) h1
  obtain ⟨q2, c2, z2, b1, b2, b3, b4, _, _, b5⟩ := C66_ul sha hsha p.p pk h sk (x - p.a) r (m true) (s true) (t true) hpk hy hH hl
    (by omega) hr (ht true) h2
  refine ⟨q1, q2, c1, c2, z1, z2, a1, b1, a2, a3, b2, b3, a4, b4, fun n1 n2 => ?_⟩
  obtain ⟨q1', e1⟩ := a5 n1
  obtain ⟨q2', e2⟩ := b5 n2
  exact ⟨_, by simp only [ccsVerify, Res.ofOption_some, Res.ok_bind, e1, e2]; rfl⟩

/-- The hypotheses hold for the parameters for `[18, 200)` over `[0, 4^4)` and `x = 1000`. -/
example : ∃ p pk, setupUL 4 4 (some 1234) = .ok p ∧ p.kp.pubk = some pk ∧ Rep1 pk ((1234 : Int) • bnG1) ∧ Rep2 p.H (ccsH • bnG2) ∧ 1 ≤ p.l ∧
    (18 : Int) ≤ 1000 ∧ 200 ≤ 1000 + p.u ^ p.l.toNat ∧ NoClash (1000 - 200 + p.u ^ p.l.toNat) [ccsH * 3] ∧ NoClash (1000 - 18) [ccsH * 3] := by
  obtain ⟨p, pk, h1, h2, h3, h4, h5, h6, _⟩ := C54_setup 4 4 1234 (by intro m h0 h1; interval_cases m <;> decide +kernel)
  refine ⟨p, pk, h1, h4, h5, h6, by rw [h3]; decide, by decide, ?_, ?_, by decide +kernel⟩ <;> rw [h2, h3] <;> decide +kernel

end Verif

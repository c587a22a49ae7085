import Verif.Lemmas.BnHeapEx
import Verif.Lemmas.BnHeapApi
import Verif.Props.BnGroup
import Verif.Props.BnBytes

/-!
# C74: bn256 with pointers, shared objects and pools

The exported operations of `crypto/bn256` on a memory of `big.Int` objects, with all their temporaries and pools.
-/

namespace Verif

open BigM

/-! ### `G1` -/

section
variable {s : BigHeap} (hs : s.pool = none)
include hs

/-- C74: `e.Add(a, b)` in `G1`. -/
theorem C74_g1_add {e : Option CurveP} {a b : CurveP} (he : Live? s e) (ha : Live s a) (hb : Live s b) (hea : SameOrDisj? e a)
    (heb : SameOrDisj? e b) (hab : SameOrDisj a b) :
    (e ≠ some a → Gives (G1H.add e a b) s e
      (CurvePoint.add (recvVal s .new e) (HeapObj.val s.mem a) (HeapObj.val s.mem b))) ∧
    (e = some a → Gives (G1H.add e a b) s e (CurvePoint.addSelf (HeapObj.val s.mem a) (HeapObj.val s.mem b))) := by
  unfold G1H.add
  rw [g1_fill]
  exact gives_opA (Or.inr rfl) hs he ha hb hea heb hab

omit hs in
/-- Into a third object, and in place. -/
example :=
  And.intro (C74_g1_add (s := exHeap) (e := some exP0) (a := exP) (b := exP') rfl (by ex_ok) (by ex_ok) (by ex_ok) (by ex_ok) (by ex_ok)
      (by ex_ok))
    (C74_g1_add (s := exHeap) (e := some exP) (a := exP) (b := exP') rfl (by ex_ok) (by ex_ok) (by ex_ok) (by ex_ok) (by ex_ok) (by ex_ok))

/-- C74: `e.Neg(a)` in `G1`, also in place. -/
theorem C74_g1_neg {e : Option CurveP} {a : CurveP} (he : Live? s e) (ha : Live s a) (hea : SameOrDisj? e a) :
    Gives (G1H.neg e a) s e (HeapObj.val s.mem a).neg := by
  unfold G1H.neg
  rw [g1_fill]
  have := gives_opD (new := CurveP.new) (m := CurveP.neg) (Or.inl rfl) hs he ha hea
  exact (em (e = some a)).elim this.2 this.1

omit hs in
example := C74_g1_neg (s := exHeap) (e := some exP) (a := exP) rfl (by ex_ok) (by ex_ok) (by ex_ok)

/-- C74: `e.ScalarMult(a, k)` in `G1`, also in place. -/
theorem C74_g1_scalarMult {e : Option CurveP} {a : CurveP} (he : Live? s e) (ha : Live s a) (hea : SameOrDisj? e a) (k : Int) :
    Gives (G1H.scalarMult e a k) s e (G1.scalarMult (recvVal s .new e) (HeapObj.val s.mem a) k) := by
  rw [g1_scalarMult]
  have := gives_body1 (new := CurveP.new) (v0 := CurvePoint.new) (m := g1Scalar k) (g1Scalar_apart k) (g1Scalar_same k) hs he ha hea
  by_cases h : e = some a
  · have h1 := this.2 h
    subst h
    exact h1
  · exact this.1 h

omit hs in
example := C74_g1_scalarMult (s := exHeap) (e := some exP0) (a := exP) rfl (by ex_ok) (by ex_ok) (by ex_ok) 5

/-- C74: `e.ScalarBaseMult(k)` in `G1`: right as long as the package variable `curveGen` has its value, and does not change it. -/
theorem C74_g1_scalarBaseMult {e : Option CurveP} {gen : CurveP} (he : Live? s e) (hg : Live s gen)
    (hv : HeapObj.val s.mem gen = CurvePoint.gen) (heg : ∀ p, e = some p → Disj (HeapObj.cells p) (HeapObj.cells gen)) (k : Int) :
    Gives (G1H.scalarBaseMult gen e k) s e (G1.scalarBaseMult (recvVal s .new e) k) := by
  have := C74_g1_scalarMult hs he hg (fun p hp => Or.inr (heg p hp)) k
  rw [hv] at this
  exact this

omit hs in
example := C74_g1_scalarBaseMult (s := exHeap) (e := some exP') (gen := exP) rfl (by ex_ok) (by ex_ok) (by decide) (by ex_ok) 5

/-- C74: `Marshal` of `G1` returns the bytes, and replaces the coordinates by affine ones; it panics if that is impossible. -/
theorem C74_g1_marshal {n : CurveP} (hn : Live s n) :
    ((HeapObj.val s.mem n).Invertible → Effect (G1H.marshal n) s (HeapObj.cells n) fun r s' =>
      r = (G1.marshal (HeapObj.val s.mem n)).1 ∧ Live s' n ∧ HeapObj.val s'.mem n = (HeapObj.val s.mem n).makeAffine) ∧
    (¬ (HeapObj.val s.mem n).Invertible → G1H.marshal n s = .panic) :=
  ⟨fun h => effect_self hs hn fun hr => wp_g1_marshal h hr, fun h => g1_marshal_panic h (known1 hs hn).rel⟩

omit hs in
example := (C74_g1_marshal (s := exHeap) (n := exP) rfl (by ex_ok)).1 (CurvePoint.invertible_of_rep rep1_gen)

/-- C74: `Unmarshal` of `G1`: a wrong length changes nothing; otherwise the receiver is written, also if the result is
an error. -/
theorem C74_g1_unmarshal {e : Option CurveP} (he : Live? s e) (m : List UInt8) :
    (m.length ≠ 64 → Returns (G1H.unmarshal e m) s (false, e)) ∧
    (m.length = 64 → ∀ v, G1.unmarshal m = some v → Effect (G1H.unmarshal e m) s (recvCells e) fun r s' =>
      ∃ p, r = (true, some p) ∧ IsResult s e v p s') ∧
    (m.length = 64 → G1.unmarshal m = none → Effect (G1H.unmarshal e m) s (recvCells e) fun r s' =>
      ∃ p, r = (false, some p) ∧ IsResult s e ⟨setBytes (m.take 32), setBytes (m.drop 32), 1, 1⟩ p s') := by
  have key : m.length = 64 → Effect (G1H.unmarshal e m) s (recvCells e) fun r s' =>
      ∃ p, r = ((G1.unmarshal m).isSome, some p) ∧ IsResult s e (G1.unmarshalRaw m) p s' := by
    intro hm
    unfold G1H.unmarshal
    rw [if_neg (not_not.2 hm), g1_fill]
    have := effect_fill (new := CurveP.new) (v0 := CurvePoint.new) (e := e) (b := (G1.unmarshal m).isSome) (v := G1.unmarshalRaw m)
      (body := fun d => setBytesH d.x (m.take 32) >>= fun _ => setBytesH d.y (m.drop 32) >>= fun _ => G1H.unmarshalTail d)
      [] (known_nil hs) (fun p hp => known1 hs (he p hp)) (fun h => wp_g1_unmarshal hm h.2)
    simp only [BigM.assoc] at this
    exact this
  refine ⟨fun h => ?_, fun hm v hv => ?_, fun hm hv => ?_⟩
  · refine returns_of (known_nil hs) fun rest hr => ?_
    unfold G1H.unmarshal
    rw [if_pos h]
    exact wp_withPool (P := fun r => r = (false, e)) (Γ' := fun _ => [] ++ [rest]) (Or.inl rfl) hr fun s1 _ _ h => Wp.pure ⟨rfl, h⟩
  · have := key hm
    unfold G1.unmarshalRaw at this
    rw [hv] at this
    exact this
  · have := key hm
    unfold G1.unmarshalRaw at this
    rw [hv] at this
    exact this

omit hs in
example := (C74_g1_unmarshal (s := exHeap) (e := some exP0) rfl (by ex_ok) (List.replicate 63 1)).1 (by decide)

/-- C74: `IsZero` of `G1` changes nothing. -/
theorem C74_g1_isZero {e : CurveP} (he : Live s e) : Returns (G1H.isZero e) s (HeapObj.val s.mem e).isInfinity :=
  returns_of (known1 hs he) fun rest hr =>
    wp_withPool (P := fun r => r = (HeapObj.val s.mem e).isInfinity)
      (Γ' := fun _ => [own e (HeapObj.val s.mem e)] ++ [rest]) (Or.inl rfl) hr fun _ _ _ h => OpTest.run h

omit hs in
example := C74_g1_isZero (s := exHeap) (e := exP) rfl (by ex_ok)

/-- C74: `SetInfinity` and `SetZero` of `G1`: the first makes new coordinates, the second rewrites the old ones. -/
theorem C74_g1_infinity :
    Gives G1H.setInfinity s none ⟨0, 0, 0, 0⟩ ∧
    ∀ e : CurveP, Live s e → Gives (G1H.setZero e) s (some e) { HeapObj.val s.mem e with z := 0 } := by
  refine ⟨?_, fun e he => ?_⟩
  · refine gives_new (known_nil hs) fun rest h => ?_
    unfold G1H.setInfinity
    refine Wp.bind (wp_withPool' (Γ' := fun p => own p CurvePoint.new :: ([] ++ [rest])) (Or.inr rfl) h
      fun _ h1 _ h => (CurveP.wp_new_zero h1 h).mono fun _ _ h => h.1) fun p _ h => ?_
    refine Wp.bind (wp_withPool' (Γ' := fun _ => own p CurvePoint.new.setInfinity :: ([] ++ [rest])) (Or.inl rfl) h
      fun _ _ _ h => OpSelf.run h) fun _ _ h => ?_
    exact Wp.pure h
  · refine gives_old (E := []) (known1 hs he) fun rest h => ?_
    unfold G1H.setZero
    refine Wp.bind (wp_withPool' (Γ' := fun _ => own e (HeapObj.val s.mem e).setInfinity :: ([] ++ [rest])) (Or.inl rfl) h
      fun _ _ _ h => OpSelf.run h) fun _ _ h => ?_
    exact Wp.pure ⟨rfl, h⟩

omit hs in
example := (C74_g1_infinity (s := exHeap) rfl).2 exP (by ex_ok)

/-! ### `G2` -/

/-- C74: `e.Add(a, b)` in `G2`. -/
theorem C74_g2_add {e : Option TwistP} {a b : TwistP} (he : Live? s e) (ha : Live s a) (hb : Live s b) (hea : SameOrDisj? e a)
    (heb : SameOrDisj? e b) (hab : SameOrDisj a b) :
    (e ≠ some a → Gives (G2H.add e a b) s e
      (TwistPoint.add (recvVal s .new e) (HeapObj.val s.mem a) (HeapObj.val s.mem b))) ∧
    (e = some a → Gives (G2H.add e a b) s e (TwistPoint.addSelf (HeapObj.val s.mem a) (HeapObj.val s.mem b))) := by
  unfold G2H.add
  rw [g2_fill]
  exact gives_opA (Or.inr rfl) hs he ha hb hea heb hab

omit hs in
example :=
  And.intro (C74_g2_add (s := exHeap) (e := some exQ0) (a := exQ) (b := exQ') rfl (by ex_ok) (by ex_ok) (by ex_ok) (by ex_ok) (by ex_ok)
      (by ex_ok))
    (C74_g2_add (s := exHeap) (e := some exQ) (a := exQ) (b := exQ') rfl (by ex_ok) (by ex_ok) (by ex_ok) (by ex_ok) (by ex_ok) (by ex_ok))

/-- C74: `e.Neg(a)` in `G2`; in place it clears `y`. -/
theorem C74_g2_neg {e : Option TwistP} {a : TwistP} (he : Live? s e) (ha : Live s a) (hea : SameOrDisj? e a) :
    (e ≠ some a → Gives (G2H.neg e a) s e (HeapObj.val s.mem a).neg) ∧
    (e = some a → Gives (G2H.neg e a) s e (HeapObj.val s.mem a).negSelf) := by
  unfold G2H.neg
  rw [g2_fill]
  exact gives_opD (new := TwistP.new) (m := TwistP.neg) (Or.inr rfl) hs he ha hea

omit hs in
example := (C74_g2_neg (s := exHeap) (e := some exQ) (a := exQ) rfl (by ex_ok) (by ex_ok) (by ex_ok)).2 rfl

/-- C74: `e.ScalarMult(a, k)` in `G2`, also in place. -/
theorem C74_g2_scalarMult {e : Option TwistP} {a : TwistP} (he : Live? s e) (ha : Live s a) (hea : SameOrDisj? e a) (k : Int) :
    Gives (G2H.scalarMult e a k) s e (G2.scalarMult (HeapObj.val s.mem a) k) := by
  rw [g2_scalarMult]
  have := gives_body1 (new := TwistP.new) (v0 := TwistPoint.new) (m := g2Scalar k) (f := fun _ w => G2.scalarMult w k)
    (g2Scalar_apart k) (g2Scalar_same k) hs he ha hea
  exact (em (e = some a)).elim this.2 this.1

omit hs in
example := C74_g2_scalarMult (s := exHeap) (e := some exQ0) (a := exQ) rfl (by ex_ok) (by ex_ok) (by ex_ok) 5

/-- C74: `e.ScalarBaseMult(k)` in `G2`. -/
theorem C74_g2_scalarBaseMult {e : Option TwistP} {gen : TwistP} (he : Live? s e) (hg : Live s gen)
    (hv : HeapObj.val s.mem gen = TwistPoint.gen) (heg : ∀ p, e = some p → Disj (HeapObj.cells p) (HeapObj.cells gen)) (k : Int) :
    Gives (G2H.scalarBaseMult gen e k) s e (G2.scalarBaseMult k) := by
  have := C74_g2_scalarMult hs he hg (fun p hp => Or.inr (heg p hp)) k
  rw [hv] at this
  exact this

omit hs in
example := C74_g2_scalarBaseMult (s := exHeap) (e := some exQ') (gen := exQ) rfl (by ex_ok) (by ex_ok) rfl (by ex_ok) 5

/-- C74: `Marshal` of `G2`. -/
theorem C74_g2_marshal {n : TwistP} (hn : Live s n) :
    Effect (G2H.marshal n) s (HeapObj.cells n) fun r s' =>
      r = (G2.marshal (HeapObj.val s.mem n)).1 ∧ Live s' n ∧ HeapObj.val s'.mem n = (HeapObj.val s.mem n).makeAffine :=
  effect_self hs hn fun hr => wp_g2_marshal hr

omit hs in
example := C74_g2_marshal (s := exHeap) (n := exQ) rfl (by ex_ok)

/-- C74: `Unmarshal` of `G2`; `b` is the package variable `twistB`. -/
theorem C74_g2_unmarshal {e : Option TwistP} {b : Gf2} (he : Live? s e) (hb : Live s b) (hv : HeapObj.val s.mem b = twistB)
    (heb : ∀ p, e = some p → Disj (HeapObj.cells p) (HeapObj.cells b)) (m : List UInt8) :
    (m.length ≠ 128 → Returns (G2H.unmarshal b e m) s (false, e)) ∧
    (m.length = 128 → ∀ v, G2.unmarshal m = some v → Effect (G2H.unmarshal b e m) s (recvCells e) fun r s' =>
      ∃ p, r = (true, some p) ∧ IsResult s e v p s') ∧
    (m.length = 128 → G2.unmarshal m = none → Effect (G2H.unmarshal b e m) s (recvCells e) fun r s' =>
      ∃ p, r = (false, some p) ∧ IsResult s e ⟨⟨setBytes (m.take 32), setBytes ((m.drop 32).take 32)⟩,
        ⟨setBytes ((m.drop 64).take 32), setBytes (m.drop 96)⟩, ⟨0, 1⟩, ⟨0, 1⟩⟩ p s') := by
  have hkb := known1 hs hb
  rw [hv] at hkb
  have key : m.length = 128 → Effect (G2H.unmarshal b e m) s (recvCells e) fun r s' =>
      ∃ p, r = ((G2.unmarshal m).isSome, some p) ∧ IsResult s e (G2.unmarshalRaw m) p s' := by
    intro hm
    unfold G2H.unmarshal
    rw [if_neg (not_not.2 hm), g2_fill]
    have := effect_fill (new := TwistP.new) (v0 := TwistPoint.new) (e := e) (b := (G2.unmarshal m).isSome) (v := G2.unmarshalRaw m)
      (body := fun d => setBytesH d.x.x (m.take 32) >>= fun _ => setBytesH d.x.y ((m.drop 32).take 32) >>= fun _ =>
        setBytesH d.y.x ((m.drop 64).take 32) >>= fun _ => setBytesH d.y.y (m.drop 96) >>= fun _ => G2H.unmarshalTail b d)
      [own b twistB] hkb (fun p hp => known_obj hkb (he p hp) (disj_cons (heb p hp) disj_nil)) (fun h => wp_g2_unmarshal hm h)
    simp only [BigM.assoc] at this
    exact this
  refine ⟨fun h => ?_, fun hm v hv => ?_, fun hm hv => ?_⟩
  · refine returns_of (known_nil hs) fun rest hr => ?_
    unfold G2H.unmarshal
    rw [if_pos h]
    exact wp_withPool (P := fun r => r = (false, e)) (Γ' := fun _ => [] ++ [rest]) (Or.inl rfl) hr fun s1 _ _ h => Wp.pure ⟨rfl, h⟩
  · have := key hm
    unfold G2.unmarshalRaw at this
    rw [hv] at this
    exact this
  · have := key hm
    unfold G2.unmarshalRaw at this
    rw [hv] at this
    exact this

omit hs in
example := (C74_g2_unmarshal (s := exHeap) (e := some exQ0) (b := exB2) rfl (by ex_ok) (by ex_ok) rfl (by ex_ok) (List.replicate 64 1)).1
  (by decide)

/-- C74: `IsZero` of `G2` changes nothing. -/
theorem C74_g2_isZero {e : TwistP} (he : Live s e) : Returns (G2H.isZero e) s (HeapObj.val s.mem e).isInfinity :=
  returns_of (known1 hs he) fun rest hr =>
    wp_withPool (P := fun r => r = (HeapObj.val s.mem e).isInfinity)
      (Γ' := fun _ => [own e (HeapObj.val s.mem e)] ++ [rest]) (Or.inl rfl) hr fun _ _ _ h => OpTest.run h

omit hs in
example := C74_g2_isZero (s := exHeap) (e := exQ) rfl (by ex_ok)

/-- C74: `SetInfinity` of `G2`. -/
theorem C74_g2_infinity : Gives G2H.setInfinity s none ⟨⟨0, 0⟩, ⟨0, 0⟩, ⟨0, 0⟩, ⟨0, 0⟩⟩ := by
  refine gives_new (known_nil hs) fun rest h => ?_
  unfold G2H.setInfinity
  refine Wp.bind (wp_withPool' (Γ' := fun p => own p TwistPoint.new :: ([] ++ [rest])) (Or.inr rfl) h
    fun _ h1 _ h => (TwistP.wp_new_zero h1 h).mono fun _ _ h => h.1) fun p _ h => ?_
  refine Wp.bind (wp_withPool' (Γ' := fun _ => own p TwistPoint.new.setInfinity :: ([] ++ [rest])) (Or.inl rfl) h
    fun _ _ _ h => OpSelf.run h) fun _ _ h => ?_
  exact Wp.pure h

omit hs in
example := C74_g2_infinity (s := exHeap) rfl

/-! ### `GT` -/

/-- C74: `e.Add(a, b)` in `GT`, any of the three may be the same. -/
theorem C74_gt_add {e : Option Gf12} {a b : Gf12} (he : Live? s e) (ha : Live s a) (hb : Live s b) (hea : SameOrDisj? e a)
    (heb : SameOrDisj? e b) (hab : SameOrDisj a b) :
    Gives (GTH.add e a b) s e ((HeapObj.val s.mem a).mul (HeapObj.val s.mem b)) := by
  unfold GTH.add
  rw [gt_fill]
  have := gives_opA (new := Gf12.new) (m := Gf12.mul) (Or.inr rfl) hs he ha hb hea heb hab
  exact (em (e = some a)).elim this.2 this.1

omit hs in
example :=
  And.intro (C74_gt_add (s := exHeap) (e := some exC) (a := exA) (b := exB) rfl (by ex_ok) (by ex_ok) (by ex_ok) (by ex_ok) (by ex_ok)
      (by ex_ok))
    (C74_gt_add (s := exHeap) (e := some exA) (a := exA) (b := exA) rfl (by ex_ok) (by ex_ok) (by ex_ok) (by ex_ok) (by ex_ok) (by ex_ok))

/-- C74: `e.ScalarMult(a, k)` in `GT`, also in place. -/
theorem C74_gt_scalarMult {e : Option Gf12} {a : Gf12} (he : Live? s e) (ha : Live s a) (hea : SameOrDisj? e a) (k : Int) :
    Gives (GTH.scalarMult e a k) s e ((HeapObj.val s.mem a).exp k) := by
  unfold GTH.scalarMult
  rw [gt_fill]
  have H : Op1 (fun c a => Gf12.exp c a k) (fun a => a.exp k) := inferInstance
  have := gives_body1 (new := Gf12.new) (v0 := GfP12.zero) (m := fun c a => withPool (some []) (Gf12.exp c a k))
    (f := fun _ a => a.exp k) (g := fun a => a.exp k) (fun h => wp_withPool' (Or.inr rfl) h fun _ _ _ h => H.apart h)
    (fun h => wp_withPool' (Or.inr rfl) h fun _ _ _ h => H.same h) hs he ha hea
  exact (em (e = some a)).elim this.2 this.1

omit hs in
example := C74_gt_scalarMult (s := exHeap) (e := some exC) (a := exA) rfl (by ex_ok) (by ex_ok) (by ex_ok) 5

/-- C74: `e.Invert(a)` and `e.Neg(a)` in `GT`, also in place. -/
theorem C74_gt_invert {e : Option Gf12} {a : Gf12} (he : Live? s e) (ha : Live s a) (hea : SameOrDisj? e a) :
    Gives (GTH.invert e a) s e (HeapObj.val s.mem a).invert ∧ Gives (GTH.neg e a) s e (HeapObj.val s.mem a).invert := by
  have key : Gives (GTH.invert e a) s e (HeapObj.val s.mem a).invert := by
    unfold GTH.invert
    rw [gt_fill]
    have := gives_opD (new := Gf12.new) (m := Gf12.invert) (Or.inr rfl) hs he ha hea
    exact (em (e = some a)).elim this.2 this.1
  exact ⟨key, key⟩

omit hs in
example := C74_gt_invert (s := exHeap) (e := some exA) (a := exA) rfl (by ex_ok) (by ex_ok) (by ex_ok)

/-- C74: `e.Exp(a, k)` in `GT` does not touch `e`, whatever it is, and writes the result into `a`. -/
theorem C74_gt_exp (e : Option Gf12) {a : Gf12} (ha : Live s a) (k : Int) :
    Gives (GTH.exp e a k) s (some a)
      (if k ≥ 0 then (HeapObj.val s.mem a).exp k else ((HeapObj.val s.mem a).exp k.natAbs).invert) := by
  unfold GTH.exp
  split
  · exact C74_gt_scalarMult hs (fun p hp => by cases hp; exact ha) ha (fun p hp => Or.inl (by cases hp; rfl)) k
  · refine gives_old (E := []) (known1 hs ha) fun rest h => ?_
    have H : Op1 (fun c a => Gf12.exp c a k.natAbs) (fun a => a.exp k.natAbs) := inferInstance
    have h1 : Wp (GTH.scalarMult (some a) a k.natAbs) s fun r s' => r = a ∧
        Rel0 s' (own a ((HeapObj.val s.mem a).exp k.natAbs) :: ([] ++ [rest])) := by
      refine Wp.bind (Wp.pure (Q := fun r s' => r = a ∧ s' = s) ⟨rfl, rfl⟩) fun q s' ⟨e1, e2⟩ => ?_
      subst e1 e2
      refine Wp.bind (wp_withPool' (Or.inr rfl) h fun _ _ _ h => H.same h) fun _ _ h => ?_
      exact Wp.pure ⟨rfl, h⟩
    refine Wp.bind h1 fun b _ ⟨e1, h⟩ => ?_
    subst e1
    refine Wp.bind (Wp.pure (Q := fun r s' => r = b ∧ s' = _) ⟨rfl, rfl⟩) fun q s' ⟨e1, e2⟩ => ?_
    subst e1 e2
    refine Wp.bind (wp_withPool' (Or.inr rfl) h fun _ _ _ h => Op1.same (m := Gf12.invert) h) fun _ _ h => ?_
    exact Wp.pure ⟨rfl, h⟩

omit hs in
example := C74_gt_exp (s := exHeap) rfl (some exC) (a := exA) (by ex_ok) (-5)

/-- C74: `IsZero`, `IsOne` and `Marshal` of `GT` give the right answer, but rewrite the element with reduced coefficients. -/
theorem C74_gt_tests {e : Gf12} (he : Live s e) :
    (Effect (GTH.isZero e) s (HeapObj.cells e) fun r s' =>
      r = (HeapObj.val s.mem e).isZero ∧ Live s' e ∧ HeapObj.val s'.mem e = (HeapObj.val s.mem e).minimal) ∧
    (Effect (GTH.isOne e) s (HeapObj.cells e) fun r s' =>
      r = (HeapObj.val s.mem e).isOne ∧ Live s' e ∧ HeapObj.val s'.mem e = (HeapObj.val s.mem e).minimal) ∧
    Effect (GTH.marshal e) s (HeapObj.cells e) fun r s' =>
      r = (GT.marshal (HeapObj.val s.mem e)).1 ∧ Live s' e ∧ HeapObj.val s'.mem e = (HeapObj.val s.mem e).minimal := by
  refine ⟨effect_self hs he fun {Δ} hr => ?_, effect_self hs he fun {Δ} hr => ?_, effect_self hs he fun hr => wp_gt_marshal hr⟩
  · exact wp_withPool (P := fun r => r = (HeapObj.val s.mem e).isZero) (Γ' := fun _ => own e (HeapObj.val s.mem e).minimal :: Δ)
      (Or.inl rfl) hr fun _ _ _ h => wp_isZero12 h
  · exact wp_withPool (P := fun r => r = (HeapObj.val s.mem e).isOne) (Γ' := fun _ => own e (HeapObj.val s.mem e).minimal :: Δ)
      (Or.inl rfl) hr fun _ _ _ h => wp_isOne12 h

omit hs in
example := C74_gt_tests (s := exHeap) (e := exA) rfl (by ex_ok)

/-- C74: `Unmarshal` of `GT`. -/
theorem C74_gt_unmarshal {e : Option Gf12} (he : Live? s e) (m : List UInt8) :
    (m.length ≠ 384 → Returns (GTH.unmarshal e m) s (false, e)) ∧
    (∀ v, GT.unmarshal m = some v → Effect (GTH.unmarshal e m) s (recvCells e) fun r s' =>
      ∃ p, r = (true, some p) ∧ IsResult s e v p s') := by
  refine ⟨fun h => ?_, fun v hv => ?_⟩
  · refine returns_of (known_nil hs) fun rest hr => ?_
    unfold GTH.unmarshal
    rw [if_pos h]
    exact wp_withPool (P := fun r => r = (false, e)) (Γ' := fun _ => [] ++ [rest]) (Or.inl rfl) hr fun s1 _ _ h => Wp.pure ⟨rfl, h⟩
  · unfold GT.unmarshal at hv
    by_cases hm : m.length = 384
    · rw [if_neg (not_not.2 hm)] at hv
      have hv := Option.some.inj hv
      unfold GTH.unmarshal
      rw [if_neg (not_not.2 hm), gt_fill]
      have := effect_fill (new := Gf12.new) (v0 := GfP12.zero) (e := e) (b := true) (v := v)
        (body := fun d => do
          write d.x.x.x (GT.word m 0)
          write d.x.x.y (GT.word m 1)
          write d.x.y.x (GT.word m 2)
          write d.x.y.y (GT.word m 3)
          write d.x.z.x (GT.word m 4)
          write d.x.z.y (GT.word m 5)
          write d.y.x.x (GT.word m 6)
          write d.y.x.y (GT.word m 7)
          write d.y.y.x (GT.word m 8)
          write d.y.y.y (GT.word m 9)
          write d.y.z.x (GT.word m 10)
          write d.y.z.y (GT.word m 11)
          pure true)
        [] (known_nil hs) (fun p hp => known1 hs (he p hp)) (fun h => by
          subst hv
          exact wp_gt_unmarshal (w := ⟨⟨⟨GT.word m 0, GT.word m 1⟩, ⟨GT.word m 2, GT.word m 3⟩, ⟨GT.word m 4, GT.word m 5⟩⟩,
            ⟨⟨GT.word m 6, GT.word m 7⟩, ⟨GT.word m 8, GT.word m 9⟩, ⟨GT.word m 10, GT.word m 11⟩⟩⟩) h.2)
      simp only [BigM.assoc] at this
      exact this
    · rw [if_pos hm] at hv; cases hv

omit hs in
example := C74_gt_unmarshal (s := exHeap) (e := some exA) rfl (by ex_ok) (List.replicate 384 1)

/-! ### Pairings -/

/-- C74: `Pair` makes a new element with the value of the pairing, and changes nothing; it panics if the point in `G1` cannot be
made affine. -/
theorem C74_pair {g : BnGlobals} {p : CurveP} {q : TwistP} (hg : LiveCells s g.cells) (hi : g.Intact s.mem) (hp : Live s p)
    (hq : Live s q) (hgp : Disj g.cells (HeapObj.cells p)) (hgq : Disj g.cells (HeapObj.cells q))
    (hqp : Disj (HeapObj.cells q) (HeapObj.cells p)) :
    ((HeapObj.val s.mem p).Invertible → Gives (pairH g p q) s none (pair (HeapObj.val s.mem p) (HeapObj.val s.mem q))) ∧
    (¬ (HeapObj.val s.mem p).Invertible → pairH g p q s = .panic) := by
  have hk : Known s [own g (), own q (HeapObj.val s.mem q), own p (HeapObj.val s.mem p)] :=
    known_cons (known2 hs hq hp hqp) hg ((globals_val g s.mem).2 hi) (disj_cons hgq (disj_cons hgp disj_nil))
  refine ⟨fun h => ?_, fun h => ?_⟩
  · exact gives_new hk fun rest hr => wp_withPool' (Or.inr rfl) hr fun _ _ _ hr => wp_optimalAte h hr
  · have hr := hk.rel
    have h1 : Rel { s with pool := some [] } (own g () :: own q (HeapObj.val s.mem q) :: own p (HeapObj.val s.mem p) :: _) :=
      ⟨hr.2.nodup, fun q hq => ⟨(hr.2.cell q hq).1, by simp [BigHeap.free], (hr.2.cell q hq).2.2⟩, by simp [BigHeap.free],
        by simp [BigHeap.free]⟩
    show ((millerH g q p { s with pool := some [] } >>= _) >>= _) = _
    rw [miller_panic h h1]
    rfl

omit hs in
example := (C74_pair (s := exHeap) (g := exGlob) (p := exP) (q := exQ) rfl (by ex_ok) ⟨rfl, rfl, rfl, rfl, rfl, rfl, rfl⟩ (by ex_ok) (by ex_ok)
  (by ex_ok) (by ex_ok) (by ex_ok)).1 (CurvePoint.invertible_of_rep rep1_gen)

/-- C74: `PairingCheck` gives the verdict computed from the values and changes nothing, whatever points occur repeatedly in the
lists; it panics only if the second list is too short. -/
theorem C74_pairingCheck {g : BnGlobals} {a : List CurveP} {b : List TwistP} (hg : LiveCells s g.cells) (hi : g.Intact s.mem)
    (ha : ∀ p ∈ a, Live s p ∧ Disj (HeapObj.cells p) g.cells ∧ (HeapObj.val s.mem p).Invertible)
    (hb : ∀ q ∈ b, Live s q ∧ Disj (HeapObj.cells q) g.cells)
    (hab : ∀ p ∈ a, ∀ q ∈ b, Disj (HeapObj.cells q) (HeapObj.cells p)) :
    (∀ w, pairingCheck (a.map (HeapObj.val s.mem)) (b.map (HeapObj.val s.mem)) = .ok w → Returns (pairingCheckH g a b) s w) ∧
    (pairingCheck (a.map (HeapObj.val s.mem)) (b.map (HeapObj.val s.mem)) = .panic → pairingCheckH g a b s = .panic) := by
  have hk : Known s [own g ()] := known_cons (known_nil hs) hg ((globals_val g s.mem).2 hi) disj_nil
  have hin : ∀ c < s.next, c ∉ g.cells → (c, s.mem c) ∈ others s (([own g ()] : List (List (Cell × Int))).flatten.map Prod.fst) := by
    intro c hc hcg
    refine List.mem_map.2 ⟨c, List.mem_filter.2 ⟨List.mem_range.2 hc, ?_⟩, rfl⟩
    rw [decide_eq_true_eq, show ([own g ()] : List (List (Cell × Int))).flatten = own g () by simp, globals_cells]
    exact hcg
  have key := wp_pairingCheck (m := s.mem) (a := a) (b := b) hk.rel
    (fun p hp => ⟨(ha p hp).1.1, fun c hc => hin c ((ha p hp).1.2 c hc) ((ha p hp).2.1 c hc), (ha p hp).2.2⟩)
    (fun q hq => ⟨(hb q hq).1.1, fun c hc => hin c ((hb q hq).1.2 c hc) ((hb q hq).2 c hc)⟩) hab
  refine ⟨fun w hw => ?_, key.2⟩
  exact effect_of' (W := []) (W' := fun _ => []) (P := fun r => r = w) hk (key.1 w hw) (fun _ _ c hc => by simp at hc)
    (fun _ _ hr _ _ _ _ _ => hr)

omit hs in
example := (C74_pairingCheck (s := exHeap) (g := exGlob) (a := [exP, exP']) (b := [exQ, exQ]) rfl (by ex_ok)
  ⟨rfl, rfl, rfl, rfl, rfl, rfl, rfl⟩
  (by
    simp only [List.forall_mem_cons, List.not_mem_nil, false_implies, implies_true, and_true]
    exact ⟨⟨by ex_ok, by ex_ok, CurvePoint.invertible_of_rep rep1_gen⟩, by ex_ok, by ex_ok, CurvePoint.invertible_of_rep rep1_gen⟩)
  (by
    simp only [List.forall_mem_cons, List.not_mem_nil, false_implies, implies_true, and_true]
    exact ⟨⟨by ex_ok, by ex_ok⟩, by ex_ok, by ex_ok⟩)
  (by
    simp only [List.forall_mem_cons, List.not_mem_nil, false_implies, implies_true, and_true]
    exact ⟨⟨by ex_ok, by ex_ok⟩, by ex_ok, by ex_ok⟩)).1

end

/-! ### Sequences of calls -/

/-- C74: after a call, every object that shares nothing with what the call may write exists and has its old value. -/
theorem C74_keeps {α A V : Type} [HeapObj A V] {m : BigM α} {s : BigHeap} {W : List Cell} {Q : α → BigHeap → Prop}
    (h : Effect m s W Q) : ∃ r s', m s = .ok (r, s') ∧ s'.pool = none ∧ Q r s' ∧
      ∀ b : A, Live s b → Disj (HeapObj.cells b) W → Live s' b ∧ ∀ c ∈ HeapObj.cells b, s'.mem c = s.mem c := by
  obtain ⟨r, s', e, hp, hn, hm, hQ⟩ := h
  exact ⟨r, s', e, hp, hQ, fun b hb hd => ⟨⟨hb.1, fun c hc => (hb.2 c hc).trans_le hn⟩,
    fun c hc => hm c (hb.2 c hc) (hd c hc)⟩⟩

/-- The generator of `G2` after an addition in `G1`. -/
example := C74_keeps (A := TwistP) (V := TwistPoint) ((C74_g1_add (s := exHeap) (e := some exP0) (a := exP) (b := exP') rfl (by ex_ok) (by ex_ok)
  (by ex_ok) (by ex_ok) (by ex_ok) (by ex_ok)).1 (by simp [exP, exP0]))

/-- C74: a result made for a nil receiver shares nothing with objects that existed. -/
theorem C74_fresh {A B V W : Type} [HeapObj A V] [HeapObj B W] {s s' : BigHeap} {v : V} {r : A} (h : IsResult s none v r s')
    (b : B) (hb : Live s b) : Disj (HeapObj.cells r) (HeapObj.cells b) :=
  fun c hc hcb => absurd (hb.2 c hcb) (not_lt.2 (h.2.2.2 rfl c hc))

/-- The sum made for a nil receiver, and the generator of `G2`. -/
example : ∃ (r : CurveP) (s' : BigHeap), IsResult exHeap none (CurvePoint.add .new .gen .gen) r s' ∧ Disj (HeapObj.cells r) (HeapObj.cells exQ) := by
  obtain ⟨r, s', _, _, _, _, h⟩ := (C74_g1_add (s := exHeap) (e := none) (a := exP) (b := exP') rfl (by ex_ok) (by ex_ok)
    (by ex_ok) (by ex_ok) (by ex_ok) (by ex_ok)).1 nofun
  exact ⟨r, s', h, C74_fresh h exQ (by ex_ok)⟩

section
variable {s : BigHeap} (hs : s.pool = none)
include hs

/-- C74: operations of `G1` in memory, in terms of group elements. -/
theorem C74_g1_group {e : Option CurveP} {a b : CurveP} {Q R : BG1} (he : Live? s e) (ha : Live s a) (hb : Live s b)
    (hea : SameOrDisj? e a) (heb : SameOrDisj? e b) (hab : SameOrDisj a b) (hQ : Rep1 (HeapObj.val s.mem a) Q)
    (hR : Rep1 (HeapObj.val s.mem b) R) :
    (e ≠ some a ∨ Q ≠ R ∨ Q = 0 → ∃ v, Rep1 v (Q + R) ∧ Gives (G1H.add e a b) s e v) ∧
    (∃ v, Rep1 v (-Q) ∧ Gives (G1H.neg e a) s e v) ∧
    (∀ k : Int, ∃ v, Rep1 v (k • Q) ∧ Gives (G1H.scalarMult e a k) s e v) ∧
    Returns (G1H.isZero a) s (decide (Q = 0)) ∧
    (∃ bs, G1.unmarshal bs ≠ none ∧ Effect (G1H.marshal a) s (HeapObj.cells a) fun r s' =>
      r = bs ∧ Live s' a ∧ Rep1 (HeapObj.val s'.mem a) Q) := by
  refine ⟨fun h => ?_, ⟨_, C34_neg _ _ hQ, C74_g1_neg hs he ha hea⟩,
    fun k => ⟨_, C34_scalarMult _ _ _ hQ k, C74_g1_scalarMult hs he ha hea k⟩, ?_, ?_⟩
  · by_cases h1 : e = some a
    · exact ⟨_, C35_distinct _ _ _ _ hQ hR (h.resolve_left (not_not.2 h1)), (C74_g1_add hs he ha hb hea heb hab).2 h1⟩
    · exact ⟨_, C34_add _ _ _ _ _ hQ hR, (C74_g1_add hs he ha hb hea heb hab).1 h1⟩
  · have h := C74_g1_isZero hs ha
    rwa [show (HeapObj.val s.mem a).isInfinity = decide (Q = 0) from by
      rw [Bool.eq_iff_iff, decide_eq_true_eq]; exact (C34_rep _ Q Q).1 hQ] at h
  · obtain ⟨p, hp, _⟩ := C38_roundtrip _ _ hQ
    obtain ⟨r, s', h1, h2, h3, h4, h5, h6, h7⟩ := (C74_g1_marshal hs ha).1 (CurvePoint.invertible_of_rep hQ)
    exact ⟨_, by rw [hp]; simp, r, s', h1, h2, h3, h4, h5, h6, by rw [h7]; exact (C34_makeAffine _ _ hQ).1⟩

omit hs in
example := C74_g1_group (s := exHeap) (e := some exP0) (a := exP) (b := exP') rfl (by ex_ok) (by ex_ok) (by ex_ok) (by ex_ok) (by ex_ok)
  (by ex_ok) rep1_gen rep1_gen

/-- C74: operations of `G2` in memory, in terms of group elements. -/
theorem C74_g2_group {e : Option TwistP} {a b : TwistP} {Q R : BG2} (he : Live? s e) (ha : Live s a) (hb : Live s b)
    (hea : SameOrDisj? e a) (heb : SameOrDisj? e b) (hab : SameOrDisj a b) (hQ : Rep2 (HeapObj.val s.mem a) Q)
    (hR : Rep2 (HeapObj.val s.mem b) R) :
    (e ≠ some a ∨ Q ≠ R ∨ Q = 0 → ∃ v, Rep2 v (Q + R) ∧ Gives (G2H.add e a b) s e v) ∧
    (e ≠ some a → ∃ v, Rep2 v (-Q) ∧ Gives (G2H.neg e a) s e v) ∧
    (e = some a → Q ≠ -Q → ∃ v, OffTwist v ∧ Gives (G2H.neg e a) s e v) ∧
    (∀ k : Int, 0 ≤ k → ∃ v, Rep2 v (k • Q) ∧ Gives (G2H.scalarMult e a k) s e v) ∧
    (∀ k : Int, k < 0 → (2 * k) • Q ≠ 0 → ∃ v, OffTwist v ∧ Gives (G2H.scalarMult e a k) s e v) ∧
    Returns (G2H.isZero a) s (decide (Q = 0)) := by
  refine ⟨fun h => ?_, fun h => ⟨_, C36_neg _ _ hQ, (C74_g2_neg hs he ha hea).1 h⟩,
    fun h h2 => ⟨_, ((C36_neg_inplace _ _ hQ).2 h2).1, (C74_g2_neg hs he ha hea).2 h⟩,
    fun k hk => ⟨_, C36_scalarMult _ _ hQ k hk, C74_g2_scalarMult hs he ha hea k⟩,
    fun k hk h2 => ⟨_, ((C36_scalarMult_negative _ _ hQ k hk).2 h2).1, C74_g2_scalarMult hs he ha hea k⟩, ?_⟩
  · by_cases h1 : e = some a
    · exact ⟨_, C35_distinct2 _ _ _ _ hQ hR (h.resolve_left (not_not.2 h1)), (C74_g2_add hs he ha hb hea heb hab).2 h1⟩
    · exact ⟨_, C36_add _ _ _ _ _ hQ hR, (C74_g2_add hs he ha hb hea heb hab).1 h1⟩
  · have h := C74_g2_isZero hs ha
    rwa [show (HeapObj.val s.mem a).isInfinity = decide (Q = 0) from by
      rw [Bool.eq_iff_iff, decide_eq_true_eq]; exact (C36_rep _ Q Q).1 hQ] at h

omit hs in
example := C74_g2_group (s := exHeap) (e := some exQ) (a := exQ) (b := exQ') rfl (by ex_ok) (by ex_ok) (by ex_ok) (by ex_ok) (by ex_ok)
  (by ex_ok) rep2_gen rep2_gen

end

/-! ### The hypotheses can be met -/

/-- A memory with the generator of `G1` in cells 0 to 3, an equal point in cells 4 to 7, and a third point in cells 8 to 11. -/
private def heap1 : BigHeap := ⟨fun c => [1, -2, 1, 1, 1, -2, 1, 1, 0, 0, 0, 0].getD c 0, 12, none⟩

/-- `e.Add(a, b)` with three objects, with `e = b`, with `a = b` and with a nil receiver: `2·g`. -/
example : let a : CurveP := ⟨0, 1, 2, 3⟩; let b : CurveP := ⟨4, 5, 6, 7⟩; let c : CurveP := ⟨8, 9, 10, 11⟩
    ∀ x ∈ [(some c, a, b), (some b, a, b), (some c, a, a), (none, b, b)],
      ∃ v, Rep1 v (bnG1 + bnG1) ∧ Gives (G1H.add x.1 x.2.1 x.2.2) heap1 x.1 v := by
  intro a b c x hx
  have hv : HeapObj.val heap1.mem a = .gen := by decide
  have hw : HeapObj.val heap1.mem b = .gen := by decide
  have la : Live heap1 a := by simp [Live, LiveCells, HeapObj.cells, a, heap1]
  have lb : Live heap1 b := by simp [Live, LiveCells, HeapObj.cells, b, heap1]
  have lc : Live heap1 c := by simp [Live, LiveCells, HeapObj.cells, c, heap1]
  have hab : SameOrDisj a b := Or.inr (by simp [Disj, HeapObj.cells, a, b])
  have hba : SameOrDisj b a := Or.inr (by simp [Disj, HeapObj.cells, a, b])
  have hca : SameOrDisj c a := Or.inr (by simp [Disj, HeapObj.cells, a, c])
  have hcb : SameOrDisj c b := Or.inr (by simp [Disj, HeapObj.cells, b, c])
  have n1 : some c ≠ some a := by simp [a, c]
  have n2 : some b ≠ some a := by simp [a, b]
  have ra : Rep1 (HeapObj.val heap1.mem a) bnG1 := hv ▸ rep1_gen
  have rb : Rep1 (HeapObj.val heap1.mem b) bnG1 := hw ▸ rep1_gen
  simp only [List.mem_cons, List.not_mem_nil, or_false] at hx
  rcases hx with rfl | rfl | rfl | rfl
  · exact (C74_g1_group rfl (fun p h => by cases h; exact lc) la lb (fun p h => by cases h; exact hca)
      (fun p h => by cases h; exact hcb) hab ra rb).1 (Or.inl n1)
  · exact (C74_g1_group rfl (fun p h => by cases h; exact lb) la lb (fun p h => by cases h; exact hba)
      (fun p h => by cases h; exact Or.inl rfl) hab ra rb).1 (Or.inl n2)
  · exact (C74_g1_group rfl (fun p h => by cases h; exact lc) la la (fun p h => by cases h; exact hca)
      (fun p h => by cases h; exact hca) (Or.inl rfl) ra ra).1 (Or.inl n1)
  · exact (C74_g1_group rfl (fun p h => by cases h) lb lb (fun p h => by cases h)
      (fun p h => by cases h) (Or.inl rfl) rb rb).1 (Or.inl (by simp))

/-- A memory with the package variables in cells 0 to 10, the generator of `G1` in cells 11 to 14 and that of `G2` in
cells 15 to 22. -/
private def heap2 : BigHeap :=
  ⟨fun c => [xiToPMinus1Over6.x, xiToPMinus1Over6.y, xiToPMinus1Over3.x, xiToPMinus1Over3.y, xiToPMinus1Over2.x,
    xiToPMinus1Over2.y, xiTo2PMinus2Over3.x, xiTo2PMinus2Over3.y, xiToPSquaredMinus1Over3, xiTo2PSquaredMinus2Over3,
    xiToPSquaredMinus1Over6, 1, -2, 1, 1, TwistPoint.gen.x.x, TwistPoint.gen.x.y, TwistPoint.gen.y.x, TwistPoint.gen.y.y,
    TwistPoint.gen.z.x, TwistPoint.gen.z.y, TwistPoint.gen.t.x, TwistPoint.gen.t.y].getD c 0, 23, none⟩

/-- `Pair` of the generators there, and `PairingCheck` of lists in which they occur twice. -/
example : let g : BnGlobals := ⟨⟨0, 1⟩, ⟨2, 3⟩, ⟨4, 5⟩, ⟨6, 7⟩, 8, 9, 10⟩; let p : CurveP := ⟨11, 12, 13, 14⟩
    let q : TwistP := ⟨⟨15, 16⟩, ⟨17, 18⟩, ⟨19, 20⟩, ⟨21, 22⟩⟩
    Gives (pairH g p q) heap2 none (pair .gen .gen) ∧
    ∀ w, pairingCheck [.gen, .gen] [.gen, .gen] = .ok w → Returns (pairingCheckH g [p, p] [q, q]) heap2 w := by
  intro g p q
  have hg : LiveCells heap2 g.cells := by simp [LiveCells, BnGlobals.cells, HeapObj.cells, g, heap2]
  have hp : Live heap2 p := by simp [Live, LiveCells, HeapObj.cells, p, heap2]
  have hq : Live heap2 q := by simp [Live, LiveCells, HeapObj.cells, q, heap2]
  have hi : g.Intact heap2.mem := ⟨rfl, rfl, rfl, rfl, rfl, rfl, rfl⟩
  have d1 : Disj g.cells (HeapObj.cells p) := by simp [Disj, BnGlobals.cells, HeapObj.cells, g, p]
  have d2 : Disj g.cells (HeapObj.cells q) := by simp [Disj, BnGlobals.cells, HeapObj.cells, g, q]
  have d3 : Disj (HeapObj.cells q) (HeapObj.cells p) := by simp [Disj, HeapObj.cells, q, p]
  have e1 : HeapObj.val heap2.mem p = .gen := by decide
  have e2 : HeapObj.val heap2.mem q = .gen := rfl
  have iv : (HeapObj.val heap2.mem p).Invertible := e1 ▸ CurvePoint.invertible_of_rep rep1_gen
  have h1 := (C74_pair rfl hg hi hp hq d1 d2 d3).1 iv
  have h2 := (C74_pairingCheck (a := [p, p]) (b := [q, q]) rfl hg hi (by simp [hp, disj_symm d1, iv])
    (by simp [hq, disj_symm d2]) (by simp [d3])).1
  rw [e1, e2] at h1
  simp only [List.map_cons, List.map_nil, e1, e2] at h2
  exact ⟨h1, h2⟩

end Verif

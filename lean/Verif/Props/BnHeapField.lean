import Verif.Lemmas.BnHeapEx
import Verif.Lemmas.BnHeapSets
import Verif.Props.BnField

/-!
# C89: the methods of the fields of bn256 on objects in memory

`e.Op(a, b, pool)` of gfp2.go, gfp6.go and gfp12.go with the objects `e`, `a`, `b` different or the same, called without a pool or
with a new one, as all exported functions do.
-/

namespace Verif

open BigM

/-- After the call `e` has the value `v`; no other object has changed. -/
def Sets {A V : Type} [HeapObj A V] (m : BigM Unit) (s : BigHeap) (e : A) (v : V) : Prop :=
  Effect m s (HeapObj.cells e) fun _ s' => Live s' e ∧ HeapObj.val s'.mem e = v

variable {s : BigHeap} {pl : Option (List Cell)} (hs : s.pool = none) (hpl : pl = none ∨ pl = some [])
include hs hpl

/-- C89: methods of `gfP2` with up to two operands, each of them possibly the receiver. -/
theorem C89_gfP2 {e a b : Gf2} (he : Live s e) (ha : Live s a) (hb : Live s b) (hea : SameOrDisj e a) (heb : SameOrDisj e b)
    (hab : SameOrDisj a b) (k : Int) :
    let va := HeapObj.val s.mem a
    let vb := HeapObj.val s.mem b
    Sets (withPool pl (e.add a b)) s e (va.add vb) ∧ Sets (withPool pl (e.sub a b)) s e (va.sub vb) ∧
    Sets (withPool pl (e.mul a b)) s e (va.mul vb) ∧ Sets (withPool pl (e.set a)) s e va ∧
    Sets (withPool pl (e.neg a)) s e va.neg ∧ Sets (withPool pl (e.conj a)) s e va.conj ∧
    Sets (withPool pl (e.double a)) s e va.double ∧ Sets (withPool pl (e.square a)) s e va.square ∧
    Sets (withPool pl (e.mulXi a)) s e va.mulXi ∧ Sets (withPool pl (e.invert a)) s e va.invert ∧
    Sets (withPool pl (e.exp a k)) s e (va.exp k) :=
  ⟨sets_op2 hpl hs he ha hb hea heb hab, sets_op2 hpl hs he ha hb hea heb hab, sets_op2 hpl hs he ha hb hea heb hab,
    sets_op1 (m := Gf2.set) (f := fun a => a) hpl hs he ha hea, sets_op1 hpl hs he ha hea,
    sets_op1 hpl hs he ha hea, sets_op1 hpl hs he ha hea,
    sets_op1 hpl hs he ha hea, sets_op1 hpl hs he ha hea, sets_op1 hpl hs he ha hea,
    sets_op1 (m := fun c a => Gf2.exp c a k) hpl hs he ha hea⟩

omit hs hpl in
/-- Three objects without a pool, and one object for all three with one. -/
example :=
  And.intro (C89_gfP2 (s := exHeap) (pl := none) (e := exA.x.x) (a := exA.x.y) (b := exB.x.x) rfl (by ex_ok) (by ex_ok) (by ex_ok) (by ex_ok)
      (by ex_ok) (by ex_ok) (by ex_ok) 5)
    (C89_gfP2 (s := exHeap) (pl := some []) (e := exA.x.x) (a := exA.x.x) (b := exA.x.x) rfl (Or.inr rfl) (by ex_ok) (by ex_ok) (by ex_ok)
      (by ex_ok) (by ex_ok) (by ex_ok) (-5))

/-- C89: methods of `gfP6` with up to two operands. -/
theorem C89_gfP6 {e a b : Gf6} (he : Live s e) (ha : Live s a) (hb : Live s b) (hea : SameOrDisj e a) (heb : SameOrDisj e b)
    (hab : SameOrDisj a b) :
    let va := HeapObj.val s.mem a
    let vb := HeapObj.val s.mem b
    Sets (withPool pl (e.add a b)) s e (va.add vb) ∧ Sets (withPool pl (e.sub a b)) s e (va.sub vb) ∧
    Sets (withPool pl (e.mul a b)) s e (va.mul vb) ∧ Sets (withPool pl (e.set a)) s e va ∧
    Sets (withPool pl (e.neg a)) s e va.neg ∧ Sets (withPool pl (e.double a)) s e va.double ∧
    Sets (withPool pl (e.square a)) s e va.square ∧ Sets (withPool pl (e.mulTau a)) s e va.mulTau ∧
    Sets (withPool pl (e.invert a)) s e va.invert :=
  ⟨sets_op2 hpl hs he ha hb hea heb hab, sets_op2 hpl hs he ha hb hea heb hab, sets_op2 hpl hs he ha hb hea heb hab,
    sets_op1 (m := Gf6.set) (f := fun a => a) hpl hs he ha hea, sets_op1 hpl hs he ha hea,
    sets_op1 hpl hs he ha hea, sets_op1 hpl hs he ha hea,
    sets_op1 hpl hs he ha hea, sets_op1 hpl hs he ha hea⟩

omit hs hpl in
example :=
  And.intro (C89_gfP6 (s := exHeap) (pl := none) (e := exA.x) (a := exA.y) (b := exB.x) rfl (by ex_ok) (by ex_ok) (by ex_ok) (by ex_ok)
      (by ex_ok) (by ex_ok) (by ex_ok))
    (C89_gfP6 (s := exHeap) (pl := some []) (e := exA.x) (a := exA.x) (b := exA.x) rfl (Or.inr rfl) (by ex_ok) (by ex_ok) (by ex_ok)
      (by ex_ok) (by ex_ok) (by ex_ok))

/-- C89: methods of `gfP12` with up to two operands. -/
theorem C89_gfP12 {e a b : Gf12} (he : Live s e) (ha : Live s a) (hb : Live s b) (hea : SameOrDisj e a) (heb : SameOrDisj e b)
    (hab : SameOrDisj a b) (k : Int) :
    let va := HeapObj.val s.mem a
    let vb := HeapObj.val s.mem b
    Sets (withPool pl (e.add a b)) s e (va.add vb) ∧ Sets (withPool pl (e.sub a b)) s e (va.sub vb) ∧
    Sets (withPool pl (e.mul a b)) s e (va.mul vb) ∧ Sets (withPool pl (e.set a)) s e va ∧
    Sets (withPool pl (e.neg a)) s e va.neg ∧ Sets (withPool pl (e.conj a)) s e va.conj ∧
    Sets (withPool pl (e.square a)) s e va.square ∧ Sets (withPool pl (e.invert a)) s e va.invert ∧
    Sets (withPool pl (e.exp a k)) s e (va.exp k) :=
  ⟨sets_op2 hpl hs he ha hb hea heb hab, sets_op2 hpl hs he ha hb hea heb hab, sets_op2 hpl hs he ha hb hea heb hab,
    sets_op1 (m := Gf12.set) (f := fun a => a) hpl hs he ha hea, sets_op1 hpl hs he ha hea,
    sets_op1 hpl hs he ha hea, sets_op1 hpl hs he ha hea,
    sets_op1 hpl hs he ha hea, sets_op1 (m := fun c a => Gf12.exp c a k) hpl hs he ha hea⟩

omit hs hpl in
example :=
  And.intro (C89_gfP12 (s := exHeap) (pl := none) (e := exC) (a := exA) (b := exB) rfl (by ex_ok) (by ex_ok) (by ex_ok) (by ex_ok)
      (by ex_ok) (by ex_ok) (by ex_ok) 5)
    (C89_gfP12 (s := exHeap) (pl := some []) (e := exA) (a := exA) (b := exB) rfl (Or.inr rfl) (by ex_ok) (by ex_ok) (by ex_ok)
      (by ex_ok) (by ex_ok) (by ex_ok) (-5))

/-- C89: constants, `Minimal` and the tests.  `IsZero` and `IsOne` of `gfP12` reduce the element. -/
theorem C89_unary {a : Gf2} {b : Gf6} {c : Gf12} (ha : Live s a) (hb : Live s b) (hc : Live s c) :
    (Sets (withPool pl a.setZero) s a .zero ∧ Sets (withPool pl a.setOne) s a .one ∧
      Sets (withPool pl a.minimal) s a (HeapObj.val s.mem a).minimal ∧
      Returns (withPool pl a.isZero) s (HeapObj.val s.mem a).isZero ∧ Returns (withPool pl a.isOne) s (HeapObj.val s.mem a).isOne) ∧
    (Sets (withPool pl b.setZero) s b .zero ∧ Sets (withPool pl b.setOne) s b .one ∧
      Sets (withPool pl b.minimal) s b (HeapObj.val s.mem b).minimal ∧
      Returns (withPool pl b.isZero) s (HeapObj.val s.mem b).isZero ∧ Returns (withPool pl b.isOne) s (HeapObj.val s.mem b).isOne) ∧
    (Sets (withPool pl c.setZero) s c .zero ∧ Sets (withPool pl c.setOne) s c .one ∧
      Sets (withPool pl c.minimal) s c (HeapObj.val s.mem c).minimal ∧
      Effect (withPool pl c.isZero) s (HeapObj.cells c) (fun r s' => r = (HeapObj.val s.mem c).isZero ∧ Live s' c ∧
        HeapObj.val s'.mem c = (HeapObj.val s.mem c).minimal) ∧
      Effect (withPool pl c.isOne) s (HeapObj.cells c) (fun r s' => r = (HeapObj.val s.mem c).isOne ∧ Live s' c ∧
        HeapObj.val s'.mem c = (HeapObj.val s.mem c).minimal)) :=
  ⟨⟨sets_self (m := Gf2.setZero) (f := fun _ => .zero) hpl hs ha fun h => Op0.run h,
      sets_self (m := Gf2.setOne) (f := fun _ => .one) hpl hs ha fun h => Op0.run h,
      sets_self hpl hs ha fun h => OpSelf.run h, sets_test hpl hs ha, sets_test hpl hs ha⟩,
    ⟨sets_self (m := Gf6.setZero) (f := fun _ => .zero) hpl hs hb fun h => Op0.run h,
      sets_self (m := Gf6.setOne) (f := fun _ => .one) hpl hs hb fun h => Op0.run h,
      sets_self hpl hs hb fun h => OpSelf.run h, sets_test hpl hs hb, sets_test hpl hs hb⟩,
    ⟨sets_self (m := Gf12.setZero) (f := fun _ => .zero) hpl hs hc fun h => Op0.run h,
      sets_self (m := Gf12.setOne) (f := fun _ => .one) hpl hs hc fun h => Op0.run h,
      sets_self hpl hs hc fun h => OpSelf.run h,
      effect_self hs hc fun h => wp_withPool hpl h fun _ _ _ h => Gf12.wp_isZero h,
      effect_self hs hc fun h => wp_withPool hpl h fun _ _ _ h => Gf12.wp_isOne h⟩⟩

omit hs hpl in
example := C89_unary (s := exHeap) (pl := none) (a := exA.x.x) (b := exA.x) (c := exA) rfl (by ex_ok) (by ex_ok) (by ex_ok) (by ex_ok)

/-- C89: `MulScalar` and `MulGFP` with a factor apart from the receiver and the operand. -/
theorem C89_scalars {a a' : Gf2} {b b' : Gf6} (c : Cell) {d : Gf2} (ha : Live s a) (ha' : Live s a') (hb : Live s b)
    (hb' : Live s b') (hd : Live s d) (hc : c < s.next) (h1 : SameOrDisj a a') (h2 : SameOrDisj b b')
    (h3 : c ∉ HeapObj.cells a) (h4 : c ∉ HeapObj.cells a') (h5 : c ∉ HeapObj.cells b) (h6 : c ∉ HeapObj.cells b')
    (h7 : Disj (HeapObj.cells b) (HeapObj.cells d)) (h8 : Disj (HeapObj.cells b') (HeapObj.cells d)) :
    Sets (withPool pl (a.mulScalar a' c)) s a ((HeapObj.val s.mem a').mulScalar (s.mem c)) ∧
    Sets (withPool pl (b.mulGFP b' c)) s b ((HeapObj.val s.mem b').mulGFP (s.mem c)) ∧
    Sets (withPool pl (b.mulScalar b' d)) s b ((HeapObj.val s.mem b').mulScalar (HeapObj.val s.mem d)) := by
  have hl : LiveCells s ((own c (s.mem c)).map Prod.fst) := ⟨List.nodup_singleton c, fun x hx => by
    obtain rfl : x = c := by simpa [own, Ob.flat] using hx
    exact hc⟩
  have hv : ∀ p ∈ own c (s.mem c), s.mem p.1 = p.2 := fun p hp => by
    obtain rfl : p = (c, s.mem c) := by simpa [own, Ob.flat] using hp
    rfl
  have hn : ∀ {l : List Cell}, c ∉ l → Disj l ((own c (s.mem c)).map Prod.fst) := fun h x hx hxc => by
    obtain rfl : x = c := by simpa [own, Ob.flat] using hxc
    exact h hx
  exact ⟨sets_opM hpl hs ha ha' hl hv h1 (hn h3) (hn h4), sets_opM hpl hs hb hb' hl hv h2 (hn h5) (hn h6),
    sets_opM hpl hs hb hb' hd ((ObjLaw.val d _ s.mem).2 rfl) h2 h7 h8⟩

omit hs hpl in
example := C89_scalars (s := exHeap) (pl := none) (a := exA.x.x) (a' := exA.x.y) (b := exA.y) (b' := exB.x) (d := exB.y.x) rfl (by ex_ok) 90
  (by ex_ok) (by ex_ok) (by ex_ok) (by ex_ok) (by ex_ok) (by decide) (by ex_ok) (by ex_ok) (by decide) (by decide) (by decide) (by decide)
  (by ex_ok) (by ex_ok)

/-- C89: the Frobenius maps, as long as the package variables of constants.go hold their values. -/
theorem C89_frobenius {a a' : Gf6} {b b' : Gf12} {g : BnGlobals} (ha : Live s a) (ha' : Live s a') (hb : Live s b)
    (hb' : Live s b') (hg : LiveCells s g.cells) (hi : g.Intact s.mem) (h1 : SameOrDisj a a') (h2 : SameOrDisj b b')
    (h3 : Disj (HeapObj.cells a) g.cells) (h4 : Disj (HeapObj.cells a') g.cells) (h5 : Disj (HeapObj.cells b) g.cells)
    (h6 : Disj (HeapObj.cells b') g.cells) :
    Sets (withPool pl (a.frobenius a' g)) s a (HeapObj.val s.mem a').frobenius ∧
    Sets (withPool pl (a.frobeniusP2 a' g)) s a (HeapObj.val s.mem a').frobeniusP2 ∧
    Sets (withPool pl (b.frobenius b' g)) s b (HeapObj.val s.mem b').frobenius ∧
    Sets (withPool pl (b.frobeniusP2 b' g)) s b (HeapObj.val s.mem b').frobeniusP2 := by
  have hv := (globals_val g s.mem).2 hi
  exact ⟨sets_opM (m := Gf6.frobenius) (f := fun a (_ : Unit) => GfP6.frobenius a) (c := g) hpl hs ha ha' hg hv h1 h3 h4,
    sets_opM (m := Gf6.frobeniusP2) (f := fun a (_ : Unit) => GfP6.frobeniusP2 a) (c := g) hpl hs ha ha' hg hv h1 h3 h4,
    sets_opM (m := Gf12.frobenius) (f := fun a (_ : Unit) => GfP12.frobenius a) (c := g) hpl hs hb hb' hg hv h2 h5 h6,
    sets_opM (m := Gf12.frobeniusP2) (f := fun a (_ : Unit) => GfP12.frobeniusP2 a) (c := g) hpl hs hb hb' hg hv h2 h5 h6⟩

omit hs hpl in
example := C89_frobenius (s := exHeap) (pl := some []) (a := exA.x) (a' := exA.y) (b := exB) (b' := exB) (g := exGlob) rfl (Or.inr rfl)
  (by ex_ok) (by ex_ok) (by ex_ok) (by ex_ok) (by ex_ok) ⟨rfl, rfl, rfl, rfl, rfl, rfl, rfl⟩ (by ex_ok) (by ex_ok) (by ex_ok) (by ex_ok)
  (by ex_ok) (by ex_ok)

/-- C89: `MulScalar` of `gfP12` multiplies the receiver and does not read the operand. -/
theorem C89_mulScalar {e : Gf12} (a : Gf12) {b : Gf6} (he : Live s e) (hb : Live s b) (heb : Disj (HeapObj.cells e) (HeapObj.cells b)) :
    Sets (withPool pl (e.mulScalar a b)) s e ((HeapObj.val s.mem e).mulScalar (HeapObj.val s.mem a) (HeapObj.val s.mem b)) := by
  refine effect_gives (gives_old (known2 hs he hb heb) fun rest h => ?_)
  refine Wp.bind (wp_withPool' (Γ' := fun _ => own e ((HeapObj.val s.mem e).mulScalar (HeapObj.val s.mem a) (HeapObj.val s.mem b)) ::
    own b (HeapObj.val s.mem b) :: [rest]) hpl h fun s1 _ _ h => ?_) fun _ _ h => Wp.pure ⟨rfl, h⟩
  replace h : Rel s1 (own e.x (HeapObj.val s.mem e).x :: own e.y (HeapObj.val s.mem e).y :: own b (HeapObj.val s.mem b) :: [rest]) := h
  unfold Gf12.mulScalar
  wp_run

omit hs hpl in
example := C89_mulScalar (s := exHeap) (pl := none) (e := exC) rfl (by ex_ok) exA (b := exB.x) (by ex_ok) (by ex_ok) (by ex_ok)

/-- C89: so a product in memory is the product in the field, whichever of the three objects are the same. -/
theorem C89_product {e a b : Gf12} (he : Live s e) (ha : Live s a) (hb : Live s b) (hea : SameOrDisj e a) (heb : SameOrDisj e b)
    (hab : SameOrDisj a b) : Effect (withPool pl (e.mul a b)) s (HeapObj.cells e) fun _ s' =>
      (HeapObj.val s'.mem e).val = (HeapObj.val s.mem a).val * (HeapObj.val s.mem b).val := by
  obtain ⟨r, s', h1, h2, h3, h4, _, h5⟩ := (C89_gfP12 hs hpl he ha hb hea heb hab 0).2.2.1
  exact ⟨r, s', h1, h2, h3, h4, by simp only [h5]; exact (C42_gfP12 _ _ .zero).2.2.2.2.2.1⟩

omit hs hpl in
/-- A memory of 30 cells, each with its own number; products with all the objects different, with two the same, and with all the same,
without a pool and with one. -/
example : let s : BigHeap := ⟨fun i => i, 30, none⟩
    let a : Gf2 := ⟨0, 1⟩
    let b : Gf2 := ⟨2, 3⟩
    let c : Gf2 := ⟨4, 5⟩
    Sets (withPool none (c.mul a b)) s c (GfP2.mul ⟨0, 1⟩ ⟨2, 3⟩) ∧ Sets (withPool (some []) (a.mul a b)) s a (GfP2.mul ⟨0, 1⟩ ⟨2, 3⟩) ∧
    Sets (withPool none (b.mul a b)) s b (GfP2.mul ⟨0, 1⟩ ⟨2, 3⟩) ∧ Sets (withPool (some []) (c.mul a a)) s c (GfP2.mul ⟨0, 1⟩ ⟨0, 1⟩) ∧
    Sets (withPool none (b.mul b b)) s b (GfP2.mul ⟨2, 3⟩ ⟨2, 3⟩) ∧ Sets (withPool none (b.exp b (-3))) s b (GfP2.exp ⟨2, 3⟩ (-3)) := by
  intro s a b c
  have ha : Live s a := ⟨by simp [HeapObj.cells, a], by simp [HeapObj.cells, a, s]⟩
  have hb : Live s b := ⟨by simp [HeapObj.cells, b], by simp [HeapObj.cells, b, s]⟩
  have hc : Live s c := ⟨by simp [HeapObj.cells, c], by simp [HeapObj.cells, c, s]⟩
  have hab : SameOrDisj a b := Or.inr (by simp [Disj, HeapObj.cells, a, b])
  have hba : SameOrDisj b a := Or.inr (by simp [Disj, HeapObj.cells, a, b])
  have hca : SameOrDisj c a := Or.inr (by simp [Disj, HeapObj.cells, a, c])
  have hcb : SameOrDisj c b := Or.inr (by simp [Disj, HeapObj.cells, b, c])
  have h : ∀ x : Gf2, SameOrDisj x x := fun _ => Or.inl rfl
  exact ⟨(C89_gfP2 rfl (Or.inl rfl) hc ha hb hca hcb hab 0).2.2.1, (C89_gfP2 rfl (Or.inr rfl) ha ha hb (h a) hab hab 0).2.2.1,
    (C89_gfP2 rfl (Or.inl rfl) hb ha hb hba (h b) hab 0).2.2.1, (C89_gfP2 rfl (Or.inr rfl) hc ha ha hca hca (h a) 0).2.2.1,
    (C89_gfP2 rfl (Or.inl rfl) hb hb hb (h b) (h b) (h b) 0).2.2.1,
    (C89_gfP2 rfl (Or.inl rfl) hb hb hb (h b) (h b) (h b) (-3)).2.2.2.2.2.2.2.2.2.2⟩

end Verif

import Verif.Spec.BnPool
import Verif.Spec.BnHeap
import Verif.Lemmas.BnPoolMul

/-!
# C91: the pool of `big.Int` objects

`Count()` of a pool after a method: the objects the method took and did not give back.
-/

namespace Verif

open BigM

/-- C91: the methods of `gfP2` give back every object they take, whatever the receiver and the arguments; `new` and `Put` count what they are for. -/
theorem C91_gfP2 :
    (Keeps (Gf2.new) 2) ∧
    (∀ (d : Gf2), Keeps (Gf2.put d) (-2)) ∧
    (∀ (d a : Gf2), Keeps (Gf2.set d a) 0) ∧
    (∀ (d : Gf2), Keeps (Gf2.setZero d) 0) ∧
    (∀ (d : Gf2), Keeps (Gf2.setOne d) 0) ∧
    (∀ (d : Gf2), Keeps (Gf2.minimal d) 0) ∧
    (∀ (d : Gf2), Keeps (Gf2.isZero d) 0) ∧
    (∀ (d : Gf2), Keeps (Gf2.isOne d) 0) ∧
    (∀ (d a : Gf2), Keeps (Gf2.conj d a) 0) ∧
    (∀ (d a : Gf2), Keeps (Gf2.neg d a) 0) ∧
    (∀ (d a b : Gf2), Keeps (Gf2.add d a b) 0) ∧
    (∀ (d a b : Gf2), Keeps (Gf2.sub d a b) 0) ∧
    (∀ (d a : Gf2), Keeps (Gf2.double d a) 0) ∧
    (∀ (d a b : Gf2), Keeps (Gf2.mul d a b) 0) ∧
    (∀ (d a : Gf2) (b : Cell), Keeps (Gf2.mulScalar d a b) 0) ∧
    (∀ (d a : Gf2), Keeps (Gf2.mulXi d a) 0) ∧
    (∀ (d a : Gf2), Keeps (Gf2.square d a) 0) ∧
    (∀ (d a : Gf2), Keeps (Gf2.invert d a) 0) ∧
    (∀ (c a : Gf2) (power : Int), Keeps (Gf2.exp c a power) 0) :=
  ⟨KeepsC.out, fun _ => KeepsC.out, fun _ _ => KeepsC.out, fun _ => KeepsC.out, fun _ => KeepsC.out, fun _ => KeepsC.out, fun _ => KeepsC.out, fun _ => KeepsC.out, fun _ _ => KeepsC.out, fun _ _ => KeepsC.out, fun _ _ _ => KeepsC.out, fun _ _ _ => KeepsC.out, fun _ _ => KeepsC.out, fun _ _ _ => KeepsC.out, fun _ _ _ => KeepsC.out, fun _ _ => KeepsC.out, fun _ _ => KeepsC.out, fun _ _ => KeepsC.out, fun _ _ _ => KeepsC.out⟩

/-- C91: the methods of `gfP6` give back every object they take, whatever the receiver and the arguments; `new` and `Put` count what they are for. -/
theorem C91_gfP6 :
    (Keeps (Gf6.new) 6) ∧
    (∀ (d : Gf6), Keeps (Gf6.put d) (-6)) ∧
    (∀ (d a : Gf6), Keeps (Gf6.set d a) 0) ∧
    (∀ (d : Gf6), Keeps (Gf6.setZero d) 0) ∧
    (∀ (d : Gf6), Keeps (Gf6.setOne d) 0) ∧
    (∀ (d : Gf6), Keeps (Gf6.minimal d) 0) ∧
    (∀ (d : Gf6), Keeps (Gf6.isZero d) 0) ∧
    (∀ (d : Gf6), Keeps (Gf6.isOne d) 0) ∧
    (∀ (d a : Gf6), Keeps (Gf6.neg d a) 0) ∧
    (∀ (d a b : Gf6), Keeps (Gf6.add d a b) 0) ∧
    (∀ (d a b : Gf6), Keeps (Gf6.sub d a b) 0) ∧
    (∀ (d a : Gf6), Keeps (Gf6.double d a) 0) ∧
    (∀ (d a b : Gf6), Keeps (Gf6.mul d a b) 0) ∧
    (∀ (d a : Gf6), Keeps (Gf6.mulTau d a) 0) ∧
    (∀ (d a : Gf6), Keeps (Gf6.square d a) 0) ∧
    (∀ (d a : Gf6), Keeps (Gf6.invert d a) 0) ∧
    (∀ (d a : Gf6) (b : Gf2), Keeps (Gf6.mulScalar d a b) 0) ∧
    (∀ (d a : Gf6) (b : Cell), Keeps (Gf6.mulGFP d a b) 0) ∧
    (∀ (d a : Gf6) (g : BnGlobals), Keeps (Gf6.frobenius d a g) 0) ∧
    (∀ (d a : Gf6) (g : BnGlobals), Keeps (Gf6.frobeniusP2 d a g) 0) :=
  ⟨KeepsC.out, fun _ => KeepsC.out, fun _ _ => KeepsC.out, fun _ => KeepsC.out, fun _ => KeepsC.out, fun _ => KeepsC.out, fun _ => KeepsC.out, fun _ => KeepsC.out, fun _ _ => KeepsC.out, fun _ _ _ => KeepsC.out, fun _ _ _ => KeepsC.out, fun _ _ => KeepsC.out, fun _ _ _ => KeepsC.out, fun _ _ => KeepsC.out, fun _ _ => KeepsC.out, fun _ _ => KeepsC.out, fun _ _ _ => KeepsC.out, fun _ _ _ => KeepsC.out, fun _ _ _ => KeepsC.out, fun _ _ _ => KeepsC.out⟩

/-- C91: the methods of `gfP12` give back every object they take, whatever the receiver and the arguments; `new` and `Put` count what they are for. -/
theorem C91_gfP12 :
    (Keeps (Gf12.new) 12) ∧
    (∀ (d : Gf12), Keeps (Gf12.put d) (-12)) ∧
    (∀ (d a : Gf12), Keeps (Gf12.set d a) 0) ∧
    (∀ (d : Gf12), Keeps (Gf12.setZero d) 0) ∧
    (∀ (d : Gf12), Keeps (Gf12.setOne d) 0) ∧
    (∀ (d : Gf12), Keeps (Gf12.minimal d) 0) ∧
    (∀ (d : Gf12), Keeps (Gf12.isZero d) 0) ∧
    (∀ (d : Gf12), Keeps (Gf12.isOne d) 0) ∧
    (∀ (d a : Gf12), Keeps (Gf12.conj d a) 0) ∧
    (∀ (d a : Gf12), Keeps (Gf12.neg d a) 0) ∧
    (∀ (d a b : Gf12), Keeps (Gf12.add d a b) 0) ∧
    (∀ (d a b : Gf12), Keeps (Gf12.sub d a b) 0) ∧
    (∀ (d a b : Gf12), Keeps (Gf12.mul d a b) 0) ∧
    (∀ (d a : Gf12), Keeps (Gf12.square d a) 0) ∧
    (∀ (d a : Gf12) (b : Gf6), Keeps (Gf12.mulScalar d a b) 0) ∧
    (∀ (d a : Gf12), Keeps (Gf12.invert d a) 0) ∧
    (∀ (c a : Gf12) (power : Int), Keeps (Gf12.exp c a power) 0) ∧
    (∀ (d a : Gf12) (g : BnGlobals), Keeps (Gf12.frobenius d a g) 0) ∧
    (∀ (d a : Gf12) (g : BnGlobals), Keeps (Gf12.frobeniusP2 d a g) 0) :=
  ⟨KeepsC.out, fun _ => KeepsC.out, fun _ _ => KeepsC.out, fun _ => KeepsC.out, fun _ => KeepsC.out, fun _ => KeepsC.out, fun _ => KeepsC.out, fun _ => KeepsC.out, fun _ _ => KeepsC.out, fun _ _ => KeepsC.out, fun _ _ _ => KeepsC.out, fun _ _ _ => KeepsC.out, fun _ _ _ => KeepsC.out, fun _ _ => KeepsC.out, fun _ _ _ => KeepsC.out, fun _ _ => KeepsC.out, fun _ _ _ => KeepsC.out, fun _ _ _ => KeepsC.out, fun _ _ _ => KeepsC.out⟩

/-- C91: the methods of `curvePoint` except `Add` and `Mul`. -/
theorem C91_curvePoint :
    (Keeps (CurveP.new) 4) ∧
    (∀ (d : CurveP), Keeps (CurveP.put d) (-4)) ∧
    (∀ (d a : CurveP), Keeps (CurveP.set d a) 0) ∧
    (∀ (d : CurveP), Keeps (CurveP.setInfinity d) 0) ∧
    (∀ (d : CurveP), Keeps (CurveP.isInfinity d) 0) ∧
    (∀ (d a : CurveP), Keeps (CurveP.double d a) 0) ∧
    (∀ (d a : CurveP), Keeps (CurveP.neg d a) 0) ∧
    (∀ (c : CurveP), Keeps (CurveP.makeAffine c) 0) :=
  ⟨KeepsC.out, fun _ => KeepsC.out, fun _ _ => KeepsC.out, fun _ => KeepsC.out, fun _ => KeepsC.out, fun _ _ => KeepsC.out, fun _ _ => KeepsC.out, fun _ => KeepsC.out⟩

/-- C91: the methods of `twistPoint` except `Add` and `Mul`. -/
theorem C91_twistPoint :
    (Keeps (TwistP.new) 8) ∧
    (∀ (d : TwistP), Keeps (TwistP.put d) (-8)) ∧
    (∀ (d a : TwistP), Keeps (TwistP.set d a) 0) ∧
    (∀ (d : TwistP), Keeps (TwistP.setInfinity d) 0) ∧
    (∀ (d : TwistP), Keeps (TwistP.isInfinity d) 0) ∧
    (∀ (d a : TwistP), Keeps (TwistP.double d a) 0) ∧
    (∀ (d a : TwistP), Keeps (TwistP.neg d a) 0) ∧
    (∀ (c : TwistP), Keeps (TwistP.makeAffine c) 0) :=
  ⟨KeepsC.out, fun _ => KeepsC.out, fun _ _ => KeepsC.out, fun _ => KeepsC.out, fun _ => KeepsC.out, fun _ _ => KeepsC.out, fun _ _ => KeepsC.out, fun _ => KeepsC.out⟩

/-- The objects of a caller, with an empty pool. -/
private theorem relOf {s : BigHeap} {E : List (List (Cell × Int))} (hp : s.pool = some []) (h : Known { s with pool := none } E) :
    Rel s (E ++ [others s (E.flatten.map Prod.fst)]) := by
  obtain ⟨-, h⟩ := h.rel
  exact ⟨h.nodup, fun q hq => ⟨(h.cell q hq).1, by simp [BigHeap.free, hp], (h.cell q hq).2.2⟩, by simp [BigHeap.free, hp],
    by simp [BigHeap.free, hp]⟩

/-- C91: `Add` of `curvePoint` keeps ten objects exactly when it adds a finite point to itself (in whatever coordinates), and none
otherwise. -/
theorem C91_add {s s' : BigHeap} {c a b : CurveP} {r : Unit} {Q R : BG1} (hp : s.pool = some []) (ha : Live s a) (hb : Live s b)
    (hab : SameOrDisj a b) (hQ : Rep1 (HeapObj.val s.mem a) Q) (hR : Rep1 (HeapObj.val s.mem b) R)
    (h : c.add a b s = .ok (r, s')) : poolCount s s' = if Q = R ∧ Q ≠ 0 then 10 else 0 := by
  have hs : s.pool.isSome := by rw [hp]; rfl
  rcases hab with rfl | hd
  · have hr : Rel s (own a (HeapObj.val s.mem a) :: [_]) := relOf hp (known1 (s := { s with pool := none }) rfl ha)
    exact (CurveP.count_add_rep (c := c) hs hr (fun s' h' => CurveP.wp_addHead_same h') hQ hR _ _ h).2
  · have hr : Rel s (own a (HeapObj.val s.mem a) :: own b (HeapObj.val s.mem b) :: [_]) := relOf hp (known2 (s := { s with pool := none }) rfl ha hb hd)
    exact (CurveP.count_add_rep (c := c) hs hr (fun s' h' => CurveP.wp_addHead h') hQ hR _ _ h).2

/-- C91: `Add` of `twistPoint` keeps twenty. -/
theorem C91_addTwist {s s' : BigHeap} {c a b : TwistP} {r : Unit} {Q R : BG2} (hp : s.pool = some []) (ha : Live s a) (hb : Live s b)
    (hab : SameOrDisj a b) (hQ : Rep2 (HeapObj.val s.mem a) Q) (hR : Rep2 (HeapObj.val s.mem b) R)
    (h : c.add a b s = .ok (r, s')) : poolCount s s' = if Q = R ∧ Q ≠ 0 then 20 else 0 := by
  have hs : s.pool.isSome := by rw [hp]; rfl
  rcases hab with rfl | hd
  · have hr : Rel s (own a (HeapObj.val s.mem a) :: [_]) := relOf hp (known1 (s := { s with pool := none }) rfl ha)
    exact (TwistP.count_add_rep (c := c) hs hr (fun s' h' => TwistP.wp_addHead_same h') hQ hR _ _ h).2
  · have hr : Rel s (own a (HeapObj.val s.mem a) :: own b (HeapObj.val s.mem b) :: [_]) := relOf hp (known2 (s := { s with pool := none }) rfl ha hb hd)
    exact (TwistP.count_add_rep (c := c) hs hr (fun s' h' => TwistP.wp_addHead h') hQ hR _ _ h).2

/-- Two copies of the generator of `G1` and an empty pool. -/
private def heapG : BigHeap := ⟨fun c => [1, -2, 1, 1, 1, -2, 1, 1].getD c 0, 12, some []⟩

/-- `Count()` after a call, if it returns. -/
private def countOf (m : BigM Unit) : Option Int := match m heapG with | .ok r => some (poolCount heapG r.2) | .panic => none

-- The hypotheses of `C91_add` and `C91_mul` hold for them; the calls return, with ten objects lost in the first two, for one object
-- used twice and for two objects, and none in the last two.
example : heapG.pool = some [] ∧ Live heapG (⟨0, 1, 2, 3⟩ : CurveP) ∧ Live heapG (⟨4, 5, 6, 7⟩ : CurveP) ∧
    SameOrDisj (⟨0, 1, 2, 3⟩ : CurveP) ⟨4, 5, 6, 7⟩ ∧ Rep1 (HeapObj.val heapG.mem (⟨0, 1, 2, 3⟩ : CurveP)) bnG1 ∧
    Rep1 (HeapObj.val heapG.mem (⟨4, 5, 6, 7⟩ : CurveP)) bnG1 ∧
    countOf (CurveP.add ⟨8, 9, 10, 11⟩ ⟨0, 1, 2, 3⟩ ⟨4, 5, 6, 7⟩) = some 10 ∧
    countOf (CurveP.add ⟨0, 1, 2, 3⟩ ⟨0, 1, 2, 3⟩ ⟨0, 1, 2, 3⟩) = some 10 ∧
    countOf (CurveP.double ⟨4, 5, 6, 7⟩ ⟨0, 1, 2, 3⟩) = some 0 ∧
    countOf (CurveP.mul ⟨8, 9, 10, 11⟩ ⟨0, 1, 2, 3⟩ 3) = some 0 := by
  refine ⟨rfl, ⟨by decide, by decide⟩, ⟨by decide, by decide⟩, Or.inr ?_, rep1_gen, rep1_gen, by decide +kernel, by decide +kernel,
    by decide +kernel, by decide +kernel⟩
  unfold Disj
  decide

/-- The generator of `G2` and an empty pool. -/
private def heapT : BigHeap := ⟨fun c => [TwistPoint.gen.x.x, TwistPoint.gen.x.y, TwistPoint.gen.y.x, TwistPoint.gen.y.y,
  TwistPoint.gen.z.x, TwistPoint.gen.z.y, TwistPoint.gen.t.x, TwistPoint.gen.t.y].getD c 0, 8, some []⟩

-- The same for `C91_addTwist` and `C91_mulTwist`.
example : heapT.pool = some [] ∧ Live heapT (⟨⟨0, 1⟩, ⟨2, 3⟩, ⟨4, 5⟩, ⟨6, 7⟩⟩ : TwistP) ∧
    Rep2 (HeapObj.val heapT.mem (⟨⟨0, 1⟩, ⟨2, 3⟩, ⟨4, 5⟩, ⟨6, 7⟩⟩ : TwistP)) bnG2 ∧ bnG2 = (1 : Int) • bnG2 ∧
    (match TwistP.add ⟨⟨0, 1⟩, ⟨2, 3⟩, ⟨4, 5⟩, ⟨6, 7⟩⟩ ⟨⟨0, 1⟩, ⟨2, 3⟩, ⟨4, 5⟩, ⟨6, 7⟩⟩ ⟨⟨0, 1⟩, ⟨2, 3⟩, ⟨4, 5⟩, ⟨6, 7⟩⟩ heapT with
      | .ok r => some (poolCount heapT r.2) | .panic => none) = some 20 :=
  ⟨rfl, ⟨by decide, by decide⟩, rep2_gen, (one_zsmul _).symm, by decide +kernel⟩

/-- C91: `Mul` of `curvePoint` keeps ten objects for every step in which the point is added to itself. -/
theorem C91_mul {s s' : BigHeap} {c a : CurveP} {r : Unit} {Q : BG1} {k : Int} (hp : s.pool = some []) (ha : Live s a)
    (hQ : Rep1 (HeapObj.val s.mem a) Q) (hk : 0 ≤ k) (h : c.mul a k s = .ok (r, s')) :
    poolCount s s' = if Q = 0 then 0 else 10 * (lostSteps k : Int) := by
  have hr : Rel s (own a (HeapObj.val s.mem a) :: [_]) := relOf hp (known1 (s := { s with pool := none }) rfl ha)
  have := (CurveP.count_mul (d := c) k hp hr hQ _ _ h).2
  rw [this]
  split
  · rename_i h0
    rw [h0, dblSteps_zero]; rfl
  · rename_i h0
    rw [dblSteps_lost h0 (bg1_order Q) hk]

/-- C91: `Mul` of `twistPoint`, for the points of the group of order `Order`. -/
theorem C91_mulTwist {s s' : BigHeap} {c a : TwistP} {r : Unit} {Q : BG2} {j k : Int} (hp : s.pool = some []) (ha : Live s a)
    (hQ : Rep2 (HeapObj.val s.mem a) Q) (hj : Q = j • bnG2) (hk : 0 ≤ k) (h : c.mul a k s = .ok (r, s')) :
    poolCount s s' = if Q = 0 then 0 else 20 * (lostSteps k : Int) := by
  have hr : Rel s (own a (HeapObj.val s.mem a) :: [_]) := relOf hp (known1 (s := { s with pool := none }) rfl ha)
  have := (TwistP.count_mul (d := c) k hp hr hQ _ _ h).2
  rw [this]
  split
  · rename_i h0
    rw [h0, dblSteps_zero]; rfl
  · rename_i h0
    rw [dblSteps_lost h0 (by rw [hj, smul_comm, bnG2_order, smul_zero]) hk]

/-- C91: for scalars up to `Order + 1` there is no such step; for `Order + 2` there is one. -/
theorem C91_lost : (∀ k : Int, 0 ≤ k → k ≤ bnOrder + 1 → lostSteps k = 0) ∧ lostSteps (bnOrder + 2) = 1 :=
  ⟨fun _ h1 h2 => lostSteps_zero h1 (by omega), lostSteps_one⟩

/-- C91: without any assumption about the operands, `Add` keeps all of its first ten (twenty) objects or none. -/
theorem C91_add_any : (∀ c a b : CurveP, Counts (c.add a b) fun n => n = 0 ∨ n = 10) ∧
    (∀ c a b : TwistP, Counts (c.add a b) fun n => n = 0 ∨ n = 20) := ⟨CurveP.counts_add, TwistP.counts_add⟩

/-- C91: `miller` keeps 28 objects: the twelve of its result, which the caller may give back, and sixteen, `q1` and `minusQ2`, that
nobody gives back.  So does `optimalAte`.  `finalExponentiation` keeps its result only. -/
theorem C91_pairing (g : BnGlobals) (q : TwistP) (p : CurveP) (x : Gf12) :
    Keeps (millerH g q p) 28 ∧ Keeps (millerH g q p >>= Gf12.put) 16 ∧
    Keeps (finalExponentiationH g x) 12 ∧ Keeps (finalExponentiationH g x >>= Gf12.put) 0 ∧
    Keeps (optimalAteH g q p) 28 ∧ Keeps (optimalAteH g q p >>= Gf12.put) 16 :=
  ⟨KeepsC.out, Keeps.cast (Keeps.bind KeepsC.out fun _ => KeepsC.out) (by norm_num), KeepsC.out,
    Keeps.cast (Keeps.bind KeepsC.out fun _ => KeepsC.out) (by norm_num), KeepsC.out,
    Keeps.cast (Keeps.bind KeepsC.out fun _ => KeepsC.out) (by norm_num)⟩

/-- C91: the loop of `PairingCheck` keeps 28 for every pair it multiplies, the results of `miller` among them. -/
theorem C91_pairingCheck (g : BnGlobals) (acc : Gf12) (a : List CurveP) (b : List TwistP) :
    Counts (pairingCheckLoopH g acc a b) fun n => ∃ j : Nat, j ≤ a.length ∧ n = 28 * (j : Int) := counts_pairingCheckLoop g acc a b

end Verif

import Verif.Lemmas.CcsPar
import Verif.Lemmas.CcsRace

/-!
# Two goroutines which verify the same proof: a schedule
-/

namespace Verif

open BigP

/-! ### `VerifySet` in two parts -/

theorem BProg.bind_assoc {α β γ : Type} (p : BProg α) (f : α → BProg β) (k : β → BProg γ) :
    (p.bind f).bind k = p.bind fun a => (f a).bind k := by
  induction p with
  | ret a => rfl
  | panic => rfl
  | new q ih => exact congrArg BProg.new (funext ih)
  | read c q ih => exact congrArg (BProg.read c) (funext ih)
  | write c v q ih => exact congrArg (BProg.write c v) ih

theorem BigP.bind_assoc {α β γ : Type} (m : BigP α) (f : α → BigP β) (k : β → BigP γ) :
    m >>= f >>= k = m >>= fun a => f a >>= k := funext fun _ => BProg.bind_assoc _ _ _

theorem BigP.pure_bind {α β : Type} (a : α) (f : α → BigP β) : (pure a : BigP α) >>= f = f a := rfl

/-- The pool at the end is nil. -/
def BProg.EndsNil {α : Type} : BProg (α × Option (List Cell)) → Prop
  | .ret a => a.2 = none
  | .panic => True
  | .new k => ∀ c, (k c).EndsNil
  | .read _ k => ∀ v, (k v).EndsNil
  | .write _ _ k => k.EndsNil

theorem BProg.EndsNil.bind {α β : Type} {p : BProg (α × Option (List Cell))} {f : α × Option (List Cell) → BProg (β × Option (List Cell))}
    (h : p.EndsNil) (hf : ∀ a, (f (a, none)).EndsNil) : (p.bind f).EndsNil := by
  induction p with
  | ret a =>
    obtain ⟨a, q⟩ := a
    obtain rfl : q = none := h
    exact hf a
  | panic => trivial
  | new k ih => exact fun c => ih c (h c)
  | read c k ih => exact fun v => ih v (h v)
  | write c v k ih => exact ih h

theorem BProg.bind_congr_nil {α β : Type} {p : BProg (α × Option (List Cell))} {f k : α × Option (List Cell) → BProg β}
    (h : p.EndsNil) (hf : ∀ a, f (a, none) = k (a, none)) : p.bind f = p.bind k := by
  induction p with
  | ret a =>
    obtain ⟨a, q⟩ := a
    obtain rfl : q = none := h
    exact hf a
  | panic => rfl
  | new q ih => exact congrArg BProg.new (funext fun c => ih c (h c))
  | read c q ih => exact congrArg (BProg.read c) (funext fun c => ih c (h c))
  | write c v q ih => exact congrArg (BProg.write c v) (ih h)

theorem BigP.withPool_bind {α β : Type} {m : BigP α} (h : (m none).EndsNil) (f : α → BigP β) :
    withPool none (m >>= f) = withPool none m >>= fun a => withPool none (f a) := by
  funext p
  show ((m none).bind fun r => f r.1 r.2).bind (fun r => .ret (r.1, p)) =
    ((m none).bind fun r => .ret (r.1, p)).bind fun r => (f r.1 none).bind fun q => .ret (q.1, r.2)
  rw [BProg.bind_assoc, BProg.bind_assoc]
  exact BProg.bind_congr_nil h fun a => rfl

namespace Inter

/-- As in `Model/CcsRace.lean`. -/
def makeAffineHead (c : TwistP) : BigP (Option Gf2) := do
  if (← c.z.isOne) then pure none else do
    let zInv ← Gf2.new
    Gf2.invert zInv c.z
    pure (some zInv)

/-- As in `Model/CcsRace.lean`. -/
def makeAffineRest (c : TwistP) : Option Gf2 → BigP Unit
  | none => pure ()
  | some zInv => do
    let t ← Gf2.new
    Gf2.mul t c.y zInv
    let zInv2 ← Gf2.new
    Gf2.square zInv2 zInv
    Gf2.mul c.y t zInv2
    Gf2.mul t c.x zInv2
    Gf2.set c.x t
    Gf2.setOne c.z
    Gf2.setOne c.t
    Gf2.put zInv
    Gf2.put t
    Gf2.put zInv2

/-- As in `Model/CcsRace.lean`. -/
def marshalHead (n : TwistP) : BigP (Option Gf2) := withPool none (makeAffineHead n)

/-- As in `Model/CcsRace.lean`. -/
def marshalRest (n : TwistP) (z : Option Gf2) : BigP (List UInt8) := withPool none do
  makeAffineRest n z
  let xx ← modNew n.x.x
  let xy ← modNew n.x.y
  let yx ← modNew n.y.x
  let yy ← modNew n.y.y
  pure (G1.be32 xx ++ G1.be32 xy ++ G1.be32 yx ++ G1.be32 yy)

/-- As in `Model/CcsRace.lean`. -/
def verifySetHead (g : CcsGlobals) (pr : ProofSetH) (p : ParamsSetH) : BigP (List UInt8 × Option Gf2) := do
  let D ← G2H.scalarMult none pr.C pr.c
  let t ← G2H.scalarMult none p.H pr.zr
  let _ ← G2H.add (some D) D t
  let aux ← G2H.scalarBaseMult g.twistGen none pr.zsig
  let _ ← G2H.add (some D) D aux
  let DBytes ← G2H.marshal D
  let z ← marshalHead pr.D
  pure (DBytes, z)

/-- As in `Model/CcsRace.lean`. -/
def verifySetRest (g : CcsGlobals) (pr : ProofSetH) (p : ParamsSetH) (h : List UInt8 × Option Gf2) : BigP Bool := do
  let pDBytes ← marshalRest pr.D h.2
  let r1 := h.1 == pDBytes
  let pubk ← ofRes (Res.ofOption p.kp.pubk)
  let p1 ← ccsRhsH g pubk pr.V pr.c pr.zsig pr.zv
  let pBytes ← GTH.marshal p1
  let aBytes ← GTH.marshal pr.a
  let r2 := pBytes == aBytes
  pure (r1 && r2)

theorem endsNil_bind {α β : Type} {m : BigP α} {f : α → BigP β} (h : (m none).EndsNil) (hf : ∀ a, (f a none).EndsNil) :
    ((m >>= f) none).EndsNil := BProg.EndsNil.bind h hf

theorem endsNil_head (c : TwistP) : (makeAffineHead c none).EndsNil := by
  unfold makeAffineHead Inter.Gf2.isOne Inter.Gf2.new Inter.Gf2.invert
  simp only [BigP.mul, BigP.add, BigP.neg, BigP.mod, modInv]
  repeat first
    | exact (rfl : (none : Option (List Cell)) = none)
    | exact fun _ => (rfl : (none : Option (List Cell)) = none)
    | refine endsNil_bind ?_ fun _ => ?_
    | split
    | (generalize modInverse _ bnP = o; cases o <;> dsimp only)

theorem makeAffine_parts (c : TwistP) : makeAffineHead c >>= makeAffineRest c = Inter.TwistP.makeAffine c := by
  unfold makeAffineHead Inter.TwistP.makeAffine
  rw [BigP.bind_assoc]
  congr 1
  funext b
  cases b with
  | true => rfl
  | false =>
    show ((_ >>= fun _ => _ >>= fun _ => _ : BigP (Option Gf2)) >>= _) = Inter.TwistP.makeAffineTail c
    simp only [BigP.bind_assoc, BigP.pure_bind]
    rfl

theorem marshal_parts (n : TwistP) : marshalHead n >>= marshalRest n = G2H.marshal n := by
  unfold marshalHead marshalRest G2H.marshal
  rw [← BigP.withPool_bind (endsNil_head n), ← BigP.bind_assoc, makeAffine_parts]

theorem verifySet_parts (g : CcsGlobals) (pr : ProofSetH) (p : ParamsSetH) :
    verifySetHead g pr p >>= verifySetRest g pr p = Inter.verifySetH g pr p := by
  unfold verifySetHead verifySetRest Inter.verifySetH
  simp only [BigP.bind_assoc, BigP.pure_bind, ← marshal_parts pr.D]

theorem makeAffineHead_alone (c : TwistP) : (makeAffineHead c).alone = TwistP.makeAffineHead c := by
  unfold makeAffineHead TwistP.makeAffineHead
  simp only [inter_alone]

theorem makeAffineRest_alone (c : TwistP) (z : Option Gf2) : (makeAffineRest c z).alone = TwistP.makeAffineRest c z := by
  cases z with
  | none => rfl
  | some z =>
    unfold makeAffineRest TwistP.makeAffineRest
    simp only [inter_alone]

theorem verifySetHead_alone (g : CcsGlobals) (pr : ProofSetH) (p : ParamsSetH) :
    (verifySetHead g pr p).alone = Verif.verifySetHead g pr p := by
  unfold verifySetHead Verif.verifySetHead marshalHead G2H.marshalHead
  simp only [inter_alone, makeAffineHead_alone]

theorem verifySetRest_alone (g : CcsGlobals) (pr : ProofSetH) (p : ParamsSetH) (h : List UInt8 × Option Gf2) :
    (verifySetRest g pr p h).alone = Verif.verifySetRest g pr p h := by
  unfold verifySetRest Verif.verifySetRest marshalRest G2H.marshalRest
  simp only [inter_alone, makeAffineRest_alone]

end Inter

/-! ### One goroutine for a while -/

/-- Goroutine `i` makes the accesses of the first part of what it has to do. -/
theorem BMachine.solo {α β : Type} (i : Nat) (k : β → BProg α) : ∀ (q : BProg β) (m : BMachine α) (own : Cell → Int) (next : Nat)
    (r : β × (Cell → Int) × Nat), m.threads[i]? = some ⟨own, next, q.bind k⟩ →
    q.run (fun c => if c < m.n then m.shared c else own c) next = .ok r →
    ∃ sched own' shared', (∀ j ∈ sched, j = i) ∧
      m.exec sched = .ok ⟨m.n, shared', m.threads.set i ⟨own', r.2.2, k r.1⟩⟩ ∧
      ∀ c, (if c < m.n then shared' c else own' c) = r.2.1 c := by
  have step : ∀ (m : BMachine α) (own : Cell → Int) (next next' : Nat) (p p' : BProg α) (mem : Cell → Int),
      m.threads[i]? = some ⟨own, next, p⟩ → p.step (fun c => if c < m.n then m.shared c else own c) next = .ok (p', mem, next') →
      m.step i = .ok ⟨m.n, fun c => if c < m.n then mem c else m.shared c, m.threads.set i ⟨mem, next', p'⟩⟩ := by
    intro m own next next' p p' mem ht hs
    unfold BMachine.step
    rw [ht]
    show ((p.step (fun c => if c < m.n then m.shared c else own c) next) >>= _) = _
    rw [hs]
    rfl
  have go : ∀ (m : BMachine α) (own : Cell → Int) (next next' : Nat) (p p' : BProg α) (mem : Cell → Int),
      m.threads[i]? = some ⟨own, next, p⟩ → p.step (fun c => if c < m.n then m.shared c else own c) next = .ok (p', mem, next') →
      ∃ m', m.step i = .ok m' ∧ m'.n = m.n ∧ m'.threads[i]? = some ⟨mem, next', p'⟩ ∧
        (fun c => if c < m'.n then m'.shared c else mem c) = mem ∧ ∀ t, m'.threads.set i t = m.threads.set i t := by
    intro m own next next' p p' mem ht hs
    refine ⟨_, step m own next next' p p' mem ht hs, rfl, ?_, funext fun c => ?_, fun t => ?_⟩
    · exact List.getElem?_set_self (List.getElem?_eq_some_iff.1 ht).1
    · dsimp only
      split
      · rfl
      · rfl
    · exact List.set_set _
  intro q
  induction q with
  | ret a =>
    intro m own next r ht hr
    obtain rfl := Res.ok.inj hr
    refine ⟨[], own, m.shared, by simp, ?_, fun c => rfl⟩
    have : m.threads.set i ⟨own, next, k a⟩ = m.threads := by
      obtain ⟨hi, he⟩ := List.getElem?_eq_some_iff.1 ht
      exact (congrArg (m.threads.set i) he.symm).trans (List.set_getElem_self hi)
    show Res.ok m = _
    dsimp only
    rw [this]
  | panic => intro m own next r _ hr; cases hr
  | new q ih =>
    intro m own next r ht hr
    obtain ⟨m', e, e1, e2, e3, e4⟩ := go m own next _ _ _ _ ht rfl
    obtain ⟨sched, own', shared', h1, h2, h3⟩ := ih next m' _ _ r e2 (by rw [e3]; exact hr)
    refine ⟨i :: sched, own', shared', by simpa using h1, ?_, fun c => ?_⟩
    · simp only [BMachine.exec, e, Res.ok_bind, h2, e1, e4]
    · rw [← e1]; exact h3 c
  | read d q ih =>
    intro m own next r ht hr
    obtain ⟨m', e, e1, e2, e3, e4⟩ := go m own next _ _ _ _ ht rfl
    obtain ⟨sched, own', shared', h1, h2, h3⟩ := ih _ m' _ _ r e2 (by rw [e3]; exact hr)
    refine ⟨i :: sched, own', shared', by simpa using h1, ?_, fun c => ?_⟩
    · simp only [BMachine.exec, e, Res.ok_bind, h2, e1, e4]
    · rw [← e1]; exact h3 c
  | write d v q ih =>
    intro m own next r ht hr
    obtain ⟨m', e, e1, e2, e3, e4⟩ := go m own next _ _ _ _ ht rfl
    obtain ⟨sched, own', shared', h1, h2, h3⟩ := ih m' _ _ r e2 (by rw [e3]; exact hr)
    refine ⟨i :: sched, own', shared', by simpa using h1, ?_, fun c => ?_⟩
    · simp only [BMachine.exec, e, Res.ok_bind, h2, e1, e4]
    · rw [← e1]; exact h3 c

theorem BMachine.exec_append {α : Type} : ∀ (l l' : List Nat) (m : BMachine α), m.exec (l ++ l') = m.exec l >>= fun m' => m'.exec l'
  | [], _, _ => rfl
  | i :: l, l', m => by
    simp only [List.cons_append, BMachine.exec]
    cases m.step i with
    | panic => rfl
    | ok m' => exact BMachine.exec_append l l' m'

/-! ### The parts -/

section

variable {g : CcsGlobals} {s0 s : BigHeap} {W : List Cell} {L : List (List (Cell × Int))}

theorem Loc.raceHead {pr : ProofSetH} {p : ParamsSetH} {vp : ParamsSet} {vD vC : TwistPoint}
    (h : Loc s0 W s (own pr.D vD :: L)) (he : Env g s0 W) (hp : Old s0 W p vp) (hC : Old s0 W pr.C vC) (hz : vD.z.isOne = false) :
    Wp (verifySetHead g pr p) s fun r s' => ∃ z, r.2 = some z ∧
      r.1 = (G2.marshal (((G2.scalarMult vC pr.c).addSelf (G2.scalarMult vp.H pr.zr)).addSelf (G2.scalarBaseMult pr.zsig))).1 ∧
      Loc s0 W s' (own z vD.z.invert :: own pr.D vD :: L) := by
  have hH : Old s0 W p.H vp.H := by
    have := hp.part (b := p.H) ((List.sublist_append_right _ _).trans (List.sublist_append_left _ _))
    rwa [show HeapObj.val s0.mem p.H = vp.H from congrArg ParamsSet.H hp.val] at this
  unfold verifySetHead
  refine Wp.bind (h.g2_scalarMult (Or.inl hC) pr.c) fun D s1 h => ?_
  refine Wp.bind (h.g2_scalarMult (Or.inl hH) pr.zr) fun t s2 h => ?_
  refine Wp.bind (h.swap.g2_add (Or.inr List.mem_cons_self)) fun _ s3 h => ?_
  refine Wp.bind (h.drop2.g2_base he pr.zsig) fun aux s4 h => ?_
  refine Wp.bind (h.swap.g2_add (Or.inr List.mem_cons_self)) fun _ s5 h => ?_
  refine Wp.bind h.drop2.g2_marshal fun b1 s6 ⟨e1, h⟩ => ?_
  refine Wp.bind (h.tail.marshalHead hz) fun o s7 ⟨z, e2, h⟩ => ?_
  subst e2
  exact Wp.pure ⟨z, rfl, e1, h⟩

theorem Loc.raceRest {pr : ProofSetH} {p : ParamsSetH} {v vV : TwistPoint} {z : Gf2} {w : GfP2} {va : GfP12} {b1 : List UInt8}
    (h : Loc s0 W s (own pr.D v :: own z w :: own pr.a va :: L)) (he : Env g s0 W) (hk : GoodKey g s0 W p.kp)
    (hV : Old s0 W pr.V vV) (gV : NotGlobal g pr.V) {y : CurveP} (hy : p.kp.pubk = some y)
    (hd : Disj (HeapObj.cells pr.V) (HeapObj.cells y)) :
    Wp (verifySetRest g pr p (b1, some z)) s fun r s' => (r = true → b1 = (G2.marshal (v.affineRest w)).1) ∧
      Loc s0 W s' (own pr.D (v.affineRest w) :: own pr.a va.minimal :: L) := by
  unfold verifySetRest
  refine Wp.bind h.marshalRest fun b2 s10 ⟨e4, h⟩ => ?_
  obtain ⟨y1, y2, y3⟩ := hk.old y hy
  refine Wp.bind (R := fun r s' => r = y ∧ s' = s10) ⟨y, s10, by rw [hy]; rfl, rfl, rfl⟩ fun r s11 ⟨er, es⟩ => ?_
  subst er es
  refine Wp.bind (h.ccsRhs he y1 hV y2 y3 gV hd pr.c pr.zsig pr.zv) fun p1 s12 h => ?_
  refine Wp.bind h.gt_marshal fun b3 s13 ⟨_, h⟩ => ?_
  refine Wp.bind (h.tail.drop2.swap.gt_marshal) fun b4 s14 ⟨_, h⟩ => ?_
  refine Wp.pure ⟨fun h1 => ?_, h.swap⟩
  have h2 := beq_iff_eq.1 ((Bool.and_eq_true _ _).mp h1).1
  rw [← e4]
  exact h2

end

theorem BigP.alone_run {α : Type} {m : BigP α} {s s' : BigHeap} {r : α} (hs : s.pool = none) (e : m.alone s = .ok (r, s')) :
    (m none).run s.mem s.next = .ok ((r, s'.pool), s'.mem, s'.next) := by
  unfold BigP.alone at e
  rw [hs] at e
  obtain ⟨q, e1, e2⟩ := Res.bind_eq_ok.1 e
  rw [e1]
  cases e2
  rfl

theorem race_schedule {g : CcsGlobals} {s : BigHeap} {pr : ProofSetH} {p : ParamsSetH} (hr : CcsReady g s) (hp : Live s p)
    (hq : Live s pr) (hgp : Disj g.cells (HeapObj.cells p)) (hgq : Disj g.cells (HeapObj.cells pr))
    (hpq : Disj (HeapObj.cells p) (HeapObj.cells pr)) (hk : KeyOk (HeapObj.val s.mem p.kp))
    (hz : (HeapObj.val s.mem pr.D).z.isOne = false) {w : ProofSet}
    (hok : verifySet (HeapObj.val s.mem pr) (HeapObj.val s.mem p) = .ok (true, w)) :
    ∃ sched m b, (∀ i ∈ sched, i < 2) ∧ (BMachine.start s.next s.mem [(Inter.verifySetH g pr p).prog, (Inter.verifySetH g pr p).prog]).exec sched = .ok m ∧ m.results = some [b, true] ∧
      (b = true → (G2.marshal ((HeapObj.val s.mem pr.D).makeAffine.affineRest (HeapObj.val s.mem pr.D).z.invert)).1 =
        (G2.marshal (HeapObj.val s.mem pr.D)).1) ∧
      HeapObj.val m.shared pr.D = (HeapObj.val s.mem pr.D).makeAffine.affineRest (HeapObj.val s.mem pr.D).z.invert := by
  have hnd := hq.1
  have hc : HeapObj.cells pr = HeapObj.cells pr.V ++ HeapObj.cells pr.D ++ HeapObj.cells pr.C ++ HeapObj.cells pr.a := rfl
  have sV : (HeapObj.cells pr.V).Sublist (HeapObj.cells pr) := by
    rw [hc, List.append_assoc, List.append_assoc]; exact List.sublist_append_left _ _
  have sC : (HeapObj.cells pr.C).Sublist (HeapObj.cells pr) := by
    rw [hc]; exact (List.sublist_append_right _ _).trans (List.sublist_append_left _ _)
  have sW : (HeapObj.cells pr.D ++ HeapObj.cells pr.a).Sublist (HeapObj.cells pr) := by
    rw [hc]
    exact List.Sublist.append ((List.sublist_append_right _ _).trans (List.sublist_append_left _ _)) (List.Sublist.refl _)
  rw [hc] at hnd
  simp only [List.nodup_append, List.mem_append] at hnd
  obtain ⟨⟨⟨⟨n1, n2, n3⟩, n4, n5⟩, n6, n7⟩⟩ := And.intro hnd trivial
  have dV : Disj (HeapObj.cells pr.V) (HeapObj.cells pr.D ++ HeapObj.cells pr.a) := fun c h1 h2 =>
    (List.mem_append.1 h2).elim (fun h => n3 c h1 c h rfl) (fun h => n7 c (Or.inl (Or.inl h1)) c h rfl)
  have dC : Disj (HeapObj.cells pr.C) (HeapObj.cells pr.D ++ HeapObj.cells pr.a) := fun c h1 h2 =>
    (List.mem_append.1 h2).elim (fun h => n5 c (Or.inr h) c h1 rfl) (fun h => n7 c (Or.inr h1) c h rfl)
  have oV : Old s (HeapObj.cells pr.D ++ HeapObj.cells pr.a) pr.V (HeapObj.val s.mem pr.V) := ⟨liveCells_sub hq sV, rfl, dV⟩
  have oC : Old s (HeapObj.cells pr.D ++ HeapObj.cells pr.a) pr.C (HeapObj.val s.mem pr.C) := ⟨liveCells_sub hq sC, rfl, dC⟩
  have oP : Old s (HeapObj.cells pr.D ++ HeapObj.cells pr.a) p (HeapObj.val s.mem p) := ⟨hp, rfl, disj_right hpq sW⟩
  have hD := holds_own pr.D (HeapObj.val s.mem pr.D)
  have ha := holds_own pr.a (HeapObj.val s.mem pr.a)
  have hE : Env g s (HeapObj.cells pr.D ++ HeapObj.cells pr.a) := ⟨hr, disj_right hgq sW⟩
  have h : Loc s (HeapObj.cells pr.D ++ HeapObj.cells pr.a) s
      ([own pr.D (HeapObj.val s.mem pr.D)] ++ [own pr.a (HeapObj.val s.mem pr.a)]) := by
    refine Loc.enter hr.pool (by rw [cells_append, hD.cells, ha.cells]) (liveCells_sub hq sW) ?_
    rw [Forall_append, hD.val, ha.val]; exact ⟨rfl, rfl⟩
  have hok' := hok
  unfold verifySet at hok'
  obtain ⟨pk, hpk, hv⟩ := Res.bind_eq_ok.1 hok'
  obtain ⟨hb, hw⟩ := Prod.mk.inj (Res.ok.inj hv)
  have hwD : w.D = (HeapObj.val s.mem pr.D).makeAffine := by rw [← hw]; rfl
  have hwa : w.a = (HeapObj.val s.mem pr.a).minimal := by rw [← hw]; rfl
  have hbytes := beq_iff_eq.1 ((Bool.and_eq_true _ _).mp hb).1
  obtain ⟨y, hy⟩ : ∃ y, p.kp.pubk = some y := by
    cases hc : p.kp.pubk with
    | none =>
      rw [show (HeapObj.val s.mem p).kp.pubk = p.kp.pubk.map (HeapObj.val s.mem) from rfl, hc] at hpk
      cases hpk
    | some y => exact ⟨y, rfl⟩
  -- the first part of goroutine 0
  obtain ⟨⟨b1, o⟩, sA, eA, z, ez, eb, hA⟩ := Loc.raceHead h hE oP oC hz
  obtain rfl : o = some z := ez
  rw [← Inter.verifySetHead_alone] at eA
  have rA := BigP.alone_run hr.pool eA
  rw [hA.pool] at rA
  -- goroutine 1
  obtain ⟨bt, sB, eB, pB, nB, kB, rfl, lB, vB⟩ := (Sim.verifySet hr hp hq hgp hgq hpq hk).2 _ hok
  rw [← Inter.verifySetH_alone] at eB
  have rB := BigP.alone_run hr.pool eB
  -- the rest of goroutine 0
  let sM : BigHeap := ⟨fun c => if c < s.next then sB.mem c else sA.mem c, sA.next, none⟩
  have lD : Live s pr.D := liveCells_sub hq ((List.sublist_append_left _ _).trans sW)
  have la : Live s pr.a := liveCells_sub hq ((List.sublist_append_right _ _).trans sW)
  have dz : ∀ c ∈ HeapObj.cells z, s.next ≤ c := by
    intro c hc
    rcases hA.where List.mem_cons_self c hc with h1 | h1
    · exact h1
    · rcases List.mem_append.1 h1 with h2 | h2
      · exact absurd h2 (hA.disj (b := pr.D) List.mem_cons_self c hc)
      · exact absurd h2 (hA.disj (b := pr.a) (List.mem_cons_of_mem _ List.mem_cons_self) c hc)
  have hM : Loc s (HeapObj.cells pr.D ++ HeapObj.cells pr.a) sM
      (own pr.D (HeapObj.val s.mem pr.D).makeAffine :: own z (HeapObj.val s.mem pr.D).z.invert ::
        own pr.a (HeapObj.val s.mem pr.a).minimal :: []) := by
    have hzA := (hA.head).2
    have e1 : HeapObj.val sM.mem pr.D = (HeapObj.val s.mem pr.D).makeAffine := by
      rw [← hwD, show w = HeapObj.val sB.mem pr from vB.symm]
      exact HeapLaw.congr fun c hc => if_pos (lD.2 c hc)
    have e2 : HeapObj.val sM.mem z = (HeapObj.val s.mem pr.D).z.invert := by
      rw [← hzA]
      exact HeapLaw.congr fun c hc => if_neg (not_lt.2 (dz c hc))
    have e3 : HeapObj.val sM.mem pr.a = (HeapObj.val s.mem pr.a).minimal := by
      rw [← hwa, show w = HeapObj.val sB.mem pr from vB.symm]
      exact HeapLaw.congr fun c hc => if_pos (la.2 c hc)
    refine ⟨rfl, hA.next, fun c hc hW => (if_pos hc).trans (kB c hc hW), ?_, ?_⟩
    · have := hA.nodup
      simp only [List.flatten_cons, List.flatten_nil, List.append_nil, List.map_append, ObjLaw.cells] at this ⊢
      refine (List.Perm.nodup_iff ?_).1 this
      rw [← List.append_assoc, ← List.append_assoc]
      exact List.Perm.append_right _ List.perm_append_comm
    · have key : ∀ {A V : Type} [Ob A V] [HeapObj A V] [ObjLaw A] (a : A) (v : V), HeapObj.val sM.mem a = v →
          ∀ x ∈ own a v, x.1 ∈ HeapObj.cells a ∧ sM.mem x.1 = x.2 := by
        intro A V _ _ _ a v hv x hx
        refine ⟨?_, ?_⟩
        · rw [← ObjLaw.cells a v]; exact List.mem_map_of_mem hx
        · exact (ObjLaw.val a v sM.mem).2 hv x hx
      intro x hx
      simp only [List.flatten_cons, List.flatten_nil, List.append_nil, List.mem_append] at hx
      rcases hx with hx | hx | hx
      · obtain ⟨k1, k2⟩ := key _ _ e1 x hx
        exact ⟨.inr (List.mem_append_left _ k1), (lD.2 _ k1).trans_le hA.next, k2⟩
      · obtain ⟨k1, k2⟩ := key _ _ e2 x hx
        exact ⟨.inl (dz _ k1), hA.head.1.2 _ k1, k2⟩
      · obtain ⟨k1, k2⟩ := key _ _ e3 x hx
        exact ⟨.inr (List.mem_append_right _ k1), (la.2 _ k1).trans_le hA.next, k2⟩
  obtain ⟨b, sC', eC, hb1, hC'⟩ := Loc.raceRest (b1 := b1) hM hE
    (goodKey (oP.part (kp_sublist_set p)) hk (disj_right hgp (kp_sublist_set p))) oV (disj_right hgq sV) hy
    (by
      have := disj_sub (disj_right hpq sV) (kp_sublist_set p)
      rw [← key_cells hy] at this
      exact disj_symm this)
  rw [← Inter.verifySetRest_alone] at eC
  have rC := BigP.alone_run (s := sM) rfl eC
  -- the schedule
  have eP : (Inter.verifySetH g pr p).prog = (Inter.verifySetHead g pr p none).bind fun r =>
      (Inter.verifySetRest g pr p r.1 r.2).bind fun r => .ret r.1 := by
    unfold BigP.prog
    rw [← Inter.verifySet_parts]
    exact BProg.bind_assoc _ _ _
  have hA0 : ∀ c < s.next, sA.mem c = s.mem c := by
    intro c hc
    have key : ∀ {A V : Type} [Ob A V] [HeapObj A V] [ObjLaw A] (a : A), HeapObj.val sA.mem a = HeapObj.val s.mem a →
        c ∈ HeapObj.cells a → sA.mem c = s.mem c := by
      intro A V _ _ _ a hv hc
      rw [← ObjLaw.cells a (HeapObj.val s.mem a)] at hc
      obtain ⟨x, hx, rfl⟩ := List.mem_map.1 hc
      rw [(ObjLaw.val a _ sA.mem).2 hv x hx, (ObjLaw.val a _ s.mem).2 rfl x hx]
    by_cases hW : c ∈ HeapObj.cells pr.D ++ HeapObj.cells pr.a
    · rcases List.mem_append.1 hW with h1 | h1
      · exact key pr.D hA.tail.head.2 h1
      · exact key pr.a hA.tail.tail.head.2 h1
    · exact hA.keep c hc hW
  have i0 : (fun c => if c < s.next then s.mem c else s.mem c) = s.mem := funext fun c => ite_self _
  obtain ⟨S0, own0, sh0, j0, x0, y0⟩ := BMachine.solo 0 _ _ (BMachine.start s.next s.mem [(Inter.verifySetH g pr p).prog,
    (Inter.verifySetH g pr p).prog]) s.mem s.next _ (by rw [← eP]; rfl) (show BProg.run _ (fun c => if c < s.next then s.mem c
      else s.mem c) _ = _ by rw [i0]; exact rA)
  let t1 : BThread Bool := ⟨s.mem, s.next, (Inter.verifySetH g pr p).prog⟩
  let t0 : BThread Bool := ⟨own0, sA.next, (Inter.verifySetRest g pr p (b1, some z) none).bind fun r => .ret r.1⟩
  have x0 : (BMachine.start s.next s.mem [(Inter.verifySetH g pr p).prog, (Inter.verifySetH g pr p).prog]).exec S0 =
    .ok ⟨s.next, sh0, [t0, t1]⟩ := x0
  have y0 : ∀ c, (if c < s.next then sh0 c else own0 c) = sA.mem c := y0
  have i1 : (fun c => if c < s.next then sh0 c else s.mem c) = s.mem := funext fun c => by
    split
    · next hc => rw [← hA0 c hc, ← y0 c, if_pos hc]
    · rfl
  obtain ⟨S1, own1, sh1, j1, x1, y1⟩ := BMachine.solo 1 (fun r => .ret r.1) (Inter.verifySetH g pr p none)
    ⟨s.next, sh0, [t0, t1]⟩ s.mem s.next _ (show [t0, t1][1]? = _ from rfl) (show BProg.run _ (fun c => if c < s.next then sh0 c else s.mem c) _ = _ by rw [i1]; exact rB)
  let t1' : BThread Bool := ⟨own1, sB.next, .ret true⟩
  have x1 : BMachine.exec ⟨s.next, sh0, [t0, t1]⟩ S1 = .ok ⟨s.next, sh1, [t0, t1']⟩ := x1
  have y1 : ∀ c, (if c < s.next then sh1 c else own1 c) = sB.mem c := y1
  have i2 : (fun c => if c < s.next then sh1 c else own0 c) = sM.mem := funext fun c => by
    show _ = if c < s.next then sB.mem c else sA.mem c
    split
    · next hc => rw [← y1 c, if_pos hc]
    · next hc => rw [← y0 c, if_neg hc]
  obtain ⟨S2, own2, sh2, j2, x2, y2⟩ := BMachine.solo 0 (fun r => .ret r.1) (Inter.verifySetRest g pr p (b1, some z) none)
    ⟨s.next, sh1, [t0, t1']⟩ own0 sA.next _ (show [t0, t1'][0]? = _ from rfl) (show BProg.run _ (fun c => if c < s.next then sh1 c else own0 c) _ = _ by rw [i2]; exact rC)
  let t0' : BThread Bool := ⟨own2, sC'.next, .ret b⟩
  have x2 : BMachine.exec ⟨s.next, sh1, [t0, t1']⟩ S2 = .ok ⟨s.next, sh2, [t0', t1']⟩ := x2
  have y2 : ∀ c, (if c < s.next then sh2 c else own2 c) = sC'.mem c := y2
  refine ⟨S0 ++ (S1 ++ S2), ⟨s.next, sh2, [t0', t1']⟩, b, ?_, ?_, rfl, fun hb => ?_, ?_⟩
  · intro i hi
    rcases List.mem_append.1 hi with h1 | h1
    · exact (j0 i h1).symm ▸ (by decide)
    · rcases List.mem_append.1 h1 with h2 | h2
      · exact (j1 i h2).symm ▸ (by decide)
      · exact (j2 i h2).symm ▸ (by decide)
  · rw [BMachine.exec_append, x0, Res.ok_bind, BMachine.exec_append, x1, Res.ok_bind, x2]
  · rw [← hb1 hb]
    exact eb.trans hbytes
  · rw [← hC'.head.2]
    exact HeapLaw.congr fun c hc => by rw [← y2 c, if_pos (lD.2 c hc)]

end Verif

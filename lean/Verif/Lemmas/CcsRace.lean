import Verif.Model.CcsRace
import Verif.Lemmas.CcsHeapRange
import Verif.Props.BnBytes
import Verif.Props.CcsMisc

/-! # The two parts of `VerifySet` -/

namespace Verif

open BigM

/-! ### The parts make up the whole -/

theorem BigM.bind_assoc {α β γ : Type} (m : BigM α) (f : α → BigM β) (k : β → BigM γ) :
    m >>= f >>= k = m >>= fun a => f a >>= k := by
  funext s
  show (m s >>= fun r => f r.1 r.2) >>= (fun r => k r.1 r.2) = m s >>= fun r => (f r.1 r.2 >>= fun r => k r.1 r.2)
  cases m s <;> rfl

theorem BigM.pure_bind {α β : Type} (a : α) (f : α → BigM β) : (pure a : BigM α) >>= f = f a := rfl

/-- Without a pool the computation gets none. -/
def KeepsNil {α : Type} (m : BigM α) : Prop := ∀ s, s.pool = none → ∀ r s', m s = .ok (r, s') → s'.pool = none

theorem KeepsNil.bind {α β : Type} {m : BigM α} {f : α → BigM β} (h : KeepsNil m) (hf : ∀ a, KeepsNil (f a)) :
    KeepsNil (m >>= f) := by
  intro s hs r s' e
  obtain ⟨⟨a, s1⟩, e1, e2⟩ := Res.bind_eq_ok.1 (show (m s >>= fun r => f r.1 r.2) = _ from e)
  exact hf a s1 (h s hs a s1 e1) r s' e2

theorem keepsNil_pure {α : Type} (a : α) : KeepsNil (pure a : BigM α) := by
  intro s hs r s' e; cases e; exact hs

theorem keepsNil_read (c : Cell) : KeepsNil (read c) := by intro s hs r s' e; cases e; exact hs

theorem keepsNil_write (c : Cell) (v : Int) : KeepsNil (write c v) := by intro s hs r s' e; cases e; exact hs

theorem keepsNil_get : KeepsNil get := by
  intro s hs r s' e
  unfold BigM.get at e
  rw [hs] at e
  cases e; exact hs

theorem keepsNil_put (c : Cell) : KeepsNil (put c) := by
  intro s hs r s' e
  unfold BigM.put at e
  rw [hs] at e
  cases e; exact hs

theorem withPool_bind {α β : Type} {m : BigM α} (h : KeepsNil m) (f : α → BigM β) :
    withPool none (m >>= f) = withPool none m >>= fun a => withPool none (f a) := by
  funext s
  show (m { s with pool := none } >>= fun r => f r.1 r.2) >>= _ =
    (m { s with pool := none } >>= fun r => .ok (r.1, { r.2 with pool := s.pool })) >>= fun r => withPool none (f r.1) r.2
  cases e : m { s with pool := none } with
  | panic => rfl
  | ok r =>
    obtain ⟨a, s1⟩ := r
    have h1 := h _ rfl a s1 e
    show (f a s1 >>= fun r => _) = f a { s1 with pool := none } >>= fun r => _
    rw [← h1]

/-- Computations made of the primitive operations. -/
macro "keeps_nil" : tactic => `(tactic| repeat first
  | exact keepsNil_pure _
  | exact keepsNil_read _
  | exact keepsNil_write _ _
  | exact keepsNil_get
  | exact keepsNil_put _
  | refine KeepsNil.bind ?_ fun _ => ?_
  | split)

theorem keepsNil_head (c : TwistP) : KeepsNil c.makeAffineHead := by
  unfold TwistP.makeAffineHead Gf2.isOne Gf2.new Gf2.invert BigM.mul BigM.add BigM.neg BigM.mod modInv
  keeps_nil

theorem makeAffine_parts (c : TwistP) : c.makeAffineHead >>= c.makeAffineRest = c.makeAffine := by
  unfold TwistP.makeAffineHead TwistP.makeAffine
  rw [BigM.bind_assoc]
  congr 1
  funext b
  cases b with
  | true => rfl
  | false =>
    show ((_ >>= fun _ => _ >>= fun _ => _ : BigM (Option Gf2)) >>= _) = TwistP.makeAffineTail c
    simp only [BigM.bind_assoc, BigM.pure_bind]
    rfl

theorem marshal_parts (n : TwistP) : G2H.marshalHead n >>= G2H.marshalRest n = G2H.marshal n := by
  unfold G2H.marshalHead G2H.marshalRest G2H.marshal
  rw [← withPool_bind (keepsNil_head n), ← BigM.bind_assoc, makeAffine_parts]

theorem verifySet_parts (g : CcsGlobals) (pr : ProofSetH) (p : ParamsSetH) :
    verifySetHead g pr p >>= verifySetRest g pr p = verifySetH g pr p := by
  unfold verifySetHead verifySetRest verifySetH
  simp only [BigM.bind_assoc, BigM.pure_bind, ← marshal_parts pr.D]

theorem verifyUL_parts (g : CcsGlobals) (pr : ProofULH) (p : ParamsULH) :
    verifyULHead g pr p >>= verifyULRest g pr p = verifyULH g pr p := by
  unfold verifyULHead verifyULRest verifyULH
  simp only [BigM.bind_assoc, BigM.pure_bind, ← marshal_parts pr.D]

/-! ### Effects of the parts -/

/-- The value of an element after the rest of `MakeAffine`, if it was `v` and the inverse is `w`. -/
def TwistPoint.affineRest (v : TwistPoint) (w : GfP2) : TwistPoint :=
  ⟨v.x.mul w.square, (v.y.mul w).mul w.square, .one, .one⟩

section
variable {g : CcsGlobals} {s0 s : BigHeap} {W : List Cell} {L : List (List (Cell × Int))}

/-- The rest of `MakeAffine` without the calls of `Put`. -/
def TwistP.affineRest (c : TwistP) (zInv : Gf2) : BigM (Gf2 × Gf2) := do
  let t ← Gf2.new
  t.mul c.y zInv
  let zInv2 ← Gf2.new
  zInv2.square zInv
  c.y.mul t zInv2
  t.mul c.x zInv2
  c.x.set t
  c.z.setOne
  c.t.setOne
  pure (t, zInv2)

theorem keepsNil_rest (c : TwistP) (z : Gf2) : KeepsNil (c.affineRest z) := by
  unfold TwistP.affineRest Gf2.new Gf2.mul Gf2.square Gf2.set Gf2.setOne
  simp only [BigM.mul, BigM.add, BigM.sub, BigM.mod, BigM.set, setInt]
  keeps_nil

theorem put_nil (z : Gf2) {s : BigHeap} (h : s.pool = none) : z.put s = .ok ((), s) := by
  show (BigM.put z.x s >>= fun r => BigM.put z.y r.2) = _
  rw [put_none _ h]
  exact put_none _ h

theorem wp_affineRest {s : BigHeap} {d : TwistP} {v : TwistPoint} {z : Gf2} {w : GfP2} {Δ : List (List (Cell × Int))}
    (hs : s.pool = none) (h : Rel s (own d v :: own z w :: Δ)) :
    Wp (d.makeAffineRest (some z)) s fun _ s' => Rel s' (own d (v.affineRest w) :: own z w :: Δ) := by
  replace h : Rel s (own d.x v.x :: own d.y v.y :: own d.z v.z :: own d.t v.t :: own z w :: Δ) := h
  have : Wp (d.affineRest z) s fun _ s' => Rel s' (own d (v.affineRest w) :: own z w :: Δ) := by
    unfold TwistP.affineRest
    repeat wp_step
    exact Wp.pure h.tail.tail
  obtain ⟨⟨t, z2⟩, s', e, h'⟩ := this
  have hp := keepsNil_rest d z s hs _ _ e
  refine ⟨(), s', ?_, h'⟩
  have e1 : d.makeAffineRest (some z) = d.affineRest z >>= fun r => z.put >>= fun _ => r.1.put >>= fun _ => r.2.put := by
    unfold TwistP.makeAffineRest TwistP.affineRest
    simp only [BigM.bind_assoc, BigM.pure_bind]
  rw [e1]
  show (d.affineRest z s >>= fun r => z.put r.2 >>= fun q => r.1.1.put q.2 >>= fun q => r.1.2.put q.2) = _
  rw [e]
  show (z.put s' >>= fun q => t.put q.2 >>= fun q => z2.put q.2) = _
  rw [put_nil z hp]
  show (t.put s' >>= fun q => z2.put q.2) = _
  rw [put_nil t hp]
  exact put_nil z2 hp

theorem Loc.marshalHead {d : TwistP} {v : TwistPoint} (h : Loc s0 W s (own d v :: L)) (hz : v.z.isOne = false) :
    Wp (G2H.marshalHead d) s fun r s' => ∃ z, r = some z ∧ Loc s0 W s' (own z v.z.invert :: own d v :: L) := by
  obtain ⟨h1, h2⟩ := h.head
  let m : BigM Gf2 := withPool none (do let zInv ← Gf2.new; zInv.invert d.z; pure zInv)
  have hm : Gives m s none v.z.invert := by
    have hk := known1 h.pool h1
    rw [h2] at hk
    refine gives_new hk fun rest hr => ?_
    refine wp_withPool' (Γ' := fun r => own r v.z.invert :: own d v :: [rest]) (Or.inl rfl) hr fun s1 _ _ h => ?_
    replace h : Rel s1 (own d.x v.x :: own d.y v.y :: own d.z v.z :: own d.t v.t :: [rest]) := h
    refine Wp.bind (wp_new h) fun zInv s2 ⟨_, h⟩ => ?_
    refine Wp.bind (wp_op1 h) fun _ s3 h => ?_
    exact Wp.pure h
  obtain ⟨z, s', e, hl⟩ := h.new hm
  refine ⟨some z, s', ?_, z, rfl, hl⟩
  have e1 : d.makeAffineHead { s with pool := none } =
      (do let zInv ← Gf2.new; zInv.invert d.z; pure zInv : BigM Gf2) { s with pool := none } >>= fun r => .ok (some r.1, r.2) := by
    have hv : GfP2.isOne ⟨s.mem d.z.x, s.mem d.z.y⟩ = false := by
      rw [show (⟨s.mem d.z.x, s.mem d.z.y⟩ : GfP2) = v.z by rw [← h2]; rfl, hz]
    show (if GfP2.isOne ⟨s.mem d.z.x, s.mem d.z.y⟩ = true then _ else _ : BigM (Option Gf2)) _ = _
    rw [hv, if_neg Bool.false_ne_true]
    show _ = ((do let zInv ← Gf2.new; zInv.invert d.z; pure zInv : BigM Gf2) >>= fun z => pure (some z)) _
    simp only [BigM.bind_assoc, BigM.pure_bind]
  show (d.makeAffineHead { s with pool := none } >>= fun r => .ok (r.1, { r.2 with pool := s.pool })) = _
  rw [e1]
  have e4 : ((do let zInv ← Gf2.new; zInv.invert d.z; pure zInv : BigM Gf2) { s with pool := none } >>= fun r =>
    .ok (r.1, { r.2 with pool := s.pool })) = Res.ok (z, s') := e
  obtain ⟨⟨z1, s1⟩, e2, e3⟩ := Res.bind_eq_ok.1 e4
  rw [e2]
  obtain ⟨rfl, rfl⟩ := Prod.mk.inj (Res.ok.inj e3)
  rfl

theorem Loc.marshalRest {d : TwistP} {v : TwistPoint} {z : Gf2} {w : GfP2} (h : Loc s0 W s (own d v :: own z w :: L)) :
    Wp (G2H.marshalRest d (some z)) s fun r s' => r = (G2.marshal (v.affineRest w)).1 ∧
      Loc s0 W s' (own d (v.affineRest w) :: own z w :: L) := by
  obtain ⟨h1, h2⟩ := h.head
  obtain ⟨h3, h4⟩ := h.tail.head
  have hk := known2 h.pool h1 h3 (h.disj List.mem_cons_self)
  rw [h2, h4] at hk
  have e : ∀ w : TwistPoint, ([own d w] : List (List (Cell × Int))).flatten = own d w := by simp
  refine h.change ?_
  have := effect_of (m := G2H.marshalRest d (some z)) (W := [own d v]) (E := [own z w])
    (W' := fun _ => [own d (v.affineRest w)]) (P := fun r => r = (G2.marshal (v.affineRest w)).1)
    (Q := fun r s' => r = (G2.marshal (v.affineRest w)).1 ∧ Live s' d ∧ HeapObj.val s'.mem d = v.affineRest w) hk
    (fun rest hr => ?_) (fun _ _ c hc => by rwa [e, ObjLaw.cells] at hc ⊢) (by
      rintro r s' hr _ rfl h1 h2 _
      rw [e, ObjLaw.cells] at h1
      rw [e] at h2
      exact ⟨hr, h1, (ObjLaw.val d _ s'.mem).1 h2⟩)
  · rwa [e, ObjLaw.cells] at this
  · unfold G2H.marshalRest
    refine wp_withPool (P := fun r => r = (G2.marshal (v.affineRest w)).1)
      (Γ' := fun _ => own d (v.affineRest w) :: own z w :: [rest]) (Or.inl rfl) hr fun s _ hs h => ?_
    refine Wp.bind (wp_affineRest hs h) fun _ s h => ?_
    replace h : Rel s (own d.x.x (v.affineRest w).x.x :: own d.x.y (v.affineRest w).x.y :: own d.y.x (v.affineRest w).y.x ::
      own d.y.y (v.affineRest w).y.y :: own d.z (v.affineRest w).z :: own d.t (v.affineRest w).t :: own z w :: [rest]) := h
    refine Wp.bind (wp_modNew h) fun _ _ ⟨e1, h⟩ => ?_
    refine Wp.bind (wp_modNew h) fun _ _ ⟨e2, h⟩ => ?_
    refine Wp.bind (wp_modNew h) fun _ _ ⟨e3, h⟩ => ?_
    refine Wp.bind (wp_modNew h) fun _ _ ⟨e4, h⟩ => ?_
    exact Wp.pure ⟨by rw [e1, e2, e3, e4]; rfl, h⟩

theorem Loc.race {pr : ProofSetH} {p : ParamsSetH} {vp : ParamsSet} {vV vD vC : TwistPoint} {va : GfP12}
    (h : Loc s0 W s (own pr.D vD :: own pr.a va :: L)) (he : Env g s0 W) (hp : Old s0 W p vp) (hk : GoodKey g s0 W p.kp)
    (hV : Old s0 W pr.V vV) (hC : Old s0 W pr.C vC) (gV : NotGlobal g pr.V)
    (hd : ∀ y, p.kp.pubk = some y → Disj (HeapObj.cells pr.V) (HeapObj.cells y)) (hz : vD.z.isOne = false) {w : ProofSet}
    (hok : Verif.verifySet ⟨vV, vD, vC, va, pr.s, pr.t, pr.zsig, pr.zv, pr.c, pr.m, pr.zr⟩ vp = .ok (true, w)) :
    Wp (verifySetRace g pr p) s fun r s' => r.2 = true ∧
      (r.1 = true → (G2.marshal (vD.makeAffine.affineRest vD.z.invert)).1 = (G2.marshal vD).1) ∧
      Loc s0 W s' (own pr.D (vD.makeAffine.affineRest vD.z.invert) :: own pr.a va.minimal :: L) := by
  have hH : Old s0 W p.H vp.H := by
    have := hp.part (b := p.H) ((List.sublist_append_right _ _).trans (List.sublist_append_left _ _))
    rwa [show HeapObj.val s0.mem p.H = vp.H from congrArg ParamsSet.H hp.val] at this
  have hkp : vp.kp.pubk = p.kp.pubk.map (HeapObj.val s0.mem) := by rw [← hp.val]; rfl
  have hv := hok
  unfold Verif.verifySet at hv
  obtain ⟨pk, hpk, hv⟩ := Res.bind_eq_ok.1 hv
  obtain ⟨hb, hw⟩ := Prod.mk.inj (Res.ok.inj hv)
  have hwD : w.D = vD.makeAffine := by rw [← hw]; rfl
  have hwa : w.a = va.minimal := by rw [← hw]; rfl
  have hbytes := beq_iff_eq.1 ((Bool.and_eq_true _ _).mp hb).1
  obtain ⟨y, hy⟩ : ∃ y, p.kp.pubk = some y := by
    cases hc : p.kp.pubk with
    | none => rw [hkp, hc] at hpk; cases hpk
    | some y => exact ⟨y, rfl⟩
  unfold verifySetRace verifySetHead
  refine Wp.assoc ?_
  refine Wp.bind (h.g2_scalarMult (Or.inl hC) pr.c) fun D s1 h => Wp.assoc ?_
  refine Wp.bind (h.g2_scalarMult (Or.inl hH) pr.zr) fun t s2 h => Wp.assoc ?_
  refine Wp.bind (h.swap.g2_add (Or.inr List.mem_cons_self)) fun _ s3 h => Wp.assoc ?_
  refine Wp.bind (h.drop2.g2_base he pr.zsig) fun aux s4 h => Wp.assoc ?_
  refine Wp.bind (h.swap.g2_add (Or.inr List.mem_cons_self)) fun _ s5 h => Wp.assoc ?_
  refine Wp.bind h.drop2.g2_marshal fun b1 s6 ⟨e1, h⟩ => Wp.assoc ?_
  refine Wp.bind (h.tail.marshalHead hz) fun o s7 ⟨z, e2, h⟩ => ?_
  subst e2
  refine Wp.bind (Wp.pure (Q := fun r s' => r = (b1, some z) ∧ s' = s7) ⟨rfl, rfl⟩) fun r s8 ⟨er, es⟩ => ?_
  subst er es
  have h := h.perm ((List.Perm.swap (own pr.D vD) (own z vD.z.invert) _).trans ((List.Perm.swap (own pr.a va) (own z vD.z.invert) L).cons _))
  refine Wp.bind ((Loc.verifySet h he hp hk hV hC gV hd).2 _ hok) fun second s9 ⟨e3, h, _⟩ => ?_
  rw [hwD, hwa] at h
  have h := h.perm ((List.Perm.swap (own z vD.z.invert) (own pr.a va.minimal) L).cons _)
  unfold verifySetRest
  refine Wp.assoc ?_
  refine Wp.bind h.marshalRest fun b2 s10 ⟨e4, h⟩ => Wp.assoc ?_
  obtain ⟨y1, y2, y3⟩ := hk.old y hy
  refine Wp.bind (R := fun r s' => r = y ∧ s' = s10) ⟨y, s10, by rw [hy]; rfl, rfl, rfl⟩ fun r s11 ⟨er, es⟩ => Wp.assoc ?_
  subst er es
  refine Wp.bind (h.ccsRhs he y1 hV y2 y3 gV (hd _ hy) pr.c pr.zsig pr.zv) fun p1 s12 h => Wp.assoc ?_
  refine Wp.bind h.gt_marshal fun b3 s13 ⟨_, h⟩ => Wp.assoc ?_
  refine Wp.bind (h.tail.drop2.swap.gt_marshal) fun b4 s14 ⟨_, h⟩ => ?_
  refine Wp.bind (Wp.pure (Q := fun r s' => r = ((b1, some z).1 == b2 && b3 == b4) ∧ s' = s14) ⟨rfl, rfl⟩) fun first s15 ⟨er, es⟩ => ?_
  subst er es
  refine Wp.pure ⟨e3, fun h1 => ?_, ?_⟩
  · have h2 := beq_iff_eq.1 ((Bool.and_eq_true _ _).mp h1).1
    rw [← e4, ← h2, ← hbytes, e1]
  · have := h.swap
    rwa [show (GT.marshal va.minimal).2 = va.minimal from GfP12.minimal_idem va] at this

theorem effect_race {pr : ProofSetH} {p : ParamsSetH} (hr : CcsReady g s) (hp : Live s p) (hq : Live s pr)
    (hgp : Disj g.cells (HeapObj.cells p)) (hgq : Disj g.cells (HeapObj.cells pr))
    (hpq : Disj (HeapObj.cells p) (HeapObj.cells pr)) (hk : KeyOk (HeapObj.val s.mem p.kp))
    (hz : (HeapObj.val s.mem pr.D).z.isOne = false) {w : ProofSet}
    (hok : verifySet (HeapObj.val s.mem pr) (HeapObj.val s.mem p) = .ok (true, w)) :
    Effect (verifySetRace g pr p) s (HeapObj.cells pr.D ++ HeapObj.cells pr.a) fun r s' => r.2 = true ∧
      (r.1 = true → (G2.marshal ((HeapObj.val s.mem pr.D).makeAffine.affineRest (HeapObj.val s.mem pr.D).z.invert)).1 =
        (G2.marshal (HeapObj.val s.mem pr.D)).1) ∧ Live s' pr ∧
      HeapObj.val s'.mem pr = { HeapObj.val s.mem pr with
        D := (HeapObj.val s.mem pr.D).makeAffine.affineRest (HeapObj.val s.mem pr.D).z.invert
        a := (HeapObj.val s.mem pr.a).minimal } := by
  have hnd := hq.1
  have hc : HeapObj.cells pr = HeapObj.cells pr.V ++ HeapObj.cells pr.D ++ HeapObj.cells pr.C ++ HeapObj.cells pr.a := rfl
  have sV : (HeapObj.cells pr.V).Sublist (HeapObj.cells pr) := by
    rw [hc, List.append_assoc, List.append_assoc]; exact List.sublist_append_left _ _
  have sC : (HeapObj.cells pr.C).Sublist (HeapObj.cells pr) := by
    rw [hc]; exact (List.sublist_append_right _ _).trans (List.sublist_append_left _ _)
  have sW : (HeapObj.cells pr.D ++ HeapObj.cells pr.a).Sublist (HeapObj.cells pr) := by
    rw [hc]
    exact List.Sublist.append ((List.sublist_append_right _ _).trans (List.sublist_append_left _ _)) (List.Sublist.refl _)
  rw [hc] at hnd
  simp only [List.nodup_append, List.mem_append] at hnd
  obtain ⟨⟨⟨⟨n1, n2, n3⟩, n4, n5⟩, n6, n7⟩⟩ := And.intro hnd trivial
  have dV : Disj (HeapObj.cells pr.V) (HeapObj.cells pr.D ++ HeapObj.cells pr.a) := fun c h1 h2 =>
    (List.mem_append.1 h2).elim (fun h => n3 c h1 c h rfl) (fun h => n7 c (Or.inl (Or.inl h1)) c h rfl)
  have dC : Disj (HeapObj.cells pr.C) (HeapObj.cells pr.D ++ HeapObj.cells pr.a) := fun c h1 h2 =>
    (List.mem_append.1 h2).elim (fun h => n5 c (Or.inr h) c h1 rfl) (fun h => n7 c (Or.inr h1) c h rfl)
  have oV : Old s (HeapObj.cells pr.D ++ HeapObj.cells pr.a) pr.V (HeapObj.val s.mem pr.V) := ⟨liveCells_sub hq sV, rfl, dV⟩
  have oC : Old s (HeapObj.cells pr.D ++ HeapObj.cells pr.a) pr.C (HeapObj.val s.mem pr.C) := ⟨liveCells_sub hq sC, rfl, dC⟩
  have oP : Old s (HeapObj.cells pr.D ++ HeapObj.cells pr.a) p (HeapObj.val s.mem p) := ⟨hp, rfl, disj_right hpq sW⟩
  have hD := holds_own pr.D (HeapObj.val s.mem pr.D)
  have ha := holds_own pr.a (HeapObj.val s.mem pr.a)
  have h : Loc s (HeapObj.cells pr.D ++ HeapObj.cells pr.a) s
      ([own pr.D (HeapObj.val s.mem pr.D)] ++ [own pr.a (HeapObj.val s.mem pr.a)]) := by
    refine Loc.enter hr.pool (by rw [cells_append, hD.cells, ha.cells]) (liveCells_sub hq sW) ?_
    rw [Forall_append, hD.val, ha.val]; exact ⟨rfl, rfl⟩
  obtain ⟨r, s', e, h1, h2, h⟩ := Loc.race h ⟨hr, disj_right hgq sW⟩ oP
    (goodKey (oP.part (kp_sublist_set p)) hk (disj_right hgp (kp_sublist_set p))) oV oC (disj_right hgq sV)
    (fun y hy => by rw [key_cells hy]; exact disj_symm (disj_sub (disj_right hpq sV) (kp_sublist_set p))) hz hok
  refine ⟨r, s', e, h.pool, h.next, h.keep, h1, h2, ⟨hq.1, fun c hc => (hq.2 c hc).trans_le h.next⟩, ?_⟩
  show (⟨HeapObj.val s'.mem pr.V, HeapObj.val s'.mem pr.D, HeapObj.val s'.mem pr.C, HeapObj.val s'.mem pr.a, _, _, _, _, _, _,
    _⟩ : ProofSet) = _
  rw [(h.old oV).2, (h.old oC).2, h.head.2, h.tail.head.2]
  rfl

theorem Loc.raceUL {pr : ProofULH} {p : ParamsULH} {vp : ParamsUL} {vD vC : TwistPoint} {va : List GfP12}
    (h : Loc s0 W s (own pr.D vD :: (owns pr.a va ++ L))) (hl : pr.a.length = va.length) (he : Env g s0 W) (hp : Old s0 W p vp)
    (hk : GoodKey g s0 W p.kp) (hV : Old s0 W pr.V (HeapObj.val s0.mem pr.V)) (hC : Old s0 W pr.C vC) (gV : NotGlobal g pr.V)
    (hd : ∀ y, p.kp.pubk = some y → Disj (HeapObj.cells pr.V) (HeapObj.cells y)) (hz : vD.z.isOne = false) {w : ProofUL}
    (hok : Verif.verifyUL ⟨HeapObj.val s0.mem pr.V, vD, vC, va, pr.s, pr.t, pr.zsig, pr.zv, pr.c, pr.m, pr.zr⟩ vp = .ok (true, w)) :
    Wp (verifyULRace g pr p) s fun r s' => r.2 = true ∧
      (r.1 = true → (G2.marshal (vD.makeAffine.affineRest vD.z.invert)).1 = (G2.marshal vD).1) ∧ pr.a.length = w.a.length ∧
      Loc s0 W s' (own pr.D (vD.makeAffine.affineRest vD.z.invert) :: (owns pr.a w.a ++ L)) := by
  have hH : Old s0 W p.H vp.H := by
    have := hp.part (b := p.H) ((List.sublist_append_right _ _).trans (List.sublist_append_left _ _))
    rwa [show HeapObj.val s0.mem p.H = vp.H from congrArg ParamsUL.H hp.val] at this
  have hkp : vp.kp.pubk = HeapObj.val s0.mem p.kp.pubk := by rw [← hp.val]; rfl
  have hu : vp.u = p.u := by rw [← hp.val]; rfl
  have hll : vp.l = p.l := by rw [← hp.val]; rfl
  have hv := hok
  unfold Verif.verifyUL at hv
  obtain ⟨Dv, hDv, hv⟩ := Res.bind_eq_ok.1 hv
  obtain ⟨res, hA, hv⟩ := Res.bind_eq_ok.1 hv
  obtain ⟨hb, hw⟩ := Prod.mk.inj (Res.ok.inj hv)
  have hwD : w.D = vD.makeAffine := by rw [← hw]; rfl
  have hwa : w.a = res.2 ++ va.drop p.l.toNat := by rw [← hw, hll]
  have hbytes := beq_iff_eq.1 ((Bool.and_eq_true _ _).mp hb).1
  rw [hu, hll] at hDv
  rw [hkp, hll] at hA
  obtain ⟨l1, l2⟩ := verifyULA_a _ _ p.l.toNat 0 true res.1 res.2 hA
  have hag := verifyULA_again (HeapObj.val s0.mem p.kp.pubk)
    ⟨HeapObj.val s0.mem pr.V, vD, vC, va, pr.s, pr.t, pr.zsig, pr.zv, pr.c, pr.m, pr.zr⟩ vD w.a p.l.toNat 0 true
    (fun j _ hj => by rw [hwa, List.getElem?_append_left (by omega), l2 j (by omega), zero_add])
  rw [hA] at hag
  unfold verifyULRace verifyULHead
  refine Wp.assoc ?_
  refine Wp.bind (h.g2_scalarMult (Or.inl hC) pr.c) fun D s1 h => Wp.assoc ?_
  refine Wp.bind (h.g2_scalarMult (Or.inl hH) pr.zr) fun t s2 h => Wp.assoc ?_
  refine Wp.bind (h.swap.g2_add (Or.inr List.mem_cons_self)) fun _ s3 h => Wp.assoc ?_
  refine Wp.bind ((Loc.verifyULD he p.u pr.zsig p.l.toNat 0 h.drop2).2 _ hDv) fun _ s4 h => Wp.assoc ?_
  refine Wp.bind h.g2_marshal fun b1 s6 ⟨e1, h⟩ => Wp.assoc ?_
  refine Wp.bind (h.tail.marshalHead hz) fun o s7 ⟨z, e2, h⟩ => ?_
  subst e2
  refine Wp.bind (Wp.pure (Q := fun r s' => r = (b1, some z) ∧ s' = s7) ⟨rfl, rfl⟩) fun r s8 ⟨er, es⟩ => ?_
  subst er es
  have h : Loc s0 W s8 (own pr.D vD :: (owns pr.a va ++ own z vD.z.invert :: L)) :=
    h.perm ((List.Perm.swap (own pr.D vD) (own z vD.z.invert) _).trans ((List.perm_middle (l₁ := owns pr.a va)).symm.cons _))
  refine Wp.bind ((Loc.verifyUL h hl he hp hk hV hC gV hd).2 _ hok) fun second s9 ⟨e3, h, hl', _⟩ => ?_
  replace h : Loc s0 W s9 (own pr.D w.D :: (owns pr.a w.a ++ own z vD.z.invert :: L)) := h
  rw [hwD] at h
  have h := h.perm ((List.perm_middle (l₁ := owns pr.a w.a)).cons _)
  unfold verifyULRest
  refine Wp.assoc ?_
  refine Wp.bind h.marshalRest fun b2 s10 ⟨e4, h⟩ => Wp.assoc ?_
  have h : Loc s0 W s10 (owns (pr.a.drop 0) (w.a.drop 0) ++ own z vD.z.invert :: own pr.D (vD.makeAffine.affineRest vD.z.invert) :: L) :=
    h.perm ((List.Perm.swap _ _ _).trans (((List.perm_middle (l₁ := owns pr.a w.a)).symm.cons _).trans
      (List.perm_middle (l₁ := owns pr.a w.a)).symm))
  refine Wp.bind ((Loc.verifyULA he hk hV gV hd hl' p.l.toNat 0 true h (vD := vD) (vC := vC)).2 _ hag) fun b3 s11 ⟨_, _, _, h⟩ => ?_
  refine Wp.bind (Wp.pure (Q := fun r s' => r = ((b1, some z).1 == b2 && b3) ∧ s' = s11) ⟨rfl, rfl⟩) fun first s12 ⟨er, es⟩ => ?_
  subst er es
  refine Wp.pure ⟨e3, fun h1 => ?_, hl', ?_⟩
  · have h2 := beq_iff_eq.1 ((Bool.and_eq_true _ _).mp h1).1
    rw [← e4, ← h2, ← hbytes, e1]
  · have hdrop : res.2 ++ w.a.drop (0 + p.l.toNat) = w.a := by
      rw [hwa, zero_add, List.drop_append_of_le_length (by omega), List.drop_of_length_le (by omega), List.nil_append]
    have h : Loc s0 W s12 (owns pr.a w.a ++ own z vD.z.invert :: own pr.D (vD.makeAffine.affineRest vD.z.invert) :: L) := by
      rw [← hdrop]
      exact h
    exact (h.perm (List.perm_middle (l₁ := owns pr.a w.a))).tail.perm (List.perm_middle (l₁ := owns pr.a w.a))

theorem effect_raceUL {pr : ProofULH} {p : ParamsULH} (hr : CcsReady g s) (hp : Live s p) (hq : Live s pr)
    (hgp : Disj g.cells (HeapObj.cells p)) (hgq : Disj g.cells (HeapObj.cells pr))
    (hpq : Disj (HeapObj.cells p) (HeapObj.cells pr)) (hk : KeyOk (HeapObj.val s.mem p.kp))
    (hz : (HeapObj.val s.mem pr.D).z.isOne = false) {w : ProofUL}
    (hok : verifyUL (HeapObj.val s.mem pr) (HeapObj.val s.mem p) = .ok (true, w)) :
    Effect (verifyULRace g pr p) s pr.written fun r s' => r.2 = true ∧
      (r.1 = true → (G2.marshal ((HeapObj.val s.mem pr.D).makeAffine.affineRest (HeapObj.val s.mem pr.D).z.invert)).1 =
        (G2.marshal (HeapObj.val s.mem pr.D)).1) ∧ Live s' pr ∧
      HeapObj.val s'.mem pr = { HeapObj.val s.mem pr with
        D := (HeapObj.val s.mem pr.D).makeAffine.affineRest (HeapObj.val s.mem pr.D).z.invert
        a := w.a } := by
  have oP : Old s pr.written p (HeapObj.val s.mem p) := ⟨hp, rfl, disj_right hpq pr.sub_written⟩
  have hl := val_a_length pr s.mem
  have h : Loc s pr.written s (ulEntry pr (HeapObj.val s.mem pr) ++ []) := by
    rw [List.append_nil]
    exact Loc.enter hr.pool (ulEntry_cells hl) (liveCells_sub hq pr.sub_written) ((ulEntry_val hl _).2 ⟨rfl, rfl⟩)
  have hh : Half g s pr.written p pr := half hq (fun c h _ => h) hgq hpq
  obtain ⟨r, s', e, h1, h2, hl', h⟩ := Loc.raceUL (vD := HeapObj.val s.mem pr.D) (vC := HeapObj.val s.mem pr.C)
    (va := HeapObj.val s.mem pr.a) h (List.length_map _).symm ⟨hr, disj_right hgq pr.sub_written⟩ oP
    (goodKey (oP.part (kp_sublist_ul p)) hk (disj_right hgp (kp_sublist_ul p))) hh.V hh.C hh.gV hh.pV hz hok
  refine ⟨r, s', e, h.pool, h.next, h.keep, h1, h2, ⟨hq.1, fun c hc => (hq.2 c hc).trans_le h.next⟩, ?_⟩
  have hm := (ulEntry_val (v := { HeapObj.val s.mem pr with
    D := (HeapObj.val s.mem pr.D).makeAffine.affineRest (HeapObj.val s.mem pr.D).z.invert, a := w.a }) hl' s'.mem).1 (by
    intro x hx
    obtain ⟨y, hy, hx⟩ := List.mem_flatten.1 hx
    exact (h.cell x (List.mem_flatten.2 ⟨y, by rw [List.append_nil]; exact hy, hx⟩)).2.2)
  show (⟨HeapObj.val s'.mem pr.V, HeapObj.val s'.mem pr.D, HeapObj.val s'.mem pr.C, HeapObj.val s'.mem pr.a, _, _, _, _, _, _,
    _⟩ : ProofUL) = _
  rw [(h.old hh.V).2, (h.old hh.C).2, hm.1, hm.2]
  rfl

end

/-- `D` made affine twice with the same inverse of `z` is not on the curve, unless `z^6 = 1`. -/
theorem raced_off {v : TwistPoint} {Q : BG2} (hD : Rep2 v Q) (hQ : Q ≠ 0) (hz : v.z.val ^ 6 ≠ 1) :
    v.z.isOne = false ∧ OffTwist (v.makeAffine.affineRest v.z.invert) ∧
    (v.makeAffine.affineRest v.z.invert).x.val = v.x.val / v.z.val ^ 4 ∧
    (v.makeAffine.affineRest v.z.invert).y.val = v.y.val / v.z.val ^ 6 := by
  have h1 : v.z.isOne = false := by
    cases h : v.z.isOne with
    | false => rfl
    | true => exact absurd (by rw [TwistPoint.isOne_val hD.2.1 h, GfP2.val_one, one_pow]) hz
  have hz0 := hD.z_ne hQ
  have hx : (v.makeAffine.affineRest v.z.invert).x.val = v.x.val / v.z.val ^ 4 := by
    simp only [TwistPoint.makeAffine, h1, TwistPoint.affineRest, GfP2.val_mul, GfP2.val_square, GfP2.val_invert, Bool.false_eq_true,
      if_false]
    field_simp
  have hy : (v.makeAffine.affineRest v.z.invert).y.val = v.y.val / v.z.val ^ 6 := by
    simp only [TwistPoint.makeAffine, h1, TwistPoint.affineRest, GfP2.val_mul, GfP2.val_square, GfP2.val_invert, Bool.false_eq_true,
      if_false]
    field_simp
  refine ⟨h1, ⟨?_, ?_, ?_⟩, hx, hy⟩
  · show GfP2.one.val ≠ 0
    rw [GfP2.val_one]; exact one_ne_zero
  · exact Int.one_nonneg
  · intro hc
    rw [hx, hy, show (v.makeAffine.affineRest v.z.invert).z.val = 1 from GfP2.val_one, one_pow, mul_one] at hc
    have he := (hD.1.finite hz0).eqn
    have h6 : v.z.val ^ 6 ≠ 0 := pow_ne_zero _ hz0
    have e1 : (v.y.val / v.z.val ^ 6) ^ 2 * v.z.val ^ 6 = (v.y.val / v.z.val ^ 3) ^ 2 := by field_simp
    have e2 : (v.x.val / v.z.val ^ 4) ^ 3 * v.z.val ^ 6 = (v.x.val / v.z.val ^ 2) ^ 3 := by field_simp
    have e3 := congrArg (· * v.z.val ^ 6) hc
    simp only [add_mul, e1, e2, he] at e3
    have e4 : 3 / F2.xi * v.z.val ^ 6 = 3 / F2.xi * 1 := by rw [mul_one]; exact (add_left_cancel e3).symm
    exact hz (mul_left_cancel₀ twist_ne e4)

end Verif

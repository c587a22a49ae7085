import Verif.Spec.BnHeap
import Verif.Lemmas.BnHeapCurve

/-!
# `Mul`, `MakeAffine` and `IsOnCurve` on the heap, and changes of the pool
-/

namespace Verif

open BigM

/-! ### Objects from an empty pool are zero -/

/-- No used objects are available. -/
def BigHeap.Empty (s : BigHeap) : Prop := s.pool = none ∨ s.pool = some []

theorem wp_get_zero {s : BigHeap} {Γ : List (List (Cell × Int))} (hp : s.Empty) (h : Rel s Γ) :
    Wp BigM.get s fun d s' => Rel s' (own d (0 : Int) :: Γ) ∧ s'.Empty :=
  ⟨_, _, get_new hp, Own.fresh h, hp⟩

theorem Gf2.wp_new_zero {s : BigHeap} {Γ : List (List (Cell × Int))} (hp : s.Empty) (h : Rel s Γ) :
    Wp Gf2.new s fun d s' => Rel s' (own d GfP2.zero :: Γ) ∧ s'.Empty := by
  unfold Gf2.new
  refine Wp.bind (wp_get_zero hp h) fun x _ ⟨h, hp⟩ => ?_
  refine Wp.bind (wp_get_zero hp h) fun y _ ⟨h, hp⟩ => ?_
  replace h := h.perm (List.Perm.swap (own x (0 : Int)) (own y (0 : Int)) _)
  exact Wp.pure ⟨h, hp⟩

theorem CurveP.wp_new_zero {s : BigHeap} {Γ : List (List (Cell × Int))} (hp : s.Empty) (h : Rel s Γ) :
    Wp CurveP.new s fun d s' => Rel s' (own d CurvePoint.new :: Γ) ∧ s'.Empty := by
  unfold CurveP.new
  refine Wp.bind (wp_get_zero hp h) fun x _ ⟨h, hp⟩ => ?_
  refine Wp.bind (wp_get_zero hp h) fun y _ ⟨h, hp⟩ => ?_
  refine Wp.bind (wp_get_zero hp h) fun z _ ⟨h, hp⟩ => ?_
  refine Wp.bind (wp_get_zero hp h) fun t _ ⟨h, hp⟩ => ?_
  replace h := h.perm (show List.Perm ([own t (0 : Int), own z (0 : Int), own y (0 : Int), own x (0 : Int)] ++ Γ)
    ([own x (0 : Int), own y (0 : Int), own z (0 : Int), own t (0 : Int)] ++ Γ) from
    List.Perm.append_right Γ (List.reverse_perm [own x (0 : Int), own y (0 : Int), own z (0 : Int), own t (0 : Int)]))
  exact Wp.pure ⟨h, hp⟩

theorem TwistP.wp_new_zero {s : BigHeap} {Γ : List (List (Cell × Int))} (hp : s.Empty) (h : Rel s Γ) :
    Wp TwistP.new s fun d s' => Rel s' (own d TwistPoint.new :: Γ) ∧ s'.Empty := by
  unfold TwistP.new
  refine Wp.bind (Gf2.wp_new_zero hp h) fun x _ ⟨h, hp⟩ => ?_
  refine Wp.bind (Gf2.wp_new_zero hp h) fun y _ ⟨h, hp⟩ => ?_
  refine Wp.bind (Gf2.wp_new_zero hp h) fun z _ ⟨h, hp⟩ => ?_
  refine Wp.bind (Gf2.wp_new_zero hp h) fun t _ ⟨h, hp⟩ => ?_
  replace h := h.perm (show List.Perm ([own t GfP2.zero, own z GfP2.zero, own y GfP2.zero, own x GfP2.zero] ++ Γ)
    ([own x GfP2.zero, own y GfP2.zero, own z GfP2.zero, own t GfP2.zero] ++ Γ) from
    List.Perm.append_right Γ (List.reverse_perm [own x GfP2.zero, own y GfP2.zero, own z GfP2.zero, own t GfP2.zero]))
  exact Wp.pure ⟨h, hp⟩

theorem Gf6.wp_new_zero {s : BigHeap} {Γ : List (List (Cell × Int))} (hp : s.Empty) (h : Rel s Γ) :
    Wp Gf6.new s fun d s' => Rel s' (own d GfP6.zero :: Γ) ∧ s'.Empty := by
  unfold Gf6.new
  refine Wp.bind (Gf2.wp_new_zero hp h) fun x _ ⟨h, hp⟩ => ?_
  refine Wp.bind (Gf2.wp_new_zero hp h) fun y _ ⟨h, hp⟩ => ?_
  refine Wp.bind (Gf2.wp_new_zero hp h) fun z _ ⟨h, hp⟩ => ?_
  replace h := h.perm (show List.Perm ([own z GfP2.zero, own y GfP2.zero, own x GfP2.zero] ++ Γ)
    ([own x GfP2.zero, own y GfP2.zero, own z GfP2.zero] ++ Γ) from
    List.Perm.append_right Γ (List.reverse_perm [own x GfP2.zero, own y GfP2.zero, own z GfP2.zero]))
  exact Wp.pure ⟨h, hp⟩

theorem Gf12.wp_new_zero {s : BigHeap} {Γ : List (List (Cell × Int))} (hp : s.Empty) (h : Rel s Γ) :
    Wp Gf12.new s fun d s' => Rel s' (own d GfP12.zero :: Γ) ∧ s'.Empty := by
  unfold Gf12.new
  refine Wp.bind (Gf6.wp_new_zero hp h) fun x _ ⟨h, hp⟩ => ?_
  refine Wp.bind (Gf6.wp_new_zero hp h) fun y _ ⟨h, hp⟩ => ?_
  replace h := h.perm (List.Perm.swap (own x GfP6.zero) (own y GfP6.zero) _)
  exact Wp.pure ⟨h, hp⟩

/-! ### `Mul` -/

theorem CurveP.wp_setInfinity {s : BigHeap} {Γ Γ' : List (List (Cell × Int))} {d : CurveP} {v : CurvePoint} [Has Γ d v]
    [Upd Γ d v v.setInfinity Γ'] (h : Rel s Γ) : Wp d.setInfinity s fun _ s' => Rel s' Γ' := wp_opSelf h

theorem TwistP.wp_setInfinity {s : BigHeap} {Γ Γ' : List (List (Cell × Int))} {d : TwistP} {v : TwistPoint} [Has Γ d v]
    [Upd Γ d v v.setInfinity Γ'] (h : Rel s Γ) : Wp d.setInfinity s fun _ s' => Rel s' Γ' := wp_opSelf h

/-- `SetInfinity` takes nothing from the pool. -/
theorem CurveP.setInfinity_empty {d : CurveP} {s : BigHeap} (hp : s.Empty) {Q : Unit → BigHeap → Prop}
    (h : Wp d.setInfinity s Q) : Wp d.setInfinity s fun a s' => Q a s' ∧ s'.Empty := by
  obtain ⟨a, s', e, hq⟩ := h
  refine ⟨a, s', e, hq, ?_⟩
  cases e
  exact hp

theorem TwistP.setInfinity_empty {d : TwistP} {s : BigHeap} (hp : s.Empty) {Q : Unit → BigHeap → Prop}
    (h : Wp d.setInfinity s Q) : Wp d.setInfinity s fun a s' => Q a s' ∧ s'.Empty := by
  obtain ⟨a, s', e, hq⟩ := h
  refine ⟨a, s', e, hq, ?_⟩
  cases e
  exact hp

theorem CurveP.wp_mul {s : BigHeap} {Δ : List (List (Cell × Int))} {d a : CurveP} {v w : CurvePoint} (k : Int) (hp : s.Empty)
    (h : Rel s (own d v :: own a w :: Δ)) : Wp (d.mul a k) s fun _ s' => Rel s' (own d (w.mul k) :: own a w :: Δ) := by
  unfold CurveP.mul
  refine Wp.bind (CurveP.wp_new_zero hp h) fun sum _ ⟨h, hp⟩ => ?_
  refine Wp.bind (CurveP.setInfinity_empty hp (wp_opSelf h)) fun _ _ ⟨h, hp⟩ => ?_
  refine Wp.bind (CurveP.wp_new_zero hp h) fun t _ ⟨h, hp⟩ => ?_
  have p : List.Perm (own t CurvePoint.new :: own sum CurvePoint.new.setInfinity :: own d v :: own a w :: Δ)
      (own sum CurvePoint.new.setInfinity :: own t CurvePoint.new :: own a w :: own d v :: Δ) :=
    (List.Perm.swap _ _ _).trans (((List.Perm.swap _ _ _).cons _).cons _)
  refine Wp.bind (CurveP.wp_mulLoop k _ (h.perm p)) fun _ _ ⟨w', h⟩ => ?_
  refine Wp.bind (wp_op1 h) fun _ _ h => ?_
  refine Wp.bind (wp_put h) fun _ _ h => ?_
  exact (wp_put h).mono fun _ _ h => h.perm (List.Perm.swap _ _ _)

theorem CurveP.wp_mul_same {s : BigHeap} {Δ : List (List (Cell × Int))} {d : CurveP} {v : CurvePoint} (k : Int) (hp : s.Empty)
    (h : Rel s (own d v :: Δ)) : Wp (d.mul d k) s fun _ s' => Rel s' (own d (v.mul k) :: Δ) := by
  unfold CurveP.mul
  refine Wp.bind (CurveP.wp_new_zero hp h) fun sum _ ⟨h, hp⟩ => ?_
  refine Wp.bind (CurveP.setInfinity_empty hp (wp_opSelf h)) fun _ _ ⟨h, hp⟩ => ?_
  refine Wp.bind (CurveP.wp_new_zero hp h) fun t _ ⟨h, hp⟩ => ?_
  have p : List.Perm (own t CurvePoint.new :: own sum CurvePoint.new.setInfinity :: own d v :: Δ)
      (own sum CurvePoint.new.setInfinity :: own t CurvePoint.new :: own d v :: Δ) := List.Perm.swap _ _ _
  refine Wp.bind (CurveP.wp_mulLoop k _ (h.perm p)) fun _ _ ⟨w', h⟩ => ?_
  refine Wp.bind (wp_op1 h) fun _ _ h => ?_
  refine Wp.bind (wp_put h) fun _ _ h => ?_
  exact (wp_put h).mono fun _ _ h => h

theorem TwistP.wp_mul {s : BigHeap} {Δ : List (List (Cell × Int))} {d a : TwistP} {v w : TwistPoint} (k : Int) (hp : s.Empty)
    (h : Rel s (own d v :: own a w :: Δ)) : Wp (d.mul a k) s fun _ s' => Rel s' (own d (w.mul k) :: own a w :: Δ) := by
  unfold TwistP.mul
  refine Wp.bind (TwistP.wp_new_zero hp h) fun sum _ ⟨h, hp⟩ => ?_
  refine Wp.bind (TwistP.setInfinity_empty hp (wp_opSelf h)) fun _ _ ⟨h, hp⟩ => ?_
  refine Wp.bind (TwistP.wp_new_zero hp h) fun t _ ⟨h, hp⟩ => ?_
  have p : List.Perm (own t TwistPoint.new :: own sum TwistPoint.new.setInfinity :: own d v :: own a w :: Δ)
      (own sum TwistPoint.new.setInfinity :: own t TwistPoint.new :: own a w :: own d v :: Δ) :=
    (List.Perm.swap _ _ _).trans (((List.Perm.swap _ _ _).cons _).cons _)
  refine Wp.bind (TwistP.wp_mulLoop k _ (h.perm p)) fun _ _ ⟨w', h⟩ => ?_
  refine Wp.bind (wp_op1 h) fun _ _ h => ?_
  refine Wp.bind (wp_put h) fun _ _ h => ?_
  exact (wp_put h).mono fun _ _ h => h.perm (List.Perm.swap _ _ _)

theorem TwistP.wp_mul_same {s : BigHeap} {Δ : List (List (Cell × Int))} {d : TwistP} {v : TwistPoint} (k : Int) (hp : s.Empty)
    (h : Rel s (own d v :: Δ)) : Wp (d.mul d k) s fun _ s' => Rel s' (own d (v.mul k) :: Δ) := by
  unfold TwistP.mul
  refine Wp.bind (TwistP.wp_new_zero hp h) fun sum _ ⟨h, hp⟩ => ?_
  refine Wp.bind (TwistP.setInfinity_empty hp (wp_opSelf h)) fun _ _ ⟨h, hp⟩ => ?_
  refine Wp.bind (TwistP.wp_new_zero hp h) fun t _ ⟨h, hp⟩ => ?_
  have p : List.Perm (own t TwistPoint.new :: own sum TwistPoint.new.setInfinity :: own d v :: Δ)
      (own sum TwistPoint.new.setInfinity :: own t TwistPoint.new :: own d v :: Δ) := List.Perm.swap _ _ _
  refine Wp.bind (TwistP.wp_mulLoop k _ (h.perm p)) fun _ _ ⟨w', h⟩ => ?_
  refine Wp.bind (wp_op1 h) fun _ _ h => ?_
  refine Wp.bind (wp_put h) fun _ _ h => ?_
  exact (wp_put h).mono fun _ _ h => h

/-! ### `MakeAffine` -/

theorem CurveP.wp_makeAffine {s : BigHeap} {Δ : List (List (Cell × Int))} {d : CurveP} {v : CurvePoint} (hv : v.Invertible)
    (h : Rel s (own d v :: Δ)) : Wp d.makeAffine s fun _ s' => Rel s' (own d v.makeAffine :: Δ) := by
  replace h : Rel s (own d.x v.x :: own d.y v.y :: own d.z v.z :: own d.t v.t :: Δ) := h
  unfold CurveP.makeAffine
  refine Wp.bind (wp_test h) fun _ _ ⟨e1, h⟩ => ?_
  subst e1
  unfold CurvePoint.makeAffine
  by_cases h1 : v.z.natAbs = 1
  · rw [if_pos h1, if_pos h1]
    exact Wp.pure h
  rw [if_neg h1, if_neg h1]
  refine Wp.bind (R := fun r s' => r = v.isInfinity ∧ Rel s' (own d.x v.x :: own d.y v.y :: own d.z v.z :: own d.t v.t :: Δ))
    (wp_test (m := CurveP.isInfinity) (Γ := own d v :: Δ) h) fun _ _ ⟨e1, h⟩ => ?_
  subst e1
  by_cases h2 : v.isInfinity = true
  · rw [if_pos h2, if_pos h2]
    wp_run
  rw [if_neg h2, if_neg h2]
  obtain ⟨zi, hz⟩ := Option.isSome_iff_exists.1 ((hv.resolve_left h1).resolve_left h2)
  unfold CurveP.makeAffineTail
  wp_step
  refine Wp.bind (wp_modInv h) fun _ _ ⟨e1, h⟩ => ?_
  subst e1
  rw [hz] at h
  rw [hz, if_neg (by simp)]
  wp_run

theorem CurveP.makeAffine_panic {s : BigHeap} {Δ : List (List (Cell × Int))} {d : CurveP} {v : CurvePoint} (hv : ¬ v.Invertible)
    (h : Rel s (own d v :: Δ)) : d.makeAffine s = .panic := by
  simp only [CurvePoint.Invertible, not_or] at hv
  have hz : s.mem d.z = v.z := Rel.mem (Γ := own d.x v.x :: own d.y v.y :: own d.z v.z :: own d.t v.t :: Δ) h (by simp)
  have hi : (s.mem d.z == 0) = v.isInfinity := by rw [hz]; rfl
  obtain ⟨h1, h2, h3⟩ := hv
  show (if (s.mem d.z).natAbs = 1 then pure () else (d.isInfinity >>= fun b => if b = true then
    (do setInt d.x 0; setInt d.y 1; setInt d.z 0; setInt d.t 0) else d.makeAffineTail) : BigM Unit) s = _
  rw [hz, if_neg h1]
  show (if (s.mem d.z == 0) = true then (do setInt d.x 0; setInt d.y 1; setInt d.z 0; setInt d.t 0)
    else d.makeAffineTail : BigM Unit) s = _
  rw [hi, if_neg h2]
  unfold CurveP.makeAffineTail
  obtain ⟨c, s', e, w, h⟩ := wp_new (m := BigM.get) h
  show (BigM.get s >>= fun r => _) = _
  rw [e]
  have hz : s'.mem d.z = v.z := Rel.mem (Γ := own c w :: own d.x v.x :: own d.y v.y :: own d.z v.z :: own d.t v.t :: Δ) h (by simp)
  show (modInv c d.z s' >>= fun r => _) = _
  have hm : modInv c d.z s' = .ok (true, s') := by
    show (match modInverse (s'.mem d.z) bnP with | none => pure true | some v => (do write c v; pure false : BigM Bool)) s' = _
    rw [hz, Option.not_isSome_iff_eq_none.1 h3]
    rfl
  rw [hm]
  rfl

instance : OpSelf TwistP.makeAffine TwistPoint.makeAffine where
  run {s Δ d v} h := by
    replace h : Rel s (own d.x v.x :: own d.y v.y :: own d.z v.z :: own d.t v.t :: Δ) := h
    unfold TwistP.makeAffine
    refine Wp.bind (wp_test h) fun _ _ ⟨e1, h⟩ => ?_
    subst e1
    unfold TwistPoint.makeAffine
    split
    · exact Wp.pure h
    · unfold TwistP.makeAffineTail
      wp_run

/-! ### Changes of the pool -/

/-- The heap has the objects in `Γ`, and no pool is in use. -/
def Rel0 (s : BigHeap) (Γ : List (List (Cell × Int))) : Prop := s.pool = none ∧ Rel s Γ

theorem wp_withPool {α : Type} {m : BigM α} {s : BigHeap} {Γ : List (List (Cell × Int))} {p : Option (List Cell)}
    {P : α → Prop} {Γ' : α → List (List (Cell × Int))} (hp : p = none ∨ p = some []) (h : Rel0 s Γ)
    (hm : ∀ s1 : BigHeap, s1.Empty → s1.pool = p → Rel s1 Γ → Wp m s1 fun a s' => P a ∧ Rel s' (Γ' a)) :
    Wp (withPool p m) s fun a s' => P a ∧ Rel0 s' (Γ' a) := by
  have hf : p.getD [] = [] := by rcases hp with rfl | rfl <;> rfl
  obtain ⟨a, s', e, hP, hR⟩ := hm { s with pool := p } hp rfl
    ⟨h.2.nodup, fun q hq => ⟨(h.2.cell q hq).1, by simp [BigHeap.free, hf], (h.2.cell q hq).2.2⟩, by simp [BigHeap.free, hf],
      by simp [BigHeap.free, hf]⟩
  refine ⟨a, { s' with pool := s.pool }, ?_, hP, h.1, ?_⟩
  · show (m { s with pool := p } >>= fun r => _) = _
    rw [e]; rfl
  · exact ⟨hR.nodup, fun q hq => ⟨(hR.cell q hq).1, by simp [BigHeap.free, h.1], (hR.cell q hq).2.2⟩,
      by simp [BigHeap.free, h.1], by simp [BigHeap.free, h.1]⟩

theorem wp_withPool' {α : Type} {m : BigM α} {s : BigHeap} {Γ : List (List (Cell × Int))} {p : Option (List Cell)}
    {Γ' : α → List (List (Cell × Int))} (hp : p = none ∨ p = some []) (h : Rel0 s Γ)
    (hm : ∀ s1 : BigHeap, s1.Empty → s1.pool = p → Rel s1 Γ → Wp m s1 fun a s' => Rel s' (Γ' a)) :
    Wp (withPool p m) s fun a s' => Rel0 s' (Γ' a) :=
  (wp_withPool (P := fun _ => True) hp h fun s1 h1 h2 h3 => (hm s1 h1 h2 h3).mono fun _ _ h => ⟨trivial, h⟩).mono
    fun _ _ h => h.2

/-! ### `IsOnCurve` -/

theorem wp_bigNew {s : BigHeap} {Γ : List (List (Cell × Int))} (h : Rel s Γ) :
    Wp BigM.new s fun d s' => Rel s' (own d (0 : Int) :: Γ) := ⟨_, _, rfl, Own.fresh h⟩

/-- `IsOnCurve` changes nothing; its objects are not used any more. -/
theorem CurveP.wp_isOnCurve {s : BigHeap} {Δ : List (List (Cell × Int))} {d : CurveP} {v : CurvePoint}
    (h : Rel s (own d v :: Δ)) : Wp d.isOnCurve s fun r s' => r = v.isOnCurve ∧ Rel s' (own d v :: Δ) := by
  replace h : Rel s (own d.x v.x :: own d.y v.y :: own d.z v.z :: own d.t v.t :: Δ) := h
  unfold CurveP.isOnCurve
  refine Wp.bind (wp_bigNew h) fun _ _ h => ?_
  wp_step
  refine Wp.bind (wp_bigNew h) fun _ _ h => ?_
  repeat wp_step
  refine Wp.bind (wp_bigNew h) fun _ _ h => ?_
  repeat wp_step
  refine Wp.bind (wp_test h) fun _ _ ⟨e1, h⟩ => ?_
  subst e1
  exact Wp.pure ⟨rfl, h.tail.tail.tail⟩

theorem Gf2.split {s : BigHeap} {Δ : List (List (Cell × Int))} {d : Gf2} {v : GfP2} (h : Rel s (own d v :: Δ)) :
    Rel s (own d.x v.x :: own d.y v.y :: Δ) := h

theorem TwistP.wp_isOnCurve {s : BigHeap} {Δ : List (List (Cell × Int))} {d : TwistP} {v : TwistPoint} {b : Gf2}
    (h : Rel0 s (own d v :: own b twistB :: Δ)) :
    Wp (d.isOnCurve b) s fun r s' => r = v.isOnCurve ∧ Rel0 s' (own d v :: own b twistB :: Δ) := by
  unfold TwistP.isOnCurve
  refine wp_withPool (P := fun r => r = v.isOnCurve) (Γ' := fun _ => own d v :: own b twistB :: Δ) (Or.inr rfl) h fun s _ _ h => ?_
  replace h : Rel s (own d.x v.x :: own d.y v.y :: own d.z v.z :: own d.t v.t :: own b twistB :: Δ) := h
  refine Wp.bind (wp_new h) fun yy _ ⟨_, h⟩ => ?_
  wp_step
  refine Wp.bind (wp_new h) fun xxx _ ⟨_, h⟩ => ?_
  repeat wp_step
  replace h := Gf2.split h.tail
  refine Wp.bind (wp_test h) fun _ _ ⟨e1, h⟩ => ?_
  refine Wp.bind (wp_test h) fun _ _ ⟨e2, h⟩ => ?_
  subst e1 e2
  exact Wp.pure ⟨rfl, h.tail.tail⟩

end Verif

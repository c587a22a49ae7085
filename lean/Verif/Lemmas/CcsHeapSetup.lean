import Verif.Lemmas.CcsHeapProve

/-! # Key generation, signatures and parameters on objects in memory -/

namespace Verif

open BigM

/-! ### Objects made of several -/

/-- The entries `E` describe the object `a` with the value `v`. -/
structure Describes {A V : Type} [HeapObj A V] (E : List (List (Cell × Int))) (a : A) (v : V) : Prop where
  cells : E.flatten.map Prod.fst = HeapObj.cells a
  val : ∀ m : Cell → Int, (∀ p ∈ E.flatten, m p.1 = p.2) ↔ HeapObj.val m a = v

section
variable {A V : Type} [Ob A V] [HeapObj A V] [ObjLaw A]

theorem holds_own (a : A) (v : V) : Describes [own a v] a v := by
  have e : [own a v].flatten = own a v := by simp
  exact ⟨by rw [e, ObjLaw.cells], fun m => by rw [e]; exact ObjLaw.val a v m⟩

theorem Forall_append {E E' : List (List (Cell × Int))} {m : Cell → Int} :
    (∀ p ∈ (E ++ E').flatten, m p.1 = p.2) ↔ (∀ p ∈ E.flatten, m p.1 = p.2) ∧ ∀ p ∈ E'.flatten, m p.1 = p.2 := by
  simp only [List.flatten_append, List.mem_append, or_imp, forall_and]

theorem cells_append {E E' : List (List (Cell × Int))} :
    (E ++ E').flatten.map Prod.fst = E.flatten.map Prod.fst ++ E'.flatten.map Prod.fst := by
  rw [List.flatten_append, List.map_append]

theorem holds_list : ∀ {as : List A} {vs : List V}, as.length = vs.length → Describes (owns as vs) as vs
  | [], [], _ => ⟨rfl, fun m => by simp [owns, HeapObj.val]⟩
  | a :: as, v :: vs, h => by
    have ih := holds_list (as := as) (vs := vs) (Nat.succ.inj h)
    have ha := holds_own a v
    have e : owns (a :: as) (v :: vs) = [own a v] ++ owns as vs := rfl
    refine ⟨?_, fun m => ?_⟩
    · rw [e, cells_append, ha.cells, ih.cells]; rfl
    · rw [e, Forall_append, ha.val, ih.val]
      show _ ↔ HeapObj.val m a :: HeapObj.val m as = _
      rw [List.cons.injEq]

/-- The entry of a pointer that may be nil. -/
def ownOpt : Option A → Option V → List (List (Cell × Int))
  | some a, some v => [own a v]
  | _, _ => []

theorem holds_opt {a : Option A} {v : Option V} (h : a.isSome = v.isSome) : Describes (ownOpt a v) a v := by
  cases a with
  | none => cases v with
    | none => exact ⟨rfl, fun m => by simp [ownOpt, HeapObj.val]⟩
    | some v => cases h
  | some a => cases v with
    | none => cases h
    | some v =>
      have ha := holds_own a v
      refine ⟨ha.cells, fun m => (ha.val m).trans ?_⟩
      show _ ↔ some (HeapObj.val m a) = some v
      rw [Option.some.injEq]

end

/-- The entries of the maps of signatures. -/
def ownSigs (q : List (Int × Option TwistP)) (w : List (Int × Option TwistPoint)) : List (List (Cell × Int)) :=
  (List.zipWith (fun a v => ownOpt a.2 v.2) q w).flatten

/-- The same keys, and nil in the same places. -/
def SigRel (q : List (Int × Option TwistP)) (w : List (Int × Option TwistPoint)) : Prop :=
  List.Forall₂ (fun a v => a.1 = v.1 ∧ a.2.isSome = v.2.isSome) q w

theorem holds_sigs {q : List (Int × Option TwistP)} {w : List (Int × Option TwistPoint)} (h : SigRel q w) :
    Describes (ownSigs q w) q w := by
  induction h with
  | nil => exact ⟨rfl, fun m => by simp [ownSigs, HeapObj.val]⟩
  | @cons a v q w hav _ ih =>
    have ha := holds_opt hav.2
    have e : ownSigs (a :: q) (v :: w) = ownOpt a.2 v.2 ++ ownSigs q w := rfl
    refine ⟨?_, fun m => ?_⟩
    · rw [e, cells_append, ha.cells, ih.cells]; rfl
    · rw [e, Forall_append, ha.val, ih.val]
      show _ ↔ (a.1, HeapObj.val m a.2) :: HeapObj.val m q = _
      rw [List.cons.injEq, hav.1]
      refine and_congr ⟨fun h => by rw [h], fun h => ?_⟩ Iff.rfl
      exact congrArg Prod.snd h

/-- A result made of new objects. -/
theorem Loc.result {A V : Type} [HeapObj A V] {s0 s' : BigHeap} {E L : List (List (Cell × Int))} {a : A} {v : V}
    (h : Loc s0 [] s' (E ++ L)) (hE : Describes E a v) : IsResult s0 none v a s' := by
  have h := h.sub (List.sublist_append_left E L)
  refine ⟨⟨?_, fun c hc => ?_⟩, (hE.val _).1 fun p hp => (h.cell p hp).2.2, (fun p hp => by cases hp), fun _ c hc => ?_⟩
  · rw [← hE.cells]; exact h.nodup
  · rw [← hE.cells] at hc
    obtain ⟨p, hp, rfl⟩ := List.mem_map.1 hc
    exact (h.cell p hp).2.1
  · rw [← hE.cells] at hc
    obtain ⟨p, hp, rfl⟩ := List.mem_map.1 hc
    exact (h.cell p hp).1.elim id fun h => by cases h

/-- The beginning of a call which changes `a`. -/
theorem Loc.begin {A V : Type} [HeapObj A V] {s : BigHeap} {E : List (List (Cell × Int))} {a : A} {v : V} (hs : s.pool = none)
    (ha : Live s a) (hv : HeapObj.val s.mem a = v) (hE : Describes E a v) : Loc s (HeapObj.cells a) s E := by
  refine ⟨hs, le_refl _, fun _ _ _ => rfl, ?_, fun p hp => ?_⟩
  · rw [hE.cells]; exact ha.1
  · have hc : p.1 ∈ HeapObj.cells a := by rw [← hE.cells]; exact List.mem_map_of_mem hp
    exact ⟨Or.inr hc, ha.2 _ hc, (hE.val _).2 hv p hp⟩

/-- From the outcome in terms of `Sim` to what a caller sees. -/
theorem Sim.follows {α V : Type} {m : BigM α} {s : BigHeap} {W : List Cell} {rv : Res V} {R Q : V → α → BigHeap → Prop}
    (h : Sim m s rv R) (hq : ∀ v a s', R v a s' → (∃ L, Loc s W s' L) ∧ Q v a s') : Follows m s W rv Q := by
  refine ⟨h.1, fun v hv => ?_⟩
  obtain ⟨a, s', e, hR⟩ := h.2 v hv
  obtain ⟨⟨L, hL⟩, hQ⟩ := hq v a s' hR
  exact ⟨a, s', e, hL.pool, hL.next, hL.keep, hQ⟩

/-! ### bbsignatures -/

section
variable {g : CcsGlobals} {s0 s : BigHeap} {W : List Cell} {L : List (List (Cell × Int))}

theorem Loc.keygen (h : Loc s0 W s L) (he : Env g s0 W) (rnd : Option Int) :
    Wp (keygenH g rnd) s fun k s' => k.pubk.isSome = (keygen rnd).pubk.isSome ∧ k.privk = (keygen rnd).privk ∧
      k.err = (keygen rnd).err ∧ Loc s0 W s' (ownOpt k.pubk (keygen rnd).pubk ++ L) := by
  cases rnd with
  | none => exact Wp.pure ⟨rfl, rfl, rfl, h⟩
  | some k =>
    obtain ⟨bs', hbs⟩ : ∃ bs', bs' = (G1.marshal (G1.scalarBaseMult .new k)).1 := ⟨_, rfl⟩
    have hk : Verif.keygen (some k) = (G1.unmarshal bs').elim ⟨none, some k, false⟩ fun p => ⟨some p, some k, true⟩ := by
      rw [hbs]
      show (match G1.unmarshal (G1.marshal (G1.scalarBaseMult .new k)).1 with
        | some pubk => (⟨some pubk, some k, true⟩ : KeygenResult)
        | none => ⟨none, some k, false⟩) = _
      generalize G1.unmarshal (G1.marshal (G1.scalarBaseMult .new k)).1 = o
      cases o <;> rfl
    rw [hk]
    unfold keygenH
    refine Wp.bind (h.g1_base he k) fun y s1 h => ?_
    refine Wp.bind (h.g1_marshal (CurvePoint.invertible_of_rep (C34_scalarBaseMult _ k))) fun bs s2 ⟨e, h⟩ => ?_
    have h := h.tail
    have hu := h.g1_unmarshal bs'
    rw [e, ← hbs]
    generalize hv : G1.unmarshal bs' = o at hu
    cases o with
    | none =>
      refine Wp.bind (hu.2 rfl) fun r s3 ⟨e1, h⟩ => ?_
      rw [e1]
      exact Wp.pure ⟨rfl, rfl, rfl, h⟩
    | some v =>
      refine Wp.bind (hu.1 v rfl) fun r s3 ⟨p, e1, h⟩ => ?_
      rw [e1]
      exact Wp.pure ⟨rfl, rfl, rfl, h⟩

theorem Loc.bbSign (h : Loc s0 W s L) (he : Env g s0 W) (m sk : Int) :
    Sim (bbSignH g m sk) s (bbSign m sk) fun w q s' => q.isSome = w.isSome ∧ Loc s0 W s' (ownOpt q w ++ L) := by
  unfold bbSignH Verif.bbSign
  refine Sim.opt id (by simp) fun inv _ => ?_
  refine Sim.step (h.g2_base he inv) fun y s1 h => ?_
  refine Sim.step h.g2_marshal fun bs s2 ⟨e, h⟩ => ?_
  have h := h.tail
  have hu := h.g2_unmarshal he bs
  rw [e] at hu ⊢
  simp only [id]
  cases hv : G2.unmarshal (G2.marshal (G2.scalarBaseMult inv)).1 with
  | none =>
    refine Sim.step (hu.2 hv) fun r s3 ⟨e1, h⟩ => ?_
    rw [e1]
    exact Sim.pure ⟨rfl, h⟩
  | some v =>
    refine Sim.step (hu.1 v hv) fun r s3 ⟨p, e1, h⟩ => ?_
    rw [e1]
    exact Sim.pure ⟨rfl, h⟩

theorem Loc.signLoop (he : Env g s0 W) (privk : Option Int) : ∀ (ms : List Int) {s : BigHeap}
    {acc : List (Int × Option TwistP)} {vacc : List (Int × Option TwistPoint)}, SigRel acc vacc →
    Loc s0 W s (ownSigs acc vacc ++ L) →
    Sim (signLoopH g privk ms acc) s (signLoop privk ms vacc) fun w q s' => SigRel q w ∧ Loc s0 W s' (ownSigs q w ++ L)
  | [], s, acc, vacc, hr, h => Sim.pure ⟨hr, h⟩
  | m :: ms, s, acc, vacc, hr, h => by
    unfold signLoopH Verif.signLoop
    refine Sim.opt id (by simp) fun sk _ => ?_
    refine Sim.bind (h.bbSign he m sk) fun w q s1 _ ⟨h1, h⟩ => ?_
    refine Loc.signLoop he privk ms (List.Forall₂.cons ⟨rfl, h1⟩ hr) ?_
    show Loc s0 W s1 ((ownOpt q w ++ ownSigs acc vacc) ++ L)
    rwa [List.append_assoc]

theorem Loc.bbVerify (h : Loc s0 W s L) (he : Env g s0 W) {sig : TwistP} {vsig : TwistPoint} {pubk : CurveP} {vy : CurvePoint}
    (hs : Old s0 W sig vsig) (hy : Old s0 W pubk vy) (gs : NotGlobal g sig) (m : Int)
    (hi : ∀ gm, G1.unmarshal (G1.marshal (G1.scalarBaseMult .new m)).1 = some gm → (gm.addSelf vy).Invertible) :
    Sim (bbVerifyH g sig m pubk) s (bbVerify vsig m vy) fun w b s' => b = w ∧ Loc s0 W s' L := by
  unfold bbVerifyH Verif.bbVerify
  refine Sim.step (h.g1_base he m) fun y s1 h => ?_
  refine Sim.step (h.g1_marshal (CurvePoint.invertible_of_rep (C34_scalarBaseMult _ m))) fun bs s2 ⟨e, h⟩ => ?_
  have h := h.tail
  have hu := h.g1_unmarshal bs
  rw [e] at hu ⊢
  cases hv : G1.unmarshal (G1.marshal (G1.scalarBaseMult .new m)).1 with
  | none =>
    refine Sim.step (hu.2 hv) fun r s3 ⟨e1, h⟩ => ?_
    rw [e1]
    exact ⟨fun _ => rfl, fun v hv => by cases hv⟩
  | some v =>
    refine Sim.step (hu.1 v hv) fun r s3 ⟨gm, e1, h⟩ => ?_
    rw [e1]
    refine Sim.step (R := fun a s' => a = gm ∧ s' = s3) ⟨gm, s3, rfl, rfl, rfl⟩ fun gm' s' ⟨r1, r2⟩ => ?_
    subst r1 r2
    refine Sim.step (h.g1_add (Or.inl hy)) fun _ s4 h => ?_
    refine Sim.step (h.pair he (Or.inr List.mem_cons_self) (Or.inl hs) (hi v hv)
      (disj_sub (h.apart he List.mem_cons_self) sub_bn) (disj_sub gs sub_bn)
      (disj_symm (h.disj_old List.mem_cons_self hs))) fun p1 s5 h => ?_
    refine Sim.step (h.drop2.g1_base he 1) fun g1 s6 h => ?_
    refine Sim.step (h.g2_base he 1) fun g2 s7 h => ?_
    refine Sim.step (h.pair he (Or.inr (List.mem_cons_of_mem _ List.mem_cons_self)) (Or.inr List.mem_cons_self)
      (CurvePoint.invertible_of_rep (C34_scalarBaseMult _ 1))
      (disj_sub (h.apart he (List.mem_cons_of_mem _ List.mem_cons_self)) sub_bn)
      (disj_sub (h.apart he List.mem_cons_self) sub_bn) (h.disj List.mem_cons_self)) fun p2 s8 h => ?_
    refine Sim.step h.gt_invert fun _ s9 h => ?_
    refine Sim.step (h.fourth.gt_add (Or.inr List.mem_cons_self)) fun _ s10 h => ?_
    refine Sim.step h.gt_isOne fun b s11 ⟨e2, h⟩ => ?_
    refine Sim.pure ⟨?_, h.tail.tail.tail.tail⟩
    rw [if_pos rfl, e2]

/-! ### Parameters -/

theorem Loc.setup (h : Loc s0 W s L) (he : Env g s0 W) (ms : List Int) (rnd : Option Int) {β U : Type}
    (mk : List (Int × Option TwistP) → TwistP → KeygenH → β) (vmk : List (Int × Option TwistPoint) → TwistPoint → KeygenResult → U) :
    Sim (keygenH g rnd >>= fun kp => signLoopH g kp.privk ms [] >>= fun sigs =>
        G2H.scalarBaseMult g.twistGen none ccsH >>= fun H => pure (mk sigs H kp)) s
      (Verif.signLoop (Verif.keygen rnd).privk ms [] >>= fun sigs => .ok (vmk sigs (G2.scalarBaseMult ccsH) (Verif.keygen rnd))) fun w p s' =>
      ∃ sigs vsigs H kp, w = vmk vsigs (G2.scalarBaseMult ccsH) (Verif.keygen rnd) ∧ p = mk sigs H kp ∧ SigRel sigs vsigs ∧
        kp.pubk.isSome = (Verif.keygen rnd).pubk.isSome ∧ kp.privk = (Verif.keygen rnd).privk ∧ kp.err = (Verif.keygen rnd).err ∧
        Loc s0 W s' (ownSigs sigs vsigs ++ own H (G2.scalarBaseMult ccsH) :: (ownOpt kp.pubk (Verif.keygen rnd).pubk ++ L)) := by
  refine Sim.step (h.keygen he rnd) fun kp s1 ⟨h1, h2, h3, h⟩ => ?_
  rw [h2]
  refine Sim.bind (Loc.signLoop (L := ownOpt kp.pubk (Verif.keygen rnd).pubk ++ L) he _ ms .nil h) fun w q s2 _ ⟨hr, h⟩ => ?_
  refine Sim.step (h.g2_base he ccsH) fun H s3 h => ?_
  exact Sim.pure ⟨q, w, H, kp, rfl, rfl, hr, h1, h2, h3, h.perm List.perm_middle.symm⟩

end

end Verif

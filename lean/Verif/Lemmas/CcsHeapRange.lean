import Verif.Lemmas.CcsHeapSetup
import Verif.Props.BnBytes

/-! # Whole calls of ccs08 on objects in memory -/

namespace Verif

open BigM

variable {g : CcsGlobals} {s0 s s' : BigHeap} {W : List Cell} {L : List (List (Cell × Int))}

theorem CcsReady.env (h : CcsReady g s) : Env g s [] := ⟨h, fun _ _ h => by cases h⟩

theorem CcsReady.loc (h : CcsReady g s) (W : List Cell) : Loc s W s [] :=
  ⟨h.pool, le_refl _, fun _ _ _ => rfl, .nil, fun _ h => by cases h⟩

theorem Old.nil {A V : Type} [HeapObj A V] {a : A} (h : Live s a) : Old s [] a (HeapObj.val s.mem a) :=
  ⟨h, rfl, fun _ _ h => by cases h⟩

/-! ### Composed objects -/

theorem Describes.key {E : List (List (Cell × Int))} {k : KeygenH} {v : KeygenResult} (h : Describes E k.pubk v.pubk)
    (h1 : k.privk = v.privk) (h2 : k.err = v.err) : Describes E k v := by
  refine ⟨h.cells, fun m => (h.val m).trans ?_⟩
  show _ ↔ (⟨HeapObj.val m k.pubk, k.privk, k.err⟩ : KeygenResult) = v
  rw [h1, h2]
  exact ⟨fun h => by rw [h], fun h => congrArg KeygenResult.pubk h⟩

theorem Describes.some {A V : Type} [HeapObj A V] {E : List (List (Cell × Int))} {a : A} {v : V} (h : Describes E a v) :
    Describes E (Option.some a) (Option.some v) := by
  refine ⟨h.cells, fun m => (h.val m).trans ?_⟩
  show _ ↔ Option.some (HeapObj.val m a) = Option.some v
  rw [Option.some.injEq]

theorem Describes.none {A V : Type} [HeapObj A V] : Describes [] (Option.none : Option A) (Option.none : Option V) :=
  ⟨rfl, fun m => by simp [HeapObj.val]⟩

theorem holds_paramsSet {E1 E2 E3 : List (List (Cell × Int))} {p : ParamsSetH} {v : ParamsSet} (h1 : Describes E1 p.signatures v.signatures)
    (h2 : Describes E2 p.H v.H) (h3 : Describes E3 p.kp v.kp) : Describes (E1 ++ E2 ++ E3) p v := by
  refine ⟨?_, fun m => ?_⟩
  · rw [cells_append, cells_append, h1.cells, h2.cells, h3.cells]; rfl
  · rw [Forall_append, Forall_append, h1.val, h2.val, h3.val]
    show _ ↔ (⟨HeapObj.val m p.signatures, HeapObj.val m p.H, HeapObj.val m p.kp⟩ : ParamsSet) = v
    obtain ⟨a, b, c⟩ := v
    rw [ParamsSet.mk.injEq, and_assoc]

theorem holds_paramsUL {E1 E2 E3 : List (List (Cell × Int))} {p : ParamsULH} {v : ParamsUL} (h1 : Describes E1 p.signatures v.signatures)
    (h2 : Describes E2 p.H v.H) (h3 : Describes E3 p.kp v.kp) (h4 : p.u = v.u) (h5 : p.l = v.l) : Describes (E1 ++ E2 ++ E3) p v := by
  refine ⟨?_, fun m => ?_⟩
  · rw [cells_append, cells_append, h1.cells, h2.cells, h3.cells]; rfl
  · rw [Forall_append, Forall_append, h1.val, h2.val, h3.val]
    show _ ↔ (⟨HeapObj.val m p.signatures, HeapObj.val m p.H, HeapObj.val m p.kp, p.u, p.l⟩ : ParamsUL) = v
    obtain ⟨a, b, c, u, l⟩ := v
    rw [ParamsUL.mk.injEq, and_assoc]
    exact ⟨fun ⟨a, b, c⟩ => ⟨a, b, c, h4, h5⟩, fun ⟨a, b, c, _⟩ => ⟨a, b, c⟩⟩

theorem holds_ccsParams {E : List (List (Cell × Int))} {p : ParamsULH} {v : ParamsUL} (a b : Int) (h : Describes E p v) :
    Describes E (⟨p, a, b⟩ : CcsParamsH) (⟨v, a, b⟩ : CcsParams) := by
  refine ⟨h.cells, fun m => (h.val m).trans ?_⟩
  show _ ↔ (⟨HeapObj.val m p, a, b⟩ : CcsParams) = _
  rw [CcsParams.mk.injEq]
  exact ⟨fun h => ⟨h, rfl, rfl⟩, fun h => h.1⟩

theorem holds_proofSet {E1 E2 E3 E4 : List (List (Cell × Int))} {q : ProofSetH} {v : ProofSet} (h1 : Describes E1 q.V v.V)
    (h2 : Describes E2 q.D v.D) (h3 : Describes E3 q.C v.C) (h4 : Describes E4 q.a v.a)
    (hv : (⟨v.V, v.D, v.C, v.a, q.s, q.t, q.zsig, q.zv, q.c, q.m, q.zr⟩ : ProofSet) = v) :
    Describes (E1 ++ E2 ++ E3 ++ E4) q v := by
  refine ⟨?_, fun m => ?_⟩
  · rw [cells_append, cells_append, cells_append, h1.cells, h2.cells, h3.cells, h4.cells]; rfl
  · rw [Forall_append, Forall_append, Forall_append, h1.val, h2.val, h3.val, h4.val, ← hv]
    show _ ↔ (⟨HeapObj.val m q.V, HeapObj.val m q.D, HeapObj.val m q.C, HeapObj.val m q.a, q.s, q.t, q.zsig, q.zv, q.c, q.m,
      q.zr⟩ : ProofSet) = _
    rw [ProofSet.mk.injEq, and_assoc, and_assoc]
    exact ⟨fun ⟨a, b, c, d⟩ => ⟨a, b, c, d, rfl, rfl, rfl, rfl, rfl, rfl, rfl⟩, fun ⟨a, b, c, d, _⟩ => ⟨a, b, c, d⟩⟩

theorem holds_proofUL {E1 E2 E3 E4 : List (List (Cell × Int))} {q : ProofULH} {v : ProofUL} (h1 : Describes E1 q.V v.V)
    (h2 : Describes E2 q.D v.D) (h3 : Describes E3 q.C v.C) (h4 : Describes E4 q.a v.a)
    (hv : (⟨v.V, v.D, v.C, v.a, q.s, q.t, q.zsig, q.zv, q.c, q.m, q.zr⟩ : ProofUL) = v) :
    Describes (E1 ++ E2 ++ E3 ++ E4) q v := by
  refine ⟨?_, fun m => ?_⟩
  · rw [cells_append, cells_append, cells_append, h1.cells, h2.cells, h3.cells, h4.cells]; rfl
  · rw [Forall_append, Forall_append, Forall_append, h1.val, h2.val, h3.val, h4.val, ← hv]
    show _ ↔ (⟨HeapObj.val m q.V, HeapObj.val m q.D, HeapObj.val m q.C, HeapObj.val m q.a, q.s, q.t, q.zsig, q.zv, q.c, q.m,
      q.zr⟩ : ProofUL) = _
    rw [ProofUL.mk.injEq, and_assoc, and_assoc]
    exact ⟨fun ⟨a, b, c, d⟩ => ⟨a, b, c, d, rfl, rfl, rfl, rfl, rfl, rfl, rfl⟩, fun ⟨a, b, c, d, _⟩ => ⟨a, b, c, d⟩⟩

theorem holds_ccsProof {E1 E2 : List (List (Cell × Int))} {q : CcsProofH} {v : CcsProof} (h1 : Describes E1 q.p1 v.p1)
    (h2 : Describes E2 q.p2 v.p2) : Describes (E1 ++ E2) q v := by
  refine ⟨?_, fun m => ?_⟩
  · rw [cells_append, h1.cells, h2.cells]; rfl
  · rw [Forall_append, h1.val, h2.val]
    show _ ↔ (⟨HeapObj.val m q.p1, HeapObj.val m q.p2⟩ : CcsProof) = v
    obtain ⟨a, b⟩ := v
    rw [CcsProof.mk.injEq]

/-! ### Setup -/

theorem Loc.setupSet (h : Loc s0 W s L) (he : Env g s0 W) (S : List Int) (rnd : Option Int) :
    Sim (setupSetH g S rnd) s (Verif.setupSet S rnd) fun w p s' => ∃ E, Describes E p w ∧ Loc s0 W s' (E ++ L) := by
  refine (Loc.setup h he S rnd ParamsSetH.mk ParamsSet.mk).mono
    fun w p s' _ ⟨sigs, vs, H, kp, hw, hp, h1, h2, h3, h4, h5⟩ => ?_
  generalize G2.scalarBaseMult ccsH = vH at hw h5
  generalize Verif.keygen rnd = vk at hw h2 h3 h4 h5
  subst hw hp
  refine ⟨ownSigs sigs vs ++ [own H vH] ++ ownOpt kp.pubk vk.pubk,
    holds_paramsSet (v := ⟨vs, vH, vk⟩) (holds_sigs h1) (holds_own _ _) ((holds_opt h2).key h3 h4), ?_⟩
  simpa only [List.append_assoc, List.cons_append, List.nil_append] using h5

theorem Loc.setupUL (h : Loc s0 W s L) (he : Env g s0 W) (u l : Int) (rnd : Option Int) :
    Sim (setupULH g u l rnd) s (Verif.setupUL u l rnd) fun w p s' => ∃ E, Describes E p w ∧ Loc s0 W s' (E ++ L) := by
  refine (Loc.setup h he _ rnd (fun a b c => ParamsULH.mk a b c u l) (fun a b c => ParamsUL.mk a b c u l)).mono
    fun w p s' _ ⟨sigs, vs, H, kp, hw, hp, h1, h2, h3, h4, h5⟩ => ?_
  generalize G2.scalarBaseMult ccsH = vH at hw h5
  generalize Verif.keygen rnd = vk at hw h2 h3 h4 h5
  subst hw hp
  refine ⟨ownSigs sigs vs ++ [own H vH] ++ ownOpt kp.pubk vk.pubk,
    holds_paramsUL (holds_sigs h1) (holds_own _ _) ((holds_opt h2).key h3 h4) rfl rfl, ?_⟩
  simpa only [List.append_assoc, List.cons_append, List.nil_append] using h5

theorem Loc.ccsSetup (h : Loc s0 W s L) (he : Env g s0 W) (a b : Int) (rnd : Option Int) :
    Sim (ccsSetupH g a b rnd) s (Verif.ccsSetup a b rnd) fun w p s' => ∃ E, Describes E p w ∧ Loc s0 W s' (E ++ L) := by
  unfold ccsSetupH Verif.ccsSetup
  by_cases h1 : a > b
  · rw [if_pos h1, if_pos h1]
    exact Sim.pure ⟨[], .none, h⟩
  · rw [if_neg h1, if_neg h1]
    by_cases h2 : b ≠ 1
    · rw [if_pos h2, if_pos h2]
      refine Sim.bind (h.setupUL he 57 (digitCount 64 b) rnd) fun w p s1 _ ⟨E, hE, h⟩ => ?_
      exact Sim.pure ⟨E, (holds_ccsParams a b hE).some, h⟩
    · rw [if_neg h2, if_neg h2]
      exact Sim.pure ⟨[], .none, h⟩

theorem keyOk_keygen (rnd : Option Int) : KeyOk (keygen rnd) := by
  intro y hy
  cases rnd with
  | none => cases hy
  | some k =>
    have h : ∀ o : Option CurvePoint, (∀ y, o = some y → y.Invertible) →
        (match o with
          | some pubk => (⟨some pubk, some k, true⟩ : KeygenResult)
          | none => ⟨none, some k, false⟩).pubk = some y → y.Invertible := by
      intro o ho h
      cases o with
      | none => cases h
      | some z => exact ho _ h
    refine h _ (fun y hy => ?_) hy
    obtain ⟨Q, hQ, _⟩ := C38_sound _ _ hy
    exact CurvePoint.invertible_of_rep hQ

/-! ### Proofs -/

theorem Loc.proveSet' (h : Loc s0 W s L) (he : Env g s0 W) (sha : List UInt8 → List UInt8) (x r : Int) {p : ParamsSetH}
    {vp : ParamsSet} (hp : Old s0 W p vp) (m v σ t : Int) :
    Sim (proveSetH g sha x r p m v σ t) s (Verif.proveSet sha x r vp m v σ t) fun w q s' =>
      ∃ E, Describes E q w ∧ Loc s0 W s' (E ++ L) := by
  refine (h.proveSet he sha x r hp m v σ t).mono fun w q s' _ hq => ?_
  rcases hq with ⟨rfl, rfl, h⟩ | ⟨w', q', rfl, rfl, h, hv⟩
  · exact ⟨[], .none, h⟩
  · exact ⟨_, (holds_proofSet (holds_own q'.V w'.V) (holds_own q'.D w'.D) (holds_own q'.C w'.C) (holds_own q'.a w'.a) hv).some, h⟩

theorem Loc.proveUL' (h : Loc s0 W s L) (he : Env g s0 W) (sha : List UInt8 → List UInt8) (x r : Int) {p : ParamsULH}
    {vp : ParamsUL} (hp : Old s0 W p vp) (m : Int) (v σ t : Nat → Int) :
    Sim (proveULH g sha x r p m v σ t) s (Verif.proveUL sha x r vp m v σ t) fun w q s' =>
      ∃ E, Describes E q w ∧ Loc s0 W s' (E ++ L) := by
  refine (h.proveUL he sha x r hp m v σ t).mono fun w q s' _ hq => ?_
  rcases hq with ⟨rfl, rfl, h⟩ | ⟨w', q', rfl, rfl, l1, l2, h, hv⟩
  · exact ⟨[], .none, h⟩
  · refine ⟨_, (holds_proofUL (holds_list l1) (holds_own q'.D w'.D) (holds_own q'.C w'.C) (holds_list l2) hv).some, ?_⟩
    simpa only [List.append_assoc, List.cons_append, List.nil_append] using h

theorem Loc.ccsProve (h : Loc s0 W s L) (he : Env g s0 W) (sha : List UInt8 → List UInt8) {p : Option CcsParamsH}
    {vp : Option CcsParams} (hp : Old s0 W p vp) (x r : Int) (w1 w2 : ULRandom) :
    Sim (ccsProveH g sha p x r w1 w2) s (Verif.ccsProve sha vp x r w1 w2) fun w q s' =>
      ∃ E, Describes E q w ∧ Loc s0 W s' (E ++ L) := by
  unfold ccsProveH Verif.ccsProve
  refine Sim.opt (HeapObj.val s0.mem) hp.val.symm fun p hp' => ?_
  subst hp'
  have hq : Old s0 W p.p (HeapObj.val s0.mem p.p) := hp.part (List.Sublist.refl _)
  refine Sim.bind (h.proveUL' he sha _ r hq w1.m w1.v w1.s w1.t) fun v1 q1 s1 _ ⟨E1, hE1, h⟩ => ?_
  refine Sim.bind (h.proveUL' he sha _ r hq w2.m w2.v w2.s w2.t) fun v2 q2 s2 _ ⟨E2, hE2, h⟩ => ?_
  refine Sim.pure ⟨E1 ++ E2, holds_ccsProof hE1 hE2, h.perm ?_⟩
  rw [List.append_assoc]
  exact List.perm_append_comm_assoc _ _ _

/-! ### Verification -/

/-- The beginning of a call which changes the objects described by `E`. -/
theorem Loc.enter {E : List (List (Cell × Int))} (hs : s.pool = none) (hW : E.flatten.map Prod.fst = W) (hl : LiveCells s W)
    (hv : ∀ p ∈ E.flatten, s.mem p.1 = p.2) : Loc s W s E := by
  refine ⟨hs, le_refl _, fun _ _ _ => rfl, hW ▸ hl.1, fun p hp => ?_⟩
  have hc : p.1 ∈ W := hW ▸ List.mem_map_of_mem hp
  exact ⟨Or.inr hc, hl.2 _ hc, hv p hp⟩

theorem goodKey {kp : KeygenH} (hp : Old s0 W kp (HeapObj.val s0.mem kp)) (hk : KeyOk (HeapObj.val s0.mem kp))
    (hg : Disj g.cells (HeapObj.cells kp)) : GoodKey g s0 W kp := by
  refine ⟨fun y hy => ?_⟩
  have hc : HeapObj.cells kp = HeapObj.cells y := by
    show HeapObj.cells kp.pubk = _
    rw [hy]; rfl
  refine ⟨hp.part (hc ▸ List.Sublist.refl _), hk _ ?_, ?_⟩
  · show HeapObj.val s0.mem kp.pubk = _
    rw [hy]; rfl
  · show Disj _ _
    rw [← hc]; exact hg

theorem disj_right {l k k' : List Cell} (h : Disj l k) (hk : k'.Sublist k) : Disj l k' := fun c hc hc' => h c hc (hk.subset hc')

theorem kp_sublist_set (p : ParamsSetH) : (HeapObj.cells p.kp).Sublist (HeapObj.cells p) := List.sublist_append_right _ _

theorem kp_sublist_ul (p : ParamsULH) : (HeapObj.cells p.kp).Sublist (HeapObj.cells p) := List.sublist_append_right _ _

theorem key_cells {kp : KeygenH} {y : CurveP} (hy : kp.pubk = some y) : HeapObj.cells y = HeapObj.cells kp := by
  show _ = HeapObj.cells kp.pubk
  rw [hy]; rfl

theorem Sim.verifySet {pr : ProofSetH} {p : ParamsSetH} (hr : CcsReady g s) (hp : Live s p) (hq : Live s pr)
    (hgp : Disj g.cells (HeapObj.cells p)) (hgq : Disj g.cells (HeapObj.cells pr))
    (hpq : Disj (HeapObj.cells p) (HeapObj.cells pr)) (hk : KeyOk (HeapObj.val s.mem p.kp)) :
    Follows (verifySetH g pr p) s (HeapObj.cells pr.D ++ HeapObj.cells pr.a)
      (Verif.verifySet (HeapObj.val s.mem pr) (HeapObj.val s.mem p))
      fun w b s' => b = w.1 ∧ Live s' pr ∧ HeapObj.val s'.mem pr = w.2 := by
  have hnd := hq.1
  have hlt := hq.2
  have hc : HeapObj.cells pr = HeapObj.cells pr.V ++ HeapObj.cells pr.D ++ HeapObj.cells pr.C ++ HeapObj.cells pr.a := rfl
  have sV : (HeapObj.cells pr.V).Sublist (HeapObj.cells pr) := by
    rw [hc, List.append_assoc, List.append_assoc]; exact List.sublist_append_left _ _
  have sC : (HeapObj.cells pr.C).Sublist (HeapObj.cells pr) := by
    rw [hc]; exact (List.sublist_append_right _ _).trans (List.sublist_append_left _ _)
  have sW : (HeapObj.cells pr.D ++ HeapObj.cells pr.a).Sublist (HeapObj.cells pr) := by
    rw [hc]
    exact List.Sublist.append ((List.sublist_append_right _ _).trans (List.sublist_append_left _ _)) (List.Sublist.refl _)
  rw [hc] at hnd
  simp only [List.nodup_append, List.mem_append] at hnd
  obtain ⟨⟨⟨⟨n1, n2, n3⟩, n4, n5⟩, n6, n7⟩⟩ := And.intro hnd trivial
  have dV : Disj (HeapObj.cells pr.V) (HeapObj.cells pr.D ++ HeapObj.cells pr.a) := fun c h1 h2 =>
    (List.mem_append.1 h2).elim (fun h => n3 c h1 c h rfl) (fun h => n7 c (Or.inl (Or.inl h1)) c h rfl)
  have dC : Disj (HeapObj.cells pr.C) (HeapObj.cells pr.D ++ HeapObj.cells pr.a) := fun c h1 h2 =>
    (List.mem_append.1 h2).elim (fun h => n5 c (Or.inr h) c h1 rfl) (fun h => n7 c (Or.inr h1) c h rfl)
  have oV : Old s (HeapObj.cells pr.D ++ HeapObj.cells pr.a) pr.V (HeapObj.val s.mem pr.V) := ⟨liveCells_sub hq sV, rfl, dV⟩
  have oC : Old s (HeapObj.cells pr.D ++ HeapObj.cells pr.a) pr.C (HeapObj.val s.mem pr.C) := ⟨liveCells_sub hq sC, rfl, dC⟩
  have oP : Old s (HeapObj.cells pr.D ++ HeapObj.cells pr.a) p (HeapObj.val s.mem p) := ⟨hp, rfl, disj_right hpq sW⟩
  have hD := holds_own pr.D (HeapObj.val s.mem pr.D)
  have ha := holds_own pr.a (HeapObj.val s.mem pr.a)
  have h : Loc s (HeapObj.cells pr.D ++ HeapObj.cells pr.a) s
      ([own pr.D (HeapObj.val s.mem pr.D)] ++ [own pr.a (HeapObj.val s.mem pr.a)]) := by
    refine Loc.enter hr.pool (by rw [cells_append, hD.cells, ha.cells]) (liveCells_sub hq sW) ?_
    rw [Forall_append, hD.val, ha.val]; exact ⟨rfl, rfl⟩
  refine Sim.follows (Loc.verifySet h ⟨hr, disj_right hgq sW⟩ oP
    (goodKey (oP.part (kp_sublist_set p)) hk (disj_right hgp (kp_sublist_set p))) oV oC (disj_right hgq sV)
    (fun y hy => ?_)) fun w b s' ⟨e, h, hw⟩ => ⟨⟨_, h⟩, e, ⟨hq.1, fun c hc => (hq.2 c hc).trans_le h.next⟩, ?_⟩
  · rw [key_cells hy]
    exact disj_symm (disj_sub (disj_right hpq sV) (kp_sublist_set p))
  · rw [hw]
    show (⟨HeapObj.val s'.mem pr.V, HeapObj.val s'.mem pr.D, HeapObj.val s'.mem pr.C, HeapObj.val s'.mem pr.a, _, _, _, _, _, _,
      _⟩ : ProofSet) = _
    rw [(h.old oV).2, (h.old oC).2, h.head.2, h.tail.head.2]

/-- What `VerifyUL` needs of the proof and the parameters when it is called on a heap in which only `W` has changed. -/
structure Half (g : CcsGlobals) (s0 : BigHeap) (W : List Cell) (p : ParamsULH) (q : ProofULH) : Prop where
  V : Old s0 W q.V (HeapObj.val s0.mem q.V)
  C : Old s0 W q.C (HeapObj.val s0.mem q.C)
  gV : NotGlobal g q.V
  pV : ∀ y, p.kp.pubk = some y → Disj (HeapObj.cells q.V) (HeapObj.cells y)

theorem ProofULH.sub_V (q : ProofULH) : (HeapObj.cells q.V).Sublist (HeapObj.cells q) := by
  show List.Sublist _ (HeapObj.cells q.V ++ HeapObj.cells q.D ++ HeapObj.cells q.C ++ HeapObj.cells q.a)
  rw [List.append_assoc, List.append_assoc]; exact List.sublist_append_left _ _

theorem ProofULH.sub_C (q : ProofULH) : (HeapObj.cells q.C).Sublist (HeapObj.cells q) :=
  (List.sublist_append_right _ _).trans (List.sublist_append_left _ _)

theorem ProofULH.sub_written (q : ProofULH) : q.written.Sublist (HeapObj.cells q) :=
  List.Sublist.append ((List.sublist_append_right _ _).trans (List.sublist_append_left _ _)) (List.Sublist.refl _)

theorem ProofULH.disj_written {q : ProofULH} (h : (HeapObj.cells q).Nodup) :
    Disj (HeapObj.cells q.V) q.written ∧ Disj (HeapObj.cells q.C) q.written := by
  have hc : HeapObj.cells q = HeapObj.cells q.V ++ HeapObj.cells q.D ++ HeapObj.cells q.C ++ HeapObj.cells q.a := rfl
  rw [hc] at h
  simp only [List.nodup_append, List.mem_append] at h
  obtain ⟨⟨⟨⟨n1, n2, n3⟩, n4, n5⟩, n6, n7⟩⟩ := And.intro h trivial
  exact ⟨fun c h1 h2 => (List.mem_append.1 h2).elim (fun h => n3 c h1 c h rfl) (fun h => n7 c (Or.inl (Or.inl h1)) c h rfl),
    fun c h1 h2 => (List.mem_append.1 h2).elim (fun h => n5 c (Or.inr h) c h1 rfl) (fun h => n7 c (Or.inr h1) c h rfl)⟩

theorem half {p : ParamsULH} {q : ProofULH} (hq : Live s q) (hW : ∀ c ∈ W, c ∈ HeapObj.cells q → c ∈ q.written)
    (hg : Disj g.cells (HeapObj.cells q)) (hp : Disj (HeapObj.cells p) (HeapObj.cells q)) : Half g s W p q := by
  obtain ⟨d1, d2⟩ := ProofULH.disj_written hq.1
  refine ⟨⟨liveCells_sub hq q.sub_V, rfl, fun c hc hc' => d1 c hc (hW c hc' (q.sub_V.subset hc))⟩,
    ⟨liveCells_sub hq q.sub_C, rfl, fun c hc hc' => d2 c hc (hW c hc' (q.sub_C.subset hc))⟩, disj_right hg q.sub_V,
    fun y hy => ?_⟩
  rw [key_cells hy]
  exact disj_symm (disj_sub (disj_right hp q.sub_V) (kp_sublist_ul p))

/-- The entries of the numbers that `VerifyUL` may rewrite. -/
def ulEntry (q : ProofULH) (v : ProofUL) : List (List (Cell × Int)) := own q.D v.D :: owns q.a v.a

theorem ulEntry_cells {q : ProofULH} {v : ProofUL} (hl : q.a.length = v.a.length) :
    (ulEntry q v).flatten.map Prod.fst = q.written := by
  show ([own q.D v.D] ++ owns q.a v.a).flatten.map Prod.fst = _
  rw [cells_append, (holds_own q.D v.D).cells, (holds_list hl).cells]; rfl

theorem ulEntry_val {q : ProofULH} {v : ProofUL} (hl : q.a.length = v.a.length) (m : Cell → Int) :
    (∀ p ∈ (ulEntry q v).flatten, m p.1 = p.2) ↔ HeapObj.val m q.D = v.D ∧ HeapObj.val m q.a = v.a := by
  show (∀ p ∈ ([own q.D v.D] ++ owns q.a v.a).flatten, m p.1 = p.2) ↔ _
  rw [Forall_append, (holds_own q.D v.D).val, (holds_list hl).val]

theorem val_a_length (q : ProofULH) (m : Cell → Int) : q.a.length = (HeapObj.val m q).a.length :=
  (List.length_map _).symm

/-- `VerifyUL` in the middle of a larger call. -/
theorem Loc.verifyUL' {q : ProofULH} {p : ParamsULH} (h : Loc s0 W s (ulEntry q (HeapObj.val s0.mem q) ++ L)) (he : Env g s0 W)
    (hp : Old s0 W p (HeapObj.val s0.mem p)) (hk : GoodKey g s0 W p.kp) (hh : Half g s0 W p q) :
    Sim (verifyULH g q p) s (Verif.verifyUL (HeapObj.val s0.mem q) (HeapObj.val s0.mem p)) fun w b s' =>
      b = w.1 ∧ Loc s0 W s' (ulEntry q w.2 ++ L) ∧
      ∀ s'' L', Loc s0 W s'' L' → (∀ x ∈ ulEntry q w.2, x ∈ L') → HeapObj.val s''.mem q = w.2 := by
  refine (Loc.verifyUL (vD := HeapObj.val s0.mem q.D) (vC := HeapObj.val s0.mem q.C) (va := HeapObj.val s0.mem q.a) h
    (List.length_map _).symm he hp hk hh.V hh.C hh.gV hh.pV).mono fun w b s' _ ⟨e, h, hl, hw⟩ => ⟨e, h, fun s'' L' h' hL => ?_⟩
  have hm : HeapObj.val s''.mem q.D = w.2.D ∧ HeapObj.val s''.mem q.a = w.2.a := by
    rw [← ulEntry_val hl]
    intro p hp
    obtain ⟨x, hx, hp⟩ := List.mem_flatten.1 hp
    exact (h'.cell p (List.mem_flatten.2 ⟨x, hL x hx, hp⟩)).2.2
  rw [hw]
  show (⟨HeapObj.val s''.mem q.V, HeapObj.val s''.mem q.D, HeapObj.val s''.mem q.C, HeapObj.val s''.mem q.a, _, _, _, _, _, _,
    _⟩ : ProofUL) = _
  rw [(h'.old hh.V).2, (h'.old hh.C).2, hm.1, hm.2]

theorem Sim.verifyUL {q : ProofULH} {p : ParamsULH} (hr : CcsReady g s) (hp : Live s p) (hq : Live s q)
    (hgp : Disj g.cells (HeapObj.cells p)) (hgq : Disj g.cells (HeapObj.cells q))
    (hpq : Disj (HeapObj.cells p) (HeapObj.cells q)) (hk : KeyOk (HeapObj.val s.mem p.kp)) :
    Follows (verifyULH g q p) s q.written (Verif.verifyUL (HeapObj.val s.mem q) (HeapObj.val s.mem p))
      fun w b s' => b = w.1 ∧ Live s' q ∧ HeapObj.val s'.mem q = w.2 := by
  have oP : Old s q.written p (HeapObj.val s.mem p) := ⟨hp, rfl, disj_right hpq q.sub_written⟩
  have hl := val_a_length q s.mem
  have h : Loc s q.written s (ulEntry q (HeapObj.val s.mem q) ++ []) := by
    rw [List.append_nil]
    exact Loc.enter hr.pool (ulEntry_cells hl) (liveCells_sub hq q.sub_written) ((ulEntry_val hl _).2 ⟨rfl, rfl⟩)
  refine Sim.follows (Loc.verifyUL' h ⟨hr, disj_right hgq q.sub_written⟩ oP
    (goodKey (oP.part (kp_sublist_ul p)) hk (disj_right hgp (kp_sublist_ul p))) (half hq (fun c h _ => h) hgq hpq))
    fun w b s' ⟨e, h, hw⟩ => ⟨⟨_, h⟩, e, ⟨hq.1, fun c hc => (hq.2 c hc).trans_le h.next⟩,
      hw s' _ h fun x hx => List.mem_append_left _ hx⟩

theorem Sim.verify {q : CcsProofH} {p : Option CcsParamsH} (hr : CcsReady g s) (hp : Live s p) (hq : Live s q)
    (hgp : Disj g.cells (HeapObj.cells p)) (hgq : Disj g.cells (HeapObj.cells q))
    (hpq : Disj (HeapObj.cells p) (HeapObj.cells q)) (hk : ∀ p', p = some p' → KeyOk (HeapObj.val s.mem p'.p.kp)) :
    Follows (ccsVerifyH g q p) s q.written (ccsVerify (HeapObj.val s.mem q) (HeapObj.val s.mem p))
      fun w b s' => b = w.1 ∧ Live s' q ∧ HeapObj.val s'.mem q = w.2 := by
  obtain ⟨o1, o2⟩ := q
  have key : Sim (ccsVerifyH g ⟨o1, o2⟩ p) s (ccsVerify (HeapObj.val s.mem (⟨o1, o2⟩ : CcsProofH)) (HeapObj.val s.mem p))
      fun w b s' => b = w.1 ∧ (∃ L, Loc s (CcsProofH.written ⟨o1, o2⟩) s' L) ∧ HeapObj.val s'.mem (⟨o1, o2⟩ : CcsProofH) = w.2 := by
    unfold ccsVerifyH Verif.ccsVerify
    refine Sim.opt (HeapObj.val s.mem) rfl fun p' hp' => ?_
    refine Sim.opt (HeapObj.val s.mem) rfl fun q1 hq1 => ?_
    obtain rfl : o1 = some q1 := hq1
    subst hp'
    have sub1 : (HeapObj.cells q1).Sublist (HeapObj.cells (⟨some q1, o2⟩ : CcsProofH)) := List.sublist_append_left _ _
    have sub2 : (HeapObj.cells o2).Sublist (HeapObj.cells (⟨some q1, o2⟩ : CcsProofH)) := List.sublist_append_right _ _
    have sw2 : (o2.elim [] ProofULH.written).Sublist (HeapObj.cells o2) := by
      cases o2 with
      | none => exact List.Sublist.refl _
      | some q2 => exact q2.sub_written
    have sw : (CcsProofH.written ⟨some q1, o2⟩).Sublist (HeapObj.cells (⟨some q1, o2⟩ : CcsProofH)) :=
      List.Sublist.append q1.sub_written sw2
    have hnd : (HeapObj.cells q1 ++ HeapObj.cells o2).Nodup := hq.1
    rw [List.nodup_append] at hnd
    have oP : Old s (CcsProofH.written ⟨some q1, o2⟩) p'.p (HeapObj.val s.mem p'.p) := ⟨hp, rfl, disj_right hpq sw⟩
    have he : Env g s (CcsProofH.written ⟨some q1, o2⟩) := ⟨hr, disj_right hgq sw⟩
    have hgk := goodKey (oP.part (kp_sublist_ul p'.p)) (hk p' rfl) (disj_right hgp (kp_sublist_ul p'.p))
    have hl1 := val_a_length q1 s.mem
    have h : Loc s (CcsProofH.written ⟨some q1, o2⟩) s
        (ulEntry q1 (HeapObj.val s.mem q1) ++ o2.elim [] fun q2 => ulEntry q2 (HeapObj.val s.mem q2)) := by
      refine Loc.enter hr.pool ?_ (liveCells_sub hq sw) ?_
      · rw [cells_append, ulEntry_cells hl1]
        cases o2 with
        | none => rfl
        | some q2 =>
          show _ ++ (ulEntry q2 (HeapObj.val s.mem q2)).flatten.map Prod.fst = _
          rw [ulEntry_cells (val_a_length q2 s.mem)]; rfl
      · rw [Forall_append]
        refine ⟨(ulEntry_val hl1 _).2 ⟨rfl, rfl⟩, ?_⟩
        cases o2 with
        | none => intro p hp; cases hp
        | some q2 => exact (ulEntry_val (val_a_length q2 s.mem) _).2 ⟨rfl, rfl⟩
    refine Sim.bind (Loc.verifyUL' h he oP hgk (half (liveCells_sub hq sub1) (fun c h1 h2 => ?_) (disj_right hgq sub1)
      (disj_right hpq sub1))) fun w1 b1 s1 _ ⟨e1, h, hw1⟩ => ?_
    · exact (List.mem_append.1 h1).elim id fun h => absurd rfl (hnd.2.2 c h2 c (sw2.subset h))
    refine Sim.opt (HeapObj.val s.mem) rfl fun q2 hq2 => ?_
    obtain rfl : o2 = some q2 := hq2
    have h : Loc s (CcsProofH.written ⟨some q1, some q2⟩) s1 (ulEntry q2 (HeapObj.val s.mem q2) ++ ulEntry q1 w1.2) :=
      h.perm List.perm_append_comm
    refine Sim.bind (Loc.verifyUL' h he oP hgk (half (liveCells_sub hq sub2) (fun c h1 h2 => ?_) (disj_right hgq sub2)
      (disj_right hpq sub2))) fun w2 b2 s2 _ ⟨e2, h, hw2⟩ => ?_
    · exact (List.mem_append.1 h1).elim (fun h => absurd rfl (hnd.2.2 c (q1.sub_written.subset h) c h2)) id
    refine Sim.pure ⟨by rw [e1, e2], ⟨_, h⟩, ?_⟩
    show (⟨some (HeapObj.val s2.mem q1), some (HeapObj.val s2.mem q2)⟩ : CcsProof) = _
    rw [hw1 s2 _ h fun x hx => List.mem_append_right _ hx, hw2 s2 _ h fun x hx => List.mem_append_left _ hx]
  exact Sim.follows key fun w b s' ⟨e, h, hv⟩ => ⟨h, e, ⟨hq.1, fun c hc => (hq.2 c hc).trans_le (h.elim fun _ h => h.next)⟩, hv⟩

end Verif

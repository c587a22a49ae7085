import Verif.Lemmas.CcsHeap

/-! # The functions of ccs08 and bbsignatures on objects in memory -/

namespace Verif

open BigM

/-! ### Parts of objects that existed before -/

theorem Old.part {A V B U : Type} [HeapObj A V] [HeapObj B U] {s0 : BigHeap} {W : List Cell} {a : A} {v : V} {b : B}
    (h : Old s0 W a v) (hs : (HeapObj.cells b).Sublist (HeapObj.cells a)) : Old s0 W b (HeapObj.val s0.mem b) :=
  ⟨liveCells_sub h.live hs, rfl, disj_sub h.apart hs⟩

theorem cells_lookup {l : List (Int × Option TwistP)} {x : Int} {A : TwistP} (h : l.lookup x = some (some A)) :
    (HeapObj.cells A).Sublist (HeapObj.cells l) := by
  induction l with
  | nil => cases h
  | cons p l ih =>
    obtain ⟨y, B⟩ := p
    show List.Sublist _ (HeapObj.cells B ++ HeapObj.cells l)
    rw [List.lookup_cons] at h
    split at h
    · obtain rfl := Option.some.inj h
      exact List.sublist_append_left _ _
    · exact (ih h).trans (List.sublist_append_right _ _)

theorem val_lookup (m : Cell → Int) (l : List (Int × Option TwistP)) (x : Int) :
    (HeapObj.val m l).lookup x = (l.lookup x).map (Option.map (HeapObj.val m)) := by
  induction l with
  | nil => rfl
  | cons p l ih =>
    obtain ⟨y, B⟩ := p
    show ((y, HeapObj.val m B) :: HeapObj.val m l).lookup x = _
    rw [List.lookup_cons, List.lookup_cons]
    split
    · rfl
    · exact ih

section
variable {g : CcsGlobals} {s0 s : BigHeap} {W : List Cell} {L : List (List (Cell × Int))}

/-! ### Commitments and hashes -/

theorem Loc.commit (h : Loc s0 W s L) (he : Env g s0 W) {H : TwistP} {vH : TwistPoint} (hH : Arg s0 W L H vH) (x r : Int) :
    Wp (commitH g x r H) s fun C s' => Loc s0 W s' (own C (commit x r vH) :: L) := by
  unfold commitH
  refine Wp.bind (h.g2_base he x) fun C s1 h => ?_
  refine Wp.bind (h.g2_scalarMult (hH.imp_right (List.mem_cons_of_mem _)) r) fun t s2 h => ?_
  refine Wp.bind (h.swap.g2_add (Or.inr List.mem_cons_self)) fun _ s3 h => ?_
  exact Wp.pure h.drop2

theorem Loc.hashSet (h : Loc s0 W s L) {a : Gf12} {D : TwistP} {va : GfP12} {vD : TwistPoint} (ha : Arg s0 W L a va)
    (hD : Arg s0 W L D vD) (sha : List UInt8 → List UInt8) :
    Sim (hashSetH sha a D) s (hashSet sha va vD) fun v r s' => r = v ∧ Loc s0 W s' L := by
  unfold hashSetH
  obtain ⟨a1, a2⟩ := h.arg ha
  have h1 := returns_stringGT h.pool a1
  rw [a2] at h1
  refine Sim.step (h.ret h1) fun x s1 ⟨e1, h⟩ => ?_
  obtain ⟨D1, D2⟩ := h.arg hD
  have h2 := returns_stringG2 h.pool D1
  rw [D2] at h2
  refine Sim.step (h.ret h2) fun y s2 ⟨e2, h⟩ => ?_
  subst e1 e2
  exact (Sim.ofRes _).mono fun v a s' _ ⟨e1, e2⟩ => ⟨e1, e2 ▸ h⟩

theorem Loc.strings (sha : List UInt8 → List UInt8) : ∀ (as : List Gf12) (vs : List GfP12) {s : BigHeap}, Loc s0 W s L →
    List.Forall₂ (fun a v => Arg s0 W L a v) as vs →
    Wp (stringsH as) s fun r s' => r = (vs.map GT.string).flatten ∧ Loc s0 W s' L
  | [], _, s, h, hf => by
    cases hf
    exact Wp.pure ⟨rfl, h⟩
  | a :: as, _, s, h, hf => by
    cases hf with
    | @cons _ v _ vs ha hf =>
      obtain ⟨a1, a2⟩ := h.arg ha
      have h1 := returns_stringGT h.pool a1
      rw [a2] at h1
      refine Wp.bind (h.ret h1) fun x s1 ⟨e1, h⟩ => ?_
      refine Wp.bind (Loc.strings sha as vs h hf) fun y s2 ⟨e2, h⟩ => ?_
      subst e1 e2
      exact Wp.pure ⟨rfl, h⟩

theorem Loc.hashUL (h : Loc s0 W s L) {as : List Gf12} {D : TwistP} {va : List GfP12} {vD : TwistPoint}
    (ha : List.Forall₂ (fun a v => Arg s0 W L a v) as va) (hD : Arg s0 W L D vD) (sha : List UInt8 → List UInt8) :
    Sim (hashULH sha as D) s (hashUL sha va vD) fun v r s' => r = v ∧ Loc s0 W s' L := by
  unfold hashULH
  refine Sim.step (h.strings sha as va ha) fun x s1 ⟨e1, h⟩ => ?_
  obtain ⟨D1, D2⟩ := h.arg hD
  have h2 := returns_stringG2 h.pool D1
  rw [D2] at h2
  refine Sim.step (h.ret h2) fun y s2 ⟨e2, h⟩ => ?_
  subst e1 e2
  exact (Sim.ofRes _).mono fun v a s' _ ⟨e1, e2⟩ => ⟨e1, e2 ▸ h⟩

/-! ### Pairings -/

theorem Loc.ccsA (h : Loc s0 W s L) (he : Env g s0 W) {V : TwistP} {vV : TwistPoint} (hV : own V vV ∈ L) (x t : Int) :
    Wp (ccsAH g V x t) s fun a s' => Loc s0 W s' (own a (ccsA vV x t) :: L) := by
  unfold ccsAH
  refine Wp.bind (h.pairG1 he (Or.inr hV) (h.apart he hV)) fun a s1 h => ?_
  refine Wp.bind (h.gt_scalarSelf x) fun _ s2 h => ?_
  refine Wp.bind h.gt_invert fun _ s3 h => ?_
  refine Wp.bind (h.gt_scalarMult (Or.inl he.E) t) fun e s4 h => ?_
  refine Wp.bind (h.swap.gt_add (Or.inr List.mem_cons_self)) fun _ s5 h => ?_
  exact Wp.pure h.drop2

theorem Loc.ccsRhs (h : Loc s0 W s L) (he : Env g s0 W) {pubk : CurveP} {vy : CurvePoint} {V : TwistP} {vV : TwistPoint}
    (hy : Old s0 W pubk vy) (hV : Old s0 W V vV) (hi : vy.Invertible) (g1 : NotGlobal g pubk) (g2 : NotGlobal g V)
    (hd : Disj (HeapObj.cells V) (HeapObj.cells pubk)) (c zsig zv : Int) :
    Wp (ccsRhsH g pubk V c zsig zv) s fun p s' => Loc s0 W s' (own p (ccsRhs vy vV c zsig zv) :: L) := by
  unfold ccsRhsH
  refine Wp.bind (h.pair he (Or.inl hy) (Or.inl hV) hi (disj_sub g1 sub_bn) (disj_sub g2 sub_bn) hd) fun p1 s1 h => ?_
  refine Wp.bind (h.gt_scalarSelf c) fun _ s2 h => ?_
  refine Wp.bind (h.pairG1 he (Or.inl hV) g2) fun p2 s3 h => ?_
  refine Wp.bind (h.gt_scalarSelf zsig) fun _ s4 h => ?_
  refine Wp.bind h.gt_invert fun _ s5 h => ?_
  refine Wp.bind (h.swap.gt_add (Or.inr List.mem_cons_self)) fun _ s6 h => ?_
  refine Wp.bind (h.drop2.gt_scalarMult (Or.inl he.E) zv) fun e s7 h => ?_
  refine Wp.bind (h.swap.gt_add (Or.inr List.mem_cons_self)) fun _ s8 h => ?_
  exact Wp.pure h.drop2

/-! ### Set membership -/

theorem Loc.proveSet (h : Loc s0 W s L) (he : Env g s0 W) (sha : List UInt8 → List UInt8) (x r : Int) {p : ParamsSetH}
    {vp : ParamsSet} (hp : Old s0 W p vp) (m v σ t : Int) :
    Sim (proveSetH g sha x r p m v σ t) s (proveSet sha x r vp m v σ t) fun w q s' =>
      (w = none ∧ q = none ∧ Loc s0 W s' L) ∨
      ∃ w' q', w = some w' ∧ q = some q' ∧
        Loc s0 W s' (own q'.V w'.V :: own q'.D w'.D :: own q'.C w'.C :: own q'.a w'.a :: L) ∧
        (⟨w'.V, w'.D, w'.C, w'.a, q'.s, q'.t, q'.zsig, q'.zv, q'.c, q'.m, q'.zr⟩ : ProofSet) = w' := by
  have hH : Old s0 W p.H vp.H := by
    have := hp.part (b := p.H) ((List.sublist_append_right _ _).trans (List.sublist_append_left _ _))
    rwa [show HeapObj.val s0.mem p.H = vp.H from congrArg ParamsSet.H hp.val] at this
  have hsig : vp.signatures.lookup x = (p.signatures.lookup x).map (Option.map (HeapObj.val s0.mem)) := by
    rw [← val_lookup, ← hp.val]; rfl
  unfold proveSetH Verif.proveSet
  refine Sim.step h.g2_infinity fun D0 s1 h => ?_
  rw [hsig]
  cases hl : p.signatures.lookup x with
  | none => exact Sim.pure (Or.inl ⟨rfl, rfl, h.tail⟩)
  | some A =>
    refine Sim.step (h.g2_scalarMult (Or.inl hH) m) fun D s2 h => ?_
    refine Sim.step (h.g2_base he σ) fun aux s3 h => ?_
    refine Sim.step (h.swap.g2_add (Or.inr List.mem_cons_self)) fun _ s4 h => ?_
    refine Sim.opt (HeapObj.val s0.mem) rfl fun A' hA' => ?_
    have hA : Old s0 W A' (HeapObj.val s0.mem A') := by
      refine hp.part ((cells_lookup (hA' ▸ hl)).trans ?_)
      exact (List.sublist_append_left _ _).trans (List.sublist_append_left _ _)
    refine Sim.step (h.drop2.g2_scalarMult (Or.inl hA) v) fun V s5 h => ?_
    refine Sim.step (h.ccsA he List.mem_cons_self σ t) fun a s6 h => ?_
    -- `a`, `V`, `D`, `D0`
    refine Sim.step (h.fourth.g2_add (Or.inr (List.mem_cons_of_mem _ (List.mem_cons_of_mem _ List.mem_cons_self)))) fun _ s7 h => ?_
    refine Sim.step (h.commit he (Or.inl hH) x r) fun C s8 h => ?_
    refine Sim.bind (h.hashSet (Or.inr (List.mem_cons_of_mem _ (List.mem_cons_of_mem _ List.mem_cons_self)))
      (Or.inr (List.mem_cons_of_mem _ List.mem_cons_self)) sha) fun c c' s9 _ ⟨e, h⟩ => ?_
    subst e
    refine Sim.opt id (by simp) fun c hc => ?_
    refine Sim.pure (Or.inr ⟨_, _, rfl, rfl, ?_, rfl⟩)
    -- `C`, `D0`, `a`, `V`, `D`
    exact h.fourth.third.swap.drop5
/-- What is needed of the parameters: they exist, and a public key can be made affine. -/
structure GoodKey (g : CcsGlobals) (s0 : BigHeap) (W : List Cell) (kp : KeygenH) : Prop where
  old : ∀ y, kp.pubk = some y → Old s0 W y (HeapObj.val s0.mem y) ∧ (HeapObj.val s0.mem y).Invertible ∧ NotGlobal g y

theorem Loc.verifySet {pr : ProofSetH} {p : ParamsSetH} {vp : ParamsSet} {vV vD vC : TwistPoint} {va : GfP12}
    (h : Loc s0 W s (own pr.D vD :: own pr.a va :: L)) (he : Env g s0 W) (hp : Old s0 W p vp) (hk : GoodKey g s0 W p.kp)
    (hV : Old s0 W pr.V vV) (hC : Old s0 W pr.C vC) (gV : NotGlobal g pr.V)
    (hd : ∀ y, p.kp.pubk = some y → Disj (HeapObj.cells pr.V) (HeapObj.cells y)) :
    Sim (verifySetH g pr p) s (verifySet ⟨vV, vD, vC, va, pr.s, pr.t, pr.zsig, pr.zv, pr.c, pr.m, pr.zr⟩ vp) fun w b s' =>
      b = w.1 ∧ Loc s0 W s' (own pr.D w.2.D :: own pr.a w.2.a :: L) ∧
      w.2 = ⟨vV, w.2.D, vC, w.2.a, pr.s, pr.t, pr.zsig, pr.zv, pr.c, pr.m, pr.zr⟩ := by
  have hH : Old s0 W p.H vp.H := by
    have := hp.part (b := p.H) ((List.sublist_append_right _ _).trans (List.sublist_append_left _ _))
    rwa [show HeapObj.val s0.mem p.H = vp.H from congrArg ParamsSet.H hp.val] at this
  have hkp : vp.kp.pubk = p.kp.pubk.map (HeapObj.val s0.mem) := by rw [← hp.val]; rfl
  unfold verifySetH Verif.verifySet
  refine Sim.step (h.g2_scalarMult (Or.inl hC) pr.c) fun D s1 h => ?_
  refine Sim.step (h.g2_scalarMult (Or.inl hH) pr.zr) fun t s2 h => ?_
  refine Sim.step (h.swap.g2_add (Or.inr List.mem_cons_self)) fun _ s3 h => ?_
  refine Sim.step (h.drop2.g2_base he pr.zsig) fun aux s4 h => ?_
  refine Sim.step (h.swap.g2_add (Or.inr List.mem_cons_self)) fun _ s5 h => ?_
  refine Sim.step h.drop2.g2_marshal fun b1 s6 ⟨e1, h⟩ => ?_
  refine Sim.step h.tail.g2_marshal fun b2 s7 ⟨e2, h⟩ => ?_
  refine Sim.opt (HeapObj.val s0.mem) hkp fun y hy => ?_
  obtain ⟨y1, y2, y3⟩ := hk.old y hy
  refine Sim.step (h.ccsRhs he y1 hV y2 y3 gV (hd y hy) pr.c pr.zsig pr.zv) fun p1 s8 h => ?_
  refine Sim.step h.gt_marshal fun b3 s9 ⟨e3, h⟩ => ?_
  refine Sim.step h.tail.swap.gt_marshal fun b4 s10 ⟨e4, h⟩ => ?_
  refine Sim.pure ⟨?_, h.swap, rfl⟩
  rw [e1, e2, e3, e4]

/-! ### The interval -/

/-- Objects of a list with their values. -/
def owns {A V : Type} [Ob A V] (as : List A) (vs : List V) : List (List (Cell × Int)) := List.zipWith own as vs

theorem mem_owns {A V : Type} [Ob A V] {as : List A} {vs : List V} (hl : as.length = vs.length) (L : List (List (Cell × Int)))
    (h0 : ∀ x ∈ owns as vs, x ∈ L) : List.Forall₂ (fun a v => own a v ∈ L) as vs := by
  induction as generalizing vs with
  | nil => cases vs with
    | nil => exact .nil
    | cons => cases hl
  | cons a as ih => cases vs with
    | nil => cases hl
    | cons v vs => exact .cons (h0 _ List.mem_cons_self) (ih (Nat.succ.inj hl) fun x hx => h0 x (List.mem_cons_of_mem _ hx))

theorem Loc.proveULLoop (he : Env g s0 W) {p : ParamsULH} {vp : ParamsUL} (hp : Old s0 W p vp) (v σ t : Nat → Int) {D : TwistP} :
    ∀ (ds : List Int) (i : Nat) {s : BigHeap} {L : List (List (Cell × Int))} {vD : TwistPoint}, Loc s0 W s (own D vD :: L) →
    Sim (proveULLoopH g p v σ t D i ds) s (proveULLoop vp v σ t i ds vD) fun w q s' =>
      (w = none ∧ q = none ∧ Loc s0 W s' L) ∨
      ∃ vD' Vs as vVs vas, w = some (vD', vVs, vas) ∧ q = some (Vs, as) ∧ Vs.length = vVs.length ∧ as.length = vas.length ∧
        Loc s0 W s' (own D vD' :: (owns Vs vVs ++ owns as vas ++ L))
  | [], i, s, L, vD, h => Sim.pure (Or.inr ⟨vD, [], [], [], [], rfl, rfl, rfl, rfl, h⟩)
  | d :: ds, i, s, L, vD, h => by
    have hsig : vp.signatures.lookup d = (p.signatures.lookup d).map (Option.map (HeapObj.val s0.mem)) := by
      rw [← val_lookup, ← hp.val]; rfl
    have hu : vp.u = p.u := by rw [← hp.val]; rfl
    unfold proveULLoopH Verif.proveULLoop
    rw [hsig, hu]
    cases hl : p.signatures.lookup d with
    | none => exact Sim.pure (Or.inl ⟨rfl, rfl, h.tail⟩)
    | some A =>
      refine Sim.opt (HeapObj.val s0.mem) rfl fun A' hA' => ?_
      have hA : Old s0 W A' (HeapObj.val s0.mem A') := by
        refine hp.part ((cells_lookup (hA' ▸ hl)).trans ?_)
        exact (List.sublist_append_left _ _).trans (List.sublist_append_left _ _)
      refine Sim.step (h.g2_scalarMult (Or.inl hA) (v i)) fun V s1 h => ?_
      refine Sim.step (h.ccsA he List.mem_cons_self (σ i) (t i)) fun a s2 h => ?_
      refine Sim.step (h.g2_base he _) fun aux s3 h => ?_
      refine Sim.step (h.fourth.g2_add (Or.inr List.mem_cons_self)) fun _ s4 h => ?_
      refine Sim.bind (Loc.proveULLoop he hp v σ t ds (i + 1) h.drop2) fun w q s5 _ h => ?_
      rcases h with ⟨rfl, rfl, h⟩ | ⟨vD', Vs, as, vVs, vas, rfl, rfl, h1, h2, h⟩
      · exact Sim.pure (Or.inl ⟨rfl, rfl, h.tail.tail⟩)
      · refine Sim.pure (Or.inr ⟨vD', V :: Vs, a :: as, _ :: vVs, _ :: vas, rfl, rfl, congrArg (· + 1) h1,
          congrArg (· + 1) h2, h.perm (List.Perm.cons _ ?_)⟩)
        show (owns Vs vVs ++ owns as vas ++ own a _ :: own V _ :: L).Perm (own V _ :: owns Vs vVs ++ own a _ :: owns as vas ++ L)
        refine (List.perm_append_comm_assoc _ [_, _] L).trans ?_
        simp only [List.cons_append, List.nil_append, List.append_assoc]
        refine (List.Perm.swap _ _ _).trans (List.Perm.cons _ ?_)
        exact (List.perm_middle (a := own a _) (l₁ := owns Vs vVs) (l₂ := owns as vas ++ L)).symm

theorem Loc.proveUL (h : Loc s0 W s L) (he : Env g s0 W) (sha : List UInt8 → List UInt8) (x r : Int) {p : ParamsULH}
    {vp : ParamsUL} (hp : Old s0 W p vp) (m : Int) (v σ t : Nat → Int) :
    Sim (proveULH g sha x r p m v σ t) s (proveUL sha x r vp m v σ t) fun w q s' =>
      (w = none ∧ q = none ∧ Loc s0 W s' L) ∨
      ∃ w' q', w = some w' ∧ q = some q' ∧ q'.V.length = w'.V.length ∧ q'.a.length = w'.a.length ∧
        Loc s0 W s' (owns q'.V w'.V ++ own q'.D w'.D :: own q'.C w'.C :: (owns q'.a w'.a ++ L)) ∧
        (⟨w'.V, w'.D, w'.C, w'.a, q'.s, q'.t, q'.zsig, q'.zv, q'.c, q'.m, q'.zr⟩ : ProofUL) = w' := by
  have hH : Old s0 W p.H vp.H := by
    have := hp.part (b := p.H) ((List.sublist_append_right _ _).trans (List.sublist_append_left _ _))
    rwa [show HeapObj.val s0.mem p.H = vp.H from congrArg ParamsUL.H hp.val] at this
  have hu : vp.u = p.u := by rw [← hp.val]; rfl
  have hl : vp.l = p.l := by rw [← hp.val]; rfl
  unfold proveULH Verif.proveUL
  rw [hu, hl]
  refine Sim.bind (Sim.ofRes _) fun decx decx' s1 _ ⟨e1, e2⟩ => ?_
  subst e1 e2
  refine Sim.step h.g2_infinity fun D0 s1 h => ?_
  refine Sim.step (h.g2_scalarMult (Or.inl hH) m) fun D s2 h => ?_
  refine Sim.bind (Loc.proveULLoop he hp v σ t decx' 0 h) fun w q s3 _ h => ?_
  rcases h with ⟨rfl, rfl, h⟩ | ⟨vD', Vs, as, vVs, vas, rfl, rfl, h1, h2, h⟩
  · exact Sim.pure (Or.inl ⟨rfl, rfl, h.tail⟩)
  · have h : Loc s0 W s3 (own D0 _ :: own D vD' :: (owns Vs vVs ++ owns as vas ++ L)) :=
      h.perm ((List.Perm.cons _ (List.perm_middle (a := own D0 _) (l₁ := owns Vs vVs ++ owns as vas) (l₂ := L))).trans
        (List.Perm.swap _ _ _))
    refine Sim.step (h.g2_add (Or.inr List.mem_cons_self)) fun _ s4 h => ?_
    refine Sim.step (h.drop2.commit he (Or.inl hH) x r) fun C s5 h => ?_
    refine Sim.bind (h.hashUL ((mem_owns h2 (own C (Verif.commit x r vp.H) :: own D0 _ :: (owns Vs vVs ++ owns as vas ++ L))
      fun y hy => List.mem_cons_of_mem _ (List.mem_cons_of_mem _ (List.mem_append_left _ (List.mem_append_right _ hy)))).imp
      fun _ _ h => Or.inr h) (Or.inr (List.mem_cons_of_mem _ List.mem_cons_self)) sha) fun c c' s6 _ ⟨e, h⟩ => ?_
    subst e
    refine Sim.opt id (by simp) fun c hc => ?_
    refine Sim.pure (Or.inr ⟨_, _, rfl, rfl, h1, h2, h.swap.perm ?_, rfl⟩)
    rw [List.append_assoc]
    exact List.perm_append_comm_assoc [own D0 _, own C _] (owns Vs vVs) (owns as vas ++ L)

theorem Loc.verifyULD (he : Env g s0 W) (u : Int) (zsig : List Int) {D : TwistP} :
    ∀ (n i : Nat) {s : BigHeap} {vD : TwistPoint}, Loc s0 W s (own D vD :: L) →
    Sim (verifyULDH g u zsig D n i) s (verifyULD u zsig n i vD) fun w _ s' => Loc s0 W s' (own D w :: L)
  | 0, i, s, vD, h => Sim.pure h
  | n + 1, i, s, vD, h => by
    unfold verifyULDH Verif.verifyULD
    refine Sim.bind (Sim.ofRes _) fun z z' s1 _ ⟨e1, e2⟩ => ?_
    subst e1 e2
    refine Sim.step (h.g2_base he _) fun aux s3 h => ?_
    refine Sim.step (h.swap.g2_add (Or.inr List.mem_cons_self)) fun _ s4 h => ?_
    exact Loc.verifyULD he u zsig n (i + 1) h.drop2

theorem idx_map {A V : Type} (f : A → V) (l : List A) (i : Nat) : (l.map f)[i]? = l[i]?.map f := List.getElem?_map

theorem Loc.verifyULA (he : Env g s0 W) {pr : ProofULH} {kp : KeygenH} (hk : GoodKey g s0 W kp)
    (hV : Old s0 W pr.V (HeapObj.val s0.mem pr.V)) (gV : NotGlobal g pr.V)
    (hd : ∀ y, kp.pubk = some y → Disj (HeapObj.cells pr.V) (HeapObj.cells y)) {vD vC : TwistPoint} {va : List GfP12}
    (hl : pr.a.length = va.length) :
    ∀ (n i : Nat) (r2 : Bool) {s : BigHeap} {L : List (List (Cell × Int))}, Loc s0 W s (owns (pr.a.drop i) (va.drop i) ++ L) →
    Sim (verifyULAH g kp.pubk pr n i r2) s
      (verifyULA (HeapObj.val s0.mem kp.pubk) ⟨HeapObj.val s0.mem pr.V, vD, vC, va, pr.s, pr.t, pr.zsig, pr.zv, pr.c, pr.m, pr.zr⟩
        n i r2) fun w b s' =>
      b = w.1 ∧ w.2.length = n ∧ (n + i ≤ va.length ∨ n = 0) ∧ Loc s0 W s' (owns (pr.a.drop i) (w.2 ++ va.drop (i + n)) ++ L)
  | 0, i, r2, s, L, h => Sim.pure ⟨rfl, rfl, Or.inr rfl, h⟩
  | n + 1, i, r2, s, L, h => by
    unfold verifyULAH Verif.verifyULA
    refine Sim.opt (HeapObj.val s0.mem) (idx_map _ _ _) fun V hVi => ?_
    have hVm := List.mem_of_getElem? hVi
    have hsub : (HeapObj.cells V).Sublist (HeapObj.cells pr.V) :=
      List.sublist_flatten_of_mem (List.mem_map_of_mem hVm)
    refine Sim.opt (HeapObj.val s0.mem) rfl fun y hy => ?_
    refine Sim.bind (Sim.ofRes _) fun zsig zsig' s1 _ ⟨e1, e2⟩ => ?_
    refine Sim.bind (Sim.ofRes _) fun zv zv' s2 _ ⟨e3, e4⟩ => ?_
    subst e1 e2 e3 e4
    obtain ⟨y1, y2, y3⟩ := hk.old y hy
    refine Sim.step (h.ccsRhs he y1 (hV.part hsub) y2 y3 (disj_symm (disj_sub (disj_symm gV) hsub)) (disj_sub (hd y hy) hsub)
      pr.c zsig' zv') fun p1 s3 h => ?_
    refine Sim.step h.gt_marshal fun b3 s4 ⟨e3, h⟩ => ?_
    have h := h.tail
    by_cases hi : i < va.length
    · obtain ⟨a, ha⟩ : ∃ a, pr.a[i]? = some a := ⟨_, List.getElem?_eq_getElem (hl ▸ hi)⟩
      obtain ⟨w, hw⟩ : ∃ w, va[i]? = some w := ⟨_, List.getElem?_eq_getElem hi⟩
      have da : pr.a.drop i = a :: pr.a.drop (i + 1) := by
        rw [List.drop_eq_getElem_cons (hl ▸ hi)]
        rw [List.getElem?_eq_getElem (hl ▸ hi)] at ha
        rw [Option.some.inj ha]
      have dv : va.drop i = w :: va.drop (i + 1) := by
        rw [List.drop_eq_getElem_cons hi]
        rw [List.getElem?_eq_getElem hi] at hw
        rw [Option.some.inj hw]
      have e1 : idx pr.a i = .ok a := by unfold idx; rw [ha]; rfl
      have e2 : idx va i = .ok w := by unfold idx; rw [hw]; rfl
      show Sim (BigM.ofRes (idx pr.a i) >>= _) s4 (idx va i >>= _) _
      rw [e1, e2]
      rw [da, dv] at h
      refine Sim.step (R := fun a' s' => a' = a ∧ s' = s4) ⟨a, s4, rfl, rfl, rfl⟩ fun a' s' ⟨r1, r2⟩ => ?_
      subst r1 r2
      refine Sim.step (Loc.gt_marshal h) fun b4 s5 ⟨e4, h⟩ => ?_
      rw [e3, e4]
      have h : Loc s0 W s5 (owns (pr.a.drop (i + 1)) (va.drop (i + 1)) ++ own a' _ :: L) :=
        h.perm (List.perm_middle (a := own a' _) (l₁ := owns (pr.a.drop (i + 1)) (va.drop (i + 1))) (l₂ := L)).symm
      have := Loc.verifyULA he hk hV gV hd hl n (i + 1) (r2 && (GT.marshal (Verif.ccsRhs (HeapObj.val s0.mem y)
        (HeapObj.val s0.mem V) pr.c zsig' zv')).1 == (GT.marshal w).1) h (vD := vD) (vC := vC)
      exact Sim.map (f := fun rest => (rest.1, (GT.marshal w).2 :: rest.2))
        (Q := fun w b s' => b = w.1 ∧ w.2.length = n + 1 ∧ (n + 1 + i ≤ va.length ∨ n + 1 = 0) ∧
          Loc s0 W s' (owns (pr.a.drop i) (w.2 ++ va.drop (i + (n + 1))) ++ L)) this
        fun w' b s' ⟨h1, h2, h3, h4⟩ => ⟨h1, congrArg (· + 1) h2, Or.inl (by omega), by
          rw [da]
          have e5 : i + 1 + n = i + (n + 1) := by omega
          rw [e5] at h4
          exact h4.perm List.perm_middle⟩
    · have e1 : idx pr.a i = .panic := by unfold idx; rw [List.getElem?_eq_none (by omega)]; rfl
      have e2 : idx va i = .panic := by unfold idx; rw [List.getElem?_eq_none (by omega)]; rfl
      show Sim (BigM.ofRes (idx pr.a i) >>= _) s4 (idx va i >>= _) _
      rw [e1, e2]
      exact ⟨fun _ => rfl, fun v hv => by cases hv⟩

theorem Loc.verifyUL {pr : ProofULH} {p : ParamsULH} {vp : ParamsUL} {vD vC : TwistPoint} {va : List GfP12}
    (h : Loc s0 W s (own pr.D vD :: (owns pr.a va ++ L))) (hl : pr.a.length = va.length) (he : Env g s0 W) (hp : Old s0 W p vp)
    (hk : GoodKey g s0 W p.kp) (hV : Old s0 W pr.V (HeapObj.val s0.mem pr.V)) (hC : Old s0 W pr.C vC) (gV : NotGlobal g pr.V)
    (hd : ∀ y, p.kp.pubk = some y → Disj (HeapObj.cells pr.V) (HeapObj.cells y)) :
    Sim (verifyULH g pr p) s (verifyUL ⟨HeapObj.val s0.mem pr.V, vD, vC, va, pr.s, pr.t, pr.zsig, pr.zv, pr.c, pr.m, pr.zr⟩ vp)
      fun w b s' => b = w.1 ∧ Loc s0 W s' (own pr.D w.2.D :: (owns pr.a w.2.a ++ L)) ∧ pr.a.length = w.2.a.length ∧
        w.2 = ⟨HeapObj.val s0.mem pr.V, w.2.D, vC, w.2.a, pr.s, pr.t, pr.zsig, pr.zv, pr.c, pr.m, pr.zr⟩ := by
  have hH : Old s0 W p.H vp.H := by
    have := hp.part (b := p.H) ((List.sublist_append_right _ _).trans (List.sublist_append_left _ _))
    rwa [show HeapObj.val s0.mem p.H = vp.H from congrArg ParamsUL.H hp.val] at this
  have hkp : vp.kp.pubk = HeapObj.val s0.mem p.kp.pubk := by rw [← hp.val]; rfl
  have hu : vp.u = p.u := by rw [← hp.val]; rfl
  have hll : vp.l = p.l := by rw [← hp.val]; rfl
  unfold verifyULH Verif.verifyUL
  rw [hu, hll, hkp]
  refine Sim.step (h.g2_scalarMult (Or.inl hC) pr.c) fun D s1 h => ?_
  refine Sim.step (h.g2_scalarMult (Or.inl hH) pr.zr) fun t s2 h => ?_
  refine Sim.step (h.swap.g2_add (Or.inr List.mem_cons_self)) fun _ s3 h => ?_
  refine Sim.bind (Loc.verifyULD he p.u pr.zsig p.l.toNat 0 h.drop2) fun w _ s4 _ h => ?_
  refine Sim.step h.g2_marshal fun b1 s6 ⟨e1, h⟩ => ?_
  refine Sim.step h.tail.g2_marshal fun b2 s7 ⟨e2, h⟩ => ?_
  have h : Loc s0 W s7 (owns (pr.a.drop 0) (va.drop 0) ++ own pr.D _ :: L) := h.perm List.perm_middle.symm
  refine Sim.bind (Loc.verifyULA he hk hV gV hd hl p.l.toNat 0 true h) fun w2 b s8 _ ⟨e3, h1, h2, h⟩ => ?_
  refine Sim.pure ⟨?_, ?_, ?_, rfl⟩
  · rw [e1, e2, e3]
  · rw [Nat.zero_add] at h
    exact h.perm List.perm_middle
  · show _ = (w2.2 ++ va.drop p.l.toNat).length
    rw [List.length_append, h1, List.length_drop]
    omega

end

end Verif

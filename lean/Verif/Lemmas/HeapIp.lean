import Verif.Lemmas.Heap

/-!
# The inner-product argument on the heap and on values
-/

namespace Verif

open Mem

theorem Res.bind_assoc {α β γ : Type} (r : Res α) (f : α → Res β) (g : β → Res γ) :
    (r >>= f) >>= g = r >>= fun a => f a >>= g := by
  cases r <;> rfl

/-- The value computed by `crossTermM`. -/
def crossTerm (E : Ext) (g : List P256) (a : List Int) (h : List P256) (b : List Int) (u : P256) (c : Int) : Res P256 := do
  let L ← Res.ofOption (vectorExp E g a)
  let Lh ← Res.ofOption (vectorExp E h b)
  .ok ((L.multiply E Lh).multiply E (u.scalarMult E c))

theorem crossTermM_sim (E : Ext) {g h : List Addr} {vg vh : List P256} (a b : List Int) {u : Addr} {vu : P256} (c : Int)
    {s : Heap} (hg : Reads s g vg) (hh : Reads s h vh) (hu : s[u]? = some vu) :
    (crossTermM E g a h b u c).Sim s (crossTerm E vg a vh b vu c) (fun p s' v => Grow s s' ∧ s[p]? = none ∧ s'[p]? = some v) := by
  refine Mem.Sim.bind (vectorExpM_sim E a hg) fun L s1 vL _ ⟨g1, f1, w1⟩ => ?_
  refine Mem.Sim.bind (vectorExpM_sim E b (hh.grow g1)) fun Lh s2 vLh _ ⟨g2, f2, w2⟩ => ?_
  have k2 := g2 _ _ w1
  have k3 := get_set_self k2 (vL.multiply E vLh)
  have g3 : Grow s (s2.set L (vL.multiply E vLh)) := (g1.trans g2).set f1 _
  refine Mem.Sim.step (multiplyM_eq E k2 k2 w2) ?_
  refine Mem.Sim.step (newScalarMultM_eq E (g3 _ _ hu) c) ?_
  have k4 := Grow.append _ [vu.scalarMult E c] _ _ k3
  refine Mem.Sim.step (multiplyM_eq E k4 k4 (get_len _ _)) ?_
  exact Mem.Sim.ok rfl ⟨(g3.trans (Grow.append _ _)).set f1 _, f1, get_set_self k4 _⟩

/-- The fields of an `InnerProductParams` have the given values. -/
structure IPParamsM.Reads (s : Heap) (p : IPParamsM) (v : IPParams) : Prop where
  N : p.N = v.N
  Cc : p.Cc = v.Cc
  Uu : s[p.Uu]? = some v.Uu
  H : s[p.H]? = some v.H
  Gg : Verif.Reads s p.Gg v.Gg
  Hh : Verif.Reads s p.Hh v.Hh
  P : s[p.P]? = some v.P

theorem IPParamsM.Reads.grow {s t : Heap} {p : IPParamsM} {v : IPParams} (h : p.Reads s v) (hg : Grow s t) : p.Reads t v :=
  ⟨h.N, h.Cc, hg _ _ h.Uu, hg _ _ h.H, h.Gg.grow hg, h.Hh.grow hg, hg _ _ h.P⟩

/-- The fields of an `InnerProductProof` which `Verify` reads and does not write have the given values. -/
structure IPProofM.Fixed (s : Heap) (p : IPProofM) (v : IPProof) : Prop where
  N : p.N = v.N
  A : p.A = v.A
  B : p.B = v.B
  Ls : Verif.Reads s p.Ls v.Ls
  Rs : Verif.Reads s p.Rs v.Rs
  U : s[p.U]? = some v.U
  Gg : Verif.Reads s p.Params.Gg v.Params.Gg
  Hh : Verif.Reads s p.Params.Hh v.Params.Hh

/-- All fields of an `InnerProductProof` have the given values. -/
structure IPProofM.Reads (s : Heap) (p : IPProofM) (v : IPProof) : Prop where
  fixed : p.Fixed s v
  P : s[p.P]? = some v.P
  Gg : s[p.Gg]? = some v.Gg
  Hh : s[p.Hh]? = some v.Hh
  Params : p.Params.Reads s v.Params

theorem computeBipM_sim (E : Ext) (params : IPParamsM) (vparams : IPParams) :
    ∀ (fuel : Nat) (a b : List Int) (g h : List Addr) (u P : Addr) (n : Nat) (Ls Rs : List Addr) (vg vh : List P256)
      (vu vP : P256) (vLs vRs : List P256) (s : Heap), params.Reads s vparams → Reads s g vg → Reads s h vh →
      s[u]? = some vu → s[P]? = some vP → Reads s Ls vLs → Reads s Rs vRs →
      (computeBipM E params fuel a b g h u P n Ls Rs).Sim s (computeBip E vparams fuel a b vg vh vu vP n vLs vRs)
        (fun p s' v => Grow s s' ∧ p.Reads s' v ∧ p.U = u ∧ p.Params = params ∧
          (∀ L ∈ p.Ls, L ∈ Ls ∨ s[L]? = none) ∧ (∀ R ∈ p.Rs, R ∈ Rs ∨ s[R]? = none)) := by
  intro fuel
  induction fuel with
  | zero => intros; rfl
  | succ fuel ih =>
    intro a b g h u P n Ls Rs vg vh vu vP vLs vRs s hpar hg hh hu hP hLs hRs
    by_cases hn : n = 1
    · simp only [computeBipM, computeBip, if_pos hn]
      refine Mem.Sim.lift fun a0 _ => Mem.Sim.lift fun b0 _ => ?_
      refine Mem.Sim.bind (idx_sim hg 0) ?_
      rintro g0 _ vg0 - ⟨rfl, hg0⟩
      refine Mem.Sim.bind (idx_sim hh 0) ?_
      rintro h0 _ vh0 - ⟨rfl, hh0⟩
      exact Mem.Sim.ok rfl ⟨Grow.refl _, ⟨⟨rfl, rfl, rfl, hLs, hRs, hu, hpar.Gg, hpar.Hh⟩, hP, hg0, hh0, hpar⟩, rfl, rfl,
        fun L hL => Or.inl hL, fun R hR => Or.inl hR⟩
    · have hpure : computeBip E vparams (fuel + 1) a b vg vh vu vP n vLs vRs = (do
          let n' := n / 2
          let aL ← sliceTo a n'
          let aR ← sliceFrom a n'
          let bL ← sliceTo b n'
          let bR ← sliceFrom b n'
          let gL ← sliceTo vg n'
          let gR ← sliceFrom vg n'
          let hL ← sliceTo vh n'
          let hR ← sliceFrom vh n'
          let cL ← Res.ofOption (scalarProduct aL bR)
          let cR ← Res.ofOption (scalarProduct aR bL)
          let L ← crossTerm E gR aL hL bR vu cL
          let R ← crossTerm E gL aR hR bL vu cR
          let x := (hashBP E L R).1
          let xinv ← Res.ofOption (modInverse x ORDER)
          let g' := (vectorECAdd E (vectorScalarExp E gL xinv) (vectorScalarExp E gR x)).getD []
          let h' := (vectorECAdd E (vectorScalarExp E hL x) (vectorScalarExp E hR xinv)).getD []
          let x2 := (x * x) % ORDER
          let x2inv ← Res.ofOption (modInverse x2 ORDER)
          let P' := L.scalarMult E x2
          let P' := P'.multiply E vP
          let P' := P'.multiply E (R.scalarMult E x2inv)
          let a' := (vectorAdd (vectorScalarMul aL x) (vectorScalarMul aR xinv)).getD []
          let b' := (vectorAdd (vectorScalarMul bL xinv) (vectorScalarMul bR x)).getD []
          let proof ← computeBip E vparams fuel a' b' g' h' vu P' n' (vLs ++ [L]) (vRs ++ [R])
          Res.ok { proof with N := (n : Int) }) := by
        simp only [computeBip, if_neg hn, crossTerm, Res.bind_assoc, Res.ok_bind]
      rw [hpure]
      simp only [computeBipM, if_neg hn]
      refine Mem.Sim.lift fun aL _ => Mem.Sim.lift fun aR _ => Mem.Sim.lift fun bL _ => Mem.Sim.lift fun bR _ => ?_
      refine Mem.Sim.bind (sliceTo_sim hg _) ?_
      rintro gL _ vgL - ⟨rfl, hgL⟩
      refine Mem.Sim.bind (sliceFrom_sim hg _) ?_
      rintro gR _ vgR - ⟨rfl, hgR⟩
      refine Mem.Sim.bind (sliceTo_sim hh _) ?_
      rintro hL _ vhL - ⟨rfl, hhL⟩
      refine Mem.Sim.bind (sliceFrom_sim hh _) ?_
      rintro hR _ vhR - ⟨rfl, hhR⟩
      refine Mem.Sim.lift fun cL _ => Mem.Sim.lift fun cR _ => ?_
      rename_i s
      refine Mem.Sim.bind (crossTermM_sim E aL bR cL hgR hhL hu) fun L s1 vL _ ⟨g1, f1, w1⟩ => ?_
      refine Mem.Sim.bind (crossTermM_sim E aR bL cR (hgL.grow g1) (hhR.grow g1) (g1 _ _ hu)) fun R s2 vR _ ⟨g2, f2, w2⟩ => ?_
      have w1' := g2 _ _ w1
      refine Mem.Sim.step (hashBPM_eq E w1' w2) ?_
      generalize hashBP E vL vR = xx
      obtain ⟨x, x'⟩ := xx
      refine Mem.Sim.lift fun xinv _ => ?_
      have g12 := g1.trans g2
      obtain ⟨g', s3, e3, g3, r3, f3⟩ := foldM_spec E xinv x (hgL.grow g12) (hgR.grow g12)
      have g13 := g12.trans g3
      obtain ⟨h', s4, e4, g4, r4, f4⟩ := foldM_spec E x xinv (hhL.grow g13) (hhR.grow g13)
      have g14 := g13.trans g4
      have g24 := g3.trans g4
      refine Mem.Sim.step e3 (Mem.Sim.step e4 (Mem.Sim.lift fun x2inv _ => ?_))
      refine Mem.Sim.step (newScalarMultM_eq E (g24 _ _ w1') _) ?_
      have c5 := get_len s4 (vL.scalarMult E ((x * x) % ORDER))
      have g5 := Grow.append s4 [vL.scalarMult E ((x * x) % ORDER)]
      refine Mem.Sim.step (multiplyM_eq E c5 c5 ((g14.trans g5) _ _ hP)) ?_
      have c6 := get_set_self c5 ((vL.scalarMult E ((x * x) % ORDER)).multiply E vP)
      have g6 := g5.set (fresh_len s4) ((vL.scalarMult E ((x * x) % ORDER)).multiply E vP)
      refine Mem.Sim.step (newScalarMultM_eq E (g6 _ _ (g24 _ _ w2)) x2inv) ?_
      have c7 := Grow.append _ [vR.scalarMult E x2inv] _ _ c6
      refine Mem.Sim.step (multiplyM_eq E c7 c7 (get_len _ _)) ?_
      have g7 := (g6.trans (Grow.append _ [vR.scalarMult E x2inv])).set (fresh_len s4)
        (((vL.scalarMult E ((x * x) % ORDER)).multiply E vP).multiply E (vR.scalarMult E x2inv))
      have c8 := get_set_self c7
        (((vL.scalarMult E ((x * x) % ORDER)).multiply E vP).multiply E (vR.scalarMult E x2inv))
      have gall := g14.trans g7
      have gL' := (g24.trans g7) _ _ w1'
      have gR' := (g24.trans g7) _ _ w2
      refine Mem.Sim.bind (ih _ _ g' h' u _ _ (Ls ++ [L]) (Rs ++ [R]) _ _ _ _ (vLs ++ [vL]) (vRs ++ [vR]) _ (hpar.grow gall)
        (r3.grow (g4.trans g7)) (r4.grow g7) (gall _ _ hu) c8
        ((hLs.grow gall).append (List.Forall₂.cons gL' List.Forall₂.nil))
        ((hRs.grow gall).append (List.Forall₂.cons gR' List.Forall₂.nil))) ?_
      rintro p s' v - ⟨gs, hr, hpu, hpp, hl, hr'⟩
      refine Mem.Sim.ok rfl ⟨gall.trans gs, ⟨⟨rfl, hr.fixed.A, hr.fixed.B, hr.fixed.Ls, hr.fixed.Rs, hr.fixed.U, hr.fixed.Gg,
        hr.fixed.Hh⟩, hr.P, hr.Gg, hr.Hh, hr.Params⟩, hpu, hpp, ?_, ?_⟩
      · intro M hM
        rcases hl M hM with h1 | h1
        · rcases List.mem_append.1 h1 with h2 | h2
          · exact Or.inl h2
          · rw [List.mem_singleton.1 h2]; exact Or.inr f1
        · exact Or.inr (gall.get_none h1)
      · intro M hM
        rcases hr' M hM with h1 | h1
        · rcases List.mem_append.1 h1 with h2 | h2
          · exact Or.inl h2
          · rw [List.mem_singleton.1 h2]; exact Or.inr (g1.get_none f2)
        · exact Or.inr (gall.get_none h1)

/-- What `proveInnerProduct` does: it changes no existing struct, and the struct `*Params.P` of the proof is new and not one
of the points `L`, `R` and `U`. -/
theorem proveInnerProductM_sim (E : Ext) (a b : List Int) {P : Addr} {vP : P256} {params : IPParamsM} {vparams : IPParams}
    {s : Heap} (hP : s[P]? = some vP) (hpar : params.Reads s vparams) :
    (proveInnerProductM E a b P params).Sim s (proveInnerProduct E a b vP vparams) (fun p s' v => Grow s s' ∧
      Option.Rel (fun p v => p.Reads s' v ∧ p.Params = { params with P := p.Params.P } ∧ s[p.Params.P]? = none ∧
        (∀ L ∈ p.Ls, L ≠ p.Params.P ∧ s[L]? = none) ∧ (∀ R ∈ p.Rs, R ≠ p.Params.P ∧ s[R]? = none) ∧
        p.U ≠ p.Params.P ∧ s[p.U]? = none) p v) := by
  obtain ⟨pN, pC, pU, pH, pG, pHh, pP⟩ := params
  obtain rfl : pC = vparams.Cc := hpar.Cc
  unfold proveInnerProductM proveInnerProduct
  by_cases hl : a.length ≠ b.length
  · rw [if_pos hl, if_pos hl]; exact Mem.Sim.ok rfl ⟨Grow.refl s, Option.Rel.none⟩
  rw [if_neg hl, if_neg hl]
  have hsim : (hashIPM E pG pHh P vparams.Cc pN).Sim s
      (hashIP E vparams.Gg vparams.Hh vP vparams.Cc vparams.N) (fun x s' v => s' = s ∧ x = v) := by
    unfold hashIPM
    refine Mem.Sim.step (load_eq hP) (Mem.Sim.step (loadAllM_eq hpar.Gg) (Mem.Sim.step (loadAllM_eq hpar.Hh) ?_))
    rw [show pN = _ from hpar.N]
    cases hashIP E vparams.Gg vparams.Hh vP vparams.Cc vparams.N with
    | panic => rfl
    | ok x => exact ⟨x, s, rfl, rfl, rfl⟩
  refine Mem.Sim.bind hsim ?_
  rintro xo _ _ - ⟨rfl, rfl⟩
  rename_i s
  refine Mem.Sim.lift fun x _ => ?_
  refine Mem.Sim.step (newScalarMultM_eq E hpar.Uu x) ?_
  have g1 := Grow.append s [vparams.Uu.scalarMult E x]
  have c1 := get_len s (vparams.Uu.scalarMult E x)
  refine Mem.Sim.step (newScalarMultM_eq E c1 vparams.Cc) ?_
  have g2 := Grow.append (s ++ [vparams.Uu.scalarMult E x]) [(vparams.Uu.scalarMult E x).scalarMult E vparams.Cc]
  have c2 := get_len (s ++ [vparams.Uu.scalarMult E x]) ((vparams.Uu.scalarMult E x).scalarMult E vparams.Cc)
  refine Mem.Sim.step (newMultiplyM_eq E (g2 _ _ (g1 _ _ hP)) c2) ?_
  generalize hs2 : s ++ [vparams.Uu.scalarMult E x] ++ [(vparams.Uu.scalarMult E x).scalarMult E vparams.Cc] = s2 at *
  have f3 := fresh_len s2
  have g3 := Grow.append s2 [vP.multiply E ((vparams.Uu.scalarMult E x).scalarMult E vparams.Cc)]
  have c3 := get_len s2 (vP.multiply E ((vparams.Uu.scalarMult E x).scalarMult E vparams.Cc))
  have gall := (g1.trans g2).trans g3
  have hpar' : (⟨pN, vparams.Cc, pU, pH, pG, pHh, s2.length⟩ : IPParamsM).Reads
      (s2 ++ [vP.multiply E ((vparams.Uu.scalarMult E x).scalarMult E vparams.Cc)])
      { vparams with P := vP.multiply E ((vparams.Uu.scalarMult E x).scalarMult E vparams.Cc) } :=
    ⟨hpar.N, hpar.Cc, gall _ _ hpar.Uu, gall _ _ hpar.H, hpar.Gg.grow gall, hpar.Hh.grow gall, c3⟩
  refine Mem.Sim.bind (computeBipM_sim E _ _ a.length a b pG pHh s.length s2.length a.length [] [] _ _ _ _ [] [] _
    hpar' (hpar.Gg.grow gall) (hpar.Hh.grow gall) (g3 _ _ (g2 _ _ c1)) c3 List.Forall₂.nil List.Forall₂.nil) ?_
  rintro p s' v - ⟨gs, hr, hu, hp, hL, hR⟩
  have hpp : p.Params.P = s2.length := by rw [hp]
  refine Mem.Sim.ok rfl ⟨gall.trans gs, Option.Rel.some ⟨hr, ?_, ?_, ?_, ?_, ?_, ?_⟩⟩
  · rw [hpp, hp]
  · rw [hpp]; exact (g1.trans g2).get_none f3
  · intro L hL'
    rcases hL L hL' with h | h
    · simp at h
    · rw [hpp]; exact ⟨(ne_of_fresh c3 h).symm, gall.get_none h⟩
  · intro R hR'
    rcases hR R hR' with h | h
    · simp at h
    · rw [hpp]; exact ⟨(ne_of_fresh c3 h).symm, gall.get_none h⟩
  · rw [hpp, hu]; exact ne_of_fresh (g2 _ _ c1) f3
  · rw [hu]; exact fresh_len s

/-! ### Verification -/

/-- Every struct of `s` except the one at `P` is still in `s'`, unchanged. -/
def GrowX (P : Addr) (s s' : Heap) : Prop := ∀ (i : Addr) (v : P256), i ≠ P → s[i]? = some v → s'[i]? = some v

theorem Grow.growX {s t : Heap} (h : Grow s t) (P : Addr) : GrowX P s t := fun i v _ e => h i v e

theorem GrowX.trans {P : Addr} {s t u : Heap} (h : GrowX P s t) (h' : GrowX P t u) : GrowX P s u :=
  fun i v hi e => h' i v hi (h i v hi e)

theorem GrowX.set {P : Addr} {s t : Heap} (h : GrowX P s t) (v : P256) : GrowX P s (t.set P v) := fun i w hi e => by
  rw [List.getElem?_set_ne hi.symm]; exact h i w hi e

theorem Reads.growX {P : Addr} {s t : Heap} {as : List Addr} {vs : List P256} (h : Reads s as vs) (hg : GrowX P s t)
    (hP : P ∉ as) : Reads t as vs := by
  induction h with
  | nil => exact List.Forall₂.nil
  | cons e _ ih =>
    exact List.Forall₂.cons (hg _ _ (fun hh => hP (by simp [hh])) e) (ih (fun hh => hP (List.mem_cons_of_mem _ hh)))

theorem ipVerifyLoopM_sim (E : Ext) {P : Addr} : ∀ {Ls Rs g h : List Addr} {vLs vRs vg vh : List P256} {vP : P256} {n : Int}
    {s : Heap}, Reads s Ls vLs → Reads s Rs vRs → Reads s g vg → Reads s h vh → s[P]? = some vP → P ∉ Ls → P ∉ Rs →
    (ipVerifyLoopM E P Ls Rs g h n).Sim s (ipVerifyLoop E vLs vRs vg vh vP n)
      (fun r s' v => GrowX P s s' ∧ (Reads s' r.1 v.1 ∧ Reads s' r.2 v.2.1) ∧ s'[P]? = some v.2.2) := by
  intro Ls
  induction Ls with
  | nil =>
    intro Rs g h vLs vRs vg vh vP n s hLs hRs hg hh hP _ _
    cases hLs
    simp only [ipVerifyLoopM, ipVerifyLoop]
    exact Mem.Sim.ok rfl ⟨(Grow.refl s).growX P, ⟨hg, hh⟩, hP⟩
  | cons L Ls ih =>
    intro Rs g h vLs vRs vg vh vP n s hLs hRs hg hh hP hPL hPR
    cases hLs with
    | cons hL hLs =>
    rename_i vL vLs
    cases hRs with
    | nil => simp only [ipVerifyLoopM, ipVerifyLoop]; rfl
    | cons hR hRs =>
    rename_i R vR Rs vRs
    have hne : L ≠ P := fun hh => hPL (by simp [hh])
    have hne' : R ≠ P := fun hh => hPR (by simp [hh])
    simp only [ipVerifyLoopM, ipVerifyLoop]
    refine Mem.Sim.step (hashBPM_eq E hL hR) ?_
    generalize hashBP E vL vR = xx
    obtain ⟨x, x'⟩ := xx
    refine Mem.Sim.lift fun xinv _ => ?_
    refine Mem.Sim.bind (sliceTo_sim hg _) ?_
    rintro gL _ vgL - ⟨rfl, hgL⟩
    refine Mem.Sim.bind (sliceFrom_sim hg _) ?_
    rintro gR _ vgR - ⟨rfl, hgR⟩
    obtain ⟨g', s3, e3, g3, r3, f3⟩ := foldM_spec E xinv x hgL hgR
    refine Mem.Sim.step e3 ?_
    refine Mem.Sim.bind (sliceTo_sim (hh.grow g3) _) ?_
    rintro hL' _ vhL - ⟨rfl, hhL⟩
    refine Mem.Sim.bind (sliceFrom_sim (hh.grow g3) _) ?_
    rintro hR' _ vhR - ⟨rfl, hhR⟩
    obtain ⟨h', s4, e4, g4, r4, f4⟩ := foldM_spec E x xinv hhL hhR
    have g14 := g3.trans g4
    refine Mem.Sim.step e4 (Mem.Sim.lift fun x2inv _ => ?_)
    refine Mem.Sim.step (newScalarMultM_eq E (g14 _ _ hL) _) ?_
    have g5 := Grow.append s4 [vL.scalarMult E ((x * x) % ORDER)]
    have c5 := get_len s4 (vL.scalarMult E ((x * x) % ORDER))
    have p5 := (g14.trans g5) _ _ hP
    refine Mem.Sim.step (multiplyM_eq E p5 p5 c5) ?_
    have p6 := get_set_self p5 (vP.multiply E (vL.scalarMult E ((x * x) % ORDER)))
    have g6 := (((g14.trans g5).growX P)).set (vP.multiply E (vL.scalarMult E ((x * x) % ORDER)))
    have g6' := ((g5.growX P)).set (vP.multiply E (vL.scalarMult E ((x * x) % ORDER)))
    refine Mem.Sim.step (newScalarMultM_eq E (g6 _ _ hne' hR) x2inv) ?_
    generalize List.set (s4 ++ [vL.scalarMult E ((x * x) % ORDER)]) P
      (vP.multiply E (vL.scalarMult E ((x * x) % ORDER))) = s6 at *
    have g7 := Grow.append s6 [vR.scalarMult E x2inv]
    have p7 := g7 _ _ p6
    refine Mem.Sim.step (multiplyM_eq E p7 p7 (get_len _ _)) ?_
    have p8 := get_set_self p7 ((vP.multiply E (vL.scalarMult E ((x * x) % ORDER))).multiply E (vR.scalarMult E x2inv))
    have g8 := (g7.growX P).set ((vP.multiply E (vL.scalarMult E ((x * x) % ORDER))).multiply E (vR.scalarMult E x2inv))
    have gall := g6.trans g8
    have gtail := g6'.trans g8
    have hg' : P ∉ g' := fun hm => by simp [f3 P hm] at hP
    have hh' : P ∉ h' := fun hm => by have := g3.get_none (f4 P hm); simp [this] at hP
    refine Mem.Sim.mono (ih (Reads.growX hLs gall fun hm => hPL (List.mem_cons_of_mem _ hm))
      (Reads.growX hRs gall fun hm => hPR (List.mem_cons_of_mem _ hm)) ((r3.grow g4).growX gtail hg') (r4.growX gtail hh') p8
      (fun hm => hPL (List.mem_cons_of_mem _ hm)) (fun hm => hPR (List.mem_cons_of_mem _ hm))) ?_
    rintro r s' v - ⟨gs, hr, hp⟩
    exact ⟨gall.trans gs, hr, hp⟩

theorem ipVerifyM_sim (E : Ext) {proof : IPProofM} {v : IPProof} {s : Heap} (h : proof.Fixed s v)
    (hP : s[proof.Params.P]? = some v.Params.P) (hPL : proof.Params.P ∉ proof.Ls) (hPR : proof.Params.P ∉ proof.Rs)
    (hPU : proof.Params.P ≠ proof.U) :
    (ipVerifyM E proof).Sim s (ipVerify E v) (fun r s' w => GrowX proof.Params.P s s' ∧ r = w.1 ∧
      s'[proof.Params.P]? = some w.2) := by
  unfold ipVerifyM ipVerify
  rw [h.N, h.A, h.B]
  generalize proof.Params.P = P at *
  refine Mem.Sim.bind (ipVerifyLoopM_sim E h.Ls h.Rs h.Gg h.Hh hP hPL hPR) ?_
  rintro ⟨g, hh⟩ s1 ⟨vg, vh, vP⟩ - ⟨g1, ⟨hg, hhh⟩, hP1⟩
  refine Mem.Sim.bind (idx_sim hg 0) ?_
  rintro g0 _ vg0 - ⟨rfl, hg0⟩
  refine Mem.Sim.bind (idx_sim hhh 0) ?_
  rintro h0 _ vh0 - ⟨rfl, hh0⟩
  rename_i s1
  have hU1 := g1 _ _ hPU.symm h.U
  refine Mem.Sim.step (newScalarMultM_eq E hg0 v.A) ?_
  have c2 := get_len s1 (vg0.scalarMult E v.A)
  have g2 := Grow.append s1 [vg0.scalarMult E v.A]
  refine Mem.Sim.step (newScalarMultM_eq E (g2 _ _ hh0) v.B) ?_
  generalize hs2 : s1 ++ [vg0.scalarMult E v.A] = s2 at *
  have c3 := get_len s2 (vh0.scalarMult E v.B)
  have g3 := Grow.append s2 [vh0.scalarMult E v.B]
  refine Mem.Sim.step (multiplyM_eq E (g3 _ _ c2) (g3 _ _ c2) c3) ?_
  have g4 := (g2.trans g3).set (fresh_len s1) ((vg0.scalarMult E v.A).multiply E (vh0.scalarMult E v.B))
  have c4 := get_set_self (g3 _ _ c2) ((vg0.scalarMult E v.A).multiply E (vh0.scalarMult E v.B))
  generalize (s2 ++ [vh0.scalarMult E v.B]).set s1.length
    ((vg0.scalarMult E v.A).multiply E (vh0.scalarMult E v.B)) = s4 at *
  refine Mem.Sim.step (newScalarMultM_eq E (g4 _ _ hU1) _) ?_
  have g5 := Grow.append s4 [v.U.scalarMult E ((v.A * v.B) % ORDER)]
  have c5 := g5 _ _ c4
  refine Mem.Sim.step (multiplyM_eq E c5 c5 (get_len _ _)) ?_
  have g6 := (g4.trans g5).set (fresh_len s1)
    (((vg0.scalarMult E v.A).multiply E (vh0.scalarMult E v.B)).multiply E (v.U.scalarMult E ((v.A * v.B) % ORDER)))
  have c6 := get_set_self c5
    (((vg0.scalarMult E v.A).multiply E (vh0.scalarMult E v.B)).multiply E (v.U.scalarMult E ((v.A * v.B) % ORDER)))
  generalize (s4 ++ [v.U.scalarMult E ((v.A * v.B) % ORDER)]).set s1.length
    (((vg0.scalarMult E v.A).multiply E (vh0.scalarMult E v.B)).multiply E (v.U.scalarMult E ((v.A * v.B) % ORDER))) = s6 at *
  have p6 := g6 _ _ hP1
  refine Mem.Sim.step (negM_eq E p6 p6) ?_
  have hne : s1.length ≠ P := (ne_of_fresh hP1 (fresh_len s1)).symm
  have p7 := get_set_self p6 (P256.neg E vP vP)
  refine Mem.Sim.step (multiplyM_eq E p7 p7 (get_set_ne c6 hne _)) ?_
  have p8 := get_set_self p7 ((P256.neg E vP vP).multiply E
    (((vg0.scalarMult E v.A).multiply E (vh0.scalarMult E v.B)).multiply E (v.U.scalarMult E ((v.A * v.B) % ORDER))))
  have g8 := ((g6.growX P).set (P256.neg E vP vP)).set ((P256.neg E vP vP).multiply E
    (((vg0.scalarMult E v.A).multiply E (vh0.scalarMult E v.B)).multiply E (v.U.scalarMult E ((v.A * v.B) % ORDER))))
  exact Mem.Sim.ok (isZeroM_eq p8) ⟨g1.trans g8, rfl, p8⟩

end Verif

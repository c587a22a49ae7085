import Verif.Lemmas.HeapIp

/-!
# Range proofs on the heap and on values
-/

namespace Verif

open Mem

/-! ### Helpers -/

theorem Mem.Makes.step {m : Mem Addr} {s : Heap} {v : P256} (h : m.Makes s v) {γ δ : Type} {f : Addr → Mem γ} {r : Res δ}
    {Q : γ → Heap → δ → Prop}
    (h' : ∀ a s', Grow s s' → s[a]? = none → s'[a]? = some v → (f a).Sim s' r Q) : (m >>= f).Sim s r Q := by
  obtain ⟨a, s', e, g, f1, w⟩ := h
  exact Mem.Sim.step e (h' a s' g f1 w)

theorem commitVectorLoopM_sim (E : Ext) (aL aR : List Int) {g h : List Addr} {vg vh : List P256} {R : Addr} {s0 : Heap}
    (hg : Reads s0 g vg) (hh : Reads s0 h vh) (hR : s0[R]? = none) : ∀ (fuel i : Nat) (s : Heap) (vR : P256),
    Grow s0 s → s[R]? = some vR →
    (commitVectorLoopM E aL aR g h R fuel i).Sim s (commitVectorLoop E aL aR vg vh fuel i vR)
      (fun _ s' v => Grow s0 s' ∧ s'[R]? = some v) := by
  intro fuel
  induction fuel with
  | zero => intro i s vR hs hw; exact Mem.Sim.ok rfl ⟨hs, hw⟩
  | succ fuel ih =>
    intro i s vR hs hw
    simp only [commitVectorLoopM, commitVectorLoop]
    refine Mem.Sim.bind (idx_sim (hg.grow hs) i) ?_
    rintro gi _ vgi - ⟨rfl, hgi⟩
    refine Mem.Sim.lift fun ai _ => ?_
    refine Mem.Sim.bind (idx_sim (hh.grow hs) i) ?_
    rintro hi _ vhi - ⟨rfl, hhi⟩
    rename_i s
    refine Mem.Sim.lift fun bi _ => ?_
    refine Mem.Sim.step (newScalarMultM_eq E hgi ai) ?_
    have g1 := Grow.append s [vgi.scalarMult E ai]
    have c1 := get_len s (vgi.scalarMult E ai)
    have n1 : s.length ≠ R := (ne_of_fresh hw (fresh_len s)).symm
    refine Mem.Sim.step (newScalarMultM_eq E (g1 _ _ hhi) bi) ?_
    generalize hs1 : s ++ [vgi.scalarMult E ai] = s1 at *
    have g2 := Grow.append s1 [vhi.scalarMult E bi]
    have c2 := get_len s1 (vhi.scalarMult E bi)
    have n2 : s1.length ≠ R := (ne_of_fresh (g1 _ _ hw) (fresh_len s1)).symm
    have r2 := (g1.trans g2) _ _ hw
    refine Mem.Sim.step (multiplyM_eq E r2 r2 (g2 _ _ c1)) ?_
    have r3 := get_set_self r2 (vR.multiply E (vgi.scalarMult E ai))
    refine Mem.Sim.step (multiplyM_eq E r3 r3 (get_set_ne c2 n2 _)) ?_
    exact ih _ _ _ (((hs.trans (g1.trans g2)).set hR _).set hR _) (get_set_self r3 _)

theorem commitVectorM_sim (E : Ext) (aL aR : List Int) (alpha : Int) {H : Addr} {vH : P256} {g h : List Addr}
    {vg vh : List P256} (n : Int) {s : Heap} (hH : s[H]? = some vH) (hg : Reads s g vg) (hh : Reads s h vh) :
    (commitVectorM E aL aR alpha H g h n).Sim s (commitVector E aL aR alpha vH vg vh n)
      (fun p s' v => Grow s s' ∧ s[p]? = none ∧ s'[p]? = some v) := by
  unfold commitVectorM
  refine Mem.Makes.step (newScalarMultM_makes E hH alpha) fun R s1 g1 f1 w1 => ?_
  have := Mem.Sim.bind (g := fun b => Res.ok b) (Q' := fun (p : Addr) s' v => Grow s s' ∧ s[p]? = none ∧ s'[p]? = some v)
    (f := fun _ => (pure R : Mem Addr))
    (commitVectorLoopM_sim E aL aR hg hh f1 n.toNat 0 s1 _ g1 w1)
    (fun _ s' v _ hv => Mem.Sim.ok rfl ⟨hv.1, f1, hv.2⟩)
  unfold commitVector
  cases h : commitVectorLoop E aL aR vg vh n.toNat 0 (vH.scalarMult E alpha) with
  | ok v => rw [h] at this; exact this
  | panic => rw [h] at this; exact this

theorem updateGeneratorsLoopM_sim (E : Ext) {Hh : List Addr} {vHh : List P256} (yinv : Int) : ∀ (fuel i : Nat) (expy : Int)
    (s : Heap), Reads s Hh vHh →
    (updateGeneratorsLoopM E Hh yinv fuel i expy).Sim s (updateGeneratorsLoop E vHh yinv fuel i expy)
      (fun l s' v => Grow s s' ∧ Reads s' l v ∧ ∀ p ∈ l, s[p]? = none) := by
  intro fuel
  induction fuel with
  | zero => intro i expy s h; exact Mem.Sim.ok rfl ⟨Grow.refl s, List.Forall₂.nil, by simp⟩
  | succ fuel ih =>
    intro i expy s h
    simp only [updateGeneratorsLoopM, updateGeneratorsLoop]
    refine Mem.Sim.bind (idx_sim h i) ?_
    rintro hi _ vhi - ⟨rfl, hhi⟩
    rename_i s
    refine Mem.Sim.step (newScalarMultM_eq E hhi expy) ?_
    have g1 := Grow.append s [vhi.scalarMult E expy]
    refine Mem.Sim.bind (ih (i + 1) (expy * yinv) _ (h.grow g1)) ?_
    rintro l s' v - ⟨g2, hr, hf⟩
    exact Mem.Sim.ok rfl ⟨g1.trans g2, List.Forall₂.cons (g2 _ _ (get_len s _)) hr,
      List.forall_mem_cons.2 ⟨fresh_len s, fun p hp => g1.get_none (hf p hp)⟩⟩

theorem updateGeneratorsM_sim (E : Ext) {Hh : List Addr} {vHh : List P256} (y n : Int) {s : Heap} (h : Reads s Hh vHh) :
    (updateGeneratorsM E Hh y n).Sim s (updateGenerators E vHh y n)
      (fun l s' v => Grow s s' ∧ Reads s' l v ∧ ∀ p ∈ l, p ∈ Hh ∨ s[p]? = none) := by
  unfold updateGeneratorsM updateGenerators
  by_cases hn : n ≤ 0
  · rw [if_pos hn, if_pos hn]; rfl
  rw [if_neg hn, if_neg hn]
  have hmem : ∀ {p}, idx Hh 0 = .ok p → p ∈ Hh := by
    intro p hp
    cases Hh with
    | nil => cases hp
    | cons a l => cases hp; simp
  have hsim : (Mem.lift (idx Hh 0)).Sim s (idx vHh 0) (fun p s' v => s' = s ∧ s[p]? = some v ∧ p ∈ Hh) := by
    cases h with
    | nil => rfl
    | cons e _ => exact ⟨_, s, rfl, rfl, e, by simp⟩
  refine Mem.Sim.bind hsim ?_
  rintro h0 _ vh0 - ⟨rfl, hh0, hm⟩
  rename_i s
  by_cases h1 : n = 1
  · rw [if_pos h1, if_pos h1]
    exact Mem.Sim.ok rfl ⟨Grow.refl _, List.Forall₂.cons hh0 List.Forall₂.nil, by simp [hm]⟩
  rw [if_neg h1, if_neg h1]
  refine Mem.Sim.lift fun yinv _ => ?_
  refine Mem.Sim.bind (updateGeneratorsLoopM_sim E yinv _ 1 yinv s h) ?_
  rintro l s' v - ⟨g2, hr, hf⟩
  exact Mem.Sim.ok rfl ⟨g2, List.Forall₂.cons (g2 _ _ hh0) hr,
    List.forall_mem_cons.2 ⟨Or.inl hm, fun p hp => Or.inr (hf p hp)⟩⟩

theorem setupInnerProductM_sim (E : Ext) {H : Addr} {vH : P256} {g h : List Addr} {vg vh : List P256} (c n : Int) {s : Heap}
    (hH : s[H]? = some vH) (hg : Reads s g vg) (hh : Reads s h vh) :
    (setupInnerProductM E H g h c n).Sim s (setupInnerProduct E vH vg vh c n)
      (fun p s' v => Grow s s' ∧ Option.Rel (fun p v => p.Reads s' v ∧ p.Gg = g ∧ p.Hh = h ∧ s[p.P]? = none) p v) := by
  unfold setupInnerProductM setupInnerProduct
  by_cases hn : n ≤ 0
  · rw [if_pos hn, if_pos hn]; exact Mem.Sim.ok rfl ⟨Grow.refl s, Option.Rel.none⟩
  rw [if_neg hn, if_neg hn]
  have hsim : (mapToGroupM E SEEDU).Sim s (mapToGroup E SEEDU)
      (fun p s' v => Grow s s' ∧ Option.Rel (fun p v => s'[p]? = some v) p v) := by
    unfold mapToGroupM
    cases mapToGroup E SEEDU with
    | panic => rfl
    | ok q =>
      refine Mem.Sim.step (Mem.lift_ok q s) ?_
      cases q with
      | none => exact Mem.Sim.ok rfl ⟨Grow.refl s, Option.Rel.none⟩
      | some q =>
        refine Mem.Sim.step (rfl : new s = .ok (s.length, s ++ [⟨none, none⟩])) ?_
        have e := writeM_eq (get_len s ⟨none, none⟩) q
        rw [set_len] at e
        exact Mem.Sim.step e (Mem.Sim.ok rfl ⟨Grow.append _ _, Option.Rel.some (get_len s q)⟩)
  refine Mem.Sim.bind hsim ?_
  rintro u s1 vu - ⟨g1, hu⟩
  cases hu with
  | none => exact Mem.bind_panic (Mem.lift_panic s1)
  | some hu =>
    rename_i u vu
    refine Mem.Sim.step (Mem.lift_ok u s1) ?_
    refine Mem.Sim.step (rfl : new s1 = .ok (s1.length, s1 ++ [⟨none, none⟩])) ?_
    have e := setInfinityM_eq (get_len s1 ⟨none, none⟩)
    rw [set_len] at e
    have g2 := Grow.append s1 [P256.infinity]
    have g12 := g1.trans g2
    exact Mem.Sim.step e (Mem.Sim.ok rfl ⟨g12, Option.Rel.some ⟨⟨rfl, rfl, g2 _ _ hu, g12 _ _ hH, hg.grow g12,
      hh.grow g12, get_len _ _⟩, rfl, rfl, g1.get_none (fresh_len s1)⟩⟩)

theorem commitInnerProductM_sim (E : Ext) {g h : List Addr} {vg vh : List P256} (a b : List Int) {s : Heap}
    (hg : Reads s g vg) (hh : Reads s h vh) :
    (commitInnerProductM E g h a b).Sim s (commitInnerProduct E vg vh a b)
      (fun p s' v => Grow s s' ∧ s[p]? = none ∧ s'[p]? = some v) := by
  unfold commitInnerProductM commitInnerProduct
  refine Mem.Sim.bind (vectorExpM_sim E a hg) fun L s1 vL _ ⟨g1, f1, w1⟩ => ?_
  refine Mem.Sim.bind (vectorExpM_sim E b (hh.grow g1)) fun Lh s2 vLh _ ⟨g2, f2, w2⟩ => ?_
  exact Mem.Sim.ok (newMultiplyM_eq E (g2 _ _ w1) w2)
    ⟨(g1.trans g2).trans (Grow.append _ _), (g1.trans g2).get_none (fresh_len s2), get_len _ _⟩

/-! ### Proofs -/

/-- The fields of a `BulletProofSetupParams` have the given values. -/
structure BPParamsM.Reads (s : Heap) (p : BPParamsM) (v : BPParams) : Prop where
  N : p.N = v.N
  G : s[p.G]? = some v.G
  H : s[p.H]? = some v.H
  Gg : Verif.Reads s p.Gg v.Gg
  Hh : Verif.Reads s p.Hh v.Hh

theorem BPParamsM.Reads.grow {s t : Heap} {p : BPParamsM} {v : BPParams} (h : p.Reads s v) (hg : Grow s t) : p.Reads t v :=
  ⟨h.N, hg _ _ h.G, hg _ _ h.H, h.Gg.grow hg, h.Hh.grow hg⟩

/-- The fields of a `BulletProof` which `Verify` reads and does not write have the given values. -/
structure BPProofM.Fixed (s : Heap) (p : BPProofM) (v : BPProof) : Prop where
  V : s[p.V]? = some v.V
  A : s[p.A]? = some v.A
  S : s[p.S]? = some v.S
  T1 : s[p.T1]? = some v.T1
  T2 : s[p.T2]? = some v.T2
  Taux : p.Taux = v.Taux
  Mu : p.Mu = v.Mu
  Tprime : p.Tprime = v.Tprime
  IP : p.IP.Fixed s v.IP
  Commit : s[p.Commit]? = some v.Commit
  Params : p.Params.Reads s v.Params

/-- All fields of a `BulletProof` have the given values. -/
structure BPProofM.Reads (s : Heap) (p : BPProofM) (v : BPProof) : Prop where
  fixed : p.Fixed s v
  IP : p.IP.Reads s v.IP
  ParamsIP : p.ParamsIP.Reads s v.ParamsIP

/-- The addresses in a set of parameters. -/
def BPParamsM.cells (p : BPParamsM) : List Addr := p.G :: p.H :: p.Gg ++ p.Hh

/-- The addresses in a proof which `Verify` reads and does not write. -/
def BPProofM.cells (p : BPProofM) : List Addr :=
  [p.V, p.A, p.S, p.T1, p.T2, p.Commit, p.IP.U] ++ p.IP.Ls ++ p.IP.Rs ++ p.IP.Params.Gg ++ p.IP.Params.Hh ++ p.Params.cells

theorem proveM_sim (E : Ext) (rnd : BPRand) (secret : Int) {params : BPParamsM} {v : BPParams} {s : Heap}
    (h : params.Reads s v) :
    (proveM E rnd secret params).Sim s (prove E rnd secret v) (fun p s' w => Grow s s' ∧
      Option.Rel (fun p w => p.Reads s' w ∧ p.Params = params ∧ s[p.IP.Params.P]? = none ∧ p.IP.Params.P ∉ p.cells ∧
        ∀ c ∈ p.cells, c ∈ params.cells ∨ s[c]? = none) p w) := by
  unfold proveM prove
  rw [h.N]
  refine Mem.Makes.step (commitG1M_makes E secret rnd.gamma h.H) fun V s1 g1 f1 wV => ?_
  refine Mem.Sim.lift fun aL _ => ?_
  have h1 := h.grow g1
  refine Mem.Sim.bind (commitVectorM_sim E _ _ rnd.alpha _ h1.H h1.Gg h1.Hh) ?_
  rintro A s2 vA - ⟨g2, f2, wA⟩
  have h2 := h1.grow g2
  refine Mem.Sim.bind (commitVectorM_sim E _ _ rnd.rho _ h2.H h2.Gg h2.Hh) ?_
  rintro S s3 vS - ⟨g3, f3, wS⟩
  refine Mem.Sim.step (hashBPM_eq E (g3 _ _ wA) wS) ?_
  generalize hashBP E vA vS = yz
  obtain ⟨y, z⟩ := yz
  refine Mem.Sim.lift fun vz _ => Mem.Sim.lift fun vy _ => Mem.Sim.lift fun naL _ => Mem.Sim.lift fun sp1 _ =>
    Mem.Sim.lift fun naR _ => Mem.Sim.lift fun p2n _ => Mem.Sim.lift fun sp2 _ => Mem.Sim.lift fun t2 _ => ?_
  have h3 := h2.grow g3
  refine Mem.Makes.step (commitG1M_makes E _ rnd.tau1 h3.H) fun T1 s4 g4 f4 wT1 => ?_
  have h4 := h3.grow g4
  refine Mem.Makes.step (commitG1M_makes E _ rnd.tau2 h4.H) fun T2 s5 g5 f5 wT2 => ?_
  refine Mem.Sim.step (hashBPM_eq E (g5 _ _ wT1) wT2) ?_
  dsimp only
  generalize hashBP E (commitG1 E _ _ _) (commitG1 E _ _ _) = xx
  obtain ⟨x, x'⟩ := xx
  refine Mem.Sim.lift fun tprime _ => ?_
  have h5 := h4.grow g5
  refine Mem.Sim.bind (updateGeneratorsM_sim E y _ h5.Hh) ?_
  rintro hprime s6 vhprime - ⟨g6, hhp, fhp⟩
  have h6 := h5.grow g6
  refine Mem.Sim.bind (setupInnerProductM_sim E tprime _ h6.H h6.Gg hhp) ?_
  rintro ipp s7 vipp - ⟨g7, hipp⟩
  have h7 := h6.grow g7
  cases hipp with
  | none => exact Mem.Sim.ok rfl ⟨g1.trans (g2.trans (g3.trans (g4.trans (g5.trans (g6.trans g7))))), Option.Rel.none⟩
  | some hipp =>
    rename_i ipp vipp
    obtain ⟨ripp, hippg, hipph, fipp⟩ := hipp
    refine Mem.Sim.bind (commitInnerProductM_sim E _ _ h7.Gg (hhp.grow g7)) ?_
    rintro commit s8 vcommit - ⟨g8, f8, wC⟩
    refine Mem.Sim.bind (proveInnerProductM_sim E _ _ wC (ripp.grow g8)) ?_
    rintro pip s9 vpip - ⟨g9, hpip⟩
    cases hpip with
    | none => exact Mem.bind_panic (Mem.lift_panic s9)
    | some hpip =>
      rename_i pip vpip
      obtain ⟨rip, hpar, fP, fL, fR, nU, fU⟩ := hpip
      refine Mem.Sim.step (Mem.lift_ok pip s9) ?_
      have hpG : pip.Params.Gg = params.Gg := by rw [hpar]; exact hippg
      have hpH : pip.Params.Hh = hprime := by rw [hpar]; exact hipph
      have G89 := g8.trans g9
      have G79 := g7.trans G89
      have G69 := g6.trans G79
      have G59 := g5.trans G69
      have G49 := g4.trans G59
      have G39 := g3.trans G49
      have G29 := g2.trans G39
      have G19 := g1.trans G29
      have G02 := g1.trans g2
      have G03 := G02.trans g3
      have G04 := G03.trans g4
      have G05 := G04.trans g5
      have G06 := G05.trans g6
      have G07 := G06.trans g7
      have G08 := G07.trans g8
      have neP : ∀ {i : Addr} {w : P256}, s8[i]? = some w → i ≠ pip.Params.P := fun hi => ne_of_fresh hi fP
      refine Mem.Sim.ok rfl ⟨G19, Option.Rel.some ⟨⟨⟨G29 _ _ wV, G39 _ _ wA, G49 _ _ wS, G59 _ _ wT1, G69 _ _ wT2, rfl, rfl,
        rfl, rip.fixed, g9 _ _ wC, h.grow G19⟩, rip, ripp.grow G89⟩, rfl, G08.get_none fP, ?_, ?_⟩⟩
      · have k2 := (g2.trans (g3.trans (g4.trans (g5.trans (g6.trans (g7.trans g8)))))) _ _ wV
        have k3 := (g3.trans (g4.trans (g5.trans (g6.trans (g7.trans g8))))) _ _ wA
        have k4 := (g4.trans (g5.trans (g6.trans (g7.trans g8)))) _ _ wS
        have k5 := (g5.trans (g6.trans (g7.trans g8))) _ _ wT1
        have k6 := (g6.trans (g7.trans g8)) _ _ wT2
        have h8 := h7.grow g8
        have hmem : ∀ {l : List Addr} {vl : List P256}, Reads s8 l vl → pip.Params.P ∉ l := fun hl hm => by
          obtain ⟨w, hw⟩ := hl.mem hm
          exact neP hw rfl
        simp only [BPProofM.cells, BPParamsM.cells, List.mem_append, List.mem_cons, List.not_mem_nil, or_false, hpG, hpH]
        rintro ((((((hv | ha | hs | ht1 | ht2 | hc | hu) | hL) | hR) | hg) | hh) | (hG | hH | hg) | hh)
        · exact neP k2 hv.symm
        · exact neP k3 ha.symm
        · exact neP k4 hs.symm
        · exact neP k5 ht1.symm
        · exact neP k6 ht2.symm
        · exact neP wC hc.symm
        · exact nU hu.symm
        · exact (fL _ hL).1 rfl
        · exact (fR _ hR).1 rfl
        · exact hmem h8.Gg hg
        · exact hmem (hhp.grow (g7.trans g8)) hh
        · exact neP h8.G hG.symm
        · exact neP h8.H hH.symm
        · exact hmem h8.Gg hg
        · exact hmem h8.Hh hh
      · intro c hc
        simp only [BPProofM.cells, List.mem_append, List.mem_cons, List.not_mem_nil, or_false, hpG, hpH] at hc
        rcases hc with ((((((rfl | rfl | rfl | rfl | rfl | rfl | rfl) | hL) | hR) | hg) | hh) | hp)
        · exact Or.inr f1
        · exact Or.inr (g1.get_none f2)
        · exact Or.inr (G02.get_none f3)
        · exact Or.inr (G03.get_none f4)
        · exact Or.inr (G04.get_none f5)
        · exact Or.inr (G07.get_none f8)
        · exact Or.inr (G08.get_none fU)
        · exact Or.inr (G08.get_none (fL _ hL).2)
        · exact Or.inr (G08.get_none (fR _ hR).2)
        · exact Or.inl (by simp [BPParamsM.cells, hg])
        · rcases fhp c hh with h' | h'
          · exact Or.inl (by simp [BPParamsM.cells, h'])
          · exact Or.inr (G05.get_none h')
        · exact Or.inl hp

/-! ### Verification -/

theorem check65M_sim (E : Ext) {proof : BPProofM} {v : BPProof} (x y z : Int) {s : Heap} (h : proof.Fixed s v) :
    (check65M E proof x y z).Sim s (do
      let delta ← delta v.Params.N y z
      let lhs := commitG1 E v.Tprime v.Taux v.Params.H
      let rhs := v.V.scalarMult E ((z * z) % ORDER)
      let rhs := rhs.multiply E (P256.scalarBaseMult E delta)
      let rhs := rhs.multiply E (v.T1.scalarMult E x)
      let rhs := rhs.multiply E (v.T2.scalarMult E ((x * x) % ORDER))
      let rhs := rhs.multiply E (P256.neg E lhs lhs)
      .ok rhs.isZero) (fun r s' w => Grow s s' ∧ r = w) := by
  unfold check65M
  dsimp only
  rw [h.Tprime, h.Taux, h.Params.N]
  refine Mem.Makes.step (commitG1M_makes E v.Tprime v.Taux h.Params.H) fun lhs s1 g1 f1 w1 => ?_
  refine Mem.Makes.step (newScalarMultM_makes E (g1 _ _ h.V) _) fun rhs s2 g2 f2 w2 => ?_
  refine Mem.Sim.lift fun delta _ => ?_
  have f2' := g1.get_none f2
  have n12 : lhs ≠ rhs := ne_of_fresh w1 f2
  have l2 := g2 _ _ w1
  refine Mem.Sim.step (rfl : new s2 = .ok (s2.length, s2 ++ [⟨none, none⟩])) ?_
  have e3 := scalarBaseMultM_eq E (get_len s2 ⟨none, none⟩) delta
  rw [set_len] at e3
  refine Mem.Sim.step e3 ?_
  have g3 := Grow.append s2 [P256.scalarBaseMult E delta]
  have w3 := get_len s2 (P256.scalarBaseMult E delta)
  have r3 := g3 _ _ w2
  refine Mem.Sim.step (multiplyM_eq E r3 r3 w3) ?_
  have g4 := ((g1.trans g2).trans g3).set f2' ((v.V.scalarMult E ((z * z) % ORDER)).multiply E (P256.scalarBaseMult E delta))
  have r4 := get_set_self r3 ((v.V.scalarMult E ((z * z) % ORDER)).multiply E (P256.scalarBaseMult E delta))
  have l4 := get_set_ne (g3 _ _ l2) n12 ((v.V.scalarMult E ((z * z) % ORDER)).multiply E (P256.scalarBaseMult E delta))
  generalize (s2 ++ [P256.scalarBaseMult E delta]).set rhs _ = s4 at *
  refine Mem.Makes.step (newScalarMultM_makes E (g4 _ _ h.T1) _) fun T1x s5 g5 f5 w5 => ?_
  refine Mem.Makes.step (newScalarMultM_makes E ((g4.trans g5) _ _ h.T2) _) fun T2x s6 g6 f6 w6 => ?_
  have g46 := g5.trans g6
  have r6 := g46 _ _ r4
  refine Mem.Sim.step (multiplyM_eq E r6 r6 (g6 _ _ w5)) ?_
  have r7 := get_set_self r6 (((v.V.scalarMult E ((z * z) % ORDER)).multiply E (P256.scalarBaseMult E delta)).multiply E
    (v.T1.scalarMult E x))
  have n6 : T2x ≠ rhs := (ne_of_fresh (g5 _ _ r4) f6).symm
  refine Mem.Sim.step (multiplyM_eq E r7 r7 (get_set_ne w6 n6 _)) ?_
  have r8 := get_set_self r7 ((((v.V.scalarMult E ((z * z) % ORDER)).multiply E (P256.scalarBaseMult E delta)).multiply E
    (v.T1.scalarMult E x)).multiply E (v.T2.scalarMult E ((x * x) % ORDER)))
  have l8 := get_set_ne (get_set_ne (g46 _ _ l4) n12 (((v.V.scalarMult E ((z * z) % ORDER)).multiply E
    (P256.scalarBaseMult E delta)).multiply E (v.T1.scalarMult E x))) n12
    ((((v.V.scalarMult E ((z * z) % ORDER)).multiply E (P256.scalarBaseMult E delta)).multiply E
    (v.T1.scalarMult E x)).multiply E (v.T2.scalarMult E ((x * x) % ORDER)))
  refine Mem.Sim.step (negM_eq E l8 l8) ?_
  have r9 := get_set_ne r8 n12.symm (P256.neg E (commitG1 E v.Tprime v.Taux v.Params.H)
    (commitG1 E v.Tprime v.Taux v.Params.H))
  have l9 := get_set_self l8 (P256.neg E (commitG1 E v.Tprime v.Taux v.Params.H) (commitG1 E v.Tprime v.Taux v.Params.H))
  refine Mem.Sim.step (multiplyM_eq E r9 r9 l9) ?_
  refine Mem.Sim.ok (isZeroM_eq (get_set_self r9 _)) ⟨?_, rfl⟩
  exact ((((g4.trans g46).set f2' _).set f2' _).set f1 _).set f2' _

theorem check67M_sim (E : Ext) {proof : BPProofM} {v : BPProof} {hprime : List Addr} {vhprime : List P256} (x y z : Int)
    {s : Heap} (h : proof.Fixed s v) (hhp : Reads s hprime vhprime) :
    (check67M E proof hprime x y z).Sim s (do
      let vmz ← vectorCopy (ORDER - z) v.Params.N
      let gpmz ← Res.ofOption (vectorExp E v.Params.Gg vmz)
      let vz ← vectorCopy z v.Params.N
      let vy ← powerOf y v.Params.N
      let p2n ← powerOf 2 v.Params.N
      let hprimeexp ← Res.ofOption (vectorExp E vhprime ((vectorAdd ((vectorMul vy vz).getD [])
        (vectorScalarMul p2n (z * z))).getD []))
      let lP := ((v.A.add (v.S.scalarMult E x)).add gpmz).add hprimeexp
      let rP := ((v.Params.H.scalarMult E v.Mu).multiply E v.Commit).add (P256.neg E lP lP)
      .ok rP.isZero) (fun r s' w => Grow s s' ∧ r = w) := by
  unfold check67M
  dsimp only
  rw [h.Mu, h.Params.N]
  refine Mem.Makes.step (newScalarMultM_makes E h.S x) fun Sx s1 g1 f1 w1 => ?_
  refine Mem.Sim.step (rfl : new s1 = .ok (s1.length, s1 ++ [⟨none, none⟩])) ?_
  have gN := Grow.append s1 [(⟨none, none⟩ : P256)]
  have e2 := addM_eq (get_len s1 ⟨none, none⟩) (gN _ _ (g1 _ _ h.A)) (gN _ _ w1)
  rw [set_len] at e2
  refine Mem.Sim.step e2 ?_
  have g2 := Grow.append s1 [v.A.add (v.S.scalarMult E x)]
  have w2 := get_len s1 (v.A.add (v.S.scalarMult E x))
  generalize s1 ++ [v.A.add (v.S.scalarMult E x)] = s2 at *
  have g02 := g1.trans g2
  refine Mem.Sim.lift fun vmz _ => ?_
  refine Mem.Sim.bind (vectorExpM_sim E vmz (h.Params.Gg.grow g02)) fun gpmz s3 vgpmz _ ⟨g3, f3, w3⟩ => ?_
  refine Mem.Sim.lift fun vz _ => Mem.Sim.lift fun vy _ => Mem.Sim.lift fun p2n _ => ?_
  refine Mem.Sim.step (rfl : new s3 = .ok (s3.length, s3 ++ [⟨none, none⟩])) ?_
  have gN' := Grow.append s3 [(⟨none, none⟩ : P256)]
  have e4 := addM_eq (get_len s3 ⟨none, none⟩) (gN' _ _ (g3 _ _ w2)) (gN' _ _ w3)
  rw [set_len] at e4
  refine Mem.Sim.step e4 ?_
  have g4 := Grow.append s3 [(v.A.add (v.S.scalarMult E x)).add vgpmz]
  have w4 := get_len s3 ((v.A.add (v.S.scalarMult E x)).add vgpmz)
  have f4 := fresh_len s3
  generalize s3 ++ [(v.A.add (v.S.scalarMult E x)).add vgpmz] = s4 at *
  generalize s3.length = lP at *
  have g03 := g02.trans g3
  have g04 := g03.trans g4
  refine Mem.Sim.bind (vectorExpM_sim E _ (hhp.grow g04)) fun hpe s5 vhpe _ ⟨g5, f5, w5⟩ => ?_
  have f4' := g03.get_none f4
  have l5 := g5 _ _ w4
  refine Mem.Sim.step (addM_eq l5 l5 w5) ?_
  have g6 := (g04.trans g5).set f4' (((v.A.add (v.S.scalarMult E x)).add vgpmz).add vhpe)
  have l6 := get_set_self l5 (((v.A.add (v.S.scalarMult E x)).add vgpmz).add vhpe)
  generalize s5.set lP _ = s6 at *
  refine Mem.Makes.step (newScalarMultM_makes E (g6 _ _ h.Params.H) _) fun rP s7 g7 f7 w7 => ?_
  have n7 : lP ≠ rP := ne_of_fresh l6 f7
  refine Mem.Sim.step (multiplyM_eq E w7 w7 ((g6.trans g7) _ _ h.Commit)) ?_
  have f7' := g6.get_none f7
  have l7 := get_set_ne (g7 _ _ l6) n7 ((v.Params.H.scalarMult E v.Mu).multiply E v.Commit)
  have r7 := get_set_self w7 ((v.Params.H.scalarMult E v.Mu).multiply E v.Commit)
  refine Mem.Sim.step (negM_eq E l7 l7) ?_
  have l8 := get_set_self l7 (P256.neg E (((v.A.add (v.S.scalarMult E x)).add vgpmz).add vhpe)
    (((v.A.add (v.S.scalarMult E x)).add vgpmz).add vhpe))
  have r8 := get_set_ne r7 n7.symm (P256.neg E (((v.A.add (v.S.scalarMult E x)).add vgpmz).add vhpe)
    (((v.A.add (v.S.scalarMult E x)).add vgpmz).add vhpe))
  refine Mem.Sim.step (addM_eq r8 r8 l8) ?_
  refine Mem.Sim.ok (isZeroM_eq (get_set_self r8 _)) ⟨?_, rfl⟩
  exact (((g6.trans g7).set f7' _).set f4' _).set f7' _

theorem IPProofM.Fixed.grow {s t : Heap} {p : IPProofM} {v : IPProof} (h : p.Fixed s v) (hg : Grow s t) : p.Fixed t v :=
  ⟨h.N, h.A, h.B, h.Ls.grow hg, h.Rs.grow hg, hg _ _ h.U, h.Gg.grow hg, h.Hh.grow hg⟩

theorem BPProofM.Fixed.grow {s t : Heap} {p : BPProofM} {v : BPProof} (h : p.Fixed s v) (hg : Grow s t) : p.Fixed t v :=
  ⟨hg _ _ h.V, hg _ _ h.A, hg _ _ h.S, hg _ _ h.T1, hg _ _ h.T2, h.Taux, h.Mu, h.Tprime, h.IP.grow hg, hg _ _ h.Commit,
    h.Params.grow hg⟩

/-- What `Verify` does: the verdict is that of the model on values, `*InnerProductProof.Params.P` gets the value given there, and
no other struct is changed. -/
theorem bpVerifyM_sim (E : Ext) {proof : BPProofM} {v : BPProof} {s : Heap} (h : proof.Fixed s v)
    (hP : s[proof.IP.Params.P]? = some v.IP.Params.P) (hPL : proof.IP.Params.P ∉ proof.IP.Ls)
    (hPR : proof.IP.Params.P ∉ proof.IP.Rs) (hPU : proof.IP.Params.P ≠ proof.IP.U) :
    (bpVerifyM E proof).Sim s (bpVerify E v) (fun r s' w => GrowX proof.IP.Params.P s s' ∧ r = w.1 ∧
      s'[proof.IP.Params.P]? = some w.2) := by
  have hpure : bpVerify E v = (do
      let x := (hashBP E v.T1 v.T2).1
      let y := (hashBP E v.A v.S).1
      let z := (hashBP E v.A v.S).2
      let hprime ← updateGenerators E v.Params.Hh y v.Params.N
      let c65 ← (do
        let delta ← delta v.Params.N y z
        let lhs := commitG1 E v.Tprime v.Taux v.Params.H
        let rhs := v.V.scalarMult E ((z * z) % ORDER)
        let rhs := rhs.multiply E (P256.scalarBaseMult E delta)
        let rhs := rhs.multiply E (v.T1.scalarMult E x)
        let rhs := rhs.multiply E (v.T2.scalarMult E ((x * x) % ORDER))
        let rhs := rhs.multiply E (P256.neg E lhs lhs)
        Res.ok rhs.isZero)
      let c67 ← (do
        let vmz ← vectorCopy (ORDER - z) v.Params.N
        let gpmz ← Res.ofOption (vectorExp E v.Params.Gg vmz)
        let vz ← vectorCopy z v.Params.N
        let vy ← powerOf y v.Params.N
        let p2n ← powerOf 2 v.Params.N
        let hprimeexp ← Res.ofOption (vectorExp E hprime ((vectorAdd ((vectorMul vy vz).getD [])
          (vectorScalarMul p2n (z * z))).getD []))
        let lP := ((v.A.add (v.S.scalarMult E x)).add gpmz).add hprimeexp
        let rP := ((v.Params.H.scalarMult E v.Mu).multiply E v.Commit).add (P256.neg E lP lP)
        Res.ok rP.isZero)
      let r ← ipVerify E v.IP
      Res.ok (c65 && c67 && r.1, r.2)) := by
    simp only [bpVerify, Res.bind_assoc, Res.ok_bind]
  rw [hpure]
  unfold bpVerifyM
  dsimp only
  rw [h.Params.N]
  refine Mem.Sim.step (hashBPM_eq E h.T1 h.T2) ?_
  generalize hashBP E v.T1 v.T2 = xx
  obtain ⟨x, x'⟩ := xx
  refine Mem.Sim.step (hashBPM_eq E h.A h.S) ?_
  generalize hashBP E v.A v.S = yz
  obtain ⟨y, z⟩ := yz
  refine Mem.Sim.bind (updateGeneratorsM_sim E y _ h.Params.Hh) ?_
  rintro hprime s1 vhp - ⟨g1, hhp, -⟩
  have h1 := h.grow g1
  refine Mem.Sim.bind (check65M_sim E x y z h1) ?_
  rintro c65 s2 _ - ⟨g2, rfl⟩
  have h2 := h1.grow g2
  refine Mem.Sim.bind (check67M_sim E x y z h2 (hhp.grow g2)) ?_
  rintro c67 s3 _ - ⟨g3, rfl⟩
  have h3 := h2.grow g3
  have g13 := (g1.trans g2).trans g3
  refine Mem.Sim.bind (ipVerifyM_sim E h3.IP (g13 _ _ hP) hPL hPR hPU) ?_
  rintro ok s4 ⟨w, P'⟩ - ⟨g4, rfl, hP'⟩
  exact Mem.Sim.ok rfl ⟨(g13.growX _).trans g4, rfl, hP'⟩

end Verif

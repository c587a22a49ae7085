import Verif.Lemmas.ParRace
import Verif.Props.Heap

/-!
# C81: use of `bulletproofs` by several goroutines
-/

namespace Verif

/-- C81: the code for interleavings, run by one goroutine alone, is the code of C72 and C73: a program of calls of `Prove` and
`Verify`, each of these, and the operations of `p256`. -/
theorem C81_alone (E : Ext) (params : BPParamsM) :
    (∀ prog ps, (Par.runM E params prog ps).run = runM E params prog ps) ∧
    (∀ rnd secret, (Par.proveM E rnd secret params).run = proveM E rnd secret params) ∧
    (∀ proof, (Par.bpVerifyM E proof).run = bpVerifyM E proof) ∧ (∀ proof, (Par.ipVerifyM E proof).run = ipVerifyM E proof) ∧
    (∀ p a b, (Par.addM p a b).run = addM p a b) ∧ (∀ p a, (Par.doubleM E p a).run = doubleM E p a) ∧
    (∀ p a b, (Par.multiplyM E p a b).run = multiplyM E p a b) ∧ (∀ p a n, (Par.scalarMultM E p a n).run = scalarMultM E p a n) ∧
    (∀ p n, (Par.scalarBaseMultM E p n).run = scalarBaseMultM E p n) ∧ (∀ p a, (Par.negM E p a).run = negM E p a) :=
  ⟨Par.runM_run E params, fun rnd secret => Par.proveM_run E rnd secret params, Par.bpVerifyM_run E, Par.ipVerifyM_run E, Par.addM_run,
    Par.doubleM_run E, Par.multiplyM_run E, Par.scalarMultM_run E, Par.scalarBaseMultM_run E, Par.negM_run E⟩

/-! ### Goroutines with different proofs -/

/-- C81: goroutines which use the same parameters, each with its own proofs: those given to it (`w.2`) and those it makes.  If no
`*InnerProductProof.Params.P` of a given proof is a point of the parameters or of a proof of another goroutine, then in every
interleaving no goroutine panics and each observes the verdicts it would observe alone; and all of them finish once each has
been given `k` operations. -/
theorem C81_parallel (E : Ext) {params : BPParamsM} {sh : Heap} {ws : List (List Stmt × List BPProofM)}
    {rs : List (List Bool × Heap)} (hrun : List.Forall₂ (fun w r => runM E params w.1 w.2 sh = .ok r) ws rs)
    (hsep : ∀ (i j : Nat) w w', ws[i]? = some w → ws[j]? = some w' → i ≠ j → ∀ p ∈ w.2, p.IP.Params.P ∉ params.cells ∧
      ∀ q ∈ w'.2, p.IP.Params.P ≠ q.IP.Params.P ∧ p.IP.Params.P ∉ q.cells) :
    ∃ k : Nat, ∀ sched : List Nat, (∀ i ∈ sched, i < ws.length) →
      ∃ m, (Machine.start sh (ws.map fun w => Par.runM E params w.1 w.2)).exec sched = .ok m ∧
        (∀ l, m.results = some l → l = rs.map Prod.fst) ∧
        ((∀ i < ws.length, k ≤ sched.count i) → m.results = some (rs.map Prod.fst)) := by
  have hlen := hrun.length_eq
  let R : Nat → Addr → Prop := fun i c => c ∈ params.cells ∨ ∃ w, ws[i]? = some w ∧ ∃ p ∈ w.2, c ∈ p.cells
  let W : Nat → Addr → Prop := fun i c => ∃ w, ws[i]? = some w ∧ ∃ p ∈ w.2, c = p.IP.Params.P
  have hr : List.Forall₂ (fun p r => Prog.run p sh = .ok r) (ws.map fun w => Par.runM E params w.1 w.2) rs := by
    rw [List.forall₂_map_left_iff]
    exact hrun.imp fun w r h => by rw [Par.runM_run]; exact h
  have hs : ∀ (i : Nat) (p : Prog (List Bool)), (ws.map fun w => Par.runM E params w.1 w.2)[i]? = some p →
      p.Safe sh.length (R i) (W i) (fun _ => True) := by
    intro i p hp
    rw [List.getElem?_map] at hp
    cases hw : ws[i]? with
    | none => rw [hw] at hp; cases hp
    | some w =>
      rw [hw] at hp
      obtain rfl := Option.some.inj hp
      refine Par.runM_safe E ?_ w.1 fun q hq => ?_
      · have hc : ∀ c ∈ params.cells, Rd sh.length (R i) (W i) c := fun c hc => .inr (.inl (.inl hc))
        simp only [BPParamsM.cells] at hc
        exact ⟨hc _ (by simp), fun a ha => hc _ (by simp [ha]), fun a ha => hc _ (by simp [ha])⟩
      · have hc : ∀ c ∈ q.cells, Rd sh.length (R i) (W i) c := fun c hc => .inr (.inl (.inr ⟨w, hw, q, hq, hc⟩))
        simp only [BPProofM.cells, BPParamsM.cells] at hc
        exact ⟨hc _ (by simp), hc _ (by simp), hc _ (by simp), hc _ (by simp), hc _ (by simp), hc _ (by simp),
          ⟨fun a ha => hc _ (by simp [ha]), fun a ha => hc _ (by simp [ha]), hc _ (by simp), fun a ha => hc _ (by simp [ha]),
            fun a ha => hc _ (by simp [ha]), .inr ⟨w, hw, q, hq, rfl⟩⟩,
          ⟨hc _ (by simp), fun a ha => hc _ (by simp [ha]), fun a ha => hc _ (by simp [ha])⟩⟩
  have hap : NoShare rs.length R W := by
    rintro i j c hi hj hij ⟨w, hw, p, hp, rfl⟩
    have hj' : j < ws.length := by rw [hlen]; exact hj
    have hwj := List.getElem?_eq_getElem hj'
    obtain ⟨h1, h2⟩ := hsep i j w _ hw hwj hij p hp
    refine ⟨?_, ?_⟩
    · rintro (h | ⟨w', hw', q, hq, h⟩)
      · exact h1 h
      · obtain rfl := Option.some.inj (hwj.symm.trans hw')
        exact (h2 q hq).2 h
    · rintro ⟨w', hw', q, hq, h⟩
      obtain rfl := Option.some.inj (hwj.symm.trans hw')
      exact (h2 q hq).1 h
  obtain ⟨k, hk⟩ := noninterference hr hs hap
  refine ⟨((List.range ws.length).map k).sum, fun sched hsched => ?_⟩
  obtain ⟨m, e, inv⟩ := hk sched (by rw [← hlen]; exact hsched)
  refine ⟨m, e, fun l hl => (inv.results hl).1, fun hc => ?_⟩
  obtain ⟨l, hl⟩ := inv.done fun i hi => by
    rw [← hlen] at hi
    have h1 : k i ≤ ((List.range ws.length).map k).sum := List.single_le_sum (fun _ _ => Nat.zero_le _) _
      (List.mem_map.2 ⟨i, List.mem_range.2 hi, rfl⟩)
    have := hc i hi
    omega
  rw [hl, (inv.results hl).1]

/-- C81: in particular goroutines which only share the parameters: each observes the verdicts of its own program (C72). -/
theorem C81_separate (E : Ext) {params : BPParamsM} {v : BPParams} {sh : Heap} (h : params.Reads sh v) {progs : List (List Stmt)}
    {vss : List (List Bool)} (hrun : List.Forall₂ (fun prog vs => Spec.run E v prog [] [] = .ok vs) progs vss) :
    ∃ k : Nat, ∀ sched : List Nat, (∀ i ∈ sched, i < progs.length) →
      ∃ m, (Machine.start sh (progs.map fun prog => Par.runM E params prog [])).exec sched = .ok m ∧
        (∀ l, m.results = some l → l = vss) ∧ ((∀ i < progs.length, k ≤ sched.count i) → m.results = some vss) := by
  have : ∃ rs : List (List Bool × Heap), rs.map Prod.fst = vss ∧ List.Forall₂ (fun w r => runM E params w.1 w.2 sh = .ok r)
      (progs.map fun prog => (prog, ([] : List BPProofM))) rs := by
    induction hrun with
    | nil => exact ⟨[], rfl, .nil⟩
    | @cons prog vs progs vss h1 _ ih =>
      obtain ⟨rs, rfl, hrs⟩ := ih
      have hv := C72_values E h prog
      rw [h1] at hv
      obtain ⟨⟨a, s'⟩, e, e'⟩ := Res.bind_eq_ok.1 hv
      obtain rfl := Res.ok.inj e'
      exact ⟨(a, s') :: rs, rfl, .cons e hrs⟩
  obtain ⟨rs, hrs, hf⟩ := this
  obtain ⟨k, hk⟩ := C81_parallel E hf (by
    intro i j w w' hw _ _ p hp
    rw [List.getElem?_map] at hw
    cases hi : progs[i]? with
    | none => rw [hi] at hw; cases hw
    | some prog => rw [hi] at hw; obtain rfl := Option.some.inj hw; exact absurd hp List.not_mem_nil)
  refine ⟨k, fun sched hs => ?_⟩
  obtain ⟨m, e, h1, h2⟩ := hk sched (by simpa using hs)
  rw [List.map_map] at e
  rw [hrs] at h1 h2
  exact ⟨m, e, h1, fun hc => h2 (by simpa using hc)⟩

/-! ### Goroutines with the same proof -/

/-- C81: two goroutines which verify the same proof.  If its first verification accepts and its second one rejects (C23: so it is
for honest proofs), then there is an interleaving in which both reject. -/
theorem C81_race (E : Ext) {proof : BPProofM} {w : BPProof} {sh : Heap} (h : proof.Reads sh w)
    (hP : proof.IP.Params.P ∉ proof.cells) {P' : P256} (h1 : bpVerify E w = .ok (true, P'))
    (h2 : ∃ P'', bpVerify E (w.afterVerify P') = .ok (false, P'')) :
    ∃ sched m, (Machine.start sh [Par.bpVerifyM E proof, Par.bpVerifyM E proof]).exec sched = .ok m ∧
      m.results = some [false, false] := by
  obtain ⟨P'', h2⟩ := h2
  exact race E h hP h1 h2

/-- C81: so for a proof which `Prove` has just made. -/
theorem C81_race_prove (E : Ext) {params : BPParamsM} {v : BPParams} {s sh : Heap} {rnd : BPRand} {secret : Int} {proof : BPProofM}
    (h : params.Reads s v) (e : proveM E rnd secret params s = .ok (some proof, sh)) {w : BPProof}
    (hw : prove E rnd secret v = .ok (some w)) (hm : bpVerifyMany E 2 w = .ok [true, false]) :
    (∃ sh', bpVerifyM E proof sh = .ok (true, sh')) ∧
    ∃ sched m, (Machine.start sh [Par.bpVerifyM E proof, Par.bpVerifyM E proof]).exec sched = .ok m ∧
      m.results = some [false, false] := by
  rw [bpVerifyMany] at hm
  obtain ⟨⟨v1, P1⟩, e1, hm⟩ := Res.bind_eq_ok.1 hm
  obtain ⟨vs, hm', hm⟩ := Res.bind_eq_ok.1 hm
  rw [bpVerifyMany] at hm'
  obtain ⟨⟨v2, P2⟩, e2, hm'⟩ := Res.bind_eq_ok.1 hm'
  simp only [bpVerifyMany, Res.ok_bind] at hm'
  cases hm'
  cases hm
  obtain ⟨⟨w', hw', hr⟩, -, hP⟩ := C72_prove_fresh E rnd secret h e
  obtain rfl : w = w' := Option.some.inj (Res.ok.inj (hw.symm.trans hw'))
  have hsep : proof.IP.Params.P ∉ proof.IP.U :: (proof.IP.Ls ++ proof.IP.Rs) := by
    have hP' := hP
    simp only [BPProofM.cells, List.mem_append, List.mem_cons, List.not_mem_nil, or_false, not_or] at hP' ⊢
    exact ⟨hP'.1.1.1.1.1.2.2.2.2.2.2, hP'.1.1.1.1.2, hP'.1.1.1.2⟩
  obtain ⟨sh', e', -⟩ := (C72_verify_value E hr hsep).1 true P1 e1
  exact ⟨⟨sh', e'⟩, C81_race E hr hP e1 ⟨P2, e2⟩⟩

/-! ### Examples -/

/-- Three goroutines which make and verify proofs for the same parameters. -/
example : ∃ (E : Ext) (params : BPParamsM) (v : BPParams) (rnd : BPRand) (sh : Heap), E.Ok ∧ params.Reads sh v ∧
    ∃ k : Nat, ∀ sched : List Nat, (∀ i ∈ sched, i < 3) → (∀ i < 3, k ≤ sched.count i) →
      ∃ m, (Machine.start sh [Par.runM E params [.prove rnd 1, .verify 0] [], Par.runM E params [.prove rnd 1, .verify 0] [],
        Par.runM E params [.prove rnd 1, .verify 0] []]).exec sched = .ok m ∧ m.results = some [[true], [true], [true]] := by
  have hE := idealExt_ok hashOne (fun _ => rfl)
  obtain ⟨proof, P', hw, hf, hv, hp⟩ := exBP_finite
  have hrun : Spec.run (idealExt hashOne) exBP [.prove exRand' 1, .verify 0] [] [] = .ok [true] := by
    simp [Spec.run, hp, idx, hv]
  obtain ⟨k, hk⟩ := C81_separate (idealExt hashOne) (layout_reads exBP) (progs := List.replicate 3 [.prove exRand' 1, .verify 0])
    (vss := [[true], [true], [true]]) (.cons hrun (.cons hrun (.cons hrun .nil)))
  refine ⟨_, _, exBP, exRand', _, hE, layout_reads exBP, k, fun sched hs hc => ?_⟩
  obtain ⟨m, e, -, h2⟩ := hk sched hs
  exact ⟨m, e, h2 hc⟩

/-- An honest proof: verified twice in turn it is accepted and then rejected; verified by two goroutines at once it may be
rejected by both. -/
example : ∃ (E : Ext) (params : BPParamsM) (s sh : Heap) (rnd : BPRand) (proof : BPProofM), E.Ok ∧
    proveM E rnd 1 params s = .ok (some proof, sh) ∧ (∃ sh', bpVerifyM E proof sh = .ok (true, sh')) ∧
    ∃ sched m, (Machine.start sh [Par.bpVerifyM E proof, Par.bpVerifyM E proof]).exec sched = .ok m ∧
      m.results = some [false, false] := by
  have hE := idealExt_ok hashOne (fun _ => rfl)
  obtain ⟨proof, P', hw, hf, hv, hp⟩ := exBP_finite
  have hm := C23_bulletproof_alternates hE hw hf hv 2
  have hv2 := C72_values (idealExt hashOne) (layout_reads exBP) [.prove exRand' 1]
  have hrun : Spec.run (idealExt hashOne) exBP [.prove exRand' 1] [] [] = .ok [] := by simp [Spec.run, hp]
  rw [hrun, runM] at hv2
  obtain ⟨⟨a, s'⟩, e, -⟩ := Res.bind_eq_ok.1 hv2
  obtain ⟨⟨o, sh⟩, e1, e2⟩ := Res.bind_eq_ok.1 e
  cases o with
  | none => cases e2
  | some q =>
    obtain ⟨h1, h2⟩ := C81_race_prove (idealExt hashOne) (layout_reads exBP) e1 hp hm
    exact ⟨_, _, _, sh, exRand', q, hE, e1, h1, h2⟩

end Verif

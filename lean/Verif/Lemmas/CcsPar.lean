import Verif.Lemmas.BnParAlone
import Verif.Lemmas.BnParExec
import Verif.Lemmas.CcsHeap
import Verif.Spec.CcsPar

/-!
# Interleavings of ccs08 goroutines
-/

namespace Verif

/-! ### The objects of parameters and proofs -/

/-- `HasCells.all` in terms of `HeapObj.cells`. -/
class HoldsLaw (A : Type) {V : Type} [HeapObj A V] [HasCells A] : Prop where
  all : ∀ {a : A} {P : Cell → Prop}, (∀ c ∈ HeapObj.cells a, P c) → HasCells.all P a

private theorem of_append {l l' : List Cell} {P : Cell → Prop} (h : ∀ c ∈ l ++ l', P c) : (∀ c ∈ l, P c) ∧ ∀ c ∈ l', P c :=
  ⟨fun c hc => h c (List.mem_append_left _ hc), fun c hc => h c (List.mem_append_right _ hc)⟩

instance : HoldsLaw Gf2 := ⟨fun {a P} h => ⟨h a.x (List.mem_cons_self), h a.y (List.mem_cons_of_mem _ List.mem_cons_self)⟩⟩
instance : HoldsLaw Gf6 := ⟨fun h => ⟨HoldsLaw.all (of_append (of_append h).1).1, HoldsLaw.all (of_append (of_append h).1).2,
  HoldsLaw.all (of_append h).2⟩⟩
instance : HoldsLaw Gf12 := ⟨fun h => ⟨HoldsLaw.all (of_append h).1, HoldsLaw.all (of_append h).2⟩⟩
instance : HoldsLaw CurveP := ⟨fun {a P} h => by
  simp only [show HeapObj.cells a = [a.x, a.y, a.z, a.t] from rfl, List.forall_mem_cons] at h
  exact ⟨h.1, h.2.1, h.2.2.1, h.2.2.2.1⟩⟩
instance : HoldsLaw TwistP := ⟨fun h => ⟨HoldsLaw.all (of_append (of_append (of_append h).1).1).1,
  HoldsLaw.all (of_append (of_append (of_append h).1).1).2, HoldsLaw.all (of_append (of_append h).1).2, HoldsLaw.all (of_append h).2⟩⟩
instance {A V : Type} [HeapObj A V] [HasCells A] [HoldsLaw A] : HoldsLaw (Option A) := ⟨fun {o P} h a e => by subst e; exact HoldsLaw.all h⟩
instance {A V : Type} [HeapObj A V] [HasCells A] [HoldsLaw A] : HoldsLaw (List A) := ⟨fun {l P} h a ha =>
  HoldsLaw.all fun c hc => h c (List.mem_flatten.2 ⟨_, List.mem_map_of_mem ha, hc⟩)⟩
instance : HoldsLaw (Int × Option TwistP) := ⟨fun {a P} h => ⟨trivial, HoldsLaw.all (a := a.2) h⟩⟩
instance : HoldsLaw KeygenH := ⟨fun {a P} h => HoldsLaw.all (a := a.pubk) h⟩
instance : HoldsLaw ParamsSetH := ⟨fun h => ⟨HoldsLaw.all (of_append (of_append h).1).1, HoldsLaw.all (of_append (of_append h).1).2,
  HoldsLaw.all (of_append h).2⟩⟩
instance : HoldsLaw ParamsULH := ⟨fun h => ⟨HoldsLaw.all (of_append (of_append h).1).1, HoldsLaw.all (of_append (of_append h).1).2,
  HoldsLaw.all (of_append h).2⟩⟩
instance : HoldsLaw CcsParamsH := ⟨fun {a P} h => HoldsLaw.all (a := a.p) h⟩
instance : HoldsLaw ProofSetH := ⟨fun h => ⟨HoldsLaw.all (of_append (of_append (of_append h).1).1).1,
  HoldsLaw.all (of_append (of_append (of_append h).1).1).2, HoldsLaw.all (of_append (of_append h).1).2, HoldsLaw.all (of_append h).2⟩⟩
instance : HoldsLaw ProofULH := ⟨fun h => ⟨HoldsLaw.all (of_append (of_append (of_append h).1).1).1,
  HoldsLaw.all (of_append (of_append (of_append h).1).1).2, HoldsLaw.all (of_append (of_append h).1).2, HoldsLaw.all (of_append h).2⟩⟩
instance : HoldsLaw CcsProofH := ⟨fun h => ⟨HoldsLaw.all (of_append h).1, HoldsLaw.all (of_append h).2⟩⟩

theorem holds_bn {g : BnGlobals} {P : Cell → Prop} (h : ∀ c ∈ g.cells, P c) : HasCells.all P g := by
  obtain ⟨h, h5⟩ := of_append h
  obtain ⟨h, h4⟩ := of_append h
  obtain ⟨h, h3⟩ := of_append h
  obtain ⟨h1, h2⟩ := of_append h
  simp only [List.forall_mem_cons] at h5
  exact ⟨HoldsLaw.all h1, HoldsLaw.all h2, HoldsLaw.all h3, HoldsLaw.all h4, h5.1, h5.2.1, h5.2.2.1⟩

theorem holds_globals {g : CcsGlobals} {P : Cell → Prop} (h : ∀ c ∈ g.cells, P c) : HasCells.all P g := by
  obtain ⟨h, h6⟩ := of_append h
  obtain ⟨h, h5⟩ := of_append h
  obtain ⟨h, h4⟩ := of_append h
  obtain ⟨h, h3⟩ := of_append h
  obtain ⟨h, h2⟩ := of_append h
  exact ⟨holds_bn h, HoldsLaw.all h2, HoldsLaw.all h3, HoldsLaw.all h4, HoldsLaw.all h5, HoldsLaw.all h6⟩

/-! ### Interleavings -/

theorem BigP.prog_run {α : Type} {m : BigP α} {s : BigHeap} (hs : s.pool = none) {r : α × BigHeap} (e : m.alone s = .ok r) :
    m.prog.run s.mem s.next = .ok (r.1, r.2.mem, r.2.next) := by
  unfold BigP.alone at e
  rw [hs] at e
  obtain ⟨q, e1, e2⟩ := Res.bind_eq_ok.1 e
  cases e2
  rw [BigP.prog, BProg.run_bind, e1]
  rfl

theorem BigP.prog_safe {α : Type} [HasCells α] {E : Share} {m : BigP α} (h : Tr E m) : m.prog.Safe E fun _ => True :=
  (h none inferInstance).bind fun _ _ => trivial

/-- Goroutines which run the computations `f w`; `W w` is what `f w` may write, and `R w` what it may read. -/
theorem concurrently {ι α : Type} [HasCells α] {s : BigHeap} (hs : s.pool = none) (f : ι → BigP α) (R W : ι → List Cell)
    (Q : ι → α → BigHeap → Prop) {ws : List ι} {vs : List α}
    (hrun : List.Forall₂ (fun w v => Effect (f w).alone s (W w) fun r s' => r = v ∧ Q w v s') ws vs)
    (htr : ∀ w ∈ ws, Tr ⟨s.next, (· ∈ R w), (· ∈ W w)⟩ (f w))
    (hsep : ∀ (i j : Nat) w w', ws[i]? = some w → ws[j]? = some w' → i ≠ j → Disj (W w) (R w' ++ W w')) :
    Concurrently s (ws.map fun w => (f w).prog) vs fun mem =>
      (∀ c < s.next, (∀ w ∈ ws, c ∉ W w) → mem c = s.mem c) ∧
      ∀ (i : Nat) w v, ws[i]? = some w → vs[i]? = some v → ∃ s', Q w v s' ∧ s.next ≤ s'.next ∧
        ∀ c < s.next, c ∈ R w ++ W w → mem c = s'.mem c := by
  have hrs : ∃ rs : List (α × BigHeap), rs.map Prod.fst = vs ∧ List.Forall₂ (fun w r => (f w).alone s = .ok r ∧ s.next ≤ r.2.next ∧
      (∀ c < s.next, c ∉ W w → r.2.mem c = s.mem c) ∧ Q w r.1 r.2) ws rs := by
    clear htr hsep
    induction hrun with
    | nil => exact ⟨[], rfl, .nil⟩
    | cons h1 _ ih =>
      obtain ⟨rs, rfl, hrs⟩ := ih
      obtain ⟨r, s', e, _, e2, e3, rfl, e5⟩ := h1
      exact ⟨(r, s') :: rs, rfl, .cons ⟨e, e2, e3, e5⟩ hrs⟩
  obtain ⟨rs, rfl, hrs⟩ := hrs
  have hlen := hrs.length_eq
  let Rn : Nat → Cell → Prop := fun i c => ∃ w, ws[i]? = some w ∧ c ∈ R w
  let Wn : Nat → Cell → Prop := fun i c => ∃ w, ws[i]? = some w ∧ c ∈ W w
  have hr : List.Forall₂ (fun p r => BProg.run p s.mem s.next = .ok r) (ws.map fun w => (f w).prog)
      (rs.map fun r => (r.1, r.2.mem, r.2.next)) := by
    rw [List.forall₂_map_left_iff, List.forall₂_map_right_iff]
    exact hrs.imp fun w r h => BigP.prog_run hs h.1
  obtain ⟨k, hk⟩ := bnoninterference (R := Rn) (W := Wn) hr (fun i p hp => by
    rw [List.getElem?_map] at hp
    cases hw : ws[i]? with
    | none => rw [hw] at hp; cases hp
    | some w =>
      rw [hw] at hp
      obtain rfl := Option.some.inj hp
      have h := BigP.prog_safe (htr w (List.mem_of_getElem? hw))
      have e1 : Rn i = (· ∈ R w) := funext fun c => propext ⟨fun ⟨w', h1, h2⟩ => Option.some.inj (hw.symm.trans h1) ▸ h2,
        fun h => ⟨w, hw, h⟩⟩
      have e2 : Wn i = (· ∈ W w) := funext fun c => propext ⟨fun ⟨w', h1, h2⟩ => Option.some.inj (hw.symm.trans h1) ▸ h2,
        fun h => ⟨w, hw, h⟩⟩
      rw [e1, e2]
      exact h) (by
    rintro i j c - - hij ⟨w, hw, hc⟩
    refine ⟨?_, ?_⟩
    · rintro ⟨w', hw', hc'⟩
      exact hsep i j w w' hw hw' hij c hc (List.mem_append_left _ hc')
    · rintro ⟨w', hw', hc'⟩
      exact hsep i j w w' hw hw' hij c hc (List.mem_append_right _ hc'))
  refine ⟨k, fun sched hsched => ?_⟩
  obtain ⟨m, e, h1, h2, h3⟩ := hk sched hsched
  rw [List.map_map] at h2 h3
  refine ⟨m, e, fun l hl => ?_, h3⟩
  obtain ⟨h4, h5⟩ := h2 l hl
  refine ⟨h4, fun c hc hw => h1 c hc fun i _ ⟨w, hw', hc'⟩ => hw w (List.mem_of_getElem? hw') hc', fun i w v hw hv => ?_⟩
  have hi : i < ws.length := by
    by_contra hc
    rw [List.getElem?_eq_none (by omega)] at hw
    cases hw
  have hi' : i < rs.length := hlen ▸ hi
  have hq := List.Forall₂.get hrs hi hi'
  rw [List.getElem?_eq_getElem hi] at hw
  rw [List.getElem?_map, List.getElem?_eq_getElem hi'] at hv
  obtain rfl := Option.some.inj hw
  obtain rfl := Option.some.inj hv
  obtain ⟨q1, q2, q3, q4⟩ := hq
  simp only [List.get_eq_getElem] at q1 q2 q3 q4
  refine ⟨rs[i].2, q4, q2, fun c hc hcr => ?_⟩
  by_cases hcw : c ∈ W ws[i]
  · exact h5 i (rs[i].1, rs[i].2.mem, rs[i].2.next) (by rw [List.getElem?_map, List.getElem?_eq_getElem hi']; rfl) c hc
      ⟨ws[i], List.getElem?_eq_getElem hi, hcw⟩
  · rw [q3 c hc hcw]
    refine h1 c hc ?_
    rintro j - ⟨w', hw', hc'⟩
    by_cases hij : i = j
    · subst hij
      rw [List.getElem?_eq_getElem hi] at hw'
      obtain rfl := Option.some.inj hw'
      exact hcw hc'
    · exact hsep j i w' _ hw' (List.getElem?_eq_getElem hi) (Ne.symm hij) c hc' hcr

/-! ### Sessions -/

namespace Inter

open BigP

theorem ccsSessionH_alone (g : CcsGlobals) (sha : List UInt8 → List UInt8) (p : CcsParamsH) : ∀ (cs : List CcsCall)
    (made : List CcsProofH), (Inter.ccsSessionH g sha p made cs).alone = Verif.ccsSessionH g sha p made cs
  | [], made => by unfold Inter.ccsSessionH Verif.ccsSessionH; rfl
  | .prove x r w1 w2 :: cs, made => by
    unfold Inter.ccsSessionH Verif.ccsSessionH
    simp only [inter_alone, ccsSessionH_alone g sha p cs]
  | .verify i :: cs, made => by
    unfold Inter.ccsSessionH Verif.ccsSessionH
    simp only [inter_alone, ccsSessionH_alone g sha p cs]

theorem ccsSessionH_tr {E : Share} {g : CcsGlobals} {sha : List UInt8 → List UInt8} {p : CcsParamsH} [IsRd E g] [IsRd E p] :
    ∀ (cs : List CcsCall) (made : List CcsProofH), IsWr E made → Tr E (Inter.ccsSessionH g sha p made cs)
  | [], made, _ => by unfold Inter.ccsSessionH; exact fun _ hp => ⟨fun _ h => (List.not_mem_nil h).elim, hp.out⟩
  | .prove x r w1 w2 :: cs, made, hm => by
    unfold Inter.ccsSessionH
    apply TrC.bind
    intro q hq
    refine ccsSessionH_tr cs _ ⟨fun q' hq' => ?_⟩
    rcases List.mem_append.1 hq' with h | h
    · exact hm.out q' h
    · exact List.mem_singleton.1 h ▸ hq.out
  | .verify i :: cs, made, hm => by
    unfold Inter.ccsSessionH
    refine Tr.ofRes fun q e => ?_
    have hq : IsWr E q := isWr_of_idx e
    have h : ∀ o : Option ProofULH, IsWr E o → ∀ q, o = some q → ULUsable E q := by
      rintro _ h q rfl
      have h' : IsWr E q := ⟨h.out q rfl⟩
      exact ⟨inferInstance, inferInstance, inferInstance, inferInstance⟩
    have : TrC E (Inter.ccsVerifyH g q (some p)) := ⟨ccsVerifyH_tr (h _ inferInstance) (h _ inferInstance)⟩
    have : TrC E (Inter.ccsSessionH g sha p made cs) := ⟨ccsSessionH_tr cs made hm⟩
    apply TrC.bind
    intro b _
    apply TrC.bind
    intro bs _
    exact Tr.pure

theorem runSet_tr {E : Share} {g : CcsGlobals} {sha : List UInt8 → List UInt8} {S : List Int} {rnd : Option Int} {x r m v s t : Int}
    [IsRd E g] : Tr E (Inter.runSet g sha S rnd x r m v s t) := by
  unfold runSet
  apply TrC.bind
  intro p _
  apply TrC.bind
  intro q _
  refine Tr.ofRes fun q' e => ?_
  have : IsWr E q' := isWr_of_some e
  exact TrC.out

theorem runUL_tr {E : Share} {g : CcsGlobals} {sha : List UInt8 → List UInt8} {u l : Int} {rnd : Option Int} {x r m : Int}
    {v s t : Nat → Int} [IsRd E g] : Tr E (Inter.runUL g sha u l rnd x r m v s t) := by
  unfold runUL
  apply TrC.bind
  intro p _
  apply TrC.bind
  intro q _
  refine Tr.ofRes fun q' e => ?_
  have : IsWr E q' := isWr_of_some e
  exact TrC.out

theorem runRange_tr {E : Share} {g : CcsGlobals} {sha : List UInt8 → List UInt8} {a b : Int} {rnd : Option Int} {cs : List CcsCall}
    [IsRd E g] : Tr E (Inter.runRange g sha a b rnd cs) := by
  unfold runRange
  apply TrC.bind
  intro p _
  refine Tr.ofRes fun p' e => ?_
  have : IsRd E p' := isRd_of_some e
  exact ccsSessionH_tr cs [] ⟨fun _ h => by cases h⟩

theorem runSign_tr {E : Share} {g : CcsGlobals} {k m : Int} [IsRd E g] : Tr E (Inter.runSign g k m) := by
  unfold runSign
  apply TrC.bind
  intro kp _
  apply TrC.bind
  intro o _
  refine Tr.ofRes fun q' e => ?_
  have : IsRd E q' := isRd_of_some e
  refine Tr.ofRes fun y e => ?_
  have : IsRd E y := isRd_of_some e
  exact TrC.out

end Inter

/-! ### Tasks -/

section

variable {E : Share} {A V : Type} [HeapObj A V] [HasCells A] [HoldsLaw A] {a : A}

theorem isRd_cells (h : ∀ c ∈ HeapObj.cells a, E.R c) : IsRd E a := ⟨HoldsLaw.all fun c hc => .inr (.inl (h c hc))⟩

theorem isWr_cells (h : ∀ c ∈ HeapObj.cells a, E.W c) : IsWr E a := ⟨HoldsLaw.all fun c hc => .inr (h c hc)⟩

theorem isRd_bn {g : BnGlobals} (h : ∀ c ∈ g.cells, E.R c) : IsRd E g := ⟨holds_bn fun c hc => .inr (.inl (h c hc))⟩

theorem isRd_globals {g : CcsGlobals} (h : ∀ c ∈ g.cells, E.R c) : IsRd E g := ⟨holds_globals fun c hc => .inr (.inl (h c hc))⟩

end

theorem ProofSetH.usable {E : Share} {q : ProofSetH} (h : ∀ c ∈ HeapObj.cells q, E.R c)
    (hw : ∀ c ∈ HeapObj.cells q.D ++ HeapObj.cells q.a, E.W c) : IsRd E q.V ∧ IsWr E q.D ∧ IsRd E q.C ∧ IsWr E q.a := by
  have h' : ∀ c ∈ HeapObj.cells q.V ++ HeapObj.cells q.D ++ HeapObj.cells q.C ++ HeapObj.cells q.a, E.R c := h
  exact ⟨isRd_cells (of_append (of_append (of_append h').1).1).1, isWr_cells (of_append hw).1, isRd_cells (of_append (of_append h').1).2,
    isWr_cells (of_append hw).2⟩

theorem ProofULH.usable {E : Share} {q : ProofULH} (h : ∀ c ∈ HeapObj.cells q, E.R c) (hw : ∀ c ∈ q.written, E.W c) :
    Inter.ULUsable E q := by
  have h' : ∀ c ∈ HeapObj.cells q.V ++ HeapObj.cells q.D ++ HeapObj.cells q.C ++ HeapObj.cells q.a, E.R c := h
  exact ⟨isRd_cells (of_append (of_append (of_append h').1).1).1, isWr_cells (of_append hw).1, isRd_cells (of_append (of_append h').1).2,
    isWr_cells (of_append hw).2⟩

theorem Inter.verifySetH_tr' {E : Share} {g : CcsGlobals} {q : ProofSetH} {p : ParamsSetH} (hg : ∀ c ∈ g.cells, E.R c)
    (hp : ∀ c ∈ HeapObj.cells p, E.R c) (hq : ∀ c ∈ HeapObj.cells q, E.R c)
    (hw : ∀ c ∈ HeapObj.cells q.D ++ HeapObj.cells q.a, E.W c) : Tr E (Inter.verifySetH g q p) := by
  have := isRd_globals hg
  have := isRd_cells hp
  obtain ⟨_, _, _, _⟩ := ProofSetH.usable hq hw
  exact TrC.out

theorem Inter.verifyULH_tr' {E : Share} {g : CcsGlobals} {q : ProofULH} {p : ParamsULH} (hg : ∀ c ∈ g.cells, E.R c)
    (hp : ∀ c ∈ HeapObj.cells p, E.R c) (hq : ∀ c ∈ HeapObj.cells q, E.R c) (hw : ∀ c ∈ q.written, E.W c) :
    Tr E (Inter.verifyULH g q p) := by
  have := isRd_globals hg
  have := isRd_cells hp
  obtain ⟨_, _, _, _⟩ := ProofULH.usable hq hw
  exact TrC.out

theorem Inter.ccsVerifyH_tr' {E : Share} {g : CcsGlobals} {q : CcsProofH} {p : Option CcsParamsH} (hg : ∀ c ∈ g.cells, E.R c)
    (hp : ∀ c ∈ HeapObj.cells p, E.R c) (hq : ∀ c ∈ HeapObj.cells q, E.R c) (hw : ∀ c ∈ q.written, E.W c) :
    Tr E (Inter.ccsVerifyH g q p) := by
  have := isRd_globals hg
  have := isRd_cells hp
  have hq' : ∀ c ∈ HeapObj.cells q.p1 ++ HeapObj.cells q.p2, E.R c := hq
  have hw' : ∀ c ∈ q.p1.elim [] ProofULH.written ++ q.p2.elim [] ProofULH.written, E.W c := hw
  have h : ∀ o : Option ProofULH, (∀ c ∈ HeapObj.cells o, E.R c) → (∀ c ∈ o.elim [] ProofULH.written, E.W c) →
      ∀ q, o = some q → Inter.ULUsable E q := by
    rintro _ h1 h2 q rfl
    exact ProofULH.usable h1 h2
  exact Inter.ccsVerifyH_tr (h _ (of_append hq').1 (of_append hw').1) (h _ (of_append hq').2 (of_append hw').2)

theorem tr_map_pure {E : Share} {α β : Type} [HasCells α] [HasCells β] {m : BigP α} {f : α → β} (h : Tr E m)
    (hf : ∀ a, HasCells.all E.Wr (f a)) : Tr E (do pure (f (← m)) : BigP β) := by
  have : TrC E m := ⟨h⟩
  apply TrC.bind
  intro a _ _ hp
  exact ⟨hf a, hp.out⟩

end Verif

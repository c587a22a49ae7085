import Verif.Lemmas.HeapBp
import Verif.Spec.Program

/-!
# Programs on the heap and on values
-/

namespace Verif

open Mem

theorem BPProofM.Fixed.growX {P : Addr} {s t : Heap} {p : BPProofM} {v : BPProof} (h : p.Fixed s v) (hg : GrowX P s t)
    (hP : P ∉ p.cells) : p.Fixed t v := by
  simp only [BPProofM.cells, BPParamsM.cells, List.mem_append, List.mem_cons, List.not_mem_nil, or_false, not_or] at hP
  obtain ⟨⟨⟨⟨⟨⟨h1, h2, h3, h4, h5, h6, h7⟩, hL⟩, hR⟩, hg'⟩, hh'⟩, ⟨⟨hG, hH, hGg⟩, hHh⟩⟩ := hP
  exact ⟨hg _ _ (Ne.symm h1) h.V, hg _ _ (Ne.symm h2) h.A, hg _ _ (Ne.symm h3) h.S, hg _ _ (Ne.symm h4) h.T1,
    hg _ _ (Ne.symm h5) h.T2, h.Taux, h.Mu, h.Tprime,
    ⟨h.IP.N, h.IP.A, h.IP.B, h.IP.Ls.growX hg hL, h.IP.Rs.growX hg hR, hg _ _ (Ne.symm h7) h.IP.U, h.IP.Gg.growX hg hg',
      h.IP.Hh.growX hg hh'⟩,
    hg _ _ (Ne.symm h6) h.Commit,
    ⟨h.Params.N, hg _ _ (Ne.symm hG) h.Params.G, hg _ _ (Ne.symm hH) h.Params.H, h.Params.Gg.growX hg hGg,
      h.Params.Hh.growX hg hHh⟩⟩

theorem BPParamsM.Reads.growX {P : Addr} {s t : Heap} {p : BPParamsM} {v : BPParams} (h : p.Reads s v) (hg : GrowX P s t)
    (hP : P ∉ p.cells) : p.Reads t v := by
  simp only [BPParamsM.cells, List.mem_append, List.mem_cons, not_or] at hP
  obtain ⟨⟨hG, hH, hGg⟩, hHh⟩ := hP
  exact ⟨h.N, hg _ _ (Ne.symm hG) h.G, hg _ _ (Ne.symm hH) h.H, h.Gg.growX hg hGg, h.Hh.growX hg hHh⟩

theorem BPProofM.Fixed.afterVerify {s : Heap} {p : BPProofM} {v : BPProof} (h : p.Fixed s v) (P : P256) :
    p.Fixed s (v.afterVerify P) :=
  ⟨h.V, h.A, h.S, h.T1, h.T2, h.Taux, h.Mu, h.Tprime,
    ⟨h.IP.N, h.IP.A, h.IP.B, h.IP.Ls, h.IP.Rs, h.IP.U, h.IP.Gg, h.IP.Hh⟩, h.Commit, h.Params⟩

/-- The heap of a running program: the objects `objs` with values `vals`, and the structs `ps` of the program, which are the
objects `hs`. -/
structure RunInv (s : Heap) (params : BPParamsM) (v : BPParams) (objs : List BPProofM) (vals : List BPProof)
    (ps : List BPProofM) (hs : List Nat) : Prop where
  par : params.Reads s v
  len : objs.length = vals.length
  rel : ∀ (k : Nat) o w, objs[k]? = some o → vals[k]? = some w → o.Fixed s w ∧ s[o.IP.Params.P]? = some w.IP.Params.P
  handles : List.Forall₂ (fun p k => objs[k]? = some p) ps hs
  distinct : ∀ (i j : Nat) o o', objs[i]? = some o → objs[j]? = some o' → i ≠ j → o.IP.Params.P ≠ o'.IP.Params.P
  sep : ∀ o ∈ objs, ∀ o' ∈ objs, o.IP.Params.P ∉ o'.cells
  sepPar : ∀ o ∈ objs, o.IP.Params.P ∉ params.cells

theorem runM_sim (E : Ext) {params : BPParamsM} {v : BPParams} : ∀ (prog : List Stmt) {s : Heap} {objs : List BPProofM}
    {vals : List BPProof} {ps : List BPProofM} {hs : List Nat}, RunInv s params v objs vals ps hs →
    (runM E params prog ps).Sim s (Spec.run E v prog vals hs) (fun r _ w => r = w) := by
  intro prog
  induction prog with
  | nil => intros; exact Mem.Sim.ok rfl rfl
  | cons st rest ih =>
    intro s objs vals ps hs inv
    cases st with
    | prove rnd secret =>
      simp only [runM, Spec.run]
      refine Mem.Sim.bind (proveM_sim E rnd secret inv.par) ?_
      rintro p s' w - ⟨hg, hr⟩
      cases hr with
      | none => exact Mem.bind_panic (Mem.lift_panic s')
      | some hr =>
        rename_i p w
        obtain ⟨rp, hpp, fP, nP, hc⟩ := hr
        refine Mem.Sim.step (Mem.lift_ok p s') (ih (objs := objs ++ [p]) ?_)
        have alloc : ∀ o ∈ objs, ∃ x, s[o.IP.Params.P]? = some x := fun o ho => by
          obtain ⟨k, hk⟩ := List.getElem?_of_mem ho
          have hk' : k < vals.length := by rw [← inv.len]; exact (List.getElem?_eq_some_iff.1 hk).1
          exact ⟨_, (inv.rel k o _ hk (List.getElem?_eq_getElem hk')).2⟩
        have parCell : ∀ c ∈ params.cells, ∃ x, s[c]? = some x := fun c hc' => by
          simp only [BPParamsM.cells, List.mem_append, List.mem_cons] at hc'
          rcases hc' with (rfl | rfl | h) | h
          · exact ⟨_, inv.par.G⟩
          · exact ⟨_, inv.par.H⟩
          · exact inv.par.Gg.mem h
          · exact inv.par.Hh.mem h
        refine ⟨inv.par.grow hg, by simp [inv.len], ?_, ?_, ?_, ?_, ?_⟩
        · intro k o w' ho hw'
          by_cases hk : k < objs.length
          · rw [List.getElem?_append_left hk] at ho
            rw [List.getElem?_append_left (by rw [← inv.len]; exact hk)] at hw'
            obtain ⟨a, b⟩ := inv.rel k o w' ho hw'
            exact ⟨a.grow hg, hg _ _ b⟩
          · have hk' : k = objs.length := by
              have := (List.getElem?_eq_some_iff.1 ho).1
              simp only [List.length_append, List.length_cons, List.length_nil] at this
              omega
            subst hk'
            rw [List.getElem?_append_right (le_refl _), Nat.sub_self] at ho
            rw [inv.len, List.getElem?_append_right (le_refl _), Nat.sub_self] at hw'
            cases ho; cases hw'
            exact ⟨rp.fixed, rp.IP.Params.P⟩
        · refine List.rel_append (R := fun q k => (objs ++ [p])[k]? = some q) ?_ (List.Forall₂.cons ?_ List.Forall₂.nil)
          · refine List.Forall₂.imp (fun q k hk => ?_) inv.handles
            rw [List.getElem?_append_left (List.getElem?_eq_some_iff.1 hk).1, hk]
          · rw [← inv.len]; simp
        · have key : ∀ (i : Nat) o, (objs ++ [p])[i]? = some o → (objs[i]? = some o) ∨ (i = objs.length ∧ o = p) := by
            intro i o ho
            by_cases hk : i < objs.length
            · rw [List.getElem?_append_left hk] at ho; exact Or.inl ho
            · have hk' : i = objs.length := by
                have := (List.getElem?_eq_some_iff.1 ho).1
                simp only [List.length_append, List.length_cons, List.length_nil] at this
                omega
              subst hk'
              rw [List.getElem?_append_right (le_refl _), Nat.sub_self] at ho
              cases ho
              exact Or.inr ⟨rfl, rfl⟩
          intro i j o o' ho ho' hij
          rcases key i o ho with h1 | ⟨h1, rfl⟩ <;> rcases key j o' ho' with h2 | ⟨h2, rfl⟩
          · exact inv.distinct i j o o' h1 h2 hij
          · obtain ⟨x, hx⟩ := alloc o (List.mem_of_getElem? h1)
            exact ne_of_fresh hx fP
          · obtain ⟨x, hx⟩ := alloc o' (List.mem_of_getElem? h2)
            exact (ne_of_fresh hx fP).symm
          · exact absurd (h1.trans h2.symm) hij
        · have cellAlloc : ∀ o ∈ objs, p.IP.Params.P ∉ o.cells := fun o ho hm => by
            obtain ⟨k, hk⟩ := List.getElem?_of_mem ho
            have hk' : k < vals.length := by rw [← inv.len]; exact (List.getElem?_eq_some_iff.1 hk).1
            have hf := (inv.rel k o _ hk (List.getElem?_eq_getElem hk')).1
            have : ∃ x, s[p.IP.Params.P]? = some x := by
              simp only [BPProofM.cells, BPParamsM.cells, List.mem_append, List.mem_cons, List.not_mem_nil, or_false] at hm
              rcases hm with ((((((h | h | h | h | h | h | h) | h) | h) | h) | h) | (h | h | h) | h)
              · exact ⟨_, h ▸ hf.V⟩
              · exact ⟨_, h ▸ hf.A⟩
              · exact ⟨_, h ▸ hf.S⟩
              · exact ⟨_, h ▸ hf.T1⟩
              · exact ⟨_, h ▸ hf.T2⟩
              · exact ⟨_, h ▸ hf.Commit⟩
              · exact ⟨_, h ▸ hf.IP.U⟩
              · exact hf.IP.Ls.mem h
              · exact hf.IP.Rs.mem h
              · exact hf.IP.Gg.mem h
              · exact hf.IP.Hh.mem h
              · exact ⟨_, h ▸ hf.Params.G⟩
              · exact ⟨_, h ▸ hf.Params.H⟩
              · exact hf.Params.Gg.mem h
              · exact hf.Params.Hh.mem h
            obtain ⟨x, hx⟩ := this
            simp [hx] at fP
          intro o ho o' ho'
          rcases List.mem_append.1 ho with h1 | h1 <;> rcases List.mem_append.1 ho' with h2 | h2
          · exact inv.sep o h1 o' h2
          · rw [List.mem_singleton.1 h2]
            intro hm
            rcases hc _ hm with h3 | h3
            · exact inv.sepPar o h1 h3
            · obtain ⟨x, hx⟩ := alloc o h1
              simp [hx] at h3
          · rw [List.mem_singleton.1 h1]; exact cellAlloc o' h2
          · rw [List.mem_singleton.1 h1, List.mem_singleton.1 h2]; exact nP
        · intro o ho
          rcases List.mem_append.1 ho with h1 | h1
          · exact inv.sepPar o h1
          · rw [List.mem_singleton.1 h1]
            intro hm
            obtain ⟨x, hx⟩ := parCell _ hm
            simp [hx] at fP
    | copy i =>
      simp only [runM, Spec.run]
      have hsim : (Mem.lift (idx ps i)).Sim s (idx hs i) (fun p s' k => s' = s ∧ objs[k]? = some p) := by
        have := inv.handles
        clear inv
        induction this generalizing i with
        | nil => rfl
        | cons e _ ih' =>
          cases i with
          | zero => exact ⟨_, s, rfl, rfl, e⟩
          | succ i => exact ih' i
      refine Mem.Sim.bind hsim ?_
      rintro p _ k - ⟨rfl, hk⟩
      exact ih ⟨inv.par, inv.len, inv.rel, List.rel_append inv.handles (List.Forall₂.cons hk List.Forall₂.nil),
        inv.distinct, inv.sep, inv.sepPar⟩
    | verify i =>
      simp only [runM, Spec.run]
      have hsim : (Mem.lift (idx ps i)).Sim s (idx hs i) (fun p s' k => s' = s ∧ objs[k]? = some p) := by
        have := inv.handles
        clear inv
        induction this generalizing i with
        | nil => rfl
        | cons e _ ih' =>
          cases i with
          | zero => exact ⟨_, s, rfl, rfl, e⟩
          | succ i => exact ih' i
      refine Mem.Sim.bind hsim ?_
      rintro p _ k - ⟨rfl, hk⟩
      rename_i s
      have hk' : k < vals.length := by rw [← inv.len]; exact (List.getElem?_eq_some_iff.1 hk).1
      have hw : vals[k]? = some vals[k] := List.getElem?_eq_getElem hk'
      have hidx : idx vals k = .ok vals[k] := by rw [idx, hw]; rfl
      rw [hidx, Res.ok_bind]
      generalize vals[k] = w at hw
      obtain ⟨hf, hP⟩ := inv.rel k p w hk hw
      have hm : p ∈ objs := List.mem_of_getElem? hk
      have hns := inv.sep p hm p hm
      simp only [BPProofM.cells, List.mem_append, List.mem_cons, List.not_mem_nil, or_false, not_or] at hns
      refine Mem.Sim.bind (bpVerifyM_sim E hf hP hns.1.1.1.1.2 hns.1.1.1.2 hns.1.1.1.1.1.2.2.2.2.2.2) ?_
      rintro b s' ⟨b', P'⟩ - ⟨hg, rfl, hP'⟩
      refine Mem.Sim.bind (ih (objs := objs) (vals := vals.set k (w.afterVerify P')) ⟨inv.par.growX hg (inv.sepPar p hm),
        by simp [inv.len], ?_, inv.handles, inv.distinct, inv.sep, inv.sepPar⟩) ?_
      · intro j o w' ho hw'
        have hmo : o ∈ objs := List.mem_of_getElem? ho
        by_cases hj : j = k
        · subst hj
          rw [hk] at ho
          cases ho
          rw [List.getElem?_set_self hk'] at hw'
          cases hw'
          exact ⟨(hf.growX hg (inv.sep p hm p hm)).afterVerify P', hP'⟩
        · rw [List.getElem?_set_ne (Ne.symm hj)] at hw'
          obtain ⟨a, c⟩ := inv.rel j o w' ho hw'
          exact ⟨a.growX hg (inv.sep p hm o hmo), hg _ _ (inv.distinct j k o p ho hk hj) c⟩
      · rintro vs s'' _ - rfl
        exact Mem.Sim.ok rfl rfl

/-! ### The verdicts on one object -/

theorem bpVerifyMany_cons {E : Ext} {p : BPProof} {v : Bool} {P : P256} (h : bpVerify E p = .ok (v, P)) {k : Nat}
    {vs : List Bool} (h' : bpVerifyMany E k (p.afterVerify P) = .ok vs) : bpVerifyMany E (k + 1) p = .ok (v :: vs) := by
  rw [bpVerifyMany, h, Res.ok_bind]
  simp only [h', Res.ok_bind]

theorem run_verdicts {E : Ext} {params : BPParams} : ∀ (prog : List Stmt) {vals : List BPProof} {hs : List Nat}
    {vs : List Bool}, Spec.run E params prog vals hs = .ok vs →
    vs.length = (Spec.targets prog vals.length hs).length ∧
    (∀ (k : Nat) w, vals[k]? = some w →
      bpVerifyMany E (Spec.verdictsOf k (Spec.targets prog vals.length hs) vs).length w =
        .ok (Spec.verdictsOf k (Spec.targets prog vals.length hs) vs)) ∧
    (∀ (k : Nat) rnd secret, (Spec.proves prog)[k]? = some (rnd, secret) → ∃ p, prove E rnd secret params = .ok (some p) ∧
      bpVerifyMany E (Spec.verdictsOf (vals.length + k) (Spec.targets prog vals.length hs) vs).length p =
        .ok (Spec.verdictsOf (vals.length + k) (Spec.targets prog vals.length hs) vs)) := by
  intro prog
  induction prog with
  | nil =>
    intro vals hs vs h
    cases h
    refine ⟨rfl, fun k w _ => rfl, fun k rnd secret hk => ?_⟩
    simp [Spec.proves] at hk
  | cons st rest ih =>
    intro vals hs vs h
    cases st with
    | prove rnd secret =>
      rw [Spec.run] at h
      obtain ⟨po, hpo, h⟩ := Res.bind_eq_ok.1 h
      obtain ⟨p, hp, h⟩ := Res.bind_eq_ok.1 h
      cases po with
      | none => cases hp
      | some p' =>
        cases hp
        obtain ⟨h1, h2, h3⟩ := ih h
        rw [List.length_append, List.length_singleton] at h1 h2 h3
        refine ⟨h1, fun k w hk => ?_, fun k rnd' secret' hk => ?_⟩
        · exact h2 k w (by rw [List.getElem?_append_left (List.getElem?_eq_some_iff.1 hk).1, hk])
        · cases k with
          | zero =>
            simp only [Spec.proves, List.filterMap_cons_some, List.getElem?_cons_zero, Option.some.injEq, Prod.mk.injEq] at hk
            obtain ⟨rfl, rfl⟩ := hk
            exact ⟨p, hpo, h2 vals.length p (by simp)⟩
          | succ k =>
            have hk' : (Spec.proves rest)[k]? = some (rnd', secret') := by
              simpa [Spec.proves] using hk
            obtain ⟨q, hq, e⟩ := h3 k rnd' secret' hk'
            have hadd : vals.length + 1 + k = vals.length + (k + 1) := by omega
            rw [hadd] at e
            exact ⟨q, hq, e⟩
    | copy i =>
      rw [Spec.run] at h
      obtain ⟨k0, hk0, h⟩ := Res.bind_eq_ok.1 h
      have hget : hs.getD i 0 = k0 := by
        rw [List.getD_eq_getElem?_getD]
        unfold idx at hk0
        cases e : hs[i]? with
        | none => rw [e] at hk0; cases hk0
        | some x => rw [e] at hk0; cases hk0; rfl
      obtain ⟨h1, h2, h3⟩ := ih h
      simp only [Spec.targets, hget]
      exact ⟨h1, h2, fun k rnd secret hk => h3 k rnd secret (by simpa [Spec.proves] using hk)⟩
    | verify i =>
      rw [Spec.run] at h
      obtain ⟨k0, hk0, h⟩ := Res.bind_eq_ok.1 h
      have hget : hs.getD i 0 = k0 := by
        rw [List.getD_eq_getElem?_getD]
        unfold idx at hk0
        cases e : hs[i]? with
        | none => rw [e] at hk0; cases hk0
        | some x => rw [e] at hk0; cases hk0; rfl
      obtain ⟨w, hw, h⟩ := Res.bind_eq_ok.1 h
      have hw : vals[k0]? = some w := by
        unfold idx at hw
        cases e : vals[k0]? with
        | none => rw [e] at hw; cases hw
        | some x => rw [e] at hw; cases hw; rfl
      obtain ⟨⟨v, P⟩, hv, h⟩ := Res.bind_eq_ok.1 h
      obtain ⟨vs', hvs, h⟩ := Res.bind_eq_ok.1 h
      cases h
      have hlt := (List.getElem?_eq_some_iff.1 hw).1
      obtain ⟨h1, h2, h3⟩ := ih hvs
      rw [List.length_set] at h1 h2 h3
      have hne : ∀ k, k ≠ k0 → Spec.verdictsOf k (Spec.targets (.verify i :: rest) vals.length hs) (v :: vs') =
          Spec.verdictsOf k (Spec.targets rest vals.length hs) vs' := by
        intro k hk
        simp only [Spec.verdictsOf, Spec.targets, hget, List.zip_cons_cons]
        rw [List.filter_cons_of_neg (by simpa using Ne.symm hk)]
      have heq : Spec.verdictsOf k0 (Spec.targets (.verify i :: rest) vals.length hs) (v :: vs') =
          v :: Spec.verdictsOf k0 (Spec.targets rest vals.length hs) vs' := by
        simp only [Spec.verdictsOf, Spec.targets, hget, List.zip_cons_cons]
        rw [List.filter_cons_of_pos (by simp)]
        rfl
      refine ⟨by simp [Spec.targets, h1], fun k w' hk => ?_, fun k rnd secret hk => ?_⟩
      · by_cases e : k = k0
        · subst e
          rw [hw] at hk
          cases hk
          rw [heq]
          exact bpVerifyMany_cons hv (h2 k _ (List.getElem?_set_self hlt))
        · rw [hne k e]
          exact h2 k w' (by rw [List.getElem?_set_ne (Ne.symm e), hk])
      · rw [hne _ (by omega)]
        exact h3 k rnd secret (by simpa [Spec.proves] using hk)

end Verif

import Mathlib.Algebra.Order.BigOperators.Group.List
import Verif.Lemmas.BnParSafe
import Verif.Lemmas.ParExec

/-!
# Interleavings of goroutines which do not write what the others use
-/

namespace Verif

variable {α : Type}

/-- The number of accesses a computation makes. -/
def BProg.cost : BProg α → (Cell → Int) → Nat → Nat
  | .ret _, _, _ => 0
  | .panic, _, _ => 0
  | .new k, mem, next => (k next).cost (fun c => if c = next then 0 else mem c) (next + 1) + 1
  | .read c k, mem, next => (k (mem c)).cost mem next + 1
  | .write d v k, mem, next => k.cost (fun c => if c = d then v else mem c) next + 1

/-- The next access, when the memory is the expected one where `E` allows to read. -/
theorem BProg.step_agree {E : Share} {p : BProg α} {Q : α → Prop} (hs : p.Safe E Q) {mem mem' : Cell → Int} {next : Nat}
    (hn : E.n ≤ next) (ha : ∀ c, E.Rd c → mem c = mem' c) {r : α × (Cell → Int) × Nat} (hr : p.run mem next = .ok r) :
    ∃ p' mem1 mem1' next1, p.step mem' next = .ok (p', mem1', next1) ∧ p'.run mem1 next1 = .ok r ∧ p'.Safe E Q ∧ E.n ≤ next1 ∧
      (∀ c, E.Rd c → mem1 c = mem1' c) ∧ (∀ c, ¬ E.Wr c → mem1' c = mem' c) ∧ p'.cost mem1 next1 ≤ p.cost mem next - 1 := by
  cases p with
  | ret a => exact ⟨_, mem, _, _, rfl, hr, hs, hn, ha, fun _ _ => rfl, Nat.zero_le _⟩
  | panic => cases hr
  | new k =>
    refine ⟨_, _, _, _, rfl, hr, hs next hn, by omega, fun c hc => ?_, fun c hc => ?_, le_of_eq rfl⟩
    · split
      · rfl
      · exact ha c hc
    · exact if_neg fun e : c = next => hc (.inl (e ▸ hn))
  | read c k =>
    refine ⟨_, mem, _, _, rfl, ?_, hs.2 _, hn, ha, fun _ _ => rfl, ?_⟩
    · rw [← ha c hs.1]; exact hr
    · rw [← ha c hs.1]; exact le_of_eq rfl
  | write d v k =>
    refine ⟨_, _, _, _, rfl, hr, hs.2, hn, fun c hc => ?_, fun c hc => ?_, le_of_eq rfl⟩
    · split
      · rfl
      · exact ha c hc
    · exact if_neg fun e : c = d => hc (e ▸ hs.1)

/-- What holds during the execution: `r` is what each goroutine computes alone, and `k i` bounds the number of accesses which
goroutine `i` still has to make. -/
structure BMachineInv (n : Nat) (R W : Nat → Cell → Prop) (mem0 : Cell → Int) (m : BMachine α) (rs : List (α × (Cell → Int) × Nat))
    (k : Nat → Nat) : Prop where
  num : m.n = n
  length : m.threads.length = rs.length
  kept : ∀ c : Nat, c < n → (∀ i < rs.length, ¬ W i c) → m.shared c = mem0 c
  on : ∀ i t r, m.threads[i]? = some t → rs[i]? = some r → ∃ mem, (∀ c, Share.Rd ⟨n, R i, W i⟩ c → mem c = m.view t c) ∧
    t.prog.run mem t.next = .ok r ∧ t.prog.Safe ⟨n, R i, W i⟩ (fun _ => True) ∧ n ≤ t.next ∧ t.prog.cost mem t.next ≤ k i

theorem BMachineInv.step {n : Nat} {R W : Nat → Cell → Prop} {mem0 : Cell → Int} {m : BMachine α}
    {rs : List (α × (Cell → Int) × Nat)} {k : Nat → Nat} (h : BMachineInv n R W mem0 m rs k) (hap : NoShare rs.length R W) {i : Nat}
    (hi : i < rs.length) :
    ∃ m', m.step i = .ok m' ∧ BMachineInv n R W mem0 m' rs (Function.update k i (k i - 1)) := by
  have hi' : i < m.threads.length := h.length ▸ hi
  have hr := List.getElem?_eq_getElem hi
  have ht := List.getElem?_eq_getElem hi'
  obtain ⟨mem, ha, hrun, hs, hn, hc⟩ := h.on i _ _ ht hr
  obtain ⟨p', mem1, mem1', next1, e, hrun', hs', hn', ha', hk, hc'⟩ := BProg.step_agree hs (E := ⟨n, R i, W i⟩) hn ha hrun
  refine ⟨⟨m.n, fun c => if c < m.n then mem1' c else m.shared c, m.threads.set i ⟨mem1', next1, p'⟩⟩, ?_, h.num, ?_,
    fun c hcn hw => ?_, fun j u r hu hr' => ?_⟩
  · unfold BMachine.step
    rw [ht]
    dsimp only
    rw [e]
    rfl
  · rw [List.length_set, h.length]
  · have hkc := hk c (by rintro (h1 | h1); exact absurd hcn (Nat.not_lt.2 h1); exact hw i hi h1)
    dsimp only
    rw [if_pos (h.num ▸ hcn), hkc, BMachine.view, if_pos (h.num ▸ hcn), h.kept c hcn hw]
  · by_cases hij : i = j
    · subst hij
      rw [List.getElem?_set_self hi'] at hu
      obtain rfl := Option.some.inj hu
      obtain rfl := Option.some.inj (hr.symm.trans hr')
      refine ⟨mem1, fun c hcr => ?_, hrun', hs', hn', ?_⟩
      · rw [ha' c hcr, BMachine.view]
        dsimp only
        split <;> rfl
      · rw [Function.update_self]
        exact hc'.trans (Nat.sub_le_sub_right hc 1)
    · rw [List.getElem?_set_ne hij] at hu
      obtain ⟨mem2, a2, run2, safe2, n2, c2⟩ := h.on j u r hu hr'
      refine ⟨mem2, fun c hcr => ?_, run2, safe2, n2, ?_⟩
      · rw [a2 c hcr, BMachine.view, BMachine.view]
        dsimp only
        split
        · next hcn =>
          rw [h.num] at hcn
          have hjr : j < rs.length := by
            by_contra hx
            rw [List.getElem?_eq_none (by omega)] at hr'
            cases hr'
          have hnw : ¬ Share.Wr ⟨n, R i, W i⟩ c := by
            rintro (h1 | h1)
            · exact absurd hcn (Nat.not_lt.2 h1)
            · obtain ⟨h2, h3⟩ := hap i j c hi hjr hij h1
              rcases hcr with h4 | h4 | h4
              · exact absurd hcn (Nat.not_lt.2 h4)
              · exact h2 h4
              · exact h3 h4
          rw [hk c hnw, BMachine.view, if_pos (h.num ▸ hcn)]
        · rfl
      · rw [Function.update_of_ne (Ne.symm hij)]
        exact c2

theorem BMachineInv.exec {n : Nat} {R W : Nat → Cell → Prop} {mem0 : Cell → Int} {rs : List (α × (Cell → Int) × Nat)}
    (hap : NoShare rs.length R W) :
    ∀ (sched : List Nat) {m : BMachine α} {k : Nat → Nat}, BMachineInv n R W mem0 m rs k → (∀ i ∈ sched, i < rs.length) →
    ∃ m', m.exec sched = .ok m' ∧ BMachineInv n R W mem0 m' rs (fun i => k i - sched.count i)
  | [], m, k, h, _ => ⟨m, rfl, by simpa using h⟩
  | i :: is, m, k, h, hs => by
    obtain ⟨m1, e1, h1⟩ := h.step hap (hs i List.mem_cons_self)
    obtain ⟨m2, e2, h2⟩ := BMachineInv.exec hap is h1 fun j hj => hs j (List.mem_cons_of_mem _ hj)
    refine ⟨m2, ?_, ?_⟩
    · simp only [BMachine.exec, e1, Res.ok_bind, e2]
    · convert h2 using 2 with j
      by_cases hij : i = j
      · subst hij; rw [Function.update_self, List.count_cons_self]; omega
      · rw [Function.update_of_ne (Ne.symm hij), List.count_cons_of_ne hij]

theorem BMachineInv.results {n : Nat} {R W : Nat → Cell → Prop} {mem0 : Cell → Int} {m : BMachine α}
    {rs : List (α × (Cell → Int) × Nat)} {k : Nat → Nat} (h : BMachineInv n R W mem0 m rs k) {l : List α} (hl : m.results = some l) :
    l = rs.map Prod.fst ∧ ∀ i r, rs[i]? = some r → ∀ c : Nat, c < n → W i c → m.shared c = r.2.1 c := by
  have hf := mapM_some.1 hl
  have hlen : l.length = rs.length := by rw [← hf.length_eq, h.length]
  have key : ∀ i t a r, m.threads[i]? = some t → l[i]? = some a → rs[i]? = some r →
      a = r.1 ∧ ∀ c : Nat, c < n → W i c → m.shared c = r.2.1 c := by
    intro i t a r ht ha hr
    have hi : i < m.threads.length := by
      by_contra hc
      rw [List.getElem?_eq_none (by omega)] at ht
      cases ht
    have hi' : i < l.length := by rw [← hf.length_eq]; exact hi
    have h1 := List.Forall₂.get hf hi hi'
    have ht' : m.threads[i] = t := by rw [List.getElem?_eq_getElem hi] at ht; exact Option.some.inj ht
    have ha' : l[i] = a := by rw [List.getElem?_eq_getElem hi'] at ha; exact Option.some.inj ha
    simp only [List.get_eq_getElem, ht', ha'] at h1
    obtain ⟨mem, hag, hrun, -, -⟩ := h.on i t r ht hr
    cases hp : t.prog with
    | ret b =>
      rw [hp] at h1 hrun
      cases h1
      cases hrun
      refine ⟨rfl, fun c hc hw => ?_⟩
      dsimp only
      rw [hag c (.inr (.inr hw)), BMachine.view, if_pos (h.num ▸ hc)]
    | _ => rw [hp] at h1; cases h1
  constructor
  · refine List.ext_getElem? fun i => ?_
    rw [List.getElem?_map]
    by_cases hi : i < rs.length
    · have e1 := List.getElem?_eq_getElem (h.length ▸ hi : i < m.threads.length)
      have e2 := List.getElem?_eq_getElem (hlen ▸ hi : i < l.length)
      have e3 := List.getElem?_eq_getElem hi
      rw [e2, e3, (key i _ _ _ e1 e2 e3).1]
      rfl
    · rw [List.getElem?_eq_none (by omega), List.getElem?_eq_none (by omega)]; rfl
  · intro i r hr
    have hi : i < rs.length := by
      by_contra hc
      rw [List.getElem?_eq_none (by omega)] at hr
      cases hr
    have e1 := List.getElem?_eq_getElem (h.length ▸ hi : i < m.threads.length)
    have e2 := List.getElem?_eq_getElem (hlen ▸ hi : i < l.length)
    exact (key i _ _ _ e1 e2 hr).2

/-- A computation which has no access left has finished. -/
theorem BProg.finished {p : BProg α} {mem : Cell → Int} {next : Nat} {r : α × (Cell → Int) × Nat} (e : p.run mem next = .ok r)
    (h : p.cost mem next ≤ 0) : ∃ b, p = .ret b := by
  cases p with
  | ret b => exact ⟨b, rfl⟩
  | panic => cases e
  | new k => exact absurd h (Nat.not_succ_le_zero _)
  | read c k => exact absurd h (Nat.not_succ_le_zero _)
  | write c v k => exact absurd h (Nat.not_succ_le_zero _)

theorem BMachineInv.done {n : Nat} {R W : Nat → Cell → Prop} {mem0 : Cell → Int} {m : BMachine α}
    {rs : List (α × (Cell → Int) × Nat)} {k : Nat → Nat} (h : BMachineInv n R W mem0 m rs k) (hk : ∀ i < rs.length, k i = 0) :
    ∃ l, m.results = some l := by
  have key : ∀ t ∈ m.threads, ∃ b, t.prog = .ret b := by
    intro t ht
    obtain ⟨i, hi, rfl⟩ := List.mem_iff_getElem.1 ht
    have hir : i < rs.length := h.length ▸ hi
    obtain ⟨mem, -, hrun, -, -, hc⟩ := h.on i _ _ (List.getElem?_eq_getElem hi) (List.getElem?_eq_getElem hir)
    rw [hk i hir] at hc
    exact BProg.finished hrun hc
  unfold BMachine.results
  revert key
  generalize m.threads = ts
  intro key
  induction ts with
  | nil => exact ⟨[], rfl⟩
  | cons t ts ih =>
    obtain ⟨b, hb⟩ := key t List.mem_cons_self
    obtain ⟨l, hl⟩ := ih fun u hu => key u (List.mem_cons_of_mem _ hu)
    refine ⟨b :: l, ?_⟩
    rw [List.mapM_cons, hl, hb]
    rfl

/-- Goroutines which do not write what the others use compute what each computes alone. -/
theorem bnoninterference {n : Nat} {mem : Cell → Int} {ps : List (BProg α)} {rs : List (α × (Cell → Int) × Nat)}
    {R W : Nat → Cell → Prop} (hrun : List.Forall₂ (fun p r => BProg.run p mem n = .ok r) ps rs)
    (hsafe : ∀ (i : Nat) (p : BProg α), ps[i]? = some p → p.Safe ⟨n, R i, W i⟩ (fun _ => True)) (hap : NoShare rs.length R W) :
    ∃ k : Nat, ∀ sched : List Nat, (∀ i ∈ sched, i < ps.length) → ∃ m, (BMachine.start n mem ps).exec sched = .ok m ∧
      (∀ c < n, (∀ i < ps.length, ¬ W i c) → m.shared c = mem c) ∧
      (∀ l, m.results = some l → l = rs.map Prod.fst ∧ ∀ i r, rs[i]? = some r → ∀ c < n, W i c → m.shared c = r.2.1 c) ∧
      ((∀ i < ps.length, k ≤ sched.count i) → m.results = some (rs.map Prod.fst)) := by
  have hlen := hrun.length_eq
  let cost : Nat → Nat := fun i => ((ps.map fun p => p.cost mem n)[i]?).getD 0
  have hinv : BMachineInv n R W mem (BMachine.start n mem ps) rs cost := by
    refine ⟨rfl, ?_, fun _ _ _ => rfl, ?_⟩
    · rw [BMachine.start, List.length_map, hlen]
    · intro i t r ht hr
      simp only [BMachine.start, List.getElem?_map] at ht
      cases hp : ps[i]? with
      | none => rw [hp] at ht; cases ht
      | some p =>
        rw [hp] at ht
        cases ht
        have hi : i < ps.length := by
          by_contra hc
          rw [List.getElem?_eq_none (by omega)] at hp
          cases hp
        have hi' : i < rs.length := hlen ▸ hi
        have h1 := List.Forall₂.get hrun hi hi'
        have hp' := hp
        rw [List.getElem?_eq_getElem hi] at hp
        rw [List.getElem?_eq_getElem hi'] at hr
        simp only [List.get_eq_getElem, Option.some.inj hp, Option.some.inj hr] at h1
        refine ⟨mem, fun c _ => (ite_self _).symm, h1, hsafe i p hp', le_refl _, ?_⟩
        simp [cost, List.getElem?_map, hp']
  refine ⟨((List.range ps.length).map cost).sum, fun sched hs => ?_⟩
  obtain ⟨m, e, inv⟩ := hinv.exec hap sched (hlen ▸ hs)
  refine ⟨m, e, fun c hc hw => inv.kept c hc (hlen ▸ hw), fun l hl => inv.results hl, fun hc => ?_⟩
  obtain ⟨l, hl⟩ := inv.done fun i hi => by
    rw [← hlen] at hi
    have h1 : cost i ≤ ((List.range ps.length).map cost).sum := List.single_le_sum (fun _ _ => Nat.zero_le _) _
      (List.mem_map.2 ⟨i, List.mem_range.2 hi, rfl⟩)
    have := hc i hi
    omega
  rw [hl, (inv.results hl).1]

end Verif

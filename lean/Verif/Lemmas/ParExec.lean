import Mathlib.Tactic.Common
import Mathlib.Data.List.Basic
import Mathlib.Data.List.Forall2
import Verif.Lemmas.ParSafe
import Verif.Lemmas.ParRun
import Verif.Lemmas.HeapFrame

/-!
# Interleaved programs which do not write what the others use
-/

namespace Verif

variable {α β : Type}

/-- The number of operations of a program run without interruption. -/
def Prog.cost : Prog α → Heap → Nat
  | .ret _, _ => 0
  | .panic, _ => 0
  | .load a k, s => match Mem.load a s with
    | .ok r => (k r.1).cost r.2 + 1
    | .panic => 0
  | .new k, s => match Mem.new s with
    | .ok r => (k r.1).cost r.2 + 1
    | .panic => 0
  | .setX p v k, s => match Mem.setX p v s with
    | .ok r => k.cost r.2 + 1
    | .panic => 0
  | .setY p v k, s => match Mem.setY p v s with
    | .ok r => k.cost r.2 + 1
    | .panic => 0

/-- Two heaps of the same size which agree where the program may read. -/
structure HeapAgree (n : Nat) (R W : Addr → Prop) (s h : Heap) : Prop where
  len : s.length = h.length
  get : ∀ c : Nat, Rd n R W c → s[c]? = h[c]?

theorem HeapAgree.set {n : Nat} {R W : Addr → Prop} {s h : Heap} (a : HeapAgree n R W s h) (p : Addr) (v : P256) :
    HeapAgree n R W (s.set p v) (h.set p v) := by
  refine ⟨by simp [a.len], fun c hc => ?_⟩
  have := a.get c hc
  simp only [List.getElem?_set, a.len, this]

theorem HeapAgree.push {n : Nat} {R W : Addr → Prop} {s h : Heap} (a : HeapAgree n R W s h) (v : P256) :
    HeapAgree n R W (s ++ [v]) (h ++ [v]) := by
  refine ⟨by simp [a.len], fun c hc => ?_⟩
  have := a.get c hc
  by_cases hl : c < s.length
  · rw [List.getElem?_append_left hl, List.getElem?_append_left (a.len ▸ hl), this]
  · rw [List.getElem?_append_right (by omega), List.getElem?_append_right (by rw [← a.len]; omega), a.len]

/-- Unchanged below `n` and outside `W`, and not shorter. -/
structure HeapKept (n : Nat) (W : Addr → Prop) (h h' : Heap) : Prop where
  len : h.length ≤ h'.length
  get : ∀ c : Nat, c < n → ¬ W c → h'[c]? = h[c]?

/-- One operation, on the program's own heap `s` and on another one which agrees with it. -/
theorem Prog.step_agree {n : Nat} {R W : Addr → Prop} {p : Prog α} {Q : α → Prop} {s h s' : Heap} {a : α} (hp : p.Safe n R W Q)
    (e : p.run s = .ok (a, s')) (ha : HeapAgree n R W s h) (hn : n ≤ h.length) :
    ∃ p' s1 h1, p.step h = .ok (p', h1) ∧ p'.Safe n R W Q ∧ p'.run s1 = .ok (a, s') ∧ HeapAgree n R W s1 h1 ∧
      HeapKept n W h h1 ∧ p'.cost s1 ≤ p.cost s - 1 := by
  cases p with
  | ret b => exact ⟨.ret b, s, h, rfl, hp, e, ha, ⟨le_rfl, fun _ _ _ => rfl⟩, Nat.zero_le _⟩
  | panic => cases e
  | load b k =>
    obtain ⟨⟨v, s1⟩, e1, e2⟩ := Res.bind_eq_ok.1 e
    have ec : (Prog.load b k).cost s = (k v).cost s1 + 1 := by simp only [Prog.cost, e1]
    obtain ⟨w, e3, e4⟩ := Res.bind_eq_ok.1 e1
    cases e4
    have hb : h[b]? = s[b]? := (ha.get b hp.1).symm
    refine ⟨k v, s, h, ?_, hp.2 v, e2, ha, ⟨le_rfl, fun _ _ _ => rfl⟩, by rw [ec]; omega⟩
    simp only [Prog.step, Mem.load, hb, e3, Res.ok_bind]
  | new k =>
    have ec : (Prog.new k).cost s = (k s.length).cost (s ++ [⟨none, none⟩]) + 1 := rfl
    have e' : (k s.length).run (s ++ [⟨none, none⟩]) = .ok (a, s') := e
    refine ⟨k s.length, s ++ [⟨none, none⟩], h ++ [⟨none, none⟩], ?_, hp s.length (ha.len ▸ hn), e', ha.push _, ⟨by simp, ?_⟩,
      by rw [ec]; omega⟩
    · rw [ha.len]; rfl
    · intro c hc _
      rw [List.getElem?_append_left (by omega)]
  | setX b v k =>
    obtain ⟨⟨u, s1⟩, e1, e2⟩ := Res.bind_eq_ok.1 e
    have ec : (Prog.setX b v k).cost s = k.cost s1 + 1 := by simp only [Prog.cost, e1]
    obtain ⟨w, e3, e4⟩ := Res.bind_eq_ok.1 e1
    cases e4
    have hb : h[b]? = s[b]? := (ha.get b (hp.1.imp id Or.inr)).symm
    refine ⟨k, s.set b ⟨v, w.Y⟩, h.set b ⟨v, w.Y⟩, ?_, hp.2, e2, ha.set _ _, ⟨by simp, ?_⟩, by rw [ec]; omega⟩
    · simp only [Prog.step, Mem.setX, hb, e3, Res.ok_bind]
    · intro c hc hw
      rw [List.getElem?_set_ne]
      rintro rfl
      exact hp.1.elim (fun h' => absurd h' (by omega)) hw
  | setY b v k =>
    obtain ⟨⟨u, s1⟩, e1, e2⟩ := Res.bind_eq_ok.1 e
    have ec : (Prog.setY b v k).cost s = k.cost s1 + 1 := by simp only [Prog.cost, e1]
    obtain ⟨w, e3, e4⟩ := Res.bind_eq_ok.1 e1
    cases e4
    have hb : h[b]? = s[b]? := (ha.get b (hp.1.imp id Or.inr)).symm
    refine ⟨k, s.set b ⟨w.X, v⟩, h.set b ⟨w.X, v⟩, ?_, hp.2, e2, ha.set _ _, ⟨by simp, ?_⟩, by rw [ec]; omega⟩
    · simp only [Prog.step, Mem.setY, hb, e3, Res.ok_bind]
    · intro c hc hw
      rw [List.getElem?_set_ne]
      rintro rfl
      exact hp.1.elim (fun h' => absurd h' (by omega)) hw

/-- A goroutine is somewhere in the run which yields `r` when it has the memory for itself; at most `k` operations are left. -/
def Goroutine.On (n : Nat) (R W : Addr → Prop) (shared : Heap) (t : Goroutine α) (r : α × Heap) (k : Nat) : Prop :=
  ∃ s, HeapAgree n R W s (shared ++ t.own) ∧ t.prog.run s = .ok r ∧ t.prog.Safe n R W (fun _ => True) ∧ t.prog.cost s ≤ k

/-- The goroutines of a machine, each on its own run. -/
structure MachineInv (n : Nat) (R W : Nat → Addr → Prop) (sh0 : Heap) (m : Machine α) (rs : List (α × Heap)) (k : Nat → Nat) :
    Prop where
  shared : m.shared.length = n
  length : m.threads.length = rs.length
  frame : ∀ c : Nat, (∀ i < rs.length, ¬ W i c) → m.shared[c]? = sh0[c]?
  on : ∀ (i : Nat) (t : Goroutine α) (r : α × Heap), m.threads[i]? = some t → rs[i]? = some r → t.On n (R i) (W i) m.shared r (k i)

/-- No goroutine writes what another one uses. -/
def NoShare (N : Nat) (R W : Nat → Addr → Prop) : Prop :=
  ∀ (i j c : Nat), i < N → j < N → i ≠ j → W i c → ¬ R j c ∧ ¬ W j c

theorem MachineInv.step {n : Nat} {R W : Nat → Addr → Prop} {sh0 : Heap} {m : Machine α} {rs : List (α × Heap)} {k : Nat → Nat}
    (h : MachineInv n R W sh0 m rs k) (hap : NoShare rs.length R W) {i : Nat} (hi : i < rs.length) :
    ∃ m', m.step i = .ok m' ∧ MachineInv n R W sh0 m' rs (Function.update k i (k i - 1)) := by
  have hit : i < m.threads.length := h.length ▸ hi
  obtain ⟨t, ht⟩ : ∃ t, m.threads[i]? = some t := ⟨_, List.getElem?_eq_getElem hit⟩
  obtain ⟨⟨a, s'⟩, hr⟩ : ∃ r, rs[i]? = some r := ⟨_, List.getElem?_eq_getElem hi⟩
  obtain ⟨s, hag, hrun, hsafe, hcost⟩ := h.on i t _ ht hr
  have hn : n ≤ (m.shared ++ t.own).length := by rw [List.length_append, h.shared]; omega
  obtain ⟨p', s1, h1, e, hs', hrun', hag', hk, hc'⟩ := Prog.step_agree hsafe hrun hag hn
  have hlen1 : n ≤ h1.length := hn.trans hk.len
  have hsp : h1.take n ++ h1.drop n = h1 := List.take_append_drop n h1
  have htake : (h1.take n).length = n := by rw [List.length_take]; omega
  have hget : ∀ c : Nat, ¬ W i c → (h1.take n)[c]? = m.shared[c]? := by
    intro c hc
    by_cases hcn : c < n
    · rw [List.getElem?_take_of_lt hcn, hk.get c hcn hc, List.getElem?_append_left (by rw [h.shared]; exact hcn)]
    · rw [List.getElem?_eq_none (by rw [htake]; omega), List.getElem?_eq_none (by rw [h.shared]; omega)]
  refine ⟨⟨h1.take n, m.threads.set i ⟨h1.drop n, p'⟩⟩, ?_, ⟨htake, by simp [h.length], ?_, ?_⟩⟩
  · have e' : idx m.threads i = .ok t := by simp only [idx, ht]; rfl
    simp only [Machine.step, e', Res.ok_bind, e, h.shared]
  · intro c hc
    rw [← h.frame c hc]
    exact hget c (hc i hi)
  · intro j u r hu hr'
    by_cases hij : i = j
    · subst hij
      rw [List.getElem?_set_self hit] at hu
      obtain rfl := Option.some.inj hu
      obtain rfl := Option.some.inj (hr.symm.trans hr')
      refine ⟨s1, ?_, hrun', hs', ?_⟩
      · rw [hsp]; exact hag'
      · rw [Function.update_self]; exact hc'.trans (Nat.sub_le_sub_right hcost 1)
    · rw [List.getElem?_set_ne hij] at hu
      obtain ⟨s2, ag2, run2, safe2, cost2⟩ := h.on j u r hu hr'
      refine ⟨s2, ⟨?_, fun c hc => ?_⟩, run2, safe2, ?_⟩
      · rw [ag2.len, List.length_append, List.length_append, htake, h.shared]
      · rw [ag2.get c hc]
        by_cases hcn : c < n
        · rw [List.getElem?_append_left (by rw [h.shared]; exact hcn), List.getElem?_append_left (by rw [htake]; exact hcn)]
          have hjr : j < rs.length := by
            by_contra hc'
            rw [List.getElem?_eq_none (by omega)] at hr'
            cases hr'
          refine (hget c fun hw => ?_).symm
          obtain ⟨h1', h2'⟩ := hap i j c hi hjr hij hw
          exact hc.elim (fun h' => absurd h' (by omega)) (fun h' => h'.elim h1' h2')
        · rw [List.getElem?_append_right (by rw [h.shared]; omega), List.getElem?_append_right (by rw [htake]; omega), h.shared,
            htake]
      · rw [Function.update_of_ne (Ne.symm hij)]; exact cost2

theorem MachineInv.exec {n : Nat} {R W : Nat → Addr → Prop} {sh0 : Heap} {rs : List (α × Heap)} (hap : NoShare rs.length R W) :
    ∀ (sched : List Nat) {m : Machine α} {k : Nat → Nat}, MachineInv n R W sh0 m rs k → (∀ i ∈ sched, i < rs.length) →
    ∃ m', m.exec sched = .ok m' ∧ MachineInv n R W sh0 m' rs (fun i => k i - sched.count i)
  | [], m, k, h, _ => ⟨m, rfl, by simpa using h⟩
  | i :: is, m, k, h, hs => by
    obtain ⟨m1, e1, h1⟩ := h.step hap (hs i List.mem_cons_self)
    obtain ⟨m2, e2, h2⟩ := MachineInv.exec hap is h1 fun j hj => hs j (List.mem_cons_of_mem _ hj)
    refine ⟨m2, ?_, ?_⟩
    · simp only [Machine.exec, e1, Res.ok_bind, e2]
    · convert h2 using 2 with j
      by_cases hij : i = j
      · subst hij; rw [Function.update_self, List.count_cons_self]; omega
      · rw [Function.update_of_ne (Ne.symm hij), List.count_cons_of_ne hij]

theorem mapM_some {f : β → Option α} : ∀ {l : List β} {r : List α}, l.mapM f = some r ↔ List.Forall₂ (fun b a => f b = some a) l r
  | [], r => by
    constructor
    · intro h; cases h; exact .nil
    · intro h; cases h; rfl
  | b :: l, r => by
    rw [List.mapM_cons]
    constructor
    · intro h
      cases hb : f b with
      | none => rw [hb] at h; cases h
      | some a =>
        rw [hb] at h
        cases hl : l.mapM f with
        | none => rw [hl] at h; cases h
        | some as => rw [hl] at h; cases h; exact .cons hb (mapM_some.1 hl)
    · intro h
      cases h with
      | cons h1 h2 => rw [h1, mapM_some.2 h2]; rfl

theorem MachineInv.results {n : Nat} {R W : Nat → Addr → Prop} {sh0 : Heap} {m : Machine α} {rs : List (α × Heap)} {k : Nat → Nat}
    (h : MachineInv n R W sh0 m rs k) {l : List α} (hl : m.results = some l) :
    l = rs.map Prod.fst ∧ ∀ i r, rs[i]? = some r → ∀ c : Nat, c < n → W i c → m.shared[c]? = r.2[c]? := by
  have hf := mapM_some.1 hl
  have hlen : l.length = rs.length := by rw [← hf.length_eq, h.length]
  have key : ∀ i t a r, m.threads[i]? = some t → l[i]? = some a → rs[i]? = some r →
      a = r.1 ∧ ∀ c : Nat, c < n → W i c → m.shared[c]? = r.2[c]? := by
    intro i t a r ht ha hr
    have hi : i < m.threads.length := by
      by_contra hc
      rw [List.getElem?_eq_none (by omega)] at ht
      cases ht
    have hi' : i < l.length := by rw [← hf.length_eq]; exact hi
    have h1 := List.Forall₂.get hf hi hi'
    have ht' : m.threads[i] = t := by rw [List.getElem?_eq_getElem hi] at ht; exact Option.some.inj ht
    have ha' : l[i] = a := by rw [List.getElem?_eq_getElem hi'] at ha; exact Option.some.inj ha
    simp only [List.get_eq_getElem, ht', ha'] at h1
    obtain ⟨s, hag, hrun, -, -⟩ := h.on i t r ht hr
    cases hp : t.prog with
    | ret b =>
      rw [hp] at h1 hrun
      cases h1
      cases hrun
      refine ⟨rfl, fun c hc hw => ?_⟩
      rw [hag.get c (.inr (.inr hw)), List.getElem?_append_left (by rw [h.shared]; exact hc)]
    | _ => rw [hp] at h1; cases h1
  constructor
  · refine List.ext_getElem? fun i => ?_
    rw [List.getElem?_map]
    by_cases hi : i < rs.length
    · have e1 := List.getElem?_eq_getElem (h.length ▸ hi : i < m.threads.length)
      have e2 := List.getElem?_eq_getElem (hlen ▸ hi : i < l.length)
      have e3 := List.getElem?_eq_getElem hi
      rw [e2, e3, (key i _ _ _ e1 e2 e3).1]
      rfl
    · rw [List.getElem?_eq_none (by omega), List.getElem?_eq_none (by omega)]; rfl
  · intro i r hr
    have hi : i < rs.length := by
      by_contra hc
      rw [List.getElem?_eq_none (by omega)] at hr
      cases hr
    have e1 := List.getElem?_eq_getElem (h.length ▸ hi : i < m.threads.length)
    have e2 := List.getElem?_eq_getElem (hlen ▸ hi : i < l.length)
    exact (key i _ _ _ e1 e2 hr).2

/-- A program which has no operation left has finished. -/
theorem Prog.finished {p : Prog α} {s s' : Heap} {a : α} (e : p.run s = .ok (a, s')) (h : p.cost s ≤ 0) : ∃ b, p = .ret b := by
  cases p with
  | ret b => exact ⟨b, rfl⟩
  | panic => cases e
  | load b k =>
    obtain ⟨r, e1, -⟩ := Res.bind_eq_ok.1 e
    simp only [Prog.cost, e1] at h
    omega
  | new k =>
    have : (Prog.new k).cost s = (k s.length).cost (s ++ [⟨none, none⟩]) + 1 := rfl
    omega
  | setX b v k =>
    obtain ⟨r, e1, -⟩ := Res.bind_eq_ok.1 e
    simp only [Prog.cost, e1] at h
    omega
  | setY b v k =>
    obtain ⟨r, e1, -⟩ := Res.bind_eq_ok.1 e
    simp only [Prog.cost, e1] at h
    omega

theorem MachineInv.done {n : Nat} {R W : Nat → Addr → Prop} {sh0 : Heap} {m : Machine α} {rs : List (α × Heap)} {k : Nat → Nat}
    (h : MachineInv n R W sh0 m rs k) (hk : ∀ i < rs.length, k i = 0) : ∃ l, m.results = some l := by
  have key : ∀ t ∈ m.threads, ∃ b, t.prog = .ret b := by
    intro t ht
    obtain ⟨i, hi, rfl⟩ := List.mem_iff_getElem.1 ht
    have hir : i < rs.length := h.length ▸ hi
    obtain ⟨s, -, hrun, -, hc⟩ := h.on i _ _ (List.getElem?_eq_getElem hi) (List.getElem?_eq_getElem hir)
    rw [hk i hir] at hc
    exact Prog.finished (a := rs[i].1) (s' := rs[i].2) hrun hc
  unfold Machine.results
  revert key
  generalize m.threads = ts
  intro key
  induction ts with
  | nil => exact ⟨[], rfl⟩
  | cons t ts ih =>
    obtain ⟨b, hb⟩ := key t List.mem_cons_self
    obtain ⟨l, hl⟩ := ih fun u hu => key u (List.mem_cons_of_mem _ hu)
    refine ⟨b :: l, ?_⟩
    rw [List.mapM_cons, hl, hb]
    rfl

/-- Goroutines which do not write what the others use compute what each computes alone. -/
theorem noninterference {sh : Heap} {ps : List (Prog α)} {rs : List (α × Heap)} {R W : Nat → Addr → Prop}
    (hrun : List.Forall₂ (fun p r => Prog.run p sh = .ok r) ps rs)
    (hsafe : ∀ (i : Nat) (p : Prog α), ps[i]? = some p → p.Safe sh.length (R i) (W i) (fun _ => True)) (hap : NoShare rs.length R W) :
    ∃ k : Nat → Nat, ∀ sched : List Nat, (∀ i ∈ sched, i < rs.length) → ∃ m, (Machine.start sh ps).exec sched = .ok m ∧
      MachineInv sh.length R W sh m rs (fun i => k i - sched.count i) := by
  refine ⟨fun i => ((ps.map fun p => p.cost sh)[i]?).getD 0, fun sched hs => ?_⟩
  refine MachineInv.exec hap sched (k := fun i => ((ps.map fun p => p.cost sh)[i]?).getD 0) ⟨rfl, ?_, fun _ _ => rfl, ?_⟩ hs
  · rw [Machine.start, List.length_map, hrun.length_eq]
  · intro i t r ht hr
    simp only [Machine.start, List.getElem?_map] at ht
    cases hp : ps[i]? with
    | none => rw [hp] at ht; cases ht
    | some p =>
      rw [hp] at ht
      cases ht
      have hi : i < ps.length := by
        by_contra hc
        rw [List.getElem?_eq_none (by omega)] at hp
        cases hp
      have hi' : i < rs.length := hrun.length_eq ▸ hi
      have h1 := List.Forall₂.get hrun hi hi'
      rw [List.getElem?_eq_getElem hi] at hp
      rw [List.getElem?_eq_getElem hi'] at hr
      simp only [List.get_eq_getElem, Option.some.inj hp, Option.some.inj hr] at h1
      refine ⟨sh, ⟨by simp [Machine.start], fun c _ => by simp [Machine.start]⟩, h1, hsafe i p ?_, ?_⟩
      · rw [List.getElem?_eq_getElem hi, Option.some.inj hp]
      · simp [List.getElem?_map, List.getElem?_eq_getElem hi, Option.some.inj hp]

end Verif

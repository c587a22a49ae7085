import Verif.Lemmas.ParExec
import Verif.Lemmas.HeapRun
import Verif.Lemmas.BpRepeat

/-!
# Goroutines which run for a while without interruption
-/

namespace Verif

variable {α β γ : Type}

theorem Prog.bind_assoc (p : Prog α) (f : α → Prog β) (g : β → Prog γ) : p >>= f >>= g = p >>= fun a => f a >>= g := by
  change (p.bind f).bind g = p.bind fun a => (f a).bind g
  induction p with
  | ret a => rfl
  | panic => rfl
  | load a k ih => simp only [Prog.bind, ih]
  | new k ih => simp only [Prog.bind, ih]
  | setX p v k ih => simp only [Prog.bind, ih]
  | setY p v k ih => simp only [Prog.bind, ih]

theorem Prog.pure_bind (a : α) (f : α → Prog β) : (pure a : Prog α) >>= f = f a := rfl

/-- `k` operations. -/
def Prog.iter : Nat → Prog α → Heap → Res (Prog α × Heap)
  | 0, p, h => .ok (p, h)
  | k + 1, p, h => p.step h >>= fun r => Prog.iter k r.1 r.2

/-- Some number of operations brings `q >>= f` to `f`. -/
theorem Prog.reach (q : Prog α) : ∀ {h h' : Heap} {a : α}, q.run h = .ok (a, h') →
    ∃ k, ∀ f : α → Prog β, Prog.iter k (q >>= f) h = .ok (f a, h') := by
  induction q with
  | ret b => intro h h' a e; cases e; exact ⟨0, fun _ => rfl⟩
  | panic => intro h h' a e; cases e
  | load b k ih =>
    intro h h' a e
    obtain ⟨⟨v, s1⟩, e1, e2⟩ := Res.bind_eq_ok.1 e
    obtain ⟨j, hj⟩ := ih v e2
    refine ⟨j + 1, fun f => ?_⟩
    change ((Mem.load b h >>= fun r => .ok ((k r.1).bind f, r.2)) >>= fun r => Prog.iter j r.1 r.2) = _
    rw [e1]
    exact hj f
  | new k ih =>
    intro h h' a e
    have e' : (k h.length).run (h ++ [⟨none, none⟩]) = .ok (a, h') := e
    obtain ⟨j, hj⟩ := ih h.length e'
    exact ⟨j + 1, fun f => hj f⟩
  | setX p v k ih =>
    intro h h' a e
    obtain ⟨⟨u, s1⟩, e1, e2⟩ := Res.bind_eq_ok.1 e
    obtain ⟨j, hj⟩ := ih e2
    refine ⟨j + 1, fun f => ?_⟩
    change ((Mem.setX p v h >>= fun r => .ok (k.bind f, r.2)) >>= fun r => Prog.iter j r.1 r.2) = _
    rw [e1]
    exact hj f
  | setY p v k ih =>
    intro h h' a e
    obtain ⟨⟨u, s1⟩, e1, e2⟩ := Res.bind_eq_ok.1 e
    obtain ⟨j, hj⟩ := ih e2
    refine ⟨j + 1, fun f => ?_⟩
    change ((Mem.setY p v h >>= fun r => .ok (k.bind f, r.2)) >>= fun r => Prog.iter j r.1 r.2) = _
    rw [e1]
    exact hj f

theorem Prog.step_length {p p' : Prog α} {h h' : Heap} (e : p.step h = .ok (p', h')) : h.length ≤ h'.length := by
  cases p with
  | ret b => cases e; exact le_rfl
  | panic => cases e
  | load b k =>
    obtain ⟨r, e1, e2⟩ := Res.bind_eq_ok.1 e
    obtain ⟨w, -, e4⟩ := Res.bind_eq_ok.1 e1
    cases e4; cases e2; exact le_rfl
  | new k => cases e; simp
  | setX b v k =>
    obtain ⟨r, e1, e2⟩ := Res.bind_eq_ok.1 e
    obtain ⟨w, -, e4⟩ := Res.bind_eq_ok.1 e1
    cases e4; cases e2; simp
  | setY b v k =>
    obtain ⟨r, e1, e2⟩ := Res.bind_eq_ok.1 e
    obtain ⟨w, -, e4⟩ := Res.bind_eq_ok.1 e1
    cases e4; cases e2; simp

theorem Machine.exec_append (m : Machine α) (a b : List Nat) : m.exec (a ++ b) = m.exec a >>= fun m' => m'.exec b := by
  induction a generalizing m with
  | nil => rfl
  | cons i a ih =>
    simp only [List.cons_append, Machine.exec]
    cases m.step i with
    | panic => rfl
    | ok m' => simp only [Res.ok_bind, ih]

/-- A goroutine which runs without interruption. -/
theorem Machine.exec_alone {i : Nat} : ∀ {k : Nat} {m : Machine α} {t : Goroutine α} {p' : Prog α} {h' : Heap},
    m.threads[i]? = some t → Prog.iter k t.prog (m.shared ++ t.own) = .ok (p', h') →
    m.exec (List.replicate k i) = .ok ⟨h'.take m.shared.length, m.threads.set i ⟨h'.drop m.shared.length, p'⟩⟩ ∧
      m.shared.length ≤ h'.length
  | 0, m, t, p', h', ht, e => by
    cases e
    obtain ⟨hi, rfl⟩ := List.getElem?_eq_some_iff.1 ht
    refine ⟨?_, by simp⟩
    have hself : m.threads.set i (m.threads[i]) = m.threads := List.set_getElem_self hi
    simp only [List.take_left', List.drop_left', hself]
    rfl
  | k + 1, m, t, p', h', ht, e => by
    obtain ⟨⟨p1, h1⟩, e1, e2⟩ := Res.bind_eq_ok.1 e
    obtain ⟨hi, -⟩ := List.getElem?_eq_some_iff.1 ht
    have hl : m.shared.length ≤ h1.length := by
      have := Prog.step_length e1
      rw [List.length_append] at this
      omega
    have htk : (h1.take m.shared.length).length = m.shared.length := by rw [List.length_take]; omega
    have e' : idx m.threads i = .ok t := by simp only [idx, ht]; rfl
    have es : m.step i = .ok ⟨h1.take m.shared.length, m.threads.set i ⟨h1.drop m.shared.length, p1⟩⟩ := by
      simp only [Machine.step, e', Res.ok_bind, e1]
    obtain ⟨e3, h3⟩ := Machine.exec_alone (k := k) (m := ⟨h1.take m.shared.length, m.threads.set i ⟨h1.drop m.shared.length, p1⟩⟩)
      (t := ⟨h1.drop m.shared.length, p1⟩) (p' := p') (h' := h') (List.getElem?_set_self hi)
      (by rw [List.take_append_drop]; exact e2)
    rw [htk] at e3 h3
    refine ⟨?_, h3⟩
    rw [List.replicate_succ, Machine.exec, es, Res.ok_bind, e3, List.set_set]

/-! ### The last operation of `Verify` -/

/-- `Verify` ends by reading the point it has written. -/
theorem Par.bpVerifyM_last (E : Ext) (proof : BPProofM) :
    ∃ q : Prog Bool, Par.bpVerifyM E proof = q >>= fun b => Par.load proof.IP.Params.P >>= fun v => pure (b && v.isZero) := by
  refine ⟨do
    let (x, _) ← Par.hashBPM E proof.T1 proof.T2
    let (y, z) ← Par.hashBPM E proof.A proof.S
    let hprime ← Par.updateGeneratorsM E proof.Params.Hh y proof.Params.N
    let c65 ← Par.check65M E proof x y z
    let c67 ← Par.check67M E proof hprime x y z
    let (g, h) ← Par.ipVerifyLoopM E proof.IP.Params.P proof.IP.Ls proof.IP.Rs proof.IP.Params.Gg proof.IP.Params.Hh proof.IP.N
    let g0 ← Prog.lift (idx g 0)
    let h0 ← Prog.lift (idx h 0)
    let rhs ← Par.newScalarMultM E g0 proof.IP.A
    let hb ← Par.newScalarMultM E h0 proof.IP.B
    Par.multiplyM E rhs rhs hb
    let Uab ← Par.newScalarMultM E proof.IP.U ((proof.IP.A * proof.IP.B) % ORDER)
    Par.multiplyM E rhs rhs Uab
    Par.negM E proof.IP.Params.P proof.IP.Params.P
    Par.multiplyM E proof.IP.Params.P proof.IP.Params.P rhs
    pure (c65 && c67), ?_⟩
  simp only [Par.bpVerifyM, Par.ipVerifyM, Par.isZeroM, Prog.bind_assoc, Prog.pure_bind]

theorem bpVerify_last {E : Ext} {w : BPProof} {v : Bool} {P : P256} (h : bpVerify E w = .ok (v, P)) :
    ∃ c : Bool, v = (c && P.isZero) ∧ ∀ (Q : P256) (v' : Bool) (P' : P256), bpVerify E (w.afterVerify Q) = .ok (v', P') →
      v' = (c && P'.isZero) := by
  obtain ⟨r, hr⟩ := bpVerify_head E w
  have h0 := hr w.IP
  rw [show ({ w with IP := w.IP } : BPProof) = w from rfl, h] at h0
  cases r with
  | panic => cases h0
  | ok c =>
    have key : ∀ (ip : IPProof) (v' : Bool) (P' : P256), (ipVerify E ip >>= fun q => Res.ok (c && q.1, q.2)) = .ok (v', P') →
        v' = (c && P'.isZero) := by
      intro ip v' P' e
      obtain ⟨⟨u, Pu⟩, e1, e2⟩ := Res.bind_eq_ok.1 e
      obtain ⟨⟨g, h, P3⟩, -, e1⟩ := Res.bind_eq_ok.1 e1
      obtain ⟨g0, -, e1⟩ := Res.bind_eq_ok.1 e1
      obtain ⟨h0', -, e1⟩ := Res.bind_eq_ok.1 e1
      obtain ⟨rfl, rfl⟩ := Prod.mk.inj (Res.ok.inj e1)
      obtain ⟨rfl, rfl⟩ := Prod.mk.inj (Res.ok.inj e2)
      rfl
    refine ⟨c, key _ _ _ h0.symm, fun Q v' P' e => ?_⟩
    rw [BPProof.afterVerify, hr] at e
    exact key _ _ _ e

/-- Both goroutines which verify the proof find the point which the second one has stored. -/
theorem race (E : Ext) {proof : BPProofM} {w : BPProof} {sh : Heap} (h : proof.Reads sh w) (hP : proof.IP.Params.P ∉ proof.cells)
    {P1 P2 : P256} (h1 : bpVerify E w = .ok (true, P1)) (h2 : bpVerify E (w.afterVerify P1) = .ok (false, P2)) :
    ∃ sched m, (Machine.start sh [Par.bpVerifyM E proof, Par.bpVerifyM E proof]).exec sched = .ok m ∧
      m.results = some [false, false] := by
  have hsep : proof.IP.Params.P ∉ proof.IP.Ls ∧ proof.IP.Params.P ∉ proof.IP.Rs ∧ proof.IP.Params.P ≠ proof.IP.U := by
    have hP' := hP
    simp only [BPProofM.cells, List.mem_append, List.mem_cons, List.not_mem_nil, or_false, not_or] at hP'
    exact ⟨hP'.1.1.1.1.2, hP'.1.1.1.2, hP'.1.1.1.1.1.2.2.2.2.2.2⟩
  have hPn : proof.IP.Params.P < sh.length := (List.getElem?_eq_some_iff.1 h.IP.Params.P).1
  -- the first verification alone
  have s1 := bpVerifyM_sim E h.fixed h.IP.Params.P hsep.1 hsep.2.1 hsep.2.2
  unfold Mem.Sim at s1
  rw [h1] at s1
  obtain ⟨r1, sh1, e1, hg1, rfl, hP1⟩ := s1
  -- the second one, on the shared structs
  have hgt : GrowX proof.IP.Params.P sh (sh1.take sh.length) := by
    intro i v hi e
    rw [List.getElem?_take_of_lt (List.getElem?_eq_some_iff.1 e).1]
    exact hg1 i v hi e
  have hPt : (sh1.take sh.length)[proof.IP.Params.P]? = some P1 := by rw [List.getElem?_take_of_lt hPn]; exact hP1
  have s2 := bpVerifyM_sim E (s := sh1.take sh.length) ((h.fixed.growX hgt hP).afterVerify P1) hPt hsep.1 hsep.2.1 hsep.2.2
  unfold Mem.Sim at s2
  rw [h2] at s2
  obtain ⟨r2, sh2, e2, -, rfl, hP2⟩ := s2
  -- the flags
  obtain ⟨c, hc1, hc2⟩ := bpVerify_last h1
  obtain ⟨hc, -⟩ := Bool.and_eq_true_iff.1 hc1.symm
  have hz : P2.isZero = false := by
    have := hc2 _ _ _ h2
    rw [hc, Bool.true_and] at this
    exact this.symm
  -- the program up to its last operation
  obtain ⟨q, hq⟩ := Par.bpVerifyM_last E proof
  have e1' : (Par.bpVerifyM E proof).run sh = .ok (true, sh1) := by rw [Par.bpVerifyM_run]; exact e1
  have e2' : (Par.bpVerifyM E proof).run (sh1.take sh.length) = .ok (false, sh2) := by rw [Par.bpVerifyM_run]; exact e2
  have hsplit : ∃ b, q.run sh = .ok (b, sh1) := by
    rw [hq, Prog.run_bind] at e1'
    obtain ⟨⟨b, t⟩, eq1, eq2⟩ := Res.bind_eq_ok.1 e1'
    replace eq2 : (Par.load proof.IP.Params.P >>= fun v => (pure (b && v.isZero) : Prog Bool)).run t = .ok (true, sh1) := eq2
    rw [Prog.run_bind, Par.load_run] at eq2
    obtain ⟨⟨v, t'⟩, eq3, eq4⟩ := Res.bind_eq_ok.1 eq2
    obtain ⟨v', -, eq5⟩ := Res.bind_eq_ok.1 eq3
    obtain ⟨rfl, rfl⟩ := Prod.mk.inj (Res.ok.inj eq5)
    obtain ⟨-, rfl⟩ := Prod.mk.inj (Res.ok.inj eq4)
    exact ⟨b, eq1⟩
  obtain ⟨b, eq1⟩ := hsplit
  obtain ⟨k1, hk1⟩ := Prog.reach (β := Bool) q eq1
  obtain ⟨k2, hk2⟩ := Prog.reach (β := Bool) (Par.bpVerifyM E proof) e2'
  -- the schedule
  have x1 := Machine.exec_alone (i := 0) (k := k1) (m := Machine.start sh [Par.bpVerifyM E proof, Par.bpVerifyM E proof])
    (t := ⟨[], Par.bpVerifyM E proof⟩) rfl (by rw [hq]; simpa [Machine.start] using hk1 _)
  obtain ⟨x1, l1⟩ := x1
  simp only [Machine.start, List.map_cons, List.map_nil, List.set_cons_zero] at x1 l1
  have hl1 : (sh1.take sh.length).length = sh.length := by rw [List.length_take]; omega
  have hk2' := hk2 pure
  have hbp : ((Par.bpVerifyM E proof) >>= pure) = Par.bpVerifyM E proof := by
    change (Par.bpVerifyM E proof).bind .ret = _
    induction Par.bpVerifyM E proof with
    | ret a => rfl
    | panic => rfl
    | load a k ih => simp only [Prog.bind, ih]
    | new k ih => simp only [Prog.bind, ih]
    | setX p v k ih => simp only [Prog.bind, ih]
    | setY p v k ih => simp only [Prog.bind, ih]
  rw [hbp] at hk2'
  have x2 := Machine.exec_alone (i := 1) (k := k2) (m := ⟨sh1.take sh.length,
      [⟨sh1.drop sh.length, Par.load proof.IP.Params.P >>= fun v => pure (b && v.isZero)⟩, ⟨[], Par.bpVerifyM E proof⟩]⟩)
    (t := ⟨[], Par.bpVerifyM E proof⟩) rfl (by simpa using hk2')
  obtain ⟨x2, l2⟩ := x2
  simp only [List.set_cons_succ, List.set_cons_zero, hl1] at x2 l2
  have hl2 : (sh2.take sh.length).length = sh.length := by rw [List.length_take]; omega
  have hP2' : (sh2.take sh.length ++ sh1.drop sh.length)[proof.IP.Params.P]? = some P2 := by
    rw [List.getElem?_append_left (by rw [hl2]; exact hPn), List.getElem?_take_of_lt hPn]
    exact hP2
  have x3 := Machine.exec_alone (i := 0) (k := 1) (m := ⟨sh2.take sh.length,
      [⟨sh1.drop sh.length, Par.load proof.IP.Params.P >>= fun v => pure (b && v.isZero)⟩, ⟨sh2.drop sh.length, pure false⟩]⟩)
    (t := ⟨sh1.drop sh.length, Par.load proof.IP.Params.P >>= fun v => pure (b && v.isZero)⟩)
    (p' := pure (b && P2.isZero)) (h' := sh2.take sh.length ++ sh1.drop sh.length) rfl (by
      change ((Mem.load proof.IP.Params.P (sh2.take sh.length ++ sh1.drop sh.length) >>= fun r =>
        .ok ((Prog.ret r.1).bind fun v => Prog.ret (b && v.isZero), r.2)) >>= fun r => Prog.iter 0 r.1 r.2) = _
      rw [Mem.load, hP2']
      rfl)
  refine ⟨List.replicate k1 0 ++ (List.replicate k2 1 ++ List.replicate 1 0), _, Eq.trans ?_ x3.1, ?_⟩
  · rw [Machine.exec_append]
    rw [show (Machine.start sh [Par.bpVerifyM E proof, Par.bpVerifyM E proof]).exec (List.replicate k1 0) = _ from x1, Res.ok_bind,
      Machine.exec_append, x2, Res.ok_bind]
  · rw [hz, Bool.and_false]
    rfl

end Verif

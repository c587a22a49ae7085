import Verif.Lemmas.P256ObjRun

/-! `IsOnCurve` and `MapToGroup` on objects. -/

namespace Verif

open BigM PtM

theorem PtM.lift_bind {α β : Type} (m : BigM α) (f : α → BigM β) : (lift (m >>= f) : PtM β) = lift m >>= fun a => lift (f a) := by
  funext σ
  show ((m σ.big >>= fun r => f r.1 r.2) >>= _) = ((m σ.big >>= _) >>= _)
  cases m σ.big with
  | panic => rfl
  | ok r => rfl

theorem PtM.lift_pure {α : Type} (a : α) : (lift (pure a) : PtM α) = pure a := rfl

theorem PtM.pure_then {α β : Type} (a : α) (f : α → PtM β) : (pure a : PtM α) >>= f = f a := rfl

/-- The statements of `IsOnCurve`. -/
def onOps (x y : Cell) : List IOp := [
  .new, .mul 0 (.arg y) (.arg y), .modP 0 (.loc 0),
  .new, .mul 1 (.arg x) (.arg x), .mul 1 (.loc 1) (.arg x),
  .new, .setInt 2 7, .add 1 (.loc 1) (.loc 2), .modP 1 (.loc 1)]

theorem isOnCurveO_eq (x y : Cell) : isOnCurveO (some x, some y) = lift (runOps (fun env => do
    let a ← read (env.getD 1 0)
    let b ← read (env.getD 0 0)
    pure (decide (a = b))) (onOps x y) []) := by
  simp only [onOps, runOps, Opd.cell, List.nil_append, List.cons_append, List.getD_cons_zero, List.getD_cons_succ, PtM.lift_bind,
    PtM.lift_pure]
  rfl

theorem isOnCurveO_run {σ : PtHeap} (hσ : σ.Ok) {x y : Cell} (hx : x < σ.big.next) (hy : y < σ.big.next) : ∃ σ',
    isOnCurveO (some x, some y) σ = .ok (decide ((σ.big.mem x * σ.big.mem x * σ.big.mem x + 7) % secpP =
      (σ.big.mem y * σ.big.mem y) % secpP), σ') ∧ Quiet σ σ' := by
  have h0 : 0 < σ.big.next := Nat.lt_of_lt_of_le (by decide) hσ.two
  have hl : OpsOk σ.big.next (onOps x y) ([] : List Int).length := by simp [onOps, OpsOk, Opd.Ok, hx, hy]
  have he : evalOps σ.big.mem (onOps x y) [] = [(σ.big.mem y * σ.big.mem y) % secpP,
      (σ.big.mem x * σ.big.mem x * σ.big.mem x + 7) % secpP, 7] := by
    simp [onOps, evalOps, Opd.val]
  have hr := runOps_grow (fun env => do
    let a ← read (env.getD 1 0)
    let b ← read (env.getD 0 0)
    pure (decide (a = b))) h0 hσ.P (onOps x y) [] hl
  rw [BigHeap.grow_nil, he] at hr
  refine ⟨{ σ with big := σ.big.grow [(σ.big.mem y * σ.big.mem y) % secpP,
      (σ.big.mem x * σ.big.mem x * σ.big.mem x + 7) % secpP, 7] }, ?_, ⟨.grow σ.big [(σ.big.mem y * σ.big.mem y) % secpP,
      (σ.big.mem x * σ.big.mem x * σ.big.mem x + 7) % secpP, 7], rfl⟩⟩
  rw [isOnCurveO_eq]
  refine PtM.lift_of (hr.trans ?_)
  refine (BigM.bind_of (grow_read (At.new (i := 1) rfl))).trans ?_
  refine (BigM.bind_of (grow_read (At.new (i := 0) rfl))).trans ?_
  rfl

/-- The statements of `F`. -/
def fOps (x : Cell) : List IOp := [
  .new, .mul 0 (.arg x) (.arg x), .new, .modP 1 (.loc 0), .new, .mul 2 (.loc 1) (.arg x), .new, .modP 3 (.loc 2),
  .new, .setInt 4 7, .new, .add 5 (.loc 3) (.loc 4), .new, .modP 6 (.loc 5)]

theorem curveFO_eq (x : Cell) : curveFO x = runOps (fun env => pure (env.getD 6 0)) (fOps x) [] := by
  simp only [fOps, runOps, Opd.cell, List.nil_append, List.cons_append, List.getD_cons_zero, List.getD_cons_succ]
  rfl

theorem curveFO_run {s : BigHeap} (h0 : 0 < s.next) (hP : s.mem curveP = secpP) {x : Cell} (hx : x < s.next) : ∃ c s',
    curveFO x s = .ok (c, s') ∧ Grown s s' ∧ s.next ≤ c ∧ c < s'.next ∧ s'.mem c = curveF (s.mem x) := by
  have hl : OpsOk s.next (fOps x) ([] : List Int).length := by simp [fOps, OpsOk, Opd.Ok, hx]
  have hr := runOps_grow (fun env => (pure (env.getD 6 0) : BigM Cell)) h0 hP (fOps x) [] hl
  have hn : (evalOps s.mem (fOps x) []).length = 7 := by rw [evalOps_length]; rfl
  have he : (evalOps s.mem (fOps x) [])[6]? = some (curveF (s.mem x)) := by simp [fOps, evalOps, Opd.val, curveF]
  rw [BigHeap.grow_nil, hn, newCells_getD (by decide)] at hr
  refine ⟨s.next + 6, _, (curveFO_eq x ▸ hr).trans rfl, .grow _ _, Nat.le_add_right _ _, ?_, BigHeap.grow_get _ _ he⟩
  show s.next + 6 < s.next + _
  rw [hn]
  exact Nat.add_lt_add_left (by decide) _

theorem newModP_run {σ : PtHeap} (hσ : σ.Ok) {n : Cell} (hn : n < σ.big.next) : ∃ σ1 σ2, lift new σ = .ok (σ.big.next, σ1) ∧
    lift (modC σ.big.next n curveP) σ1 = .ok ((), σ2) ∧ Quiet σ σ2 ∧ σ2.big.mem σ.big.next = σ.big.mem n % secpP ∧
    σ.big.next < σ2.big.next := by
  have e0 := BigHeap.grow_nil σ.big
  have h1 := grow_new σ.big []
  rw [e0] at h1
  have h2 := grow_modC (s := σ.big) (L := [0]) (i := 0) (by decide) (.old hn rfl)
    (.old (c := curveP) (Nat.lt_of_lt_of_le (by decide) hσ.two) hσ.P) (by decide)
  rw [Nat.add_zero] at h2
  exact ⟨{ σ with big := σ.big.grow [0] }, { σ with big := σ.big.grow [σ.big.mem n % secpP] }, PtM.lift_of h1, PtM.lift_of h2,
    ⟨.grow _ _, rfl⟩, BigHeap.grow_get σ.big [σ.big.mem n % secpP] (i := 0) rfl, Nat.lt_succ_self _⟩

/-- Writing to an object which did not exist in `σ`. -/
theorem write_run {σ σ1 : PtHeap} (h : Quiet σ σ1) {c : Cell} (hc : σ.big.next ≤ c) (v : Int) : ∃ σ2,
    lift (write c v) σ1 = .ok ((), σ2) ∧ Quiet σ σ2 ∧ σ2.big.next = σ1.big.next ∧ σ2.big.mem c = v ∧
    ∀ d, d ≠ c → σ2.big.mem d = σ1.big.mem d := by
  refine ⟨_, rfl, ⟨⟨h.big.next, fun d hd => ?_⟩, h.pt⟩, rfl, if_pos rfl, fun d hd => if_neg hd⟩
  exact (if_neg (Nat.ne_of_lt (Nat.lt_of_lt_of_le hd hc))).trans (h.big.mem d hd)

theorem mapToGroupLoopO_run (E : Ext) (m : List UInt8) (fuel : Nat) : ∀ (i : Nat) {σ : PtHeap} (_ : σ.Ok) (r : Option P256),
    mapToGroupLoop E m fuel i = .ok r → ∃ r' σ', mapToGroupLoopO E m fuel i σ = .ok (r', σ') ∧ Quiet σ σ' ∧
      (∀ q, r' = some q → NewFields σ.big.next σ'.big.next (some q.1, some q.2)) ∧
      r'.map (fun q => (⟨some (σ'.big.mem q.1), some (σ'.big.mem q.2)⟩ : P256)) = r := by
  induction fuel with
  | zero =>
    intro i σ hσ r h
    cases h
    exact ⟨none, σ, rfl, .rfl, nofun, rfl⟩
  | succ fuel ih =>
    intro i σ hσ r h
    rw [mapToGroupLoop] at h
    obtain ⟨o, e1, h⟩ := Res.bind_eq_ok.1 h
    cases o with
    | none => cases h
    | some hv =>
      rw [show Res.ofOption (some hv) = .ok hv from rfl, Res.ok_bind] at h
      dsimp only at h
      obtain ⟨c, σ1, k1, q1, m1, b1⟩ := newInt_run σ (some hv)
      cases c with
      | none => cases m1
      | some c =>
        have o1 := q1.ok hσ
        have mc : σ1.big.mem c = hv := by simpa using m1
        obtain ⟨σ2, σ3, k2, k3, q3, m3, l3⟩ := newModP_run o1 (b1 c rfl).2
        have o3 := q3.ok o1
        rw [mc] at m3
        obtain ⟨f, s4, k4, g4, f4, l4, m4⟩ := curveFO_run (s := σ3.big) (Nat.lt_of_lt_of_le (by decide) o3.two) o3.P l3
        have q4 : Quiet σ3 { σ3 with big := s4 } := ⟨g4, rfl⟩
        have o4 := q4.ok o3
        rw [m3] at m4
        obtain ⟨σ5, σ6, k5, k6, q6, m6, l6⟩ := newModP_run (σ := { σ3 with big := s4 }) o4 (n := f) l4
        have o6 := q6.ok o4
        change σ6.big.mem s4.next = s4.mem f % secpP at m6
        rw [m4] at m6
        have hx4 : σ1.big.next < s4.next := Nat.lt_of_lt_of_le l3 g4.next
        have mx : σ6.big.mem σ1.big.next = hv % secpP := by
          rw [q6.big.mem _ hx4]
          show s4.mem _ = _
          rw [g4.mem _ l3, m3]
        have q16 := (q1.trans q3).trans (q4.trans q6)
        have start : ∀ (k : Cell → Cell → PtM (Option (Cell × Cell))), (do
            let h ← (fun s => hashToInt E (decimalNat i ++ m) >>= fun v => newInt v s : PtM (Option Cell))
            let h ← deref h
            let x ← lift new
            lift (modC x h curveP)
            let f ← lift (curveFO x)
            let fx ← lift new
            lift (modC fx f curveP)
            k x fx) σ = k σ1.big.next s4.next σ6 := by
          intro k
          refine (PtM.bind_of (show _ = _ from ?_)).trans ((PtM.bind_of (PtM.deref_some c σ1)).trans ?_)
          · rw [e1]; exact k1
          refine (PtM.bind_of k2).trans ((PtM.bind_of k3).trans ((PtM.bind_of (PtM.lift_of k4)).trans ?_))
          exact (PtM.bind_of k5).trans (PtM.bind_of k6)
        have start := start (fun x fx => do
          match E.modSqrt (← lift (read fx)) with
          | some w => do
            lift (write fx w)
            let on ← isOnCurveO (some x, some fx)
            let z ← lift new
            lift (setInt z 0)
            let zero := decide ((← lift (read x)) = (← lift (read z))) && decide ((← lift (read fx)) = (← lift (read z)))
            if on && !zero then pure (some (x, fx)) else mapToGroupLoopO E m fuel (i + 1)
          | none => mapToGroupLoopO E m fuel (i + 1))
        change mapToGroupLoopO E m (fuel + 1) i σ = _ at start
        rw [PtM.bind_of (a := σ6.big.mem s4.next) (s' := σ6) rfl, m6] at start
        rw [start]
        cases hw : E.modSqrt (curveF (hv % secpP) % secpP) with
        | none =>
          rw [hw] at h
          obtain ⟨r', σ', j1, j2, j3, j4⟩ := ih (i + 1) (q16.ok hσ) r h
          exact ⟨r', σ', j1, q16.trans j2, fun q hq => (j3 q hq).mono q16.big.next, j4⟩
        | some w =>
          rw [hw] at h
          have hlo : σ.big.next ≤ σ1.big.next := q1.big.next
          obtain ⟨σ7, k7, q7, n7, m7, d7⟩ := write_run q16 (c := s4.next) (hlo.trans (Nat.le_of_lt hx4)) w
          have o7 := q7.ok hσ
          have mx7 : σ7.big.mem σ1.big.next = hv % secpP := by rw [d7 _ (Nat.ne_of_lt hx4), mx]
          have lx7 : σ1.big.next < σ7.big.next := by rw [n7]; exact Nat.lt_of_lt_of_le hx4 q6.big.next
          have ly7 : s4.next < σ7.big.next := by rw [n7]; exact l6
          obtain ⟨σ8, k8, q8⟩ := isOnCurveO_run o7 lx7 ly7
          obtain ⟨σ9, k9, _, _, _, σ10, k10, q10, n10, m10⟩ := quiet_new σ8 0
          have q := q7.trans (q8.trans q10)
          have q710 := q8.trans q10
          refine Exists.imp (fun r' => Exists.imp fun σ' => And.imp_left fun e => ((PtM.bind_of k7).trans ((PtM.bind_of k8).trans
            ((PtM.bind_of k9).trans (PtM.bind_of k10)))).trans e) ?_
          rw [PtM.bind_of (a := σ10.big.mem σ1.big.next) (s' := σ10) rfl, PtM.bind_of (a := σ10.big.mem σ8.big.next) (s' := σ10) rfl,
            PtM.bind_of (a := σ10.big.mem s4.next) (s' := σ10) rfl, PtM.bind_of (a := σ10.big.mem σ8.big.next) (s' := σ10) rfl,
            m10, q710.big.mem _ lx7, q710.big.mem _ ly7, mx7, m7]
          obtain ⟨on, eon, h⟩ := Res.bind_eq_ok.1 h
          cases eon
          have hz : (⟨some (hv % secpP), some w⟩ : P256).isZero = (decide (hv % secpP = 0) && decide (w = 0)) := by
            rfl
          rw [hz] at h
          by_cases hc : (decide ((hv % secpP * (hv % secpP) * (hv % secpP) + 7) % secpP = w * w % secpP) &&
              !(decide (hv % secpP = 0) && decide (w = 0))) = true
          · rw [if_pos hc] at h ⊢
            cases h
            refine ⟨_, _, rfl, q, ?_, ?_⟩
            · rintro _ ⟨⟩
              refine ⟨?_, ?_, ?_⟩
              · rintro _ ⟨⟩
                exact ⟨hlo, Nat.lt_of_lt_of_le lx7 q710.big.next⟩
              · rintro _ ⟨⟩
                exact ⟨hlo.trans (Nat.le_of_lt hx4), Nat.lt_of_lt_of_le ly7 q710.big.next⟩
              · rintro _ ⟨⟩ h
                exact Nat.ne_of_gt hx4 (Option.some.inj h)
            · simp only [Option.map_some, q710.big.mem _ lx7, q710.big.mem _ ly7, mx7, m7]
          · rw [if_neg hc] at h ⊢
            obtain ⟨r', σ', j1, j2, j3, j4⟩ := ih (i + 1) (q.ok hσ) r h
            exact ⟨r', σ', j1, q.trans j2, fun q' hq => (j3 q' hq).mono q.big.next, j4⟩

theorem mapToGroupO_run {σ : PtHeap} (hσ : σ.Ok) (E : Ext) (p : Nat) {m : List UInt8} {r : Option P256} (h : mapToGroup E m = .ok r) :
    ∃ σ', mapToGroupO E p m σ = .ok ((), σ') ∧ PtStep σ σ' p (r.getD (σ.val p)) (if r.isSome then none else some p) := by
  obtain ⟨r', σ1, h1, h2, h3, h4⟩ := mapToGroupLoopO_run E m 256 0 hσ r h
  cases r' with
  | none =>
    cases h4
    exact ⟨σ1, (PtM.bind_of h1).trans rfl, ⟨h2.big, fun i _ => by rw [h2.pt], h2.val hσ p, (by rw [h2.pt] : σ1.pt p = σ.pt p)⟩⟩
  | some q =>
    cases h4
    obtain ⟨σ2, k1, k2⟩ := setFields_new h2 p (h3 q rfl) rfl
    exact ⟨σ2, (PtM.bind_of h1).trans k1, k2⟩

end Verif

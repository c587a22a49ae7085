import Verif.Lemmas.P256Obj
import Verif.Spec.GoP256

/-!
# What the methods of `P256` do to the objects
-/

namespace Verif

open BigM PtM

/-! ### Integers -/

/-- Objects were added, those which were there keep their values. -/
structure Grown (s s' : BigHeap) : Prop where
  next : s.next ≤ s'.next
  mem : ∀ c < s.next, s'.mem c = s.mem c

theorem Grown.rfl {s : BigHeap} : Grown s s := ⟨Nat.le_refl _, fun _ _ => Eq.refl _⟩

theorem Grown.trans {s s' s'' : BigHeap} (h : Grown s s') (h' : Grown s' s'') : Grown s s'' :=
  ⟨h.next.trans h'.next, fun c hc => (h'.mem c (Nat.lt_of_lt_of_le hc h.next)).trans (h.mem c hc)⟩

theorem Grown.grow (s : BigHeap) (L : List Int) : Grown s (s.grow L) :=
  ⟨Nat.le_add_right _ _, fun _ hc => BigHeap.grow_mem s L hc⟩

/-- Pointers to objects made between two points in time, different ones. -/
structure NewFields (lo hi : Nat) (q : Option Cell × Option Cell) : Prop where
  x : ∀ c, q.1 = some c → lo ≤ c ∧ c < hi
  y : ∀ c, q.2 = some c → lo ≤ c ∧ c < hi
  ne : ∀ c, q.1 = some c → q.2 ≠ some c

theorem NewFields.mono {lo lo' hi : Nat} {q : Option Cell × Option Cell} (h : NewFields lo hi q) (hl : lo' ≤ lo) : NewFields lo' hi q :=
  ⟨fun c hc => ⟨hl.trans (h.x c hc).1, (h.x c hc).2⟩, fun c hc => ⟨hl.trans (h.y c hc).1, (h.y c hc).2⟩, h.ne⟩

/-- The statements of `affineFromJacobian` after the inversion. -/
def affOps (x y : Cell) : List IOp := [
  .new, .mul 1 (.loc 0) (.loc 0),
  .new, .mul 2 (.arg x) (.loc 1), .modP 2 (.loc 2), .mul 1 (.loc 1) (.loc 0),
  .new, .mul 3 (.arg y) (.loc 1), .modP 3 (.loc 3)]

theorem affine_run {s : BigHeap} (h0 : 0 < s.next) (hP : s.mem curveP = secpP) {x y z : Cell} (hx : x < s.next) (hy : y < s.next)
    (hz : z < s.next) (h1 : 0 ≤ s.mem z) (h2 : s.mem z < secpP) : ∃ a b s', affineFromJacobianO x y z s = .ok ((a, b), s') ∧
      Grown s s' ∧ NewFields s.next s'.next (some a, some b) ∧
      (s'.mem a, s'.mem b) = affineFromJacobian (s.mem x, s.mem y, s.mem z) := by
  have e0 := BigHeap.grow_nil s
  have r : ∀ c, read c s = .ok (s.mem c, s) := fun _ => rfl
  unfold affineFromJacobianO
  rw [BigM.bind_of (r z)]
  by_cases hz0 : s.mem z = 0
  · rw [if_pos hz0]
    refine ⟨s.next, s.next + 1, s.grow [0, 0], ?_, .grow _ _, ⟨?_, ?_, ?_⟩, ?_⟩
    · nth_rewrite 1 [← e0]
      refine (BigM.bind_of (grow_new s [])).trans ?_
      refine (BigM.bind_of (grow_new s [0])).trans ?_
      rfl
    · rintro c h; cases h; exact ⟨Nat.le_refl _, by simp [BigHeap.grow]⟩
    · rintro c h; cases h; exact ⟨Nat.le_add_right _ _, by simp [BigHeap.grow]⟩
    · rintro c h h'; cases h; simp at h'
    · rw [BigHeap.grow_get s [0, 0] (i := 1) rfl]
      have := BigHeap.grow_get s [0, 0] (i := 0) (v := 0) rfl
      rw [Nat.add_zero] at this
      rw [this]
      simp [affineFromJacobian, hz0]
  · rw [if_neg hz0]
    have hi := affineFromJacobian_inverse_exists (s.mem z) (by omega) h2
    obtain ⟨w, hw⟩ := Option.ne_none_iff_exists'.1 hi
    have hzL : At s [0] z (s.mem z) := .old hz rfl
    have hPL : At s [0] curveP secpP := .old h0 hP
    have key : (do
        let zinv ← new
        match modInverse (← read z) (← read curveP) with
        | none => panic
        | some w => do
          write zinv w
          let zinvsq ← new
          mul zinvsq zinv zinv
          let xOut ← new
          mul xOut x zinvsq
          modC xOut xOut curveP
          mul zinvsq zinvsq zinv
          let yOut ← new
          mul yOut y zinvsq
          modC yOut yOut curveP
          pure (xOut, yOut) : BigM (Cell × Cell)) (s.grow []) =
        runOps (fun env => (pure (env.getD 2 0, env.getD 3 0) : BigM (Cell × Cell))) (affOps x y) (newCells s 1) (s.grow [w]) := by
      refine (BigM.bind_of (grow_new s [])).trans ?_
      refine (BigM.bind_of (grow_read hzL)).trans ?_
      refine (BigM.bind_of (grow_read hPL)).trans ?_
      rw [hw]
      refine (BigM.bind_of (grow_write s [0] (i := 0) (by decide) w)).trans ?_
      simp [affOps, runOps, Opd.cell, newCells]
    have hl : OpsOk s.next (affOps x y) [w].length := by simp [affOps, OpsOk, Opd.Ok, hx, hy]
    rw [e0] at key
    have key := key.trans (runOps_grow _ h0 hP _ [w] hl)
    have he : evalOps s.mem (affOps x y) [w] = [w, w * w * w, s.mem x * (w * w) % secpP, s.mem y * (w * w * w) % secpP] := by
      simp [affOps, evalOps, Opd.val]
    rw [he] at key
    refine ⟨s.next + 2, s.next + 3, s.grow [w, w * w * w, s.mem x * (w * w) % secpP, s.mem y * (w * w * w) % secpP], ?_, .grow _ _,
      ⟨?_, ?_, ?_⟩, ?_⟩
    · exact key.trans rfl
    · rintro c h; cases h; exact ⟨Nat.le_add_right _ _, by simp [BigHeap.grow]⟩
    · rintro c h; cases h; exact ⟨Nat.le_add_right _ _, by simp [BigHeap.grow]⟩
    · rintro c h h'; cases h; simp at h'
    · rw [BigHeap.grow_get s _ (i := 2) rfl, BigHeap.grow_get s _ (i := 3) rfl]
      simp [affineFromJacobian, hz0, hw]

theorem curveAdd_run {s : BigHeap} (h0 : 0 < s.next) (hP : s.mem curveP = secpP) {x1 y1 x2 y2 : Cell} (h1 : x1 < s.next)
    (h2 : y1 < s.next) (h3 : x2 < s.next) (h4 : y2 < s.next) : ∃ a b s', curveAddO x1 y1 x2 y2 s = .ok ((a, b), s') ∧
      Grown s s' ∧ NewFields s.next s'.next (some a, some b) ∧
      (s'.mem a, s'.mem b) = curveAdd (s.mem x1) (s.mem y1) (s.mem x2) (s.mem y2) := by
  have e0 := BigHeap.grow_nil s
  have hr := runOps_grow (fun env => affineFromJacobianO (env.getD 12 0) (env.getD 13 0) (env.getD 14 0)) h0 hP
    (jacOps x1 y1 x2 y2) [] (jacOps_ok h1 h2 h3 h4)
  change runOps _ _ [] _ = _ at hr
  rw [← curveAddO_eq, e0] at hr
  have he := jacOps_eval s.mem x1 y1 x2 y2
  have hl := jacOps_length s.mem x1 y1 x2 y2
  rw [hl] at hr
  rw [newCells_getD (by decide), newCells_getD (by decide), newCells_getD (by decide)] at hr
  generalize evalOps s.mem (jacOps x1 y1 x2 y2) [] = L at hr he hl
  have hg := Grown.grow s L
  have hn : (s.grow L).next = s.next + 15 := by rw [← hl]; rfl
  have hm : ∀ i : Nat, i < 15 → (s.grow L).mem (s.next + i) = L.getD i 0 := by
    intro i hi
    refine BigHeap.grow_get _ _ ?_
    rw [List.getD_eq_getElem?_getD, List.getElem?_eq_getElem (by omega)]
    rfl
  have hz : (s.grow L).mem (s.next + 14) = (addJacobian (s.mem x1) (s.mem y1) 1 (s.mem x2) (s.mem y2) 1).2.2 := by
    rw [hm 14 (by decide), ← he]
  obtain ⟨a, b, s', r1, r2, r3, r4⟩ := affine_run (s := s.grow L) (Nat.lt_of_lt_of_le h0 hg.next) ((hg.mem curveP h0).trans hP) (x := s.next + 12) (y := s.next + 13)
    (z := s.next + 14) (hn ▸ Nat.add_lt_add_left (by decide) _) (hn ▸ Nat.add_lt_add_left (by decide) _) (hn ▸ Nat.add_lt_add_left (by decide) _)
    (by rw [hz]; exact Int.emod_nonneg _ (by decide)) (by rw [hz]; exact Int.emod_lt_of_pos _ (by decide))
  refine ⟨a, b, s', hr.trans r1, hg.trans r2, r3.mono hg.next, ?_⟩
  rw [r4, hm 12 (by decide), hm 13 (by decide), hm 14 (by decide), he]
  rfl

/-! ### Points -/

/-- Only objects were added. -/
structure Quiet (σ σ' : PtHeap) : Prop where
  big : Grown σ.big σ'.big
  pt : σ'.pt = σ.pt

/-- The fields of `p` are those of a variable before, or new objects. -/
def FieldsOf (σ σ' : PtHeap) (p : Nat) : Option Nat → Prop
  | some j => σ'.pt p = σ.pt j
  | none => NewFields σ.big.next σ'.big.next (σ'.pt p)

/-- The method changed the fields of `p`, to the value `v`. -/
structure PtStep (σ σ' : PtHeap) (p : Nat) (v : P256) (o : Option Nat) : Prop where
  big : Grown σ.big σ'.big
  others : ∀ i, i ≠ p → σ'.pt i = σ.pt i
  value : σ'.val p = v
  src : FieldsOf σ σ' p o

theorem PtStep.fields {σ σ' : PtHeap} {p : Nat} {v : P256} {o : Option Nat} (h : PtStep σ σ' p v o) :
    (∃ j, σ'.pt p = σ.pt j) ∨ NewFields σ.big.next σ'.big.next (σ'.pt p) := by
  cases o with
  | some j => exact .inl ⟨j, h.src⟩
  | none => exact .inr h.src

theorem PtM.bind_of {α β : Type} {m : PtM α} {f : α → PtM β} {s s' : PtHeap} {a : α} (h : m s = .ok (a, s')) :
    (m >>= f) s = f a s' := by
  show (m s >>= fun r => f r.1 r.2) = _
  rw [h]; rfl

theorem PtM.lift_of {α : Type} {m : BigM α} {σ : PtHeap} {s' : BigHeap} {a : α} (h : m σ.big = .ok (a, s')) :
    PtM.lift m σ = .ok (a, { σ with big := s' }) := by
  show (m σ.big >>= fun r => .ok (r.1, { σ with big := r.2 })) = _
  rw [h]; rfl

theorem PtM.deref_some (c : Cell) (σ : PtHeap) : PtM.deref (some c) σ = .ok (c, σ) := rfl
theorem PtM.fields_run (p : Nat) (σ : PtHeap) : PtM.fields p σ = .ok (σ.pt p, σ) := rfl

theorem Quiet.rfl {σ : PtHeap} : Quiet σ σ := ⟨.rfl, Eq.refl _⟩
theorem Quiet.trans {σ σ' σ'' : PtHeap} (h : Quiet σ σ') (h' : Quiet σ' σ'') : Quiet σ σ'' :=
  ⟨h.big.trans h'.big, h'.pt.trans h.pt⟩

theorem val_grown {σ σ' : PtHeap} (hσ : σ.Ok) (h : Grown σ.big σ'.big) {i j : Nat} (hp : σ'.pt i = σ.pt j) : σ'.val i = σ.val j := by
  unfold PtHeap.val
  rw [hp]
  congr 1
  · cases e : (σ.pt j).1 with
    | none => rfl
    | some c => simp only [Option.map_some, h.mem c (hσ.x j c e)]
  · cases e : (σ.pt j).2 with
    | none => rfl
    | some c => simp only [Option.map_some, h.mem c (hσ.y j c e)]

theorem Quiet.val {σ σ' : PtHeap} (hσ : σ.Ok) (h : Quiet σ σ') (i : Nat) : σ'.val i = σ.val i :=
  val_grown hσ h.big (by rw [h.pt])

theorem Quiet.ok {σ σ' : PtHeap} (hσ : σ.Ok) (h : Quiet σ σ') : σ'.Ok where
  two := hσ.two.trans h.big.next
  P := (h.big.mem _ (Nat.lt_of_lt_of_le (by decide) hσ.two)).trans hσ.P
  N := (h.big.mem _ (Nat.lt_of_lt_of_le (by decide) hσ.two)).trans hσ.N
  x i c hc := Nat.lt_of_lt_of_le (hσ.x i c (by rw [← h.pt]; exact hc)) h.big.next
  y i c hc := Nat.lt_of_lt_of_le (hσ.y i c (by rw [← h.pt]; exact hc)) h.big.next

theorem PtStep.after {σ σ' σ'' : PtHeap} {p : Nat} {v : P256} {o : Option Nat} (h : Quiet σ σ') (h' : PtStep σ' σ'' p v o) :
    PtStep σ σ'' p v o where
  big := h.big.trans h'.big
  others i hi := (h'.others i hi).trans (by rw [h.pt])
  value := h'.value
  src := by
    cases o with
    | some j => exact Eq.trans h'.src (by rw [h.pt])
    | none => exact NewFields.mono h'.src h.big.next

theorem PtStep.ok {σ σ' : PtHeap} {p : Nat} {v : P256} {o : Option Nat} (hσ : σ.Ok) (h : PtStep σ σ' p v o) : σ'.Ok where
  two := hσ.two.trans h.big.next
  P := (h.big.mem _ (Nat.lt_of_lt_of_le (by decide) hσ.two)).trans hσ.P
  N := (h.big.mem _ (Nat.lt_of_lt_of_le (by decide) hσ.two)).trans hσ.N
  x i c hc := by
    by_cases hi : i = p
    · subst hi
      rcases h.fields with ⟨j, hj⟩ | hn
      · exact Nat.lt_of_lt_of_le (hσ.x j c (by rw [← hj]; exact hc)) h.big.next
      · exact (hn.x c hc).2
    · exact Nat.lt_of_lt_of_le (hσ.x i c (by rw [← h.others i hi]; exact hc)) h.big.next
  y i c hc := by
    by_cases hi : i = p
    · subst hi
      rcases h.fields with ⟨j, hj⟩ | hn
      · exact Nat.lt_of_lt_of_le (hσ.y j c (by rw [← hj]; exact hc)) h.big.next
      · exact (hn.y c hc).2
    · exact Nat.lt_of_lt_of_le (hσ.y i c (by rw [← h.others i hi]; exact hc)) h.big.next

theorem PtStep.val_other {σ σ' : PtHeap} {p : Nat} {v : P256} {o : Option Nat} (hσ : σ.Ok) (h : PtStep σ σ' p v o) {i : Nat} (hi : i ≠ p) :
    σ'.val i = σ.val i := val_grown hσ h.big (h.others i hi)

/-- Copying the fields of a variable. -/
theorem setFields_share {σ : PtHeap} (hσ : σ.Ok) (p j : Nat) : ∃ σ', setFields p (σ.pt j) σ = .ok ((), σ') ∧ PtStep σ σ' p (σ.val j) (some j) := by
  refine ⟨_, rfl, ⟨.rfl, fun i hi => if_neg hi, ?_, if_pos rfl⟩⟩
  exact val_grown (σ' := { σ with pt := fun i => if i = p then σ.pt j else σ.pt i }) hσ .rfl (if_pos rfl)

/-- Setting new fields. -/
theorem setFields_new {σ σ' : PtHeap} (h : Quiet σ σ') (p : Nat) {q : Option Cell × Option Cell}
    (hq : NewFields σ.big.next σ'.big.next q) {v : P256} (hv : (⟨q.1.map σ'.big.mem, q.2.map σ'.big.mem⟩ : P256) = v) :
    ∃ σ'', setFields p q σ' = .ok ((), σ'') ∧ PtStep σ σ'' p v none := by
  refine ⟨_, rfl, ⟨h.big, fun i hi => (if_neg hi).trans (by rw [h.pt]), ?_, ?_⟩⟩
  · rw [← hv]
    simp [PtHeap.val]
  · simpa [FieldsOf] using hq

theorem setInfinity_run {σ : PtHeap} (p : Nat) : ∃ σ', setInfinityO p σ = .ok ((), σ') ∧ PtStep σ σ' p P256.infinity none :=
  setFields_new (q := (none, none)) .rfl p ⟨nofun, nofun, nofun⟩ rfl

theorem quiet_new (σ : PtHeap) (v : Int) : ∃ σ', lift new σ = .ok (σ.big.next, σ') ∧ Quiet σ σ' ∧ σ'.big.next = σ.big.next + 1 ∧
    σ'.big.mem σ.big.next = 0 ∧ ∃ σ'', lift (write σ.big.next v) σ' = .ok ((), σ'') ∧ Quiet σ σ'' ∧
      σ''.big.next = σ.big.next + 1 ∧ σ''.big.mem σ.big.next = v := by
  have e0 := BigHeap.grow_nil σ.big
  have h1 := grow_new σ.big []
  rw [e0] at h1
  have h2 := grow_write σ.big [0] (i := 0) (by decide) v
  rw [Nat.add_zero] at h2
  refine ⟨{ σ with big := σ.big.grow [0] }, PtM.lift_of h1, ⟨.grow _ _, rfl⟩, rfl, ?_, { σ with big := σ.big.grow [v] },
    PtM.lift_of h2, ⟨.grow _ _, rfl⟩, rfl, ?_⟩
  · have := BigHeap.grow_get σ.big [0] (i := 0) (v := 0) rfl
    exact this
  · have := BigHeap.grow_get σ.big [v] (i := 0) (v := v) rfl
    exact this

theorem newInt_run (σ : PtHeap) (v : Option Int) : ∃ q σ', newInt v σ = .ok (q, σ') ∧ Quiet σ σ' ∧ q.map σ'.big.mem = v ∧
    (∀ c, q = some c → σ.big.next ≤ c ∧ c < σ'.big.next) := by
  cases v with
  | none => exact ⟨none, σ, rfl, .rfl, rfl, nofun⟩
  | some v =>
    obtain ⟨σ', h1, _, _, _, σ'', h2, h3, h4, h5⟩ := quiet_new σ v
    refine ⟨some σ.big.next, σ'', ?_, h3, ?_, ?_⟩
    · exact (PtM.bind_of h1).trans ((PtM.bind_of h2).trans rfl)
    · simp [h5]
    · rintro c h; cases h; rw [h4]; exact ⟨Nat.le_refl _, Nat.lt_succ_self _⟩

theorem newInts_run (σ : PtHeap) (v : P256) : ∃ q σ', newInts v σ = .ok (q, σ') ∧ Quiet σ σ' ∧
    NewFields σ.big.next σ'.big.next q ∧ (⟨q.1.map σ'.big.mem, q.2.map σ'.big.mem⟩ : P256) = v := by
  obtain ⟨q1, σ1, h1, h2, h3, h4⟩ := newInt_run σ v.X
  obtain ⟨q2, σ2, k1, k2, k3, k4⟩ := newInt_run σ1 v.Y
  refine ⟨(q1, q2), σ2, (PtM.bind_of h1).trans ((PtM.bind_of k1).trans rfl), h2.trans k2, ⟨?_, ?_, ?_⟩, ?_⟩
  · exact fun c hc => ⟨(h4 c hc).1, Nat.lt_of_lt_of_le (h4 c hc).2 k2.big.next⟩
  · exact fun c hc => ⟨h2.big.next.trans (k4 c hc).1, (k4 c hc).2⟩
  · exact fun c hc hc' => absurd (h4 c hc).2 (Nat.not_lt.2 (k4 c hc').1)
  · have : q1.map σ2.big.mem = q1.map σ1.big.mem := by
      cases q1 with
      | none => rfl
      | some c => simp [k2.big.mem c (h4 c rfl).2]
    simp only [this, h3, k3]

theorem isZeroO_run {σ : PtHeap} (hσ : σ.Ok) (p : Nat) : ∃ σ', isZeroO p σ = .ok ((σ.val p).isZero, σ') ∧ Quiet σ σ' := by
  unfold isZeroO
  rw [PtM.bind_of (PtM.fields_run p σ)]
  rcases hp : σ.pt p with ⟨_ | x, _ | y⟩
  · exact ⟨σ, by simp [PtHeap.val, hp, P256.isZero]; rfl, .rfl⟩
  · exact ⟨σ, by simp [PtHeap.val, hp, P256.isZero]; rfl, .rfl⟩
  · exact ⟨σ, by simp [PtHeap.val, hp, P256.isZero]; rfl, .rfl⟩
  · obtain ⟨σ', h1, _, _, _, σ'', h2, h3, h4, h5⟩ := quiet_new σ 0
    refine ⟨σ'', ?_, h3⟩
    refine (PtM.bind_of h1).trans ((PtM.bind_of h2).trans ?_)
    show Res.ok (decide (σ''.big.mem x = σ''.big.mem σ.big.next) && decide (σ''.big.mem y = σ''.big.mem σ.big.next), σ'') = _
    rw [h5, h3.big.mem x (hσ.x p x (by rw [hp])), h3.big.mem y (hσ.y p y (by rw [hp]))]
    simp [PtHeap.val, hp, P256.isZero]
    rfl

/-! ### Methods -/

/-- The fields of a finite point. -/
theorem fields_of_finite {σ : PtHeap} {p : Nat} (h : ¬ (σ.val p).isZero = true) : ∃ x y, σ.pt p = (some x, some y) ∧
    (σ.val p).x = σ.big.mem x ∧ (σ.val p).y = σ.big.mem y := by
  rcases hp : σ.pt p with ⟨_ | x, _ | y⟩
  · exact absurd (by simp [PtHeap.val, hp, P256.isZero]) h
  · exact absurd (by simp [PtHeap.val, hp, P256.isZero]) h
  · exact absurd (by simp [PtHeap.val, hp, P256.isZero]) h
  · exact ⟨x, y, rfl, by simp [PtHeap.val, hp, P256.x], by simp [PtHeap.val, hp, P256.y]⟩

/-- Setting the results of a function of go-ethereum. -/
theorem setNew_run {σ : PtHeap} (p : Nat) (v : P256) :
    ∃ σ', (newInts v >>= fun q => setFields p q) σ = .ok ((), σ') ∧ PtStep σ σ' p v none := by
  obtain ⟨q, σ1, h1, h2, h3, h4⟩ := newInts_run σ v
  obtain ⟨σ2, k1, k2⟩ := setFields_new h2 p h3 h4
  exact ⟨σ2, (PtM.bind_of h1).trans k1, k2⟩

/-- Setting the results of `CURVE.Add`. -/
theorem setSum_run {σ : PtHeap} (hσ : σ.Ok) (p : Nat) {x1 y1 x2 y2 : Cell} (h1 : x1 < σ.big.next) (h2 : y1 < σ.big.next)
    (h3 : x2 < σ.big.next) (h4 : y2 < σ.big.next) : ∃ σ', (do
      let (x, y) ← lift (curveAddO x1 y1 x2 y2)
      setFields p (some x, some y)) σ = .ok ((), σ') ∧
    PtStep σ σ' p (P256.ofPair (curveAdd (σ.big.mem x1) (σ.big.mem y1) (σ.big.mem x2) (σ.big.mem y2))) none := by
  obtain ⟨a, b, s', r1, r2, r3, r4⟩ := curveAdd_run (Nat.lt_of_lt_of_le (by decide) hσ.two) hσ.P h1 h2 h3 h4
  obtain ⟨σ2, k1, k2⟩ := setFields_new (σ := σ) (σ' := { σ with big := s' }) ⟨r2, rfl⟩ p r3 rfl
  refine ⟨σ2, (PtM.bind_of (PtM.lift_of r1)).trans k1, ?_⟩
  rw [← r4]
  exact k2

theorem addO_run {σ : PtHeap} (hσ : σ.Ok) (p a b : Nat) :
    ∃ σ', addO p a b σ = .ok ((), σ') ∧ PtStep σ σ' p (P256.add (σ.val a) (σ.val b))
      (if (σ.val a).isZero = true ∨ (σ.val b).isZero = true then some b else none) := by
  obtain ⟨σ1, h1, q1⟩ := isZeroO_run hσ a
  have o1 := q1.ok hσ
  unfold addO P256.add
  rw [PtM.bind_of h1]
  by_cases ha : (σ.val a).isZero = true
  · rw [if_pos ha, if_pos ha, if_pos (Or.inl ha)]
    obtain ⟨σ2, k1, k2⟩ := setFields_share o1 p b
    exact ⟨σ2, (PtM.bind_of (PtM.fields_run b σ1)).trans k1, by rw [← q1.val hσ b]; exact k2.after q1⟩
  · rw [if_neg ha, if_neg ha]
    obtain ⟨σ2, h2, q2⟩ := isZeroO_run o1 b
    have o2 := q2.ok o1
    have q := q1.trans q2
    rw [PtM.bind_of h2, q1.val hσ b]
    by_cases hb : (σ.val b).isZero = true
    · rw [if_pos hb, if_pos hb, if_pos (Or.inr hb)]
      obtain ⟨σ3, k1, k2⟩ := setFields_share o2 p b
      exact ⟨σ3, (PtM.bind_of (PtM.fields_run b σ2)).trans k1, by rw [← q.val hσ b]; exact k2.after q⟩
    · rw [if_neg hb, if_neg hb, if_neg (not_or.2 ⟨ha, hb⟩)]
      rw [← q.val hσ a] at ha ⊢
      rw [← q.val hσ b] at hb ⊢
      obtain ⟨ax, ay, ea, va, wa⟩ := fields_of_finite ha
      obtain ⟨bx, by', eb, vb, wb⟩ := fields_of_finite hb
      obtain ⟨σ3, k1, k2⟩ := setSum_run o2 p (o2.x a ax (by rw [ea])) (o2.y a ay (by rw [ea])) (o2.x b bx (by rw [eb]))
        (o2.y b by' (by rw [eb]))
      refine ⟨σ3, ?_, by rw [va, wa, vb, wb]; exact k2.after q⟩
      refine (PtM.bind_of (PtM.fields_run a σ2)).trans ((PtM.bind_of (PtM.fields_run b σ2)).trans ?_)
      rw [ea, eb]
      exact k1

theorem doubleO_run {σ : PtHeap} (hσ : σ.Ok) (E : Ext) (p a : Nat) :
    ∃ σ', doubleO E p a σ = .ok ((), σ') ∧ PtStep σ σ' p (P256.double E (σ.val a)) none := by
  obtain ⟨σ1, h1, q1⟩ := isZeroO_run hσ a
  unfold doubleO P256.double
  rw [PtM.bind_of h1]
  by_cases ha : (σ.val a).isZero = true
  · rw [if_pos ha, if_pos ha]
    obtain ⟨σ2, k1, k2⟩ := setInfinity_run (σ := σ1) p
    exact ⟨σ2, k1, k2.after q1⟩
  · rw [if_neg ha, if_neg ha]
    rw [← q1.val hσ a] at ha ⊢
    obtain ⟨ax, ay, ea, va, wa⟩ := fields_of_finite ha
    obtain ⟨σ2, k1, k2⟩ := setNew_run (σ := σ1) p (E.double (σ1.big.mem ax) (σ1.big.mem ay))
    refine ⟨σ2, ?_, by rw [va, wa]; exact k2.after q1⟩
    refine (PtM.bind_of (PtM.fields_run a σ1)).trans ?_
    rw [ea]
    exact k1

theorem newMod_run {σ : PtHeap} (hσ : σ.Ok) {n : Cell} (hn : n < σ.big.next) {α : Type} (f : Cell → PtM α) :
    ∃ m σ', (do
      let m ← lift new
      lift (modC m n curveN)
      f m) σ = f m σ' ∧ Quiet σ σ' ∧ σ'.big.mem m = σ.big.mem n % ORDER := by
  have e0 := BigHeap.grow_nil σ.big
  have h1 := grow_new σ.big []
  rw [e0] at h1
  have h2 := grow_modC (s := σ.big) (L := [0]) (i := 0) (by decide) (.old hn rfl)
    (.old (c := curveN) (Nat.lt_of_lt_of_le (by decide) hσ.two) hσ.N) (by decide)
  rw [Nat.add_zero] at h2
  refine ⟨σ.big.next, { σ with big := σ.big.grow [σ.big.mem n % ORDER] }, ?_, ⟨.grow _ _, rfl⟩, ?_⟩
  · exact (PtM.bind_of (PtM.lift_of h1)).trans (PtM.bind_of (PtM.lift_of (σ := { σ with big := σ.big.grow [0] }) h2))
  · exact BigHeap.grow_get σ.big [σ.big.mem n % ORDER] (i := 0) rfl

theorem scalarMultO_run {σ : PtHeap} (hσ : σ.Ok) (E : Ext) (p a : Nat) {n : Cell} (hn : n < σ.big.next) :
    ∃ σ', scalarMultO E p a (some n) σ = .ok ((), σ') ∧ PtStep σ σ' p (P256.scalarMult E (σ.val a) (σ.big.mem n)) none := by
  obtain ⟨σ1, h1, q1⟩ := isZeroO_run hσ a
  have o1 := q1.ok hσ
  have hn1 := Nat.lt_of_lt_of_le hn q1.big.next
  unfold scalarMultO P256.scalarMult
  rw [PtM.bind_of h1]
  by_cases ha : (σ.val a).isZero = true
  · rw [if_pos ha, if_pos ha]
    obtain ⟨σ2, k1, k2⟩ := setInfinity_run (σ := σ1) p
    exact ⟨σ2, k1, k2.after q1⟩
  · rw [if_neg ha, if_neg ha, PtM.bind_of (PtM.deref_some n σ1)]
    rw [PtM.bind_of (a := σ1.big.mem n) (s' := σ1) rfl, q1.big.mem n hn]
    by_cases h0 : σ.big.mem n = 0
    · rw [if_pos h0, if_pos h0]
      obtain ⟨σ2, k1, k2⟩ := setInfinity_run (σ := σ1) p
      exact ⟨σ2, k1, k2.after q1⟩
    · rw [if_neg h0, if_neg h0]
      obtain ⟨m, σ2, r1, q2, hm⟩ := newMod_run o1 hn1 (fun m => do
        let fa ← fields a
        let x ← lift (read (← deref fa.1))
        let y ← lift (read (← deref fa.2))
        setFields p (← newInts (E.scalarMult x y (← lift (read m)).toNat)))
      have q := q1.trans q2
      rw [← q.val hσ a] at ha ⊢
      obtain ⟨ax, ay, ea, va, wa⟩ := fields_of_finite ha
      obtain ⟨σ3, k1, k2⟩ := setNew_run (σ := σ2) p (E.scalarMult (σ2.big.mem ax) (σ2.big.mem ay) (σ2.big.mem m).toNat)
      refine ⟨σ3, r1.trans ?_, ?_⟩
      · refine (PtM.bind_of (PtM.fields_run a σ2)).trans ?_
        rw [ea]
        exact k1
      · rw [va, wa, ← q1.big.mem n hn, ← hm]; exact k2.after q

theorem scalarBaseMultO_run {σ : PtHeap} (hσ : σ.Ok) (E : Ext) (p : Nat) {n : Cell} (hn : n < σ.big.next) :
    ∃ σ', scalarBaseMultO E p (some n) σ = .ok ((), σ') ∧ PtStep σ σ' p (P256.scalarBaseMult E (σ.big.mem n)) none := by
  unfold scalarBaseMultO P256.scalarBaseMult
  rw [PtM.bind_of (PtM.deref_some n σ), PtM.bind_of (a := σ.big.mem n) (s' := σ) rfl]
  by_cases h0 : σ.big.mem n = 0
  · rw [if_pos h0, if_pos h0]
    exact setInfinity_run p
  · rw [if_neg h0, if_neg h0]
    obtain ⟨m, σ2, r1, q2, hm⟩ := newMod_run hσ hn (fun m => do
      setFields p (← newInts (E.scalarMult secpGx secpGy (← lift (read m)).toNat)))
    obtain ⟨σ3, k1, k2⟩ := setNew_run (σ := σ2) p (E.scalarMult secpGx secpGy (σ2.big.mem m).toNat)
    exact ⟨σ3, r1.trans k1, by rw [← hm]; exact k2.after q2⟩

theorem negO_run {σ : PtHeap} (hσ : σ.Ok) (E : Ext) (p a : Nat) :
    ∃ σ', negO E p a σ = .ok ((), σ') ∧ PtStep σ σ' p (P256.neg E (σ.val p) (σ.val a)) none := by
  obtain ⟨σ1, h1, q1⟩ := isZeroO_run hσ a
  have o1 := q1.ok hσ
  unfold negO P256.neg
  rw [PtM.bind_of h1]
  by_cases ha : (σ.val a).isZero = true
  · rw [if_pos ha, if_pos ha]
    obtain ⟨σ2, k1, k2⟩ := setInfinity_run (σ := σ1) p
    exact ⟨σ2, k1, k2.after q1⟩
  · rw [if_neg ha, if_neg ha]
    obtain ⟨σ2, r1, _, _, _, σ3, r2, q3, n3, m3⟩ := quiet_new σ1 1
    have o3 := q3.ok o1
    have e0 := BigHeap.grow_nil σ3.big
    have g1 := grow_new σ3.big []
    rw [e0] at g1
    have g2 := grow_sub (s := σ3.big) (L := [0]) (i := 0) (by decide) (.old (c := curveN) (Nat.lt_of_lt_of_le (by decide) o3.two) o3.N)
      (.old (c := σ1.big.next) (by rw [n3]; exact Nat.lt_succ_self _) m3)
    rw [Nat.add_zero] at g2
    have q4 : Quiet σ3 { σ3 with big := σ3.big.grow [ORDER - 1] } := ⟨.grow _ _, rfl⟩
    have o4 := q4.ok o3
    have hm : (σ3.big.grow [ORDER - 1]).mem σ3.big.next = ORDER - 1 := BigHeap.grow_get σ3.big [ORDER - 1] (i := 0) rfl
    obtain ⟨σ5, k1, k2⟩ := scalarMultO_run o4 E p p (n := σ3.big.next) (Nat.lt_succ_self _)
    have q := (q1.trans q3).trans q4
    refine ⟨σ5, ?_, ?_⟩
    · refine (PtM.bind_of r1).trans ((PtM.bind_of r2).trans ?_)
      refine (PtM.bind_of (PtM.lift_of g1)).trans ?_
      exact (PtM.bind_of (PtM.lift_of (σ := { σ3 with big := σ3.big.grow [0] }) g2)).trans k1
    · rw [← q.val hσ p]
      change PtStep _ _ _ (P256.scalarMult E _ ((σ3.big.grow [ORDER - 1]).mem σ3.big.next)) none at k2
      rw [hm] at k2
      exact k2.after q

theorem multiplyO_run {σ : PtHeap} (hσ : σ.Ok) (E : Ext) (p a b : Nat) :
    ∃ σ', multiplyO E p a b σ = .ok ((), σ') ∧ PtStep σ σ' p (P256.multiply E (σ.val a) (σ.val b))
      (if (σ.val a).isZero = true then some b else if (σ.val b).isZero = true then some a else none) := by
  obtain ⟨σ1, h1, q1⟩ := isZeroO_run hσ a
  have o1 := q1.ok hσ
  unfold multiplyO P256.multiply
  rw [PtM.bind_of h1]
  by_cases ha : (σ.val a).isZero = true
  · rw [if_pos ha, if_pos ha, if_pos ha]
    obtain ⟨σ2, k1, k2⟩ := setFields_share o1 p b
    exact ⟨σ2, (PtM.bind_of (PtM.fields_run b σ1)).trans k1, by rw [← q1.val hσ b]; exact k2.after q1⟩
  · rw [if_neg ha, if_neg ha, if_neg ha]
    obtain ⟨σ2, h2, q2⟩ := isZeroO_run o1 b
    have o2 := q2.ok o1
    have q := q1.trans q2
    rw [PtM.bind_of h2, q1.val hσ b]
    by_cases hb : (σ.val b).isZero = true
    · rw [if_pos hb, if_pos hb, if_pos hb]
      obtain ⟨σ3, k1, k2⟩ := setFields_share o2 p a
      exact ⟨σ3, (PtM.bind_of (PtM.fields_run a σ2)).trans k1, by rw [← q.val hσ a]; exact k2.after q⟩
    · rw [if_neg hb, if_neg hb, if_neg hb]
      rw [← q.val hσ a] at ha ⊢
      rw [← q.val hσ b] at hb ⊢
      obtain ⟨ax, ay, ea, va, wa⟩ := fields_of_finite ha
      obtain ⟨bx, by', eb, vb, wb⟩ := fields_of_finite hb
      rw [PtM.bind_of (PtM.fields_run a σ2), PtM.bind_of (PtM.fields_run b σ2), ea, eb,
        PtM.bind_of (PtM.deref_some ax σ2), PtM.bind_of (PtM.deref_some ay σ2), PtM.bind_of (PtM.deref_some bx σ2),
        PtM.bind_of (PtM.deref_some by' σ2), PtM.bind_of (a := σ2.big.mem ax) (s' := σ2) rfl,
        PtM.bind_of (a := σ2.big.mem bx) (s' := σ2) rfl, PtM.bind_of (a := σ2.big.mem ay) (s' := σ2) rfl,
        PtM.bind_of (a := σ2.big.mem by') (s' := σ2) rfl, va, wa, vb, wb]
      by_cases he : σ2.big.mem ax = σ2.big.mem bx ∧ σ2.big.mem ay = σ2.big.mem by'
      · rw [if_pos he, if_pos he]
        obtain ⟨σ3, k1, k2⟩ := setNew_run (σ := σ2) p (E.double (σ2.big.mem ax) (σ2.big.mem ay))
        exact ⟨σ3, k1, k2.after q⟩
      · rw [if_neg he, if_neg he]
        obtain ⟨σ3, k1, k2⟩ := setSum_run o2 p (o2.x a ax (by rw [ea])) (o2.y a ay (by rw [ea])) (o2.x b bx (by rw [eb]))
          (o2.y b by' (by rw [eb]))
        exact ⟨σ3, k1, k2.after q⟩

end Verif

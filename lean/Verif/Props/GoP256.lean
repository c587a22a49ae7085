import Verif.Lemmas.GoP256
import Verif.Props.Bip

/-!
# Programs of `crypto/p256` on `big.Int` objects

The methods of `P256` work on pointers to `big.Int`: they may keep the pointers of an argument, and they call methods of `big.Int` which
write to their receiver.  A program is a list of calls on variables which may be the same variable or have coordinates in common.
-/

namespace Verif

open BigM PtM

/-- A state: the curve, `0` a variable with the fields nil, `1` the generator, all others infinity. -/
def sampleHeap : PtHeap :=
  ⟨⟨fun c => if c = curveP then secpP else if c = curveN then ORDER else if c = 2 then secpGx else secpGy, 4, none⟩,
    fun i => if i = 1 then (some 2, some 3) else (none, none)⟩

noncomputable def samplePoints : Nat → Secp := fun i => if i = 1 then secpG else 0

theorem sample_pt {i : Nat} (hi : i ≠ 1) : sampleHeap.pt i = (none, none) := if_neg hi

theorem start_ok : PtHeap.start.Ok := ⟨by decide, rfl, rfl, nofun, nofun⟩
theorem start_have : PtHeap.start.Have fun _ => 0 := fun _ => rep_infinity
theorem start_apart : PtHeap.start.Apart :=
  ⟨fun _ _ _ h => h.elim nofun nofun, nofun, fun _ _ h => h.elim nofun nofun⟩

theorem sample_ok : sampleHeap.Ok := by
  refine ⟨by decide, rfl, rfl, fun i c h => ?_, fun i c h => ?_⟩
  · by_cases hi : i = 1
    · subst hi; cases h; decide
    · rw [sample_pt hi] at h; cases h
  · by_cases hi : i = 1
    · subst hi; cases h; decide
    · rw [sample_pt hi] at h; cases h

theorem sample_have : sampleHeap.Have samplePoints := by
  intro i
  unfold samplePoints PtHeap.val
  by_cases hi : i = 1
  · subst hi
    exact Or.inr repFin_base
  · rw [if_neg hi, sample_pt hi]
    exact rep_infinity

theorem sample_apart : sampleHeap.Apart := by
  have u : ∀ i c, sampleHeap.Uses i c → i = 1 ∧ (c = 2 ∨ c = 3) := by
    intro i c h
    by_cases hi : i = 1
    · subst hi
      rcases h with h | h <;> cases h
      · exact ⟨rfl, .inl rfl⟩
      · exact ⟨rfl, .inr rfl⟩
    · unfold PtHeap.Uses at h
      rw [sample_pt hi] at h
      rcases h with h | h <;> cases h
  refine ⟨fun i j c hi hj => by rw [(u i c hi).1, (u j c hj).1], fun i c h h' => ?_, fun i c h => ?_⟩
  · obtain ⟨rfl, _⟩ := u i c (.inl h)
    cases h; cases h'
  · rcases (u i c h).2 with rfl | rfl <;> exact ⟨by decide, by decide⟩

/-- C100: whatever the variables share, a program computes what it computes in the group, and its calls answer so. -/
theorem C100_programs {E : Ext} (hE : E.Ok) : ∃ hp : List UInt8 → Option Secp,
    (∀ m, (hp m = none ∧ mapToGroup E m = .ok none) ∨ ∃ Q v, hp m = some Q ∧ mapToGroup E m = .ok (some v) ∧ RepFin v Q) ∧
    ∀ (prog : List P256Stmt) (σ σ' : PtHeap) (α : Nat → Secp) (os : List P256Out), σ.Ok → σ.Have α → p256Run E prog σ = .ok (os, σ') →
      σ'.Ok ∧ σ'.Have (p256Mean hp prog α) ∧ p256Answers hp prog α os := by
  refine ⟨hashPt E, hashPt_spec hE, fun prog σ σ' α os hσ hα h => ?_⟩
  obtain ⟨_, h1, _, h2, h3⟩ := p256Run_ok hE prog hσ hα h
  exact ⟨h1, h2, h3⟩

/-- C100: a program in which `IsOnCurve` is not called for infinity does not panic. -/
theorem C100_runs {E : Ext} (hE : E.Ok) : ∃ hp : List UInt8 → Option Secp,
    (∀ m, (hp m = none ∧ mapToGroup E m = .ok none) ∨ ∃ Q v, hp m = some Q ∧ mapToGroup E m = .ok (some v) ∧ RepFin v Q) ∧
    ∀ (prog : List P256Stmt) (σ : PtHeap) (α : Nat → Secp), σ.Ok → σ.Have α → p256Careful hp prog α →
      ∃ os σ', p256Run E prog σ = .ok (os, σ') :=
  ⟨hashPt E, hashPt_spec hE, fun prog _ _ hσ hα hc => p256Run_runs hE prog hσ hα hc⟩

/-- From variables made by `new`: `g := ScalarBaseMult(5)`, `h := Multiply(∞, g)`, `h := Neg(g)`, `g := Multiply(g, h)`, `String`. -/
example : ∃ os σ', p256Run (idealExt hashOne) [.scalarBaseMult 0 5, .multiply 1 2 0, .neg 1 0, .multiply 0 0 1, .string 0, .isZero 0] .start =
      .ok (os, σ') ∧ Rep (σ'.val 0) 0 ∧ Rep (σ'.val 1) (-((5 : Int) • secpG)) ∧ os.getLast? = some (.bool true) := by
  have hE := idealExt_ok hashOne fun _ => rfl
  obtain ⟨hp, _, h⟩ := C100_runs hE
  obtain ⟨os, σ', hr⟩ := h [.scalarBaseMult 0 5, .multiply 1 2 0, .neg 1 0, .multiply 0 0 1, .string 0, .isZero 0] .start _ start_ok start_have
    (by simp [p256Careful])
  obtain ⟨hp, _, h⟩ := C100_programs hE
  obtain ⟨_, h1, h2⟩ := h _ _ _ _ _ start_ok start_have hr
  have n0 : (5 : Int) • secpG ≠ 0 := by
    intro h
    rw [← zmod_smul_intCast, smul_eq_zero] at h
    exact h.elim (by decide +kernel) secpG_ne_zero
  have m0 := h1 0
  have m1 := h1 1
  simp [p256Mean, P256Stmt.mean, letPt, n0] at m0 m1
  refine ⟨os, σ', hr, m0, m1, ?_⟩
  match os, h2 with
  | [_, _, _, _, _, o], ⟨_, _, _, _, _, h, _⟩ =>
    simp [P256Stmt.mean, P256Stmt.Answers, letPt, n0] at h
    rw [h]; rfl

/-- C100: `IsOnCurve` panics exactly if a coordinate is nil; no other call panics. -/
theorem C100_panics {E : Ext} (hE : E.Ok) (s : P256Stmt) (σ : PtHeap) (α : Nat → Secp) (hσ : σ.Ok) (hα : σ.Have α) :
    s.exec E σ = .panic ↔ ∃ p, s = .isOnCurve p ∧ ((σ.pt p).1 = none ∨ (σ.pt p).2 = none) := by
  constructor
  · intro h
    by_contra hc
    have hs : ∃ p, s = .isOnCurve p := by
      by_contra hs
      obtain ⟨o, σ', e, -⟩ := p256_exec_step hE s hσ hα fun p hp => absurd ⟨p, hp⟩ hs
      rw [h] at e
      cases e
    obtain ⟨p, rfl⟩ := hs
    rcases e : σ.pt p with ⟨_ | x, _ | y⟩
    · exact hc ⟨p, rfl, .inl (by rw [e])⟩
    · exact hc ⟨p, rfl, .inl (by rw [e])⟩
    · exact hc ⟨p, rfl, .inr (by rw [e])⟩
    · obtain ⟨σ1, h1, h2⟩ := isOnCurveO_run hσ (hσ.x p x (by rw [e])) (hσ.y p y (by rw [e]))
      have h := (PtM.bind_of (PtM.fields_run p σ)).symm.trans h
      rw [e] at h
      have h := (PtM.bind_of h1).symm.trans h
      cases h
  · rintro ⟨p, rfl, h⟩
    have e := isOnCurveO_nil h σ
    refine (PtM.bind_of (PtM.fields_run p σ)).trans ?_
    show (isOnCurveO (σ.pt p) σ >>= fun r => _) = _
    rw [e]; rfl

/-- `IsOnCurve` of a new point panics. -/
example : P256Stmt.exec (idealExt hashOne) (.isOnCurve 0) .start = .panic :=
  (C100_panics (idealExt_ok hashOne fun _ => rfl) _ _ _ start_ok start_have).2 ⟨0, rfl, .inl rfl⟩

/-- C100: no `big.Int` which was there changes: neither the scalars and points of the caller, nor `CURVE.P` and `CURVE.N`. -/
theorem C100_objects {E : Ext} (hE : E.Ok) (prog : List P256Stmt) (σ σ' : PtHeap) (α : Nat → Secp) (os : List P256Out) (hσ : σ.Ok)
    (hα : σ.Have α) (h : p256Run E prog σ = .ok (os, σ')) (c : Cell) (hc : c < σ.big.next) : σ'.big.mem c = σ.big.mem c :=
  (p256Run_ok hE prog hσ hα h).1.mem c hc

/-- The coordinates of the generator after `Neg` and `Multiply` into its variable. -/
example (os : List P256Out) (σ' : PtHeap) (h : p256Run (idealExt hashOne) [.neg 1 1, .multiply 1 1 1] sampleHeap = .ok (os, σ')) :
    σ'.big.mem 2 = secpGx ∧ σ'.big.mem 3 = secpGy :=
  ⟨C100_objects (idealExt_ok hashOne fun _ => rfl) _ _ _ _ _ sample_ok sample_have h 2 (by decide),
    C100_objects (idealExt_ok hashOne fun _ => rfl) _ _ _ _ _ sample_ok sample_have h 3 (by decide)⟩

/-- C100: whose coordinates the assigned variable has after a call.  After `Multiply` and `Add` with an infinite argument these are the
objects of an argument; otherwise they are new.  The other variables keep their pointers. -/
theorem C100_shared {E : Ext} (hE : E.Ok) : ∃ hp : List UInt8 → Option Secp,
    (∀ m, (hp m = none ∧ mapToGroup E m = .ok none) ∨ ∃ Q v, hp m = some Q ∧ mapToGroup E m = .ok (some v) ∧ RepFin v Q) ∧
    ∀ (s : P256Stmt) (σ σ' : PtHeap) (α : Nat → Secp) (o : P256Out), σ.Ok → σ.Have α → s.exec E σ = .ok (o, σ') →
      (∀ i, s.target ≠ some i → σ'.pt i = σ.pt i) ∧
      (∀ p j, s.target = some p → s.source hp α = some j → σ'.pt p = σ.pt j) ∧
      (∀ p, s.target = some p → s.source hp α = none → ∀ c, σ'.Uses p c → σ.big.next ≤ c) := by
  refine ⟨hashPt E, hashPt_spec hE, fun s σ σ' α o hσ hα h => ?_⟩
  rcases (p256_exec_ok hE s hσ hα h).1 with ⟨ht, q⟩ | ⟨p, v, ht, st⟩
  · rw [ht]
    exact ⟨fun i _ => by rw [q.pt], nofun, nofun⟩
  · rw [ht]
    refine ⟨fun i hi => st.others i fun e => hi (by rw [e]), fun p' j e hj => ?_, fun p' e hn c hc => ?_⟩
    · cases e
      have := st.src
      rw [hj] at this
      exact this
    · cases e
      have := st.src
      rw [hn] at this
      exact hc.elim (fun e => (this.x c e).1) fun e => (this.y c e).1

/-- `p.Multiply(∞, g)`: afterwards `p` and `g` are the same two objects. -/
example (o : P256Out) (σ' : PtHeap) (h : P256Stmt.exec (idealExt hashOne) (.multiply 0 5 1) sampleHeap = .ok (o, σ')) :
    σ'.pt 0 = (some 2, some 3) ∧ σ'.pt 1 = (some 2, some 3) := by
  obtain ⟨hp, _, r⟩ := C100_shared (idealExt_ok hashOne fun _ => rfl)
  obtain ⟨r1, r2, -⟩ := r _ _ _ _ _ sample_ok sample_have h
  exact ⟨r2 0 1 rfl (by simp [P256Stmt.source, samplePoints]), r1 1 (by simp [P256Stmt.target])⟩

/-- C100: variables have either both coordinates in common, or none. -/
theorem C100_apart {E : Ext} (hE : E.Ok) (prog : List P256Stmt) (σ σ' : PtHeap) (α : Nat → Secp) (os : List P256Out) (hσ : σ.Ok)
    (hα : σ.Have α) (ha : σ.Apart) (h : p256Run E prog σ = .ok (os, σ')) : σ'.Apart :=
  (p256Run_ok hE prog hσ hα h).2.2.1 ha

example (prog : List P256Stmt) (os : List P256Out) (σ' : PtHeap) (h : p256Run (idealExt hashOne) prog .start = .ok (os, σ')) : σ'.Apart :=
  C100_apart (idealExt_ok hashOne fun _ => rfl) prog _ _ _ _ start_ok start_have start_apart h

/-- C100: writing to the coordinate `X` of a point (as `p.X.Add(p.X, one)` does) changes exactly the variables with the same coordinates. -/
theorem C100_write {σ : PtHeap} (ha : σ.Apart) {p : Nat} {x y : Cell} (hp : σ.pt p = (some x, some y)) (v : Int) :
    ∃ σ', lift (write x v) σ = .ok ((), σ') ∧
      (∀ i, σ.pt i = σ.pt p → σ'.val i = ⟨some v, some (σ.big.mem y)⟩) ∧ (∀ i, σ.pt i ≠ σ.pt p → σ'.val i = σ.val i) := by
  have hx : σ.Uses p x := .inl (by rw [hp])
  have hyx : y ≠ x := fun e => ha.ne p x (by rw [hp]) (by rw [hp, e])
  refine ⟨_, rfl, fun i hi => ?_, fun i hi => ?_⟩
  · simp [PtHeap.val, hi, hp, hyx]
  · have h1 : ∀ c, σ.Uses i c → c ≠ x := fun c hc e => hi (ha.same i p x (e ▸ hc) hx)
    have h2 : ∀ c, σ.Uses i c → (if c = x then v else σ.big.mem c) = σ.big.mem c := fun c hc => if_neg (h1 c hc)
    unfold PtHeap.val
    congr 1
    · cases e : (σ.pt i).1 with
      | none => rfl
      | some c => exact congrArg some (h2 c (.inl e))
    · cases e : (σ.pt i).2 with
      | none => rfl
      | some c => exact congrArg some (h2 c (.inr e))

/-- After `p.Multiply(∞, g)`, writing to `p.X` changes `g`: it is no longer on the curve. -/
example (o : P256Out) (σ' : PtHeap) (h : P256Stmt.exec (idealExt hashOne) (.multiply 0 5 1) sampleHeap = .ok (o, σ')) :
    ∃ σ'', lift (write 2 0) σ' = .ok ((), σ'') ∧ (σ''.val 1).X = some 0 ∧ (σ'.val 1).X = some secpGx := by
  have hE := idealExt_ok hashOne fun _ => rfl
  obtain ⟨hp, _, r⟩ := C100_shared hE
  obtain ⟨r1, r2, -⟩ := r _ _ _ _ _ sample_ok sample_have h
  have e0 : σ'.pt 0 = (some 2, some 3) := r2 0 1 rfl (by simp [P256Stmt.source, samplePoints])
  have e1 : σ'.pt 1 = (some 2, some 3) := r1 1 (by simp [P256Stmt.target])
  obtain ⟨k1, -, -⟩ := p256_exec_ok hE _ sample_ok sample_have h
  obtain ⟨σ'', w1, w2, -⟩ := C100_write (k1.apart sample_ok sample_apart) e0 0
  refine ⟨σ'', w1, by rw [w2 1 (by rw [e0, e1])], ?_⟩
  have := k1.big.mem 2 (by decide)
  show (σ'.pt 1).1.map _ = _
  rw [e1]
  exact congrArg some this

/-- C100: `addJacobian` on its own, for arguments of which some may be the same object: in Jacobian coordinates (`Z` need not be 1) it
computes the sum of two points, except that the sum with infinity and the sum of a point with itself come out as infinity; the results
are three new objects, and no object which was there changes. -/
theorem C100_jacobian {s : BigHeap} (h0 : curveP < s.next) (hP : s.mem curveP = secpP) {x1 y1 z1 x2 y2 z2 : Cell} (h1 : x1 < s.next)
    (h2 : y1 < s.next) (h3 : z1 < s.next) (h4 : x2 < s.next) (h5 : y2 < s.next) (h6 : z2 < s.next) {Q R : Secp}
    (hQ : Jac Q (s.mem x1 : SF) (s.mem y1 : SF) (s.mem z1 : SF)) (hR : Jac R (s.mem x2 : SF) (s.mem y2 : SF) (s.mem z2 : SF)) :
    ∃ x y z s', addJacobianO x1 y1 z1 x2 y2 z2 s = .ok ((x, y, z), s') ∧
      (Q = 0 ∨ R = 0 ∨ Q = R → (s'.mem z : SF) = 0) ∧
      (Q ≠ 0 → R ≠ 0 → Q ≠ R → Jac (Q + R) (s'.mem x : SF) (s'.mem y : SF) (s'.mem z : SF)) ∧
      s.next ≤ x ∧ s.next ≤ y ∧ s.next ≤ z ∧ [x, y, z].Nodup ∧ ∀ c < s.next, s'.mem c = s.mem c := by
  have e0 := BigHeap.grow_nil s
  have hr := runOps_grow (fun env => (pure (env.getD 11 0, env.getD 12 0, env.getD 13 0) : BigM (Cell × Cell × Cell))) h0 hP
    (jacOpsG x1 y1 z1 x2 y2 z2) [] (jacOpsG_ok h1 h2 h3 h4 h5 h6)
  change runOps _ _ [] _ = _ at hr
  rw [← addJacobianO_eq, e0] at hr
  have he := jacOpsG_eval s.mem x1 y1 z1 x2 y2 z2
  have hl := jacOpsG_length s.mem x1 y1 z1 x2 y2 z2
  rw [hl] at hr
  rw [newCells_getD (by decide), newCells_getD (by decide), newCells_getD (by decide)] at hr
  generalize evalOps s.mem (jacOpsG x1 y1 z1 x2 y2 z2) [] = L at hr he hl
  have hg := Grown.grow s L
  have hm : ∀ i : Nat, i < 14 → (s.grow L).mem (s.next + i) = L.getD i 0 := by
    intro i hi
    refine BigHeap.grow_get _ _ ?_
    rw [List.getD_eq_getElem?_getD, List.getElem?_eq_getElem (by omega)]
    rfl
  obtain ⟨c1, c2, c3⟩ := addJacobian_cast (s.mem x1) (s.mem y1) (s.mem z1) (s.mem x2) (s.mem y2) (s.mem z2)
  rw [← he] at c1 c2 c3
  dsimp only at c1 c2 c3
  refine ⟨_, _, _, _, hr, ?_, ?_, Nat.le_add_right _ _, Nat.le_add_right _ _, Nat.le_add_right _ _, ?_, hg.mem⟩
  · rw [hm 13 (by decide), c3]
    intro h
    by_cases hQ0 : Q = 0
    · rw [hQ.zero_iff.1 hQ0]; ring
    by_cases hR0 : R = 0
    · rw [hR.zero_iff.1 hR0]; ring
    have := ((Jac.eq_iff hQ hR (fun h => hQ0 (hQ.zero_iff.2 h)) fun h => hR0 (hR.zero_iff.2 h)).1 (by tauto)).1
    rw [this, sub_self, mul_zero]
  · rw [hm 11 (by decide), hm 12 (by decide), hm 13 (by decide)]
    intro hQ0 hR0 hQR
    refine Jac.add sf_two hQ hR (fun h => hQ0 (hQ.zero_iff.2 h)) (fun h => hR0 (hR.zero_iff.2 h)) hQR rfl rfl rfl rfl ?_ ?_ ?_
    · rw [c1]
    · rw [c2, c1]
    · rw [c3]
  · simp

/-- The base point with `Z = 2` and its inverse with `Z = 3`. -/
example : let s : BigHeap := ⟨fun c => [secpP, ORDER, 4 * secpGx, 8 * secpGy, 2, 9 * secpGx, 27 * -secpGy, 3].getD c 0, 8, none⟩
    ∃ x y z s', addJacobianO 2 3 4 5 6 7 s = .ok ((x, y, z), s') ∧ (s'.mem z : SF) = 0 := by
  intro s
  have a1 : Jac secpG (s.mem 2 : SF) (s.mem 3 : SF) (s.mem 4 : SF) := by
    show Jac secpG ((4 * secpGx : Int) : SF) ((8 * secpGy : Int) : SF) ((2 : Int) : SF)
    have := sf_two
    refine .inr ⟨by simpa using sf_two, isPt_secpG.congr ?_ ?_⟩ <;> push_cast <;> field_simp <;> norm_num
  have a2 : Jac (-secpG) (s.mem 5 : SF) (s.mem 6 : SF) (s.mem 7 : SF) := by
    show Jac (-secpG) ((9 * secpGx : Int) : SF) ((27 * -secpGy : Int) : SF) ((3 : Int) : SF)
    have := sf_three
    refine .inr ⟨by simpa using sf_three, isPt_secpG.neg.congr ?_ ?_⟩ <;> push_cast <;> field_simp <;> norm_num
  obtain ⟨x, y, z, s', h, h1, h2, -⟩ := C100_jacobian (s := s) (by decide) rfl (by decide) (by decide) (by decide) (by decide) (by decide)
    (by decide) a1 a2
  refine ⟨x, y, z, s', h, ?_⟩
  by_cases e : secpG = -secpG
  · exact h1 (.inr (.inr e))
  · have := h2 secpG_ne_zero (neg_ne_zero.2 secpG_ne_zero) e
    exact this.zero_iff.1 (add_neg_cancel secpG)

end Verif

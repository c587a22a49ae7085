import Verif.Lemmas.BnPool
import Verif.Lemmas.BnHeapMul
import Verif.Lemmas.BnCurve

/-! # How many objects `Add` and `Mul` keep -/

namespace Verif

open BigM

theorem bigM_assoc {α β γ : Type} (m : BigM α) (k : α → BigM β) (l : β → BigM γ) :
    (m >>= k) >>= l = m >>= fun a => k a >>= l := by
  funext s
  show (m s >>= fun x => k x.1 x.2) >>= (fun x => l x.1 x.2) = (m s >>= fun x => (k x.1 x.2 >>= fun y => l y.1 y.2))
  cases m s <;> rfl

theorem bigM_pure {α β : Type} (a : α) (k : α → BigM β) : (Pure.pure a : BigM α) >>= k = k a := rfl

theorem poolCount_trans (s s' s'' : BigHeap) : poolCount s s'' = poolCount s s' + poolCount s' s'' := by
  unfold poolCount; omega

/-- What a run does to the counter, from a given heap. -/
def CountsAt {α : Type} (m : BigM α) (s : BigHeap) (P : Int → Prop) : Prop :=
  ∀ r s', m s = .ok (r, s') → s'.pool.isSome ∧ P (poolCount s s')

theorem Keeps.at {α : Type} {m : BigM α} {n : Int} (h : Keeps m n) {s : BigHeap} (hs : s.pool.isSome) : CountsAt m s (· = n) :=
  fun r s' e => h s r s' hs e

/-- A step with known effect, then a continuation. -/
theorem CountsAt.bind {α β : Type} {m : BigM α} {k : α → BigM β} {s : BigHeap} {a b c : Int} {Q : α → BigHeap → Prop}
    (h : CountsAt m s (· = a)) (hw : Wp m s Q)
    (hk : ∀ r s', s'.pool.isSome → Q r s' → CountsAt (k r) s' (· = b)) (e : a + b = c) : CountsAt (m >>= k) s (· = c) := by
  intro r s'' h'
  obtain ⟨x, s', e1, e2⟩ := bind_ok h'
  obtain ⟨y, s1, e3, hq⟩ := hw
  rw [e1] at e3
  obtain ⟨rfl, rfl⟩ := Prod.mk.inj (Res.ok.inj e3)
  obtain ⟨h1, h2⟩ := h _ _ e1
  obtain ⟨h3, h4⟩ := hk _ _ h1 hq _ _ e2
  refine ⟨h3, ?_⟩
  show poolCount s s'' = c
  rw [poolCount_trans s s' s'']
  have h2 : poolCount s s' = a := h2
  have h4 : poolCount s' s'' = b := h4
  omega

/-- How often a double-and-add loop adds a finite point to itself: `n` bits are left, `S` is the sum so far. -/
def dblSteps {G : Type} [AddCommGroup G] [DecidableEq G] (Q : G) (k : Int) : Nat → G → Nat
  | 0, _ => 0
  | n + 1, S => (if intBit k n then (if S + S = Q ∧ Q ≠ 0 then 1 else 0) else 0)
      + dblSteps Q k n (if intBit k n then S + S + Q else S + S)

namespace CurveP

/-- `Add` up to the comparison of the operands. -/
def addHead (a b : CurveP) : BigM (Bool × (Cell × Cell × Cell × Cell × Cell × Cell × Cell × Cell × Cell × Cell)) := do
  let z1z1 ← get
  BigM.mul z1z1 a.z a.z
  mod z1z1 z1z1
  let z2z2 ← get
  BigM.mul z2z2 b.z b.z
  mod z2z2 z2z2
  let u1 ← get
  BigM.mul u1 a.x z2z2
  mod u1 u1
  let u2 ← get
  BigM.mul u2 b.x z1z1
  mod u2 u2
  let t ← get
  BigM.mul t b.z z2z2
  mod t t
  let s1 ← get
  BigM.mul s1 a.y t
  mod s1 s1
  BigM.mul t a.z z1z1
  mod t t
  let s2 ← get
  BigM.mul s2 b.y t
  mod s2 s2
  let h ← get
  BigM.sub h u2 u1
  let hv ← read h
  BigM.add t h h
  let i ← get
  BigM.mul i t t
  mod i i
  let j ← get
  BigM.mul j h i
  mod j j
  BigM.sub t s2 s1
  let tv ← read t
  pure (hv == 0 && tv == 0, z1z1, z2z2, u1, u2, t, s1, s2, h, i, j)

theorem addGeneral_eq (c a b : CurveP) : c.addGeneral a b = (addHead a b >>= fun p => if p.1 then c.double a
    else c.addTail a b p.2.1 p.2.2.1 p.2.2.2.1 p.2.2.2.2.1 p.2.2.2.2.2.1 p.2.2.2.2.2.2.1 p.2.2.2.2.2.2.2.1 p.2.2.2.2.2.2.2.2.1
      p.2.2.2.2.2.2.2.2.2.1 p.2.2.2.2.2.2.2.2.2.2) := by
  unfold addGeneral addHead
  simp only [bigM_assoc, bigM_pure]

instance (a b : CurveP) : KeepsC (addHead a b) 10 where
  out := by unfold addHead; keeps

theorem wp_addHead {s : BigHeap} {Δ : List (List (Cell × Int))} {a b : CurveP} {w u : CurvePoint}
    (h : Rel s (own a w :: own b u :: Δ)) : Wp (addHead a b) s fun p _ => p.1 = (CurvePoint.addXYZ w u).isNone := by
  replace h : Rel s (own a.x w.x :: own a.y w.y :: own a.z w.z :: own a.t w.t :: own b.x u.x :: own b.y u.y :: own b.z u.z :: own b.t u.t :: Δ) := h
  unfold addHead
  repeat wp_step
  refine Wp.bind (wp_test h) fun _ _ ⟨e1, h⟩ => ?_
  repeat wp_step
  refine Wp.bind (wp_test h) fun _ s ⟨e2, h⟩ => Wp.pure ?_
  rw [e1, e2]
  unfold CurvePoint.addXYZ
  dsimp only
  split <;> simp_all

theorem wp_addHead_same {s : BigHeap} {Δ : List (List (Cell × Int))} {a : CurveP} {w : CurvePoint}
    (h : Rel s (own a w :: Δ)) : Wp (addHead a a) s fun p _ => p.1 = (CurvePoint.addXYZ w w).isNone := by
  replace h : Rel s (own a.x w.x :: own a.y w.y :: own a.z w.z :: own a.t w.t :: Δ) := h
  unfold addHead
  repeat wp_step
  refine Wp.bind (wp_test h) fun _ _ ⟨e1, h⟩ => ?_
  repeat wp_step
  refine Wp.bind (wp_test h) fun _ s ⟨e2, h⟩ => Wp.pure ?_
  rw [e1, e2]
  unfold CurvePoint.addXYZ
  dsimp only
  split <;> simp_all

theorem count_addGeneral {s : BigHeap} {c a b : CurveP} {w u : CurvePoint} (hs : s.pool.isSome)
    (h : Wp (addHead a b) s fun p _ => p.1 = (CurvePoint.addXYZ w u).isNone) :
    CountsAt (c.addGeneral a b) s (· = if (CurvePoint.addXYZ w u).isNone then 10 else 0) := by
  rw [addGeneral_eq]
  refine CountsAt.bind (Keeps.at KeepsC.out hs) h (b := if (CurvePoint.addXYZ w u).isNone then 0 else -10) ?_ ?_
  · intro p s' hs' e
    rw [e]
    split
    · exact Keeps.at KeepsC.out hs'
    · exact Keeps.at KeepsC.out hs'
  · split <;> rfl

/-- The state and the operands decide: an infinite operand costs nothing. -/
theorem count_add {s : BigHeap} {Γ : List (List (Cell × Int))} {c a b : CurveP} {w u : CurvePoint} (hs : s.pool.isSome)
    (h : Rel s Γ) [Has Γ a w] [Has Γ b u]
    (hg : ∀ s', Rel s' Γ → Wp (addHead a b) s' fun p _ => p.1 = (CurvePoint.addXYZ w u).isNone) :
    CountsAt (c.add a b) s
      (· = if w.isInfinity = false ∧ u.isInfinity = false ∧ (CurvePoint.addXYZ w u).isNone then 10 else 0) := by
  unfold add
  refine CountsAt.bind (Keeps.at KeepsC.out hs) (wp_test (m := CurveP.isInfinity) (d := a) h) ?_ (zero_add _)
  rintro _ s1 hs ⟨rfl, h⟩
  split
  · rename_i h1
    rw [if_neg (by rw [h1]; simp)]
    exact Keeps.at KeepsC.out hs
  rename_i h1
  refine CountsAt.bind (Keeps.at KeepsC.out hs) (wp_test (m := CurveP.isInfinity) (d := b) h) ?_ (zero_add _)
  rintro _ s1 hs ⟨rfl, h⟩
  split
  · rename_i h2
    rw [if_neg (by rw [h2]; simp)]
    exact Keeps.at KeepsC.out hs
  rename_i h2
  have := count_addGeneral (c := c) hs (hg _ h)
  simpa [h1, h2] using this

theorem count_add_rep {s : BigHeap} {Γ : List (List (Cell × Int))} {c a b : CurveP} {w u : CurvePoint} {Q R : BG1} (hs : s.pool.isSome)
    (h : Rel s Γ) [Has Γ a w] [Has Γ b u]
    (hg : ∀ s', Rel s' Γ → Wp (addHead a b) s' fun p _ => p.1 = (CurvePoint.addXYZ w u).isNone) (hw : Rep1 w Q) (hu : Rep1 u R) :
    CountsAt (c.add a b) s (· = if Q = R ∧ Q ≠ 0 then 10 else 0) := by
  have e : (w.isInfinity = false ∧ u.isInfinity = false ∧ (CurvePoint.addXYZ w u).isNone = true) ↔ (Q = R ∧ Q ≠ 0) := by
    rw [← Bool.not_eq_true, ← Bool.not_eq_true, hw.isInfinity, hu.isInfinity, Option.isNone_iff_eq_none]
    by_cases h1 : Q = 0
    · simp [h1]
    by_cases h2 : R = 0
    · simp [h1, h2]
    simp [h1, h2, CurvePoint.addXYZ_none hw hu h1 h2]
  have := count_add (c := c) hs h hg
  simpa only [e] using this

theorem count_mulLoop {s : BigHeap} {Δ : List (List (Cell × Int))} {sum t a : CurveP} {v w u : CurvePoint} {S Q : BG1} (k : Int) (n : Nat)
    (hs : s.pool.isSome) (h : Rel s (own sum v :: own t w :: own a u :: Δ)) (hv : Rep1 v S) (hu : Rep1 u Q) :
    CountsAt (CurveP.mulLoop sum t a k n) s (· = 10 * (dblSteps Q k n S : Int)) := by
  induction n generalizing s v w S with
  | zero => exact Keeps.at (Keeps.pure _) hs
  | succ n ih =>
    unfold CurveP.mulLoop
    refine CountsAt.bind (Keeps.at KeepsC.out hs) (OpD.apart (h.perm (List.Perm.swap _ _ _))) ?_ (zero_add _)
    intro _ s hs h
    replace h := h.perm (List.Perm.swap (own sum v) _ _)
    have hd := CurvePoint.double_rep w hv
    dsimp only
    split
    · rename_i hb
      refine CountsAt.bind (count_add_rep (Γ := own sum v :: own t (CurvePoint.double w v) :: own a u :: Δ) hs h
        (fun s' h' => wp_addHead h'.tail) hd hu) (OpA.apart h) ?_ ?_ (b := 10 * (dblSteps Q k n (S + S + Q) : Int))
      · intro _ s hs h
        exact ih hs h (CurvePoint.add_rep v hd hu)
      · rw [dblSteps, if_pos hb, if_pos hb]
        split <;> rename_i hc
        · rw [if_pos ⟨hc.1, hc.1 ▸ hc.2⟩]; push_cast; ring
        · rw [if_neg (fun h : S + S = Q ∧ Q ≠ 0 => hc ⟨h.1, by rw [h.1]; exact h.2⟩)]; push_cast; ring
    · rename_i hb
      refine CountsAt.bind (Keeps.at KeepsC.out hs) (wp_op1 (m := CurveP.set) h) ?_ ?_ (b := 10 * (dblSteps Q k n (S + S) : Int))
      · intro _ s hs h
        exact ih hs h hd
      · rw [dblSteps, if_neg hb, if_neg hb]; push_cast; ring

theorem count_mul {s : BigHeap} {Γ : List (List (Cell × Int))} {d a : CurveP} {u : CurvePoint} {Q : BG1} (k : Int)
    (hp : s.pool = some []) (h : Rel s (own a u :: Γ)) (hu : Rep1 u Q) :
    CountsAt (d.mul a k) s (· = 10 * (dblSteps Q k (bitLen k + 1) 0 : Int)) := by
  unfold CurveP.mul
  refine CountsAt.bind (Keeps.at KeepsC.out (by rw [hp]; rfl)) (CurveP.wp_new_zero (Or.inr hp) h)
    (b := 10 * (dblSteps Q k (bitLen k + 1) 0 : Int) - 4) ?_ (by ring)
  rintro sum s hs ⟨h, hp⟩
  refine CountsAt.bind (Keeps.at KeepsC.out hs) (CurveP.setInfinity_empty hp (wp_opSelf h)) ?_ (zero_add _)
  rintro _ s hs ⟨h, hp⟩
  refine CountsAt.bind (Keeps.at KeepsC.out hs) (CurveP.wp_new_zero hp h)
    (b := 10 * (dblSteps Q k (bitLen k + 1) 0 : Int) - 8) ?_ (by ring)
  rintro t s hs ⟨h, hp⟩
  replace h := h.perm (List.Perm.swap _ _ _)
  refine CountsAt.bind (count_mulLoop k _ hs h (rep1_infinity rfl) hu) (CurveP.wp_mulLoop k _ h) (b := -8) ?_ (by ring)
  rintro _ s hs -
  exact Keeps.at (by keeps) hs

end CurveP

namespace TwistP

/-- `Add` up to the comparison of the operands. -/
def addHead (a b : TwistP) : BigM (Bool × (Gf2 × Gf2 × Gf2 × Gf2 × Gf2 × Gf2 × Gf2 × Gf2 × Gf2 × Gf2)) := do
  let z1z1 ← Gf2.new
  z1z1.square a.z
  let z2z2 ← Gf2.new
  z2z2.square b.z
  let u1 ← Gf2.new
  u1.mul a.x z2z2
  let u2 ← Gf2.new
  u2.mul b.x z1z1
  let t ← Gf2.new
  t.mul b.z z2z2
  let s1 ← Gf2.new
  s1.mul a.y t
  t.mul a.z z1z1
  let s2 ← Gf2.new
  s2.mul b.y t
  let h ← Gf2.new
  h.sub u2 u1
  let xEqual ← h.isZero
  t.add h h
  let i ← Gf2.new
  i.square t
  let j ← Gf2.new
  j.mul h i
  t.sub s2 s1
  let yEqual ← t.isZero
  pure (xEqual && yEqual, z1z1, z2z2, u1, u2, t, s1, s2, h, i, j)

theorem addGeneral_eq (c a b : TwistP) : c.addGeneral a b = (addHead a b >>= fun p => if p.1 then c.double a
    else c.addTail a b p.2.1 p.2.2.1 p.2.2.2.1 p.2.2.2.2.1 p.2.2.2.2.2.1 p.2.2.2.2.2.2.1 p.2.2.2.2.2.2.2.1 p.2.2.2.2.2.2.2.2.1
      p.2.2.2.2.2.2.2.2.2.1 p.2.2.2.2.2.2.2.2.2.2) := by
  unfold addGeneral addHead
  simp only [bigM_assoc, bigM_pure]

instance (a b : TwistP) : KeepsC (addHead a b) 20 where
  out := by unfold addHead; keeps

theorem wp_addHead {s : BigHeap} {Δ : List (List (Cell × Int))} {a b : TwistP} {w u : TwistPoint}
    (h : Rel s (own a w :: own b u :: Δ)) : Wp (addHead a b) s fun p _ => p.1 = (TwistPoint.addXYZ w u).isNone := by
  replace h : Rel s (own a.x w.x :: own a.y w.y :: own a.z w.z :: own a.t w.t :: own b.x u.x :: own b.y u.y :: own b.z u.z :: own b.t u.t :: Δ) := h
  unfold addHead
  repeat wp_step
  refine Wp.bind (wp_test h) fun _ _ ⟨e1, h⟩ => ?_
  repeat wp_step
  refine Wp.bind (wp_test h) fun _ s ⟨e2, h⟩ => Wp.pure ?_
  rw [e1, e2]
  unfold TwistPoint.addXYZ
  dsimp only
  split <;> simp_all

theorem wp_addHead_same {s : BigHeap} {Δ : List (List (Cell × Int))} {a : TwistP} {w : TwistPoint}
    (h : Rel s (own a w :: Δ)) : Wp (addHead a a) s fun p _ => p.1 = (TwistPoint.addXYZ w w).isNone := by
  replace h : Rel s (own a.x w.x :: own a.y w.y :: own a.z w.z :: own a.t w.t :: Δ) := h
  unfold addHead
  repeat wp_step
  refine Wp.bind (wp_test h) fun _ _ ⟨e1, h⟩ => ?_
  repeat wp_step
  refine Wp.bind (wp_test h) fun _ s ⟨e2, h⟩ => Wp.pure ?_
  rw [e1, e2]
  unfold TwistPoint.addXYZ
  dsimp only
  split <;> simp_all

theorem count_addGeneral {s : BigHeap} {c a b : TwistP} {w u : TwistPoint} (hs : s.pool.isSome)
    (h : Wp (addHead a b) s fun p _ => p.1 = (TwistPoint.addXYZ w u).isNone) :
    CountsAt (c.addGeneral a b) s (· = if (TwistPoint.addXYZ w u).isNone then 20 else 0) := by
  rw [addGeneral_eq]
  refine CountsAt.bind (Keeps.at KeepsC.out hs) h (b := if (TwistPoint.addXYZ w u).isNone then 0 else -20) ?_ ?_
  · intro p s' hs' e
    rw [e]
    split
    · exact Keeps.at KeepsC.out hs'
    · exact Keeps.at KeepsC.out hs'
  · split <;> rfl

/-- The state and the operands decide: an infinite operand costs nothing. -/
theorem count_add {s : BigHeap} {Γ : List (List (Cell × Int))} {c a b : TwistP} {w u : TwistPoint} (hs : s.pool.isSome)
    (h : Rel s Γ) [Has Γ a w] [Has Γ b u]
    (hg : ∀ s', Rel s' Γ → Wp (addHead a b) s' fun p _ => p.1 = (TwistPoint.addXYZ w u).isNone) :
    CountsAt (c.add a b) s
      (· = if w.isInfinity = false ∧ u.isInfinity = false ∧ (TwistPoint.addXYZ w u).isNone then 20 else 0) := by
  unfold add
  refine CountsAt.bind (Keeps.at KeepsC.out hs) (wp_test (m := TwistP.isInfinity) (d := a) h) ?_ (zero_add _)
  rintro _ s1 hs ⟨rfl, h⟩
  split
  · rename_i h1
    rw [if_neg (by rw [h1]; simp)]
    exact Keeps.at KeepsC.out hs
  rename_i h1
  refine CountsAt.bind (Keeps.at KeepsC.out hs) (wp_test (m := TwistP.isInfinity) (d := b) h) ?_ (zero_add _)
  rintro _ s1 hs ⟨rfl, h⟩
  split
  · rename_i h2
    rw [if_neg (by rw [h2]; simp)]
    exact Keeps.at KeepsC.out hs
  rename_i h2
  have := count_addGeneral (c := c) hs (hg _ h)
  simpa [h1, h2] using this

theorem count_add_rep {s : BigHeap} {Γ : List (List (Cell × Int))} {c a b : TwistP} {w u : TwistPoint} {Q R : BG2} (hs : s.pool.isSome)
    (h : Rel s Γ) [Has Γ a w] [Has Γ b u]
    (hg : ∀ s', Rel s' Γ → Wp (addHead a b) s' fun p _ => p.1 = (TwistPoint.addXYZ w u).isNone) (hw : Rep2 w Q) (hu : Rep2 u R) :
    CountsAt (c.add a b) s (· = if Q = R ∧ Q ≠ 0 then 20 else 0) := by
  have e : (w.isInfinity = false ∧ u.isInfinity = false ∧ (TwistPoint.addXYZ w u).isNone = true) ↔ (Q = R ∧ Q ≠ 0) := by
    rw [← Bool.not_eq_true, ← Bool.not_eq_true, hw.isInfinity, hu.isInfinity, Option.isNone_iff_eq_none]
    by_cases h1 : Q = 0
    · simp [h1]
    by_cases h2 : R = 0
    · simp [h1, h2]
    simp [h1, h2, TwistPoint.addXYZ_none hw hu h1 h2]
  have := count_add (c := c) hs h hg
  simpa only [e] using this

theorem count_mulLoop {s : BigHeap} {Δ : List (List (Cell × Int))} {sum t a : TwistP} {v w u : TwistPoint} {S Q : BG2} (k : Int) (n : Nat)
    (hs : s.pool.isSome) (h : Rel s (own sum v :: own t w :: own a u :: Δ)) (hv : Rep2 v S) (hu : Rep2 u Q) :
    CountsAt (TwistP.mulLoop sum t a k n) s (· = 20 * (dblSteps Q k n S : Int)) := by
  induction n generalizing s v w S with
  | zero => exact Keeps.at (Keeps.pure _) hs
  | succ n ih =>
    unfold TwistP.mulLoop
    refine CountsAt.bind (Keeps.at KeepsC.out hs) (OpD.apart (h.perm (List.Perm.swap _ _ _))) ?_ (zero_add _)
    intro _ s hs h
    replace h := h.perm (List.Perm.swap (own sum v) _ _)
    have hd := TwistPoint.double_rep w hv
    dsimp only
    split
    · rename_i hb
      refine CountsAt.bind (count_add_rep (Γ := own sum v :: own t (TwistPoint.double w v) :: own a u :: Δ) hs h
        (fun s' h' => wp_addHead h'.tail) hd hu) (OpA.apart h) ?_ ?_ (b := 20 * (dblSteps Q k n (S + S + Q) : Int))
      · intro _ s hs h
        exact ih hs h (TwistPoint.add_rep v hd hu)
      · rw [dblSteps, if_pos hb, if_pos hb]
        split <;> rename_i hc
        · rw [if_pos ⟨hc.1, hc.1 ▸ hc.2⟩]; push_cast; ring
        · rw [if_neg (fun h : S + S = Q ∧ Q ≠ 0 => hc ⟨h.1, by rw [h.1]; exact h.2⟩)]; push_cast; ring
    · rename_i hb
      refine CountsAt.bind (Keeps.at KeepsC.out hs) (wp_op1 (m := TwistP.set) h) ?_ ?_ (b := 20 * (dblSteps Q k n (S + S) : Int))
      · intro _ s hs h
        exact ih hs h hd
      · rw [dblSteps, if_neg hb, if_neg hb]; push_cast; ring

theorem count_mul {s : BigHeap} {Γ : List (List (Cell × Int))} {d a : TwistP} {u : TwistPoint} {Q : BG2} (k : Int)
    (hp : s.pool = some []) (h : Rel s (own a u :: Γ)) (hu : Rep2 u Q) :
    CountsAt (d.mul a k) s (· = 20 * (dblSteps Q k (bitLen k + 1) 0 : Int)) := by
  unfold TwistP.mul
  refine CountsAt.bind (Keeps.at KeepsC.out (by rw [hp]; rfl)) (TwistP.wp_new_zero (Or.inr hp) h)
    (b := 20 * (dblSteps Q k (bitLen k + 1) 0 : Int) - 8) ?_ (by ring)
  rintro sum s hs ⟨h, hp⟩
  refine CountsAt.bind (Keeps.at KeepsC.out hs) (TwistP.setInfinity_empty hp (wp_opSelf h)) ?_ (zero_add _)
  rintro _ s hs ⟨h, hp⟩
  refine CountsAt.bind (Keeps.at KeepsC.out hs) (TwistP.wp_new_zero hp h)
    (b := 20 * (dblSteps Q k (bitLen k + 1) 0 : Int) - 16) ?_ (by ring)
  rintro t s hs ⟨h, hp⟩
  replace h := h.perm (List.Perm.swap _ _ _)
  refine CountsAt.bind (count_mulLoop k _ hs h (rep2_infinity rfl) hu) (TwistP.wp_mulLoop k _ h) (b := -16) ?_ (by ring)
  rintro _ s hs -
  exact Keeps.at (by keeps) hs

end TwistP

/-! ### Bounds for any operands -/

theorem CurveP.counts_add (c a b : CurveP) : Counts (c.add a b) fun n => n = 0 ∨ n = 10 := by
  unfold CurveP.add
  refine Counts.bind (P := (· = 0)) KeepsC.out (Q := fun n => n = 0 ∨ n = 10) (fun x => ?_) (by rintro a b rfl h; simpa using h)
  split
  · exact Counts.mono KeepsC.out fun n h => Or.inl h
  refine Counts.bind (P := (· = 0)) KeepsC.out (Q := fun n => n = 0 ∨ n = 10) (fun x => ?_) (by rintro a b rfl h; simpa using h)
  split
  · exact Counts.mono KeepsC.out fun n h => Or.inl h
  rw [CurveP.addGeneral_eq]
  refine Counts.bind (P := (· = 10)) KeepsC.out (Q := fun n => n = 0 ∨ n = -10) (fun x => ?_)
    (by rintro a b rfl (h | h) <;> rw [h] <;> simp)
  split
  · exact Counts.mono KeepsC.out fun n h => Or.inl h
  · exact Counts.mono KeepsC.out fun n h => Or.inr h

theorem TwistP.counts_add (c a b : TwistP) : Counts (c.add a b) fun n => n = 0 ∨ n = 20 := by
  unfold TwistP.add
  refine Counts.bind (P := (· = 0)) KeepsC.out (Q := fun n => n = 0 ∨ n = 20) (fun x => ?_) (by rintro a b rfl h; simpa using h)
  split
  · exact Counts.mono KeepsC.out fun n h => Or.inl h
  refine Counts.bind (P := (· = 0)) KeepsC.out (Q := fun n => n = 0 ∨ n = 20) (fun x => ?_) (by rintro a b rfl h; simpa using h)
  split
  · exact Counts.mono KeepsC.out fun n h => Or.inl h
  rw [TwistP.addGeneral_eq]
  refine Counts.bind (P := (· = 20)) KeepsC.out (Q := fun n => n = 0 ∨ n = -20) (fun x => ?_)
    (by rintro a b rfl (h | h) <;> rw [h] <;> simp)
  split
  · exact Counts.mono KeepsC.out fun n h => Or.inl h
  · exact Counts.mono KeepsC.out fun n h => Or.inr h
theorem counts_pairingCheckLoop (g : BnGlobals) (acc : Gf12) (a : List CurveP) (b : List TwistP) :
    Counts (pairingCheckLoopH g acc a b) fun n => ∃ j : Nat, j ≤ a.length ∧ n = 28 * (j : Int) := by
  induction a generalizing b with
  | nil => unfold pairingCheckLoopH; exact Counts.mono (Keeps.pure _) fun n h => ⟨0, Nat.le_refl _, h⟩
  | cons p a ih =>
    have up : ∀ n : Int, (∃ j : Nat, j ≤ a.length ∧ n = 28 * (j : Int)) → ∃ j : Nat, j ≤ (p :: a).length ∧ n = 28 * (j : Int) :=
      fun n ⟨j, h1, h2⟩ => ⟨j, h1.trans (Nat.le_succ _), h2⟩
    cases b with
    | nil =>
      unfold pairingCheckLoopH
      refine Counts.bind (P := (· = 0)) KeepsC.out (fun x => ?_) (R := fun n => ∃ j : Nat, j ≤ (p :: a).length ∧ n = 28 * (j : Int))
        (Q := fun n => ∃ j : Nat, j ≤ (p :: a).length ∧ n = 28 * (j : Int)) (by rintro a b rfl h; rwa [zero_add])
      split
      · exact (ih []).mono up
      · intro s r s' _ e; cases e
    | cons q b =>
      unfold pairingCheckLoopH
      refine Counts.bind (P := (· = 0)) KeepsC.out (fun x => ?_) (R := fun n => ∃ j : Nat, j ≤ (p :: a).length ∧ n = 28 * (j : Int))
        (Q := fun n => ∃ j : Nat, j ≤ (p :: a).length ∧ n = 28 * (j : Int)) (by rintro a b rfl h; rwa [zero_add])
      refine Counts.bind (P := (· = 0)) KeepsC.out (fun x => ?_) (R := fun n => ∃ j : Nat, j ≤ (p :: a).length ∧ n = 28 * (j : Int))
        (Q := fun n => ∃ j : Nat, j ≤ (p :: a).length ∧ n = 28 * (j : Int)) (by rintro a b rfl h; rwa [zero_add])
      split
      · exact (ih b).mono up
      refine Counts.bind (P := (· = 28)) KeepsC.out (fun x => ?_) (R := fun n => ∃ j : Nat, j ≤ (p :: a).length ∧ n = 28 * (j : Int))
        (Q := fun n => ∃ j : Nat, j ≤ a.length ∧ n = 28 * (j : Int)) ?_
      · exact Counts.bind (P := (· = 0)) KeepsC.out (fun x => ih b) (by rintro a b rfl h; rwa [zero_add])
      · rintro x y rfl ⟨j, h1, rfl⟩
        exact ⟨j + 1, Nat.succ_le_succ h1, by push_cast; ring⟩

/-! ### Which steps those are -/

theorem dblSteps_zero {G : Type} [AddCommGroup G] [DecidableEq G] (k : Int) (n : Nat) (S : G) : dblSteps (0 : G) k n S = 0 := by
  induction n generalizing S with
  | zero => rfl
  | succ n ih => rw [dblSteps, ih]; simp

theorem ediv_two_pow_succ (k : Int) (n : Nat) : k / 2 ^ n = 2 * (k / 2 ^ (n + 1)) + (if intBit k n then 1 else 0) := by
  have h : k / 2 ^ (n + 1) = k / 2 ^ n / 2 := by rw [pow_succ, Int.ediv_ediv_of_nonneg (by positivity)]
  rw [h]
  unfold intBit
  split <;> rename_i hc
  · have : k / 2 ^ n % 2 = 1 := by simpa using hc
    omega
  · have : ¬ k / 2 ^ n % 2 = 1 := by simpa using hc
    omega

theorem dblSteps_eq {G : Type} [AddCommGroup G] [DecidableEq G] {Q : G} (h0 : Q ≠ 0) (hQ : bnNn • Q = 0) (k : Int) (n : Nat) :
    dblSteps Q k n ((k / 2 ^ n) • Q)
      = ((Finset.range n).filter fun i => k / 2 ^ i % 2 = 1 ∧ bnOrder ∣ 2 * (k / 2 ^ (i + 1)) - 1).card := by
  have hord : ∀ z : Int, z • Q = 0 ↔ bnOrder ∣ z := by
    intro z
    have : addOrderOf Q = bnNn := addOrderOf_eq_prime hQ h0
    rw [← addOrderOf_dvd_iff_zsmul_eq_zero, this]
    rfl
  induction n with
  | zero => simp [dblSteps]
  | succ n ih =>
    have e : (if intBit k n then (k / 2 ^ (n + 1)) • Q + (k / 2 ^ (n + 1)) • Q + Q
        else (k / 2 ^ (n + 1)) • Q + (k / 2 ^ (n + 1)) • Q) = (k / 2 ^ n) • Q := by
      rw [ediv_two_pow_succ k n]
      split
      · rw [add_zsmul, one_zsmul, two_mul, add_zsmul]
      · rw [add_zero, two_mul, add_zsmul]
    rw [dblSteps, e, ih, Finset.range_add_one, Finset.filter_insert]
    have hb : (intBit k n = true) ↔ k / 2 ^ n % 2 = 1 := by simp [intBit]
    have hd : ((k / 2 ^ (n + 1)) • Q + (k / 2 ^ (n + 1)) • Q = Q ∧ Q ≠ 0) ↔ bnOrder ∣ 2 * (k / 2 ^ (n + 1)) - 1 := by
      rw [← hord, sub_zsmul, one_zsmul, ← sub_eq_add_neg, sub_eq_zero, two_mul, add_zsmul]
      exact and_iff_left h0
    by_cases h1 : k / 2 ^ n % 2 = 1
    · rw [if_pos (hb.2 h1)]
      by_cases h2 : bnOrder ∣ 2 * (k / 2 ^ (n + 1)) - 1
      · rw [if_pos (hd.2 h2), if_pos ⟨h1, h2⟩, Finset.card_insert_of_notMem (by simp)]
        omega
      · rw [if_neg (fun h => h2 (hd.1 h)), if_neg (fun h => h2 h.2), zero_add]
    · rw [if_neg (fun h => h1 (hb.1 h)), if_neg (fun h => h1 h.1), zero_add]

theorem dblSteps_lost {G : Type} [AddCommGroup G] [DecidableEq G] {Q : G} (h0 : Q ≠ 0) (hQ : bnNn • Q = 0) {k : Int} (hk : 0 ≤ k) :
    dblSteps Q k (bitLen k + 1) 0 = lostSteps k := by
  have hz : ∀ i, bitLen k ≤ i → k / 2 ^ i = 0 := by
    intro i hi
    have h := lt_two_pow_bitLen k
    have h2 : (k.natAbs : Int) < 2 ^ bitLen k := by exact_mod_cast h
    have h3 : (2 : Int) ^ bitLen k ≤ 2 ^ i := pow_le_pow_right₀ (by norm_num) hi
    exact Int.ediv_eq_zero_of_lt hk (by omega)
  have := dblSteps_eq h0 hQ k (bitLen k + 1)
  rw [hz _ (Nat.le_succ _), zero_zsmul] at this
  rw [this, lostSteps, ← Set.ncard_coe_finset]
  congr 1
  ext i
  simp only [Finset.coe_filter, Finset.mem_range, Set.mem_setOf_eq]
  refine ⟨fun h => h.2, fun h => ⟨?_, h⟩⟩
  by_contra hc
  have := hz i (by omega)
  rw [this] at h
  simp at h

theorem lost_ge {k : Int} (hk : 0 ≤ k) {i : Nat} (h : k / 2 ^ i % 2 = 1 ∧ bnOrder ∣ 2 * (k / 2 ^ (i + 1)) - 1) :
    2 ^ i * (bnOrder + 2) ≤ k := by
  have hm : 0 ≤ k / 2 ^ (i + 1) := Int.ediv_nonneg hk (by positivity)
  have e := ediv_two_pow_succ k i
  rw [if_pos (show intBit k i = true by simp [intBit, h.1])] at e
  obtain ⟨q, hq⟩ := h.2
  have hO : bnOrder = 21888242871839275222246405745257275088548364400416034343698204186575808495617 := rfl
  have hq1 : 0 < q := by
    by_contra hc
    have : bnOrder * q ≤ 0 := mul_nonpos_of_nonneg_of_nonpos (by rw [hO]; norm_num) (by omega)
    have h0 : k / 2 ^ (i + 1) = 0 := by omega
    rw [h0] at hq
    have : bnOrder ∣ -1 := ⟨q, by omega⟩
    have := Int.le_of_dvd (by norm_num) ((Int.dvd_neg).1 this)
    rw [hO] at this
    norm_num at this
  have : bnOrder * 1 ≤ bnOrder * q := mul_le_mul_of_nonneg_left hq1 (by rw [hO]; norm_num)
  have h2 : bnOrder + 2 ≤ k / 2 ^ i := by omega
  calc 2 ^ i * (bnOrder + 2) ≤ 2 ^ i * (k / 2 ^ i) := mul_le_mul_of_nonneg_left h2 (by positivity)
    _ ≤ k := Int.mul_ediv_self_le (by positivity)

theorem lostSteps_zero {k : Int} (hk : 0 ≤ k) (h : k < bnOrder + 2) : lostSteps k = 0 := by
  unfold lostSteps
  have : {i : Nat | k / 2 ^ i % 2 = 1 ∧ bnOrder ∣ 2 * (k / 2 ^ (i + 1)) - 1} = ∅ := by
    refine Set.eq_empty_of_forall_notMem fun i hi => ?_
    have h1 := lost_ge hk hi
    have h2 : (1 : Int) ≤ 2 ^ i := one_le_pow₀ (by norm_num)
    have h3 : (0 : Int) ≤ bnOrder + 2 := by decide +kernel
    nlinarith
  rw [this, Set.ncard_empty]

theorem lostSteps_one : lostSteps (bnOrder + 2) = 1 := by
  unfold lostSteps
  rw [Set.ncard_eq_one]
  refine ⟨0, Set.eq_singleton_iff_unique_mem.2 ⟨by decide +kernel, fun i hi => ?_⟩⟩
  have h1 := lost_ge (by decide +kernel) hi
  by_contra hc
  have h2 : (2 : Int) ^ 1 ≤ 2 ^ i := pow_le_pow_right₀ (by norm_num) (by omega)
  have h3 : (0 : Int) < bnOrder + 2 := by decide +kernel
  nlinarith

theorem bg1_order (Q : BG1) : bnNn • Q = 0 := by
  rw [← bg1_card]; exact card_nsmul_eq_zero'

end Verif

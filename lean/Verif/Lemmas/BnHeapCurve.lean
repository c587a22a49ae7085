import Verif.Lemmas.BnHeapField

/-!
# The methods of `curvePoint` and `twistPoint` on the heap
-/

namespace Verif

open BigM

theorem Rel.tail {s : BigHeap} {E : List (Cell × Int)} {Γ : List (List (Cell × Int))} (h : Rel s (E :: Γ)) : Rel s Γ := by
  have hn : ((E ++ Γ.flatten).map Prod.fst).Nodup := h.nodup
  rw [List.map_append, List.nodup_append] at hn
  exact ⟨hn.2.1, fun p hp => h.cell p (List.mem_append_right _ hp), h.free_nodup, h.free_lt⟩

/-- `Double`: the receiver may be the argument, but then the result is another one. -/
class OpD {A V : Type} [Ob A V] (m : A → A → BigM Unit) (f : outParam (V → V → V)) (g : outParam (V → V)) : Prop where
  apart : ∀ {s : BigHeap} {Δ : List (List (Cell × Int))} {d a : A} {v w : V}, Rel s (own d v :: own a w :: Δ) →
    Wp (m d a) s fun _ s' => Rel s' (own d (f v w) :: own a w :: Δ)
  same : ∀ {s : BigHeap} {Δ : List (List (Cell × Int))} {d : A} {v : V}, Rel s (own d v :: Δ) →
    Wp (m d d) s fun _ s' => Rel s' (own d (g v) :: Δ)

/-- `Add`: likewise. -/
class OpA {A V : Type} [Ob A V] (m : A → A → A → BigM Unit) (f : outParam (V → V → V → V)) (g : outParam (V → V → V)) : Prop where
  apart : ∀ {s : BigHeap} {Δ : List (List (Cell × Int))} {d a b : A} {v w u : V},
    Rel s (own d v :: own a w :: own b u :: Δ) →
    Wp (m d a b) s fun _ s' => Rel s' (own d (f v w u) :: own a w :: own b u :: Δ)
  left : ∀ {s : BigHeap} {Δ : List (List (Cell × Int))} {d b : A} {v u : V}, Rel s (own d v :: own b u :: Δ) →
    Wp (m d d b) s fun _ s' => Rel s' (own d (g v u) :: own b u :: Δ)
  right : ∀ {s : BigHeap} {Δ : List (List (Cell × Int))} {d a : A} {v w : V}, Rel s (own d v :: own a w :: Δ) →
    Wp (m d a d) s fun _ s' => Rel s' (own d (f v w v) :: own a w :: Δ)
  args : ∀ {s : BigHeap} {Δ : List (List (Cell × Int))} {d a : A} {v w : V}, Rel s (own d v :: own a w :: Δ) →
    Wp (m d a a) s fun _ s' => Rel s' (own d (f v w w) :: own a w :: Δ)
  all : ∀ {s : BigHeap} {Δ : List (List (Cell × Int))} {d : A} {v : V}, Rel s (own d v :: Δ) →
    Wp (m d d d) s fun _ s' => Rel s' (own d (g v v) :: Δ)

/-! ### `curvePoint` -/

instance : Ob CurveP CurvePoint where
  flat a v := own a.x v.x ++ (own a.y v.y ++ (own a.z v.z ++ own a.t v.t))
  inj {a b v w} h := by
    have hl : ∀ (a b : Cell) (v w : Int), (own a v).length = (own b w).length := fun _ _ _ _ => rfl
    obtain ⟨h1, h⟩ := List.append_inj h (hl _ _ _ _)
    obtain ⟨h2, h⟩ := List.append_inj h (hl _ _ _ _)
    obtain ⟨h3, h4⟩ := List.append_inj h (hl _ _ _ _)
    obtain ⟨e1, f1⟩ := Ob.inj h1
    obtain ⟨e2, f2⟩ := Ob.inj h2
    obtain ⟨e3, f3⟩ := Ob.inj h3
    obtain ⟨e4, f4⟩ := Ob.inj h4
    cases a; cases b; cases v; cases w
    simp only at e1 e2 e3 e4 f1 f2 f3 f4
    subst e1 e2 e3 e4 f1 f2 f3 f4
    exact ⟨rfl, rfl⟩

set_option hygiene false in
/-- Cases of `Op1` for a method of `curvePoint`. -/
macro "curvePoint_op1" m:ident : tactic => `(tactic| (
  refine ⟨?_, ?_⟩
  · intro s Δ d b v u h
    replace h : Rel s (own d.x v.x :: own d.y v.y :: own d.z v.z :: own d.t v.t :: own b.x u.x :: own b.y u.y :: own b.z u.z :: own b.t u.t :: Δ) := h
    unfold $m
    wp_run
  · intro s Δ d v h
    replace h : Rel s (own d.x v.x :: own d.y v.y :: own d.z v.z :: own d.t v.t :: Δ) := h
    unfold $m
    wp_run))

set_option hygiene false in
/-- A method of `curvePoint` without arguments. -/
macro "curvePoint_op0" m:ident : tactic => `(tactic| (
  refine ⟨?_⟩
  · intro s Δ d v h
    replace h : Rel s (own d.x v.x :: own d.y v.y :: own d.z v.z :: own d.t v.t :: Δ) := h
    unfold $m
    wp_run))

instance : OpNew CurveP.new where
  run {s Δ} h := by
    unfold CurveP.new
    refine Wp.bind (wp_new h) fun x _ ⟨v, h⟩ => ?_
    refine Wp.bind (wp_new h) fun y _ ⟨w, h⟩ => ?_
    refine Wp.bind (wp_new h) fun z _ ⟨u, h⟩ => ?_
    refine Wp.bind (wp_new h) fun t _ ⟨r, h⟩ => ?_
    replace h := h.perm (show List.Perm ([own t r, own z u, own y w, own x v] ++ Δ) ([own x v, own y w, own z u, own t r] ++ Δ) from
      List.Perm.append_right Δ (List.reverse_perm [own x v, own y w, own z u, own t r]))
    exact Wp.pure ⟨⟨v, w, u, r⟩, h⟩

instance : OpPut CurveP.put := by curvePoint_op0 CurveP.put
instance : Op1 CurveP.set (fun a => a) := by curvePoint_op1 CurveP.set
instance : Op1 CurveP.neg CurvePoint.neg := by curvePoint_op1 CurveP.neg
instance : OpSelf CurveP.setInfinity CurvePoint.setInfinity := by curvePoint_op0 CurveP.setInfinity
instance : OpD CurveP.double CurvePoint.double CurvePoint.doubleSelf := by curvePoint_op1 CurveP.double

instance : OpTest CurveP.isInfinity CurvePoint.isInfinity where
  run {s Δ d v} h := by
    replace h : Rel s (own d.x v.x :: own d.y v.y :: own d.z v.z :: own d.t v.t :: Δ) := h
    unfold CurveP.isInfinity
    refine Wp.bind (wp_test h) fun _ _ ⟨e1, h⟩ => ?_
    subst e1
    exact Wp.pure ⟨rfl, h⟩

instance : OpA CurveP.addGeneral
    (fun c a b => match CurvePoint.addXYZ a b with | none => CurvePoint.double c a | some (x, y, z) => ⟨x, y, z, c.t⟩)
    (fun a b => match CurvePoint.addXYZ a b with | none => CurvePoint.doubleSelf a | some (x, y, z) => ⟨x, y, z, a.t⟩) where
  apart {s Δ d a b v w u} h := by
    replace h : Rel s (own d.x v.x :: own d.y v.y :: own d.z v.z :: own d.t v.t :: own a.x w.x :: own a.y w.y :: own a.z w.z :: own a.t w.t :: own b.x u.x :: own b.y u.y :: own b.z u.z :: own b.t u.t :: Δ) := h
    unfold CurveP.addGeneral
    repeat wp_step
    refine Wp.bind (wp_test h) fun _ _ ⟨e1, h⟩ => ?_
    repeat wp_step
    refine Wp.bind (wp_test h) fun _ s ⟨e2, h⟩ => ?_
    split
    · rename_i hc
      rw [e1, e2] at hc
      rw [show CurvePoint.addXYZ w u = none from if_pos hc]
      replace h := h.tail.tail.tail.tail.tail.tail.tail.tail.tail.tail
      replace h : Rel s (own d v :: own a w :: own b u :: Δ) := h
      exact (OpD.apart h).mono fun _ _ h => h
    · rename_i hc
      rw [e1, e2] at hc
      rw [show CurvePoint.addXYZ w u = _ from if_neg hc]
      unfold CurveP.addTail
      wp_run
  left {s Δ d b v u} h := by
    replace h : Rel s (own d.x v.x :: own d.y v.y :: own d.z v.z :: own d.t v.t :: own b.x u.x :: own b.y u.y :: own b.z u.z :: own b.t u.t :: Δ) := h
    unfold CurveP.addGeneral
    repeat wp_step
    refine Wp.bind (wp_test h) fun _ _ ⟨e1, h⟩ => ?_
    repeat wp_step
    refine Wp.bind (wp_test h) fun _ s ⟨e2, h⟩ => ?_
    split
    · rename_i hc
      rw [e1, e2] at hc
      rw [show CurvePoint.addXYZ v u = none from if_pos hc]
      replace h := h.tail.tail.tail.tail.tail.tail.tail.tail.tail.tail
      replace h : Rel s (own d v :: own b u :: Δ) := h
      exact (OpD.same h).mono fun _ _ h => h
    · rename_i hc
      rw [e1, e2] at hc
      rw [show CurvePoint.addXYZ v u = _ from if_neg hc]
      unfold CurveP.addTail
      wp_run
  right {s Δ d a v w} h := by
    replace h : Rel s (own d.x v.x :: own d.y v.y :: own d.z v.z :: own d.t v.t :: own a.x w.x :: own a.y w.y :: own a.z w.z :: own a.t w.t :: Δ) := h
    unfold CurveP.addGeneral
    repeat wp_step
    refine Wp.bind (wp_test h) fun _ _ ⟨e1, h⟩ => ?_
    repeat wp_step
    refine Wp.bind (wp_test h) fun _ s ⟨e2, h⟩ => ?_
    split
    · rename_i hc
      rw [e1, e2] at hc
      rw [show CurvePoint.addXYZ w v = none from if_pos hc]
      replace h := h.tail.tail.tail.tail.tail.tail.tail.tail.tail.tail
      replace h : Rel s (own d v :: own a w :: Δ) := h
      exact (OpD.apart h).mono fun _ _ h => h
    · rename_i hc
      rw [e1, e2] at hc
      rw [show CurvePoint.addXYZ w v = _ from if_neg hc]
      unfold CurveP.addTail
      wp_run
  args {s Δ d a v w} h := by
    replace h : Rel s (own d.x v.x :: own d.y v.y :: own d.z v.z :: own d.t v.t :: own a.x w.x :: own a.y w.y :: own a.z w.z :: own a.t w.t :: Δ) := h
    unfold CurveP.addGeneral
    repeat wp_step
    refine Wp.bind (wp_test h) fun _ _ ⟨e1, h⟩ => ?_
    repeat wp_step
    refine Wp.bind (wp_test h) fun _ s ⟨e2, h⟩ => ?_
    split
    · rename_i hc
      rw [e1, e2] at hc
      rw [show CurvePoint.addXYZ w w = none from if_pos hc]
      replace h := h.tail.tail.tail.tail.tail.tail.tail.tail.tail.tail
      replace h : Rel s (own d v :: own a w :: Δ) := h
      exact (OpD.apart h).mono fun _ _ h => h
    · rename_i hc
      rw [e1, e2] at hc
      rw [show CurvePoint.addXYZ w w = _ from if_neg hc]
      unfold CurveP.addTail
      wp_run
  all {s Δ d v} h := by
    replace h : Rel s (own d.x v.x :: own d.y v.y :: own d.z v.z :: own d.t v.t :: Δ) := h
    unfold CurveP.addGeneral
    repeat wp_step
    refine Wp.bind (wp_test h) fun _ _ ⟨e1, h⟩ => ?_
    repeat wp_step
    refine Wp.bind (wp_test h) fun _ s ⟨e2, h⟩ => ?_
    split
    · rename_i hc
      rw [e1, e2] at hc
      rw [show CurvePoint.addXYZ v v = none from if_pos hc]
      replace h := h.tail.tail.tail.tail.tail.tail.tail.tail.tail.tail
      replace h : Rel s (own d v :: Δ) := h
      exact (OpD.same h).mono fun _ _ h => h
    · rename_i hc
      rw [e1, e2] at hc
      rw [show CurvePoint.addXYZ v v = _ from if_neg hc]
      unfold CurveP.addTail
      wp_run

instance : OpA CurveP.add CurvePoint.add CurvePoint.addSelf where
  apart {s Δ d a b v w u} h := by
    unfold CurveP.add
    refine Wp.bind (wp_test h) fun _ _ ⟨e1, h⟩ => ?_
    subst e1
    split
    · rename_i hw
      rw [show CurvePoint.add v w u = u by rw [CurvePoint.add, if_pos hw]]
      exact (wp_op1 h).mono fun _ _ h => h
    · rename_i hw
      refine Wp.bind (wp_test h) fun _ _ ⟨e2, h⟩ => ?_
      subst e2
      split
      · rename_i hu
        rw [show CurvePoint.add v w u = w by rw [CurvePoint.add, if_neg hw, if_pos hu]]
        exact (wp_op1 h).mono fun _ _ h => h
      · rename_i hu
        rw [CurvePoint.add, if_neg hw, if_neg hu]
        exact (OpA.apart (m := CurveP.addGeneral) h).mono fun _ _ h => h
  left {s Δ d b v u} h := by
    unfold CurveP.add
    refine Wp.bind (wp_test h) fun _ _ ⟨e1, h⟩ => ?_
    subst e1
    split
    · rename_i hw
      rw [show CurvePoint.addSelf v u = u by rw [CurvePoint.addSelf, if_pos hw]]
      exact (wp_op1 h).mono fun _ _ h => h
    · rename_i hw
      refine Wp.bind (wp_test h) fun _ _ ⟨e2, h⟩ => ?_
      subst e2
      split
      · rename_i hu
        rw [show CurvePoint.addSelf v u = v by rw [CurvePoint.addSelf, if_neg hw, if_pos hu]]
        exact (wp_op1 h).mono fun _ _ h => h
      · rename_i hu
        rw [CurvePoint.addSelf, if_neg hw, if_neg hu]
        exact (OpA.left (m := CurveP.addGeneral) h).mono fun _ _ h => h
  right {s Δ d a v w} h := by
    unfold CurveP.add
    refine Wp.bind (wp_test h) fun _ _ ⟨e1, h⟩ => ?_
    subst e1
    split
    · rename_i hw
      rw [show CurvePoint.add v w v = v by rw [CurvePoint.add, if_pos hw]]
      exact (wp_op1 h).mono fun _ _ h => h
    · rename_i hw
      refine Wp.bind (wp_test h) fun _ _ ⟨e2, h⟩ => ?_
      subst e2
      split
      · rename_i hu
        rw [show CurvePoint.add v w v = w by rw [CurvePoint.add, if_neg hw, if_pos hu]]
        exact (wp_op1 h).mono fun _ _ h => h
      · rename_i hu
        rw [CurvePoint.add, if_neg hw, if_neg hu]
        exact (OpA.right (m := CurveP.addGeneral) h).mono fun _ _ h => h
  args {s Δ d a v w} h := by
    unfold CurveP.add
    refine Wp.bind (wp_test h) fun _ _ ⟨e1, h⟩ => ?_
    subst e1
    split
    · rename_i hw
      rw [show CurvePoint.add v w w = w by rw [CurvePoint.add, if_pos hw]]
      exact (wp_op1 h).mono fun _ _ h => h
    · rename_i hw
      refine Wp.bind (wp_test h) fun _ _ ⟨e2, h⟩ => ?_
      subst e2
      split
      · rename_i hu
        rw [show CurvePoint.add v w w = w by rw [CurvePoint.add, if_neg hw, if_pos hu]]
        exact (wp_op1 h).mono fun _ _ h => h
      · rename_i hu
        rw [CurvePoint.add, if_neg hw, if_neg hu]
        exact (OpA.args (m := CurveP.addGeneral) h).mono fun _ _ h => h
  all {s Δ d v} h := by
    unfold CurveP.add
    refine Wp.bind (wp_test h) fun _ _ ⟨e1, h⟩ => ?_
    subst e1
    split
    · rename_i hw
      rw [show CurvePoint.addSelf v v = v by rw [CurvePoint.addSelf, if_pos hw]]
      exact (wp_op1 h).mono fun _ _ h => h
    · rename_i hw
      refine Wp.bind (wp_test h) fun _ _ ⟨e2, h⟩ => ?_
      subst e2
      split
      · rename_i hu
        rw [show CurvePoint.addSelf v v = v by rw [CurvePoint.addSelf, if_neg hw, if_pos hu]]
        exact (wp_op1 h).mono fun _ _ h => h
      · rename_i hu
        rw [CurvePoint.addSelf, if_neg hw, if_neg hu]
        exact (OpA.all (m := CurveP.addGeneral) h).mono fun _ _ h => h

theorem CurveP.wp_mulLoop {s : BigHeap} {Δ : List (List (Cell × Int))} {sum t a : CurveP} {v w u : CurvePoint} (k : Int) (n : Nat)
    (h : Rel s (own sum v :: own t w :: own a u :: Δ)) :
    Wp (CurveP.mulLoop sum t a k n) s fun _ s' => ∃ w', Rel s' (own sum (CurvePoint.mulLoop u k n v w) :: own t w' :: own a u :: Δ) := by
  induction n generalizing s v w with
  | zero => exact Wp.pure ⟨w, h⟩
  | succ n ih =>
    unfold CurveP.mulLoop
    refine Wp.bind (OpD.apart (h.perm (List.Perm.swap _ _ _))) fun _ _ h => ?_
    replace h := h.perm (List.Perm.swap (own sum v) _ _)
    rw [CurvePoint.mulLoop]
    split
    · refine Wp.bind (OpA.apart h) fun _ _ h => ?_
      exact ih h
    · refine Wp.bind (wp_op1 h) fun _ _ h => ?_
      exact ih h

/-! ### `twistPoint` -/

instance : Ob TwistP TwistPoint where
  flat a v := own a.x v.x ++ (own a.y v.y ++ (own a.z v.z ++ own a.t v.t))
  inj {a b v w} h := by
    have hl : ∀ (a b : Gf2) (v w : GfP2), (own a v).length = (own b w).length := fun _ _ _ _ => rfl
    obtain ⟨h1, h⟩ := List.append_inj h (hl _ _ _ _)
    obtain ⟨h2, h⟩ := List.append_inj h (hl _ _ _ _)
    obtain ⟨h3, h4⟩ := List.append_inj h (hl _ _ _ _)
    obtain ⟨e1, f1⟩ := Ob.inj h1
    obtain ⟨e2, f2⟩ := Ob.inj h2
    obtain ⟨e3, f3⟩ := Ob.inj h3
    obtain ⟨e4, f4⟩ := Ob.inj h4
    cases a; cases b; cases v; cases w
    simp only at e1 e2 e3 e4 f1 f2 f3 f4
    subst e1 e2 e3 e4 f1 f2 f3 f4
    exact ⟨rfl, rfl⟩

set_option hygiene false in
/-- Cases of `Op1` for a method of `twistPoint`. -/
macro "twistPoint_op1" m:ident : tactic => `(tactic| (
  refine ⟨?_, ?_⟩
  · intro s Δ d b v u h
    replace h : Rel s (own d.x v.x :: own d.y v.y :: own d.z v.z :: own d.t v.t :: own b.x u.x :: own b.y u.y :: own b.z u.z :: own b.t u.t :: Δ) := h
    unfold $m
    wp_run
  · intro s Δ d v h
    replace h : Rel s (own d.x v.x :: own d.y v.y :: own d.z v.z :: own d.t v.t :: Δ) := h
    unfold $m
    wp_run))

set_option hygiene false in
/-- A method of `twistPoint` without arguments. -/
macro "twistPoint_op0" m:ident : tactic => `(tactic| (
  refine ⟨?_⟩
  · intro s Δ d v h
    replace h : Rel s (own d.x v.x :: own d.y v.y :: own d.z v.z :: own d.t v.t :: Δ) := h
    unfold $m
    wp_run))

instance : OpNew TwistP.new where
  run {s Δ} h := by
    unfold TwistP.new
    refine Wp.bind (wp_new h) fun x _ ⟨v, h⟩ => ?_
    refine Wp.bind (wp_new h) fun y _ ⟨w, h⟩ => ?_
    refine Wp.bind (wp_new h) fun z _ ⟨u, h⟩ => ?_
    refine Wp.bind (wp_new h) fun t _ ⟨r, h⟩ => ?_
    replace h := h.perm (show List.Perm ([own t r, own z u, own y w, own x v] ++ Δ) ([own x v, own y w, own z u, own t r] ++ Δ) from
      List.Perm.append_right Δ (List.reverse_perm [own x v, own y w, own z u, own t r]))
    exact Wp.pure ⟨⟨v, w, u, r⟩, h⟩

instance : OpPut TwistP.put := by twistPoint_op0 TwistP.put
instance : Op1 TwistP.set (fun a => a) := by twistPoint_op1 TwistP.set
instance : OpD TwistP.neg (fun _ a => TwistPoint.neg a) TwistPoint.negSelf := by twistPoint_op1 TwistP.neg
instance : OpSelf TwistP.setInfinity TwistPoint.setInfinity := by twistPoint_op0 TwistP.setInfinity
instance : OpD TwistP.double TwistPoint.double TwistPoint.doubleSelf := by twistPoint_op1 TwistP.double

instance : OpTest TwistP.isInfinity TwistPoint.isInfinity where
  run {s Δ d v} h := by
    replace h : Rel s (own d.x v.x :: own d.y v.y :: own d.z v.z :: own d.t v.t :: Δ) := h
    unfold TwistP.isInfinity
    exact (wp_test (m := Gf2.isZero) (d := d.z) (v := v.z) h).mono fun _ _ h => h

instance : OpA TwistP.addGeneral
    (fun c a b => match TwistPoint.addXYZ a b with | none => TwistPoint.double c a | some (x, y, z) => ⟨x, y, z, c.t⟩)
    (fun a b => match TwistPoint.addXYZ a b with | none => TwistPoint.doubleSelf a | some (x, y, z) => ⟨x, y, z, a.t⟩) where
  apart {s Δ d a b v w u} h := by
    replace h : Rel s (own d.x v.x :: own d.y v.y :: own d.z v.z :: own d.t v.t :: own a.x w.x :: own a.y w.y :: own a.z w.z :: own a.t w.t :: own b.x u.x :: own b.y u.y :: own b.z u.z :: own b.t u.t :: Δ) := h
    unfold TwistP.addGeneral
    repeat wp_step
    refine Wp.bind (wp_test h) fun _ _ ⟨e1, h⟩ => ?_
    repeat wp_step
    refine Wp.bind (wp_test h) fun _ s ⟨e2, h⟩ => ?_
    split
    · rename_i hc
      rw [e1, e2] at hc
      rw [show TwistPoint.addXYZ w u = none from if_pos hc]
      replace h := h.tail.tail.tail.tail.tail.tail.tail.tail.tail.tail
      replace h : Rel s (own d v :: own a w :: own b u :: Δ) := h
      exact (OpD.apart h).mono fun _ _ h => h
    · rename_i hc
      rw [e1, e2] at hc
      rw [show TwistPoint.addXYZ w u = _ from if_neg hc]
      unfold TwistP.addTail
      wp_run
  left {s Δ d b v u} h := by
    replace h : Rel s (own d.x v.x :: own d.y v.y :: own d.z v.z :: own d.t v.t :: own b.x u.x :: own b.y u.y :: own b.z u.z :: own b.t u.t :: Δ) := h
    unfold TwistP.addGeneral
    repeat wp_step
    refine Wp.bind (wp_test h) fun _ _ ⟨e1, h⟩ => ?_
    repeat wp_step
    refine Wp.bind (wp_test h) fun _ s ⟨e2, h⟩ => ?_
    split
    · rename_i hc
      rw [e1, e2] at hc
      rw [show TwistPoint.addXYZ v u = none from if_pos hc]
      replace h := h.tail.tail.tail.tail.tail.tail.tail.tail.tail.tail
      replace h : Rel s (own d v :: own b u :: Δ) := h
      exact (OpD.same h).mono fun _ _ h => h
    · rename_i hc
      rw [e1, e2] at hc
      rw [show TwistPoint.addXYZ v u = _ from if_neg hc]
      unfold TwistP.addTail
      wp_run
  right {s Δ d a v w} h := by
    replace h : Rel s (own d.x v.x :: own d.y v.y :: own d.z v.z :: own d.t v.t :: own a.x w.x :: own a.y w.y :: own a.z w.z :: own a.t w.t :: Δ) := h
    unfold TwistP.addGeneral
    repeat wp_step
    refine Wp.bind (wp_test h) fun _ _ ⟨e1, h⟩ => ?_
    repeat wp_step
    refine Wp.bind (wp_test h) fun _ s ⟨e2, h⟩ => ?_
    split
    · rename_i hc
      rw [e1, e2] at hc
      rw [show TwistPoint.addXYZ w v = none from if_pos hc]
      replace h := h.tail.tail.tail.tail.tail.tail.tail.tail.tail.tail
      replace h : Rel s (own d v :: own a w :: Δ) := h
      exact (OpD.apart h).mono fun _ _ h => h
    · rename_i hc
      rw [e1, e2] at hc
      rw [show TwistPoint.addXYZ w v = _ from if_neg hc]
      unfold TwistP.addTail
      wp_run
  args {s Δ d a v w} h := by
    replace h : Rel s (own d.x v.x :: own d.y v.y :: own d.z v.z :: own d.t v.t :: own a.x w.x :: own a.y w.y :: own a.z w.z :: own a.t w.t :: Δ) := h
    unfold TwistP.addGeneral
    repeat wp_step
    refine Wp.bind (wp_test h) fun _ _ ⟨e1, h⟩ => ?_
    repeat wp_step
    refine Wp.bind (wp_test h) fun _ s ⟨e2, h⟩ => ?_
    split
    · rename_i hc
      rw [e1, e2] at hc
      rw [show TwistPoint.addXYZ w w = none from if_pos hc]
      replace h := h.tail.tail.tail.tail.tail.tail.tail.tail.tail.tail
      replace h : Rel s (own d v :: own a w :: Δ) := h
      exact (OpD.apart h).mono fun _ _ h => h
    · rename_i hc
      rw [e1, e2] at hc
      rw [show TwistPoint.addXYZ w w = _ from if_neg hc]
      unfold TwistP.addTail
      wp_run
  all {s Δ d v} h := by
    replace h : Rel s (own d.x v.x :: own d.y v.y :: own d.z v.z :: own d.t v.t :: Δ) := h
    unfold TwistP.addGeneral
    repeat wp_step
    refine Wp.bind (wp_test h) fun _ _ ⟨e1, h⟩ => ?_
    repeat wp_step
    refine Wp.bind (wp_test h) fun _ s ⟨e2, h⟩ => ?_
    split
    · rename_i hc
      rw [e1, e2] at hc
      rw [show TwistPoint.addXYZ v v = none from if_pos hc]
      replace h := h.tail.tail.tail.tail.tail.tail.tail.tail.tail.tail
      replace h : Rel s (own d v :: Δ) := h
      exact (OpD.same h).mono fun _ _ h => h
    · rename_i hc
      rw [e1, e2] at hc
      rw [show TwistPoint.addXYZ v v = _ from if_neg hc]
      unfold TwistP.addTail
      wp_run

instance : OpA TwistP.add TwistPoint.add TwistPoint.addSelf where
  apart {s Δ d a b v w u} h := by
    unfold TwistP.add
    refine Wp.bind (wp_test h) fun _ _ ⟨e1, h⟩ => ?_
    subst e1
    split
    · rename_i hw
      rw [show TwistPoint.add v w u = u by rw [TwistPoint.add, if_pos hw]]
      exact (wp_op1 h).mono fun _ _ h => h
    · rename_i hw
      refine Wp.bind (wp_test h) fun _ _ ⟨e2, h⟩ => ?_
      subst e2
      split
      · rename_i hu
        rw [show TwistPoint.add v w u = w by rw [TwistPoint.add, if_neg hw, if_pos hu]]
        exact (wp_op1 h).mono fun _ _ h => h
      · rename_i hu
        rw [TwistPoint.add, if_neg hw, if_neg hu]
        exact (OpA.apart (m := TwistP.addGeneral) h).mono fun _ _ h => h
  left {s Δ d b v u} h := by
    unfold TwistP.add
    refine Wp.bind (wp_test h) fun _ _ ⟨e1, h⟩ => ?_
    subst e1
    split
    · rename_i hw
      rw [show TwistPoint.addSelf v u = u by rw [TwistPoint.addSelf, if_pos hw]]
      exact (wp_op1 h).mono fun _ _ h => h
    · rename_i hw
      refine Wp.bind (wp_test h) fun _ _ ⟨e2, h⟩ => ?_
      subst e2
      split
      · rename_i hu
        rw [show TwistPoint.addSelf v u = v by rw [TwistPoint.addSelf, if_neg hw, if_pos hu]]
        exact (wp_op1 h).mono fun _ _ h => h
      · rename_i hu
        rw [TwistPoint.addSelf, if_neg hw, if_neg hu]
        exact (OpA.left (m := TwistP.addGeneral) h).mono fun _ _ h => h
  right {s Δ d a v w} h := by
    unfold TwistP.add
    refine Wp.bind (wp_test h) fun _ _ ⟨e1, h⟩ => ?_
    subst e1
    split
    · rename_i hw
      rw [show TwistPoint.add v w v = v by rw [TwistPoint.add, if_pos hw]]
      exact (wp_op1 h).mono fun _ _ h => h
    · rename_i hw
      refine Wp.bind (wp_test h) fun _ _ ⟨e2, h⟩ => ?_
      subst e2
      split
      · rename_i hu
        rw [show TwistPoint.add v w v = w by rw [TwistPoint.add, if_neg hw, if_pos hu]]
        exact (wp_op1 h).mono fun _ _ h => h
      · rename_i hu
        rw [TwistPoint.add, if_neg hw, if_neg hu]
        exact (OpA.right (m := TwistP.addGeneral) h).mono fun _ _ h => h
  args {s Δ d a v w} h := by
    unfold TwistP.add
    refine Wp.bind (wp_test h) fun _ _ ⟨e1, h⟩ => ?_
    subst e1
    split
    · rename_i hw
      rw [show TwistPoint.add v w w = w by rw [TwistPoint.add, if_pos hw]]
      exact (wp_op1 h).mono fun _ _ h => h
    · rename_i hw
      refine Wp.bind (wp_test h) fun _ _ ⟨e2, h⟩ => ?_
      subst e2
      split
      · rename_i hu
        rw [show TwistPoint.add v w w = w by rw [TwistPoint.add, if_neg hw, if_pos hu]]
        exact (wp_op1 h).mono fun _ _ h => h
      · rename_i hu
        rw [TwistPoint.add, if_neg hw, if_neg hu]
        exact (OpA.args (m := TwistP.addGeneral) h).mono fun _ _ h => h
  all {s Δ d v} h := by
    unfold TwistP.add
    refine Wp.bind (wp_test h) fun _ _ ⟨e1, h⟩ => ?_
    subst e1
    split
    · rename_i hw
      rw [show TwistPoint.addSelf v v = v by rw [TwistPoint.addSelf, if_pos hw]]
      exact (wp_op1 h).mono fun _ _ h => h
    · rename_i hw
      refine Wp.bind (wp_test h) fun _ _ ⟨e2, h⟩ => ?_
      subst e2
      split
      · rename_i hu
        rw [show TwistPoint.addSelf v v = v by rw [TwistPoint.addSelf, if_neg hw, if_pos hu]]
        exact (wp_op1 h).mono fun _ _ h => h
      · rename_i hu
        rw [TwistPoint.addSelf, if_neg hw, if_neg hu]
        exact (OpA.all (m := TwistP.addGeneral) h).mono fun _ _ h => h

theorem TwistP.wp_mulLoop {s : BigHeap} {Δ : List (List (Cell × Int))} {sum t a : TwistP} {v w u : TwistPoint} (k : Int) (n : Nat)
    (h : Rel s (own sum v :: own t w :: own a u :: Δ)) :
    Wp (TwistP.mulLoop sum t a k n) s fun _ s' => ∃ w', Rel s' (own sum (TwistPoint.mulLoop u k n v w) :: own t w' :: own a u :: Δ) := by
  induction n generalizing s v w with
  | zero => exact Wp.pure ⟨w, h⟩
  | succ n ih =>
    unfold TwistP.mulLoop
    refine Wp.bind (OpD.apart (h.perm (List.Perm.swap _ _ _))) fun _ _ h => ?_
    replace h := h.perm (List.Perm.swap (own sum v) _ _)
    rw [TwistPoint.mulLoop]
    split
    · refine Wp.bind (OpA.apart h) fun _ _ h => ?_
      exact ih h
    · refine Wp.bind (wp_op1 h) fun _ _ h => ?_
      exact ih h

end Verif

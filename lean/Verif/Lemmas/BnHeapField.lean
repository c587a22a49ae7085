import Verif.Lemmas.BnHeap

/-!
# The methods of `gfP6` and `gfP12` on the heap
-/

namespace Verif

open BigM

instance : Ob BnGlobals Unit where
  flat g _ := own g.p6 xiToPMinus1Over6 ++ (own g.p3 xiToPMinus1Over3 ++ (own g.p2 xiToPMinus1Over2 ++
    (own g.p23 xiTo2PMinus2Over3 ++ (own g.s3 xiToPSquaredMinus1Over3 ++ (own g.s23 xiTo2PSquaredMinus2Over3 ++
    own g.s6 xiToPSquaredMinus1Over6)))))
  inj {a b _ _} h := by
    obtain ⟨⟨a1, a2⟩, ⟨a3, a4⟩, ⟨a5, a6⟩, ⟨a7, a8⟩, a9, a10, a11⟩ := a
    obtain ⟨⟨b1, b2⟩, ⟨b3, b4⟩, ⟨b5, b6⟩, ⟨b7, b8⟩, b9, b10, b11⟩ := b
    simp only [own, Ob.flat, List.cons_append, List.nil_append, List.cons.injEq, Prod.mk.injEq, and_true] at h
    obtain ⟨rfl, rfl, rfl, rfl, rfl, rfl, rfl, rfl, rfl, rfl, rfl⟩ := h
    exact ⟨rfl, rfl⟩

/-! ### `gfP6` -/

instance : Ob Gf6 GfP6 where
  flat a v := own a.x v.x ++ (own a.y v.y ++ own a.z v.z)
  inj {a b v w} h := by
    obtain ⟨⟨a1, a2⟩, ⟨a3, a4⟩, ⟨a5, a6⟩⟩ := a
    obtain ⟨⟨b1, b2⟩, ⟨b3, b4⟩, ⟨b5, b6⟩⟩ := b
    obtain ⟨⟨v1, v2⟩, ⟨v3, v4⟩, ⟨v5, v6⟩⟩ := v
    obtain ⟨⟨w1, w2⟩, ⟨w3, w4⟩, ⟨w5, w6⟩⟩ := w
    simp only [own, Ob.flat, List.cons_append, List.nil_append, List.cons.injEq, Prod.mk.injEq, and_true] at h
    obtain ⟨⟨rfl, rfl⟩, ⟨rfl, rfl⟩, ⟨rfl, rfl⟩, ⟨rfl, rfl⟩, ⟨rfl, rfl⟩, ⟨rfl, rfl⟩⟩ := h
    exact ⟨rfl, rfl⟩

instance : Apart Gf6 Cell := ⟨fun _ _ _ _ e => absurd (congrArg List.length e) (by simp [own, Ob.flat])⟩
instance : Apart Gf6 Gf2 := ⟨fun _ _ _ _ e => absurd (congrArg List.length e) (by simp [own, Ob.flat])⟩
instance : Apart Gf6 BnGlobals := ⟨fun _ _ _ _ e => absurd (congrArg List.length e) (by simp [own, Ob.flat])⟩

set_option hygiene false in
/-- Cases of `Op2` for a method of `gfP6`. -/
macro "gf6_op2" m:ident : tactic => `(tactic| (
  refine ⟨?_, ?_, ?_, ?_, ?_⟩
  · intro s Δ d a b v w u h
    replace h : Rel s (own d.x v.x :: own d.y v.y :: own d.z v.z :: own a.x w.x :: own a.y w.y :: own a.z w.z :: own b.x u.x :: own b.y u.y :: own b.z u.z :: Δ) := h
    unfold $m
    wp_run
  · intro s Δ d b v u h
    replace h : Rel s (own d.x v.x :: own d.y v.y :: own d.z v.z :: own b.x u.x :: own b.y u.y :: own b.z u.z :: Δ) := h
    unfold $m
    wp_run
  · intro s Δ d b v u h
    replace h : Rel s (own d.x v.x :: own d.y v.y :: own d.z v.z :: own b.x u.x :: own b.y u.y :: own b.z u.z :: Δ) := h
    unfold $m
    wp_run
  · intro s Δ d b v u h
    replace h : Rel s (own d.x v.x :: own d.y v.y :: own d.z v.z :: own b.x u.x :: own b.y u.y :: own b.z u.z :: Δ) := h
    unfold $m
    wp_run
  · intro s Δ d v h
    replace h : Rel s (own d.x v.x :: own d.y v.y :: own d.z v.z :: Δ) := h
    unfold $m
    wp_run))

set_option hygiene false in
/-- Cases of `Op1` for a method of `gfP6`. -/
macro "gf6_op1" m:ident : tactic => `(tactic| (
  refine ⟨?_, ?_⟩
  · intro s Δ d b v u h
    replace h : Rel s (own d.x v.x :: own d.y v.y :: own d.z v.z :: own b.x u.x :: own b.y u.y :: own b.z u.z :: Δ) := h
    unfold $m
    wp_run
  · intro s Δ d v h
    replace h : Rel s (own d.x v.x :: own d.y v.y :: own d.z v.z :: Δ) := h
    unfold $m
    wp_run))

set_option hygiene false in
/-- A method of `gfP6` without arguments. -/
macro "gf6_op0" m:ident : tactic => `(tactic| (
  refine ⟨?_⟩
  · intro s Δ d v h
    replace h : Rel s (own d.x v.x :: own d.y v.y :: own d.z v.z :: Δ) := h
    unfold $m
    wp_run))

set_option hygiene false in
/-- Cases of `OpM` for a method of `gfP6`. -/
macro "gf6_opM" m:ident : tactic => `(tactic| (
  refine ⟨?_, ?_⟩
  · intro s Δ d a b v w u h
    replace h : Rel s (own d.x v.x :: own d.y v.y :: own d.z v.z :: own a.x w.x :: own a.y w.y :: own a.z w.z :: own b u :: Δ) := h
    unfold $m
    wp_run
  · intro s Δ d b v u h
    replace h : Rel s (own d.x v.x :: own d.y v.y :: own d.z v.z :: own b u :: Δ) := h
    unfold $m
    wp_run))

set_option hygiene false in
/-- Cases of `OpM` for a method of `gfP6` which uses package variables. -/
macro "gf6_opG" m:ident : tactic => `(tactic| (
  refine ⟨?_, ?_⟩
  · intro s Δ d a g v w u h
    replace h : Rel s (own d.x v.x :: own d.y v.y :: own d.z v.z :: own a.x w.x :: own a.y w.y :: own a.z w.z :: own g.p6 xiToPMinus1Over6 :: own g.p3 xiToPMinus1Over3 ::
      own g.p2 xiToPMinus1Over2 :: own g.p23 xiTo2PMinus2Over3 :: own g.s3 xiToPSquaredMinus1Over3 ::
      own g.s23 xiTo2PSquaredMinus2Over3 :: own g.s6 xiToPSquaredMinus1Over6 :: Δ) := h
    unfold $m
    wp_run
  · intro s Δ d g v u h
    replace h : Rel s (own d.x v.x :: own d.y v.y :: own d.z v.z :: own g.p6 xiToPMinus1Over6 :: own g.p3 xiToPMinus1Over3 ::
      own g.p2 xiToPMinus1Over2 :: own g.p23 xiTo2PMinus2Over3 :: own g.s3 xiToPSquaredMinus1Over3 ::
      own g.s23 xiTo2PSquaredMinus2Over3 :: own g.s6 xiToPSquaredMinus1Over6 :: Δ) := h
    unfold $m
    wp_run))

instance : OpNew Gf6.new where
  run h := by
    unfold Gf6.new
    refine Wp.bind (wp_new h) fun x _ ⟨v, h⟩ => ?_
    refine Wp.bind (wp_new h) fun y _ ⟨w, h⟩ => ?_
    refine Wp.bind (wp_new h) fun z _ ⟨u, h⟩ => ?_
    replace h := h.perm ((List.Perm.swap (own y w) (own z u) _).trans (((List.Perm.swap (own x v) (own z u) _).cons _).trans
      (List.Perm.swap (own x v) (own y w) _)))
    exact Wp.pure ⟨⟨v, w, u⟩, h⟩

instance : OpPut Gf6.put := by gf6_op0 Gf6.put
instance : Op1 Gf6.set (fun a => a) := by gf6_op1 Gf6.set
instance : Op0 Gf6.setZero GfP6.zero := by gf6_op0 Gf6.setZero
instance : Op0 Gf6.setOne GfP6.one := by gf6_op0 Gf6.setOne
instance : OpSelf Gf6.minimal GfP6.minimal := by gf6_op0 Gf6.minimal
instance : Op1 Gf6.neg GfP6.neg := by gf6_op1 Gf6.neg
instance : OpM Gf6.frobenius (fun a (_ : Unit) => a.frobenius) := by gf6_opG Gf6.frobenius
instance : OpM Gf6.frobeniusP2 (fun a (_ : Unit) => a.frobeniusP2) := by gf6_opG Gf6.frobeniusP2
instance : Op2 Gf6.add GfP6.add := by gf6_op2 Gf6.add
instance : Op2 Gf6.sub GfP6.sub := by gf6_op2 Gf6.sub
instance : Op1 Gf6.double GfP6.double := by gf6_op1 Gf6.double
instance : Op2 Gf6.mul GfP6.mul := by gf6_op2 Gf6.mul
instance : OpM Gf6.mulScalar GfP6.mulScalar := by gf6_opM Gf6.mulScalar
instance : OpM Gf6.mulGFP GfP6.mulGFP := by gf6_opM Gf6.mulGFP
instance : Op1 Gf6.mulTau GfP6.mulTau := by gf6_op1 Gf6.mulTau
instance : Op1 Gf6.square GfP6.square := by gf6_op1 Gf6.square
instance : Op1 Gf6.invert GfP6.invert := by gf6_op1 Gf6.invert

instance : OpTest Gf6.isZero GfP6.isZero where
  run {s Δ d v} h := by
    replace h : Rel s (own d.x v.x :: own d.y v.y :: own d.z v.z :: Δ) := h
    unfold Gf6.isZero
    refine Wp.bind (wp_test h) fun _ _ ⟨e1, h⟩ => ?_
    refine Wp.bind (wp_test h) fun _ _ ⟨e2, h⟩ => ?_
    refine Wp.bind (wp_test h) fun _ _ ⟨e3, h⟩ => ?_
    subst e1 e2 e3
    exact Wp.pure ⟨rfl, h⟩

instance : OpTest Gf6.isOne GfP6.isOne where
  run {s Δ d v} h := by
    replace h : Rel s (own d.x v.x :: own d.y v.y :: own d.z v.z :: Δ) := h
    unfold Gf6.isOne
    refine Wp.bind (wp_test h) fun _ _ ⟨e1, h⟩ => ?_
    refine Wp.bind (wp_test h) fun _ _ ⟨e2, h⟩ => ?_
    refine Wp.bind (wp_test h) fun _ _ ⟨e3, h⟩ => ?_
    subst e1 e2 e3
    exact Wp.pure ⟨rfl, h⟩

/-! ### `gfP12` -/

instance : Ob Gf12 GfP12 where
  flat a v := own a.x v.x ++ own a.y v.y
  inj {a b v w} h := by
    have hl : ∀ (a b : Gf6) (v w : GfP6), (own a v).length = (own b w).length := fun _ _ _ _ => rfl
    obtain ⟨h1, h2⟩ := List.append_inj h (hl _ _ _ _)
    obtain ⟨e1, f1⟩ := Ob.inj h1
    obtain ⟨e2, f2⟩ := Ob.inj h2
    cases a; cases b; cases v; cases w
    simp only at e1 e2 f1 f2
    subst e1 e2 f1 f2
    exact ⟨rfl, rfl⟩

instance : Apart Gf12 BnGlobals := ⟨fun _ _ _ _ e => absurd (congrArg List.length e) (by simp [own, Ob.flat])⟩
instance : Apart Gf12 Gf6 := ⟨fun _ _ _ _ e => absurd (congrArg List.length e) (by simp [own, Ob.flat])⟩
instance : Apart Gf12 Gf2 := ⟨fun _ _ _ _ e => absurd (congrArg List.length e) (by simp [own, Ob.flat])⟩

set_option hygiene false in
/-- Cases of `Op2` for a method of `gfP12`. -/
macro "gf12_op2" m:ident : tactic => `(tactic| (
  refine ⟨?_, ?_, ?_, ?_, ?_⟩
  · intro s Δ d a b v w u h
    replace h : Rel s (own d.x v.x :: own d.y v.y :: own a.x w.x :: own a.y w.y :: own b.x u.x :: own b.y u.y :: Δ) := h
    unfold $m
    wp_run
  · intro s Δ d b v u h
    replace h : Rel s (own d.x v.x :: own d.y v.y :: own b.x u.x :: own b.y u.y :: Δ) := h
    unfold $m
    wp_run
  · intro s Δ d b v u h
    replace h : Rel s (own d.x v.x :: own d.y v.y :: own b.x u.x :: own b.y u.y :: Δ) := h
    unfold $m
    wp_run
  · intro s Δ d b v u h
    replace h : Rel s (own d.x v.x :: own d.y v.y :: own b.x u.x :: own b.y u.y :: Δ) := h
    unfold $m
    wp_run
  · intro s Δ d v h
    replace h : Rel s (own d.x v.x :: own d.y v.y :: Δ) := h
    unfold $m
    wp_run))

set_option hygiene false in
/-- Cases of `Op1` for a method of `gfP12`. -/
macro "gf12_op1" m:ident : tactic => `(tactic| (
  refine ⟨?_, ?_⟩
  · intro s Δ d b v u h
    replace h : Rel s (own d.x v.x :: own d.y v.y :: own b.x u.x :: own b.y u.y :: Δ) := h
    unfold $m
    wp_run
  · intro s Δ d v h
    replace h : Rel s (own d.x v.x :: own d.y v.y :: Δ) := h
    unfold $m
    wp_run))

set_option hygiene false in
/-- A method of `gfP12` without arguments. -/
macro "gf12_op0" m:ident : tactic => `(tactic| (
  refine ⟨?_⟩
  · intro s Δ d v h
    replace h : Rel s (own d.x v.x :: own d.y v.y :: Δ) := h
    unfold $m
    wp_run))

set_option hygiene false in
/-- Cases of `OpM` for a method of `gfP12`. -/
macro "gf12_opM" m:ident : tactic => `(tactic| (
  refine ⟨?_, ?_⟩
  · intro s Δ d a b v w u h
    replace h : Rel s (own d.x v.x :: own d.y v.y :: own a.x w.x :: own a.y w.y :: own b u :: Δ) := h
    unfold $m
    wp_run
  · intro s Δ d b v u h
    replace h : Rel s (own d.x v.x :: own d.y v.y :: own b u :: Δ) := h
    unfold $m
    wp_run))

set_option hygiene false in
/-- Cases of `OpM` for a method of `gfP12` which uses package variables. -/
macro "gf12_opG" m:ident : tactic => `(tactic| (
  refine ⟨?_, ?_⟩
  · intro s Δ d a g v w u h
    replace h : Rel s (own d.x v.x :: own d.y v.y :: own a.x w.x :: own a.y w.y :: own g.p6 xiToPMinus1Over6 :: own g.p3 xiToPMinus1Over3 ::
      own g.p2 xiToPMinus1Over2 :: own g.p23 xiTo2PMinus2Over3 :: own g.s3 xiToPSquaredMinus1Over3 ::
      own g.s23 xiTo2PSquaredMinus2Over3 :: own g.s6 xiToPSquaredMinus1Over6 :: Δ) := h
    unfold $m
    wp_run
  · intro s Δ d g v u h
    replace h : Rel s (own d.x v.x :: own d.y v.y :: own g.p6 xiToPMinus1Over6 :: own g.p3 xiToPMinus1Over3 ::
      own g.p2 xiToPMinus1Over2 :: own g.p23 xiTo2PMinus2Over3 :: own g.s3 xiToPSquaredMinus1Over3 ::
      own g.s23 xiTo2PSquaredMinus2Over3 :: own g.s6 xiToPSquaredMinus1Over6 :: Δ) := h
    unfold $m
    wp_run))

instance : OpNew Gf12.new where
  run h := by
    unfold Gf12.new
    refine Wp.bind (wp_new h) fun x _ ⟨v, h⟩ => ?_
    refine Wp.bind (wp_new h) fun y _ ⟨w, h⟩ => ?_
    replace h := h.perm (List.Perm.swap (own x v) (own y w) _)
    exact Wp.pure ⟨⟨v, w⟩, h⟩

instance : OpPut Gf12.put := by gf12_op0 Gf12.put
instance : Op1 Gf12.set (fun a => a) := by gf12_op1 Gf12.set
instance : Op0 Gf12.setZero GfP12.zero := by gf12_op0 Gf12.setZero
instance : Op0 Gf12.setOne GfP12.one := by gf12_op0 Gf12.setOne
instance : OpSelf Gf12.minimal GfP12.minimal := by gf12_op0 Gf12.minimal
instance : Op1 Gf12.conj GfP12.conj := by gf12_op1 Gf12.conj
instance : Op1 Gf12.neg GfP12.neg := by gf12_op1 Gf12.neg
instance : Op2 Gf12.add GfP12.add := by gf12_op2 Gf12.add
instance : Op2 Gf12.sub GfP12.sub := by gf12_op2 Gf12.sub
instance : Op2 Gf12.mul GfP12.mul := by gf12_op2 Gf12.mul
instance : Op1 Gf12.square GfP12.square := by gf12_op1 Gf12.square

instance : OpM Gf12.frobenius (fun a (_ : Unit) => a.frobenius) where
  apart {s Δ d a g v w u} h := by
    replace h : Rel s (own d.x v.x :: own d.y v.y :: own a.x w.x :: own a.y w.y :: own g u :: Δ) := h
    unfold Gf12.frobenius
    wp_step
    refine Wp.bind (wp_opM (by intros; exact own_ne) (by intros; exact own_ne) h) fun _ s h => ?_
    replace h : Rel s (own d.x w.x.frobenius :: own d.y w.y.frobenius :: own a.x w.x :: own a.y w.y :: own g.p6 xiToPMinus1Over6 :: own g.p3 xiToPMinus1Over3 ::
      own g.p2 xiToPMinus1Over2 :: own g.p23 xiTo2PMinus2Over3 :: own g.s3 xiToPSquaredMinus1Over3 ::
      own g.s23 xiTo2PSquaredMinus2Over3 :: own g.s6 xiToPSquaredMinus1Over6 :: Δ) := h
    wp_run
  same {s Δ d g v u} h := by
    replace h : Rel s (own d.x v.x :: own d.y v.y :: own g u :: Δ) := h
    unfold Gf12.frobenius
    wp_step
    refine Wp.bind (wp_opM (by intros; exact own_ne) (by intros; exact own_ne) h) fun _ s h => ?_
    replace h : Rel s (own d.x v.x.frobenius :: own d.y v.y.frobenius :: own g.p6 xiToPMinus1Over6 :: own g.p3 xiToPMinus1Over3 ::
      own g.p2 xiToPMinus1Over2 :: own g.p23 xiTo2PMinus2Over3 :: own g.s3 xiToPSquaredMinus1Over3 ::
      own g.s23 xiTo2PSquaredMinus2Over3 :: own g.s6 xiToPSquaredMinus1Over6 :: Δ) := h
    wp_run

instance : OpM Gf12.frobeniusP2 (fun a (_ : Unit) => a.frobeniusP2) where
  apart {s Δ d a g v w u} h := by
    replace h : Rel s (own d.x v.x :: own d.y v.y :: own a.x w.x :: own a.y w.y :: own g u :: Δ) := h
    unfold Gf12.frobeniusP2
    refine Wp.bind (wp_opM (by intros; exact own_ne) (by intros; exact own_ne) h) fun _ s h => ?_
    replace h : Rel s (own d.x w.x.frobeniusP2 :: own d.y v.y :: own a.x w.x :: own a.y w.y :: own g.p6 xiToPMinus1Over6 :: own g.p3 xiToPMinus1Over3 ::
      own g.p2 xiToPMinus1Over2 :: own g.p23 xiTo2PMinus2Over3 :: own g.s3 xiToPSquaredMinus1Over3 ::
      own g.s23 xiTo2PSquaredMinus2Over3 :: own g.s6 xiToPSquaredMinus1Over6 :: Δ) := h
    refine Wp.bind (wp_opM (by intros; exact own_ne) (by intros; exact own_ne) h) fun _ s h => ?_
    replace h : Rel s (own d.x (w.x.frobeniusP2.mulGFP xiToPSquaredMinus1Over6) :: own d.y v.y :: own a.x w.x :: own a.y w.y ::
      own g u :: Δ) := h
    wp_run
  same {s Δ d g v u} h := by
    replace h : Rel s (own d.x v.x :: own d.y v.y :: own g u :: Δ) := h
    unfold Gf12.frobeniusP2
    refine Wp.bind (wp_opM (by intros; exact own_ne) (by intros; exact own_ne) h) fun _ s h => ?_
    replace h : Rel s (own d.x v.x.frobeniusP2 :: own d.y v.y :: own g.p6 xiToPMinus1Over6 :: own g.p3 xiToPMinus1Over3 ::
      own g.p2 xiToPMinus1Over2 :: own g.p23 xiTo2PMinus2Over3 :: own g.s3 xiToPSquaredMinus1Over3 ::
      own g.s23 xiTo2PSquaredMinus2Over3 :: own g.s6 xiToPSquaredMinus1Over6 :: Δ) := h
    refine Wp.bind (wp_opM (by intros; exact own_ne) (by intros; exact own_ne) h) fun _ s h => ?_
    replace h : Rel s (own d.x (v.x.frobeniusP2.mulGFP xiToPSquaredMinus1Over6) :: own d.y v.y :: own g u :: Δ) := h
    wp_run

instance : Op1 Gf12.invert GfP12.invert where
  apart {s Δ d a v w} h := by
    replace h : Rel s (own d.x v.x :: own d.y v.y :: own a.x w.x :: own a.y w.y :: Δ) := h
    unfold Gf12.invert Gf12.mulScalar
    iterate 9 wp_step
    refine Wp.assoc ?_
    wp_run
  same {s Δ d v} h := by
    replace h : Rel s (own d.x v.x :: own d.y v.y :: Δ) := h
    unfold Gf12.invert Gf12.mulScalar
    iterate 9 wp_step
    refine Wp.assoc ?_
    wp_run

theorem Gf12.wp_expLoop {s : BigHeap} {Δ : List (List (Cell × Int))} {sum t a : Gf12} {v w u : GfP12} (power : Int) (n : Nat)
    (h : Rel s (own sum v :: own t w :: own a u :: Δ)) :
    Wp (Gf12.expLoop sum t a power n) s fun _ s' => ∃ w', Rel s' (own sum (u.expLoop power n v) :: own t w' :: own a u :: Δ) := by
  induction n generalizing s v w with
  | zero => exact Wp.pure ⟨w, h⟩
  | succ n ih =>
    unfold Gf12.expLoop
    refine Wp.bind (wp_op1 h) fun _ _ h => ?_
    rw [GfP12.expLoop]
    split
    · refine Wp.bind (wp_op2 h) fun _ _ h => ?_
      exact ih h
    · refine Wp.bind (wp_op1 h) fun _ _ h => ?_
      exact ih h

instance (power : Int) : Op1 (fun c a => Gf12.exp c a power) (fun a => a.exp power) where
  apart {s Δ d a v w} h := by
    unfold Gf12.exp
    refine Wp.bind (wp_new h) fun sum _ ⟨_, h⟩ => ?_
    refine Wp.bind (wp_op0 h) fun _ _ h => ?_
    refine Wp.bind (wp_new h) fun t _ ⟨w0, h⟩ => ?_
    have p : List.Perm (own t w0 :: own sum GfP12.one :: own d v :: own a w :: Δ)
        (own sum GfP12.one :: own t w0 :: own a w :: own d v :: Δ) :=
      (List.Perm.swap _ _ _).trans (((List.Perm.swap _ _ _).cons _).cons _)
    refine Wp.bind (Gf12.wp_expLoop power _ (h.perm p)) fun _ _ ⟨w', h⟩ => ?_
    refine Wp.bind (wp_op1 h) fun _ _ h => ?_
    refine Wp.bind (wp_put h) fun _ _ h => ?_
    exact (wp_put h).mono fun _ _ h => h.perm (List.Perm.swap _ _ _)
  same {s Δ d v} h := by
    unfold Gf12.exp
    refine Wp.bind (wp_new h) fun sum _ ⟨_, h⟩ => ?_
    refine Wp.bind (wp_op0 h) fun _ _ h => ?_
    refine Wp.bind (wp_new h) fun t _ ⟨w0, h⟩ => ?_
    have p : List.Perm (own t w0 :: own sum GfP12.one :: own d v :: Δ) (own sum GfP12.one :: own t w0 :: own d v :: Δ) :=
      List.Perm.swap _ _ _
    refine Wp.bind (Gf12.wp_expLoop power _ (h.perm p)) fun _ _ ⟨w', h⟩ => ?_
    refine Wp.bind (wp_op1 h) fun _ _ h => ?_
    refine Wp.bind (wp_put h) fun _ _ h => ?_
    exact (wp_put h).mono fun _ _ h => h

/-- `IsZero` and `IsOne` of `gfP12` replace the receiver by its reduced value. -/
theorem Gf12.wp_isZero {s : BigHeap} {Δ : List (List (Cell × Int))} {d : Gf12} {v : GfP12} (h : Rel s (own d v :: Δ)) :
    Wp d.isZero s fun r s' => r = v.isZero ∧ Rel s' (own d v.minimal :: Δ) := by
  unfold Gf12.isZero
  refine Wp.bind (wp_opSelf h) fun _ s h => ?_
  replace h : Rel s (own d.x v.minimal.x :: own d.y v.minimal.y :: Δ) := h
  refine Wp.bind (wp_test h) fun _ _ ⟨e1, h⟩ => ?_
  refine Wp.bind (wp_test h) fun _ _ ⟨e2, h⟩ => ?_
  subst e1 e2
  exact Wp.pure ⟨rfl, h⟩

theorem Gf12.wp_isOne {s : BigHeap} {Δ : List (List (Cell × Int))} {d : Gf12} {v : GfP12} (h : Rel s (own d v :: Δ)) :
    Wp d.isOne s fun r s' => r = v.isOne ∧ Rel s' (own d v.minimal :: Δ) := by
  unfold Gf12.isOne
  refine Wp.bind (wp_opSelf h) fun _ s h => ?_
  replace h : Rel s (own d.x v.minimal.x :: own d.y v.minimal.y :: Δ) := h
  refine Wp.bind (wp_test h) fun _ _ ⟨e1, h⟩ => ?_
  refine Wp.bind (wp_test h) fun _ _ ⟨e2, h⟩ => ?_
  subst e1 e2
  exact Wp.pure ⟨rfl, h⟩

end Verif

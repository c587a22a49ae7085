import Verif.Lemmas.BnHeapMul
import Verif.Model.BnHeapPair

/-!
# The pairing on the heap
-/

namespace Verif

open BigM

/-! ### Lines -/

/-- Cyclic exchange of the first three entries. -/
theorem perm3 {α : Type} (a b c : α) (l : List α) : (c :: a :: b :: l).Perm (a :: b :: c :: l) :=
  (List.Perm.swap _ _ _).trans ((List.Perm.swap _ _ _).cons _)

theorem perm3' {α : Type} (a b c : α) (l : List α) : (b :: c :: a :: l).Perm (a :: b :: c :: l) :=
  ((List.Perm.swap _ _ _).cons _).trans (List.Perm.swap _ _ _)

theorem TwistP.split {s : BigHeap} {Δ : List (List (Cell × Int))} {d : TwistP} {v : TwistPoint} (h : Rel s (own d v :: Δ)) :
    Rel s (own d.x v.x :: own d.y v.y :: own d.z v.z :: own d.t v.t :: Δ) := h

theorem wp_lineAdd {s : BigHeap} {Δ : List (List (Cell × Int))} {r p : TwistP} {q : CurveP} {r2 : Gf2} {vr vp : TwistPoint}
    {vq : CurvePoint} {w : GfP2} (h : Rel s (own r vr :: own p vp :: own q vq :: own r2 w :: Δ)) :
    Wp (lineAddH r p q r2) s fun l s' =>
      Rel s' (own l.1 (lineFunctionAdd vr vp vq w).1 :: own l.2.1 (lineFunctionAdd vr vp vq w).2.1 ::
        own l.2.2.1 (lineFunctionAdd vr vp vq w).2.2.1 :: own l.2.2.2 (lineFunctionAdd vr vp vq w).2.2.2 ::
        own r vr :: own p vp :: own q vq :: own r2 w :: Δ) := by
  replace h : Rel s (own r.x vr.x :: own r.y vr.y :: own r.z vr.z :: own r.t vr.t ::
    own p.x vp.x :: own p.y vp.y :: own p.z vp.z :: own p.t vp.t ::
    own q.x vq.x :: own q.y vq.y :: own q.z vq.z :: own q.t vq.t :: own r2 w :: Δ) := h
  unfold lineAddH
  iterate 22 wp_step
  refine Wp.bind (wp_new h) fun rOut _ ⟨_, h⟩ => ?_
  replace h := TwistP.split h
  repeat wp_step
  exact Wp.pure (Rel.perm (perm3' _ _ _ _) h)

theorem wp_lineDouble {s : BigHeap} {Δ : List (List (Cell × Int))} {r : TwistP} {q : CurveP} {vr : TwistPoint}
    {vq : CurvePoint} (h : Rel s (own r vr :: own q vq :: Δ)) :
    Wp (lineDoubleH r q) s fun l s' =>
      Rel s' (own l.1 (lineFunctionDouble vr vq).1 :: own l.2.1 (lineFunctionDouble vr vq).2.1 ::
        own l.2.2.1 (lineFunctionDouble vr vq).2.2.1 :: own l.2.2.2 (lineFunctionDouble vr vq).2.2.2 ::
        own r vr :: own q vq :: Δ) := by
  replace h : Rel s (own r.x vr.x :: own r.y vr.y :: own r.z vr.z :: own r.t vr.t ::
    own q.x vq.x :: own q.y vq.y :: own q.z vq.z :: own q.t vq.t :: Δ) := h
  unfold lineDoubleH
  iterate 17 wp_step
  refine Wp.bind (wp_new h) fun rOut _ ⟨_, h⟩ => ?_
  replace h := TwistP.split h
  repeat wp_step
  exact Wp.pure (Rel.perm (perm3 _ _ _ _) h)

theorem Gf6.split {s : BigHeap} {Δ : List (List (Cell × Int))} {d : Gf6} {v : GfP6} (h : Rel s (own d v :: Δ)) :
    Rel s (own d.x v.x :: own d.y v.y :: own d.z v.z :: Δ) := h

theorem Gf6.merge {s : BigHeap} {Δ : List (List (Cell × Int))} {d : Gf6} {x y z : GfP2}
    (h : Rel s (own d.x x :: own d.y y :: own d.z z :: Δ)) : Rel s (own d (⟨x, y, z⟩ : GfP6) :: Δ) := h

theorem wp_mulLine {s : BigHeap} {Δ : List (List (Cell × Int))} {ret : Gf12} {v : GfP12} {a b c : Gf2} {va vb vc : GfP2}
    (h : Rel s (own ret v :: own a va :: own b vb :: own c vc :: Δ)) :
    Wp (mulLineH ret a b c) s fun _ s' =>
      Rel s' (own ret (mulLine v va vb vc) :: own a va :: own b vb :: own c vc :: Δ) := by
  replace h : Rel s (own ret.x v.x :: own ret.y v.y :: own a va :: own b vb :: own c vc :: Δ) := h
  unfold mulLineH
  refine Wp.bind (wp_new h) fun a2 _ ⟨_, h⟩ => ?_
  replace h := Gf6.split h
  iterate 3 wp_step
  replace h := Gf6.merge h
  iterate 5 wp_step
  refine Wp.bind (wp_new h) fun t2 _ ⟨_, h⟩ => ?_
  replace h := Gf6.split h
  iterate 3 wp_step
  replace h := Gf6.merge h
  wp_run

theorem wp_lineUse {s : BigHeap} {Δ : List (List (Cell × Int))} {ret : Gf12} {v : GfP12} {l : Gf2 × Gf2 × Gf2 × TwistP} {r : TwistP}
    {va vb vc : GfP2} {vr vn : TwistPoint}
    (h : Rel s (own ret v :: own l.1 va :: own l.2.1 vb :: own l.2.2.1 vc :: own l.2.2.2 vn :: own r vr :: Δ)) :
    Wp (lineUse ret r l) s fun r' s' => Rel s' (own ret (mulLine v va vb vc) :: own r' vn :: Δ) := by
  unfold lineUse
  refine Wp.bind (wp_mulLine h) fun _ _ h => ?_
  refine Wp.bind (wp_put h) fun _ _ h => ?_
  refine Wp.bind (wp_put h) fun _ _ h => ?_
  refine Wp.bind (wp_put h) fun _ _ h => ?_
  refine Wp.bind (wp_put h) fun _ _ h => ?_
  exact Wp.pure h

/-- The rest of a pass after `lineFunctionAdd`. -/
theorem wp_addUse {s : BigHeap} {Δ : List (List (Cell × Int))} {ret : Gf12} {v : GfP12} {r p : TwistP} {q : CurveP} {r2 : Gf2}
    {vr vp : TwistPoint} {vq : CurvePoint} {w : GfP2}
    (h : Rel s (own ret v :: own r vr :: own p vp :: own q vq :: own r2 w :: Δ)) :
    Wp (lineAddH r p q r2 >>= fun l => lineUse ret r l) s fun r' s' =>
      Rel s' (own ret (mulLine v (lineFunctionAdd vr vp vq w).1 (lineFunctionAdd vr vp vq w).2.1 (lineFunctionAdd vr vp vq w).2.2.1) ::
        own r' (lineFunctionAdd vr vp vq w).2.2.2 :: own p vp :: own q vq :: own r2 w :: Δ) := by
  have p1 : (own ret v :: own r vr :: own p vp :: own q vq :: own r2 w :: Δ).Perm
      (own r vr :: own p vp :: own q vq :: own r2 w :: own ret v :: Δ) :=
    List.perm_append_comm (l₁ := [own ret v]) (l₂ := [own r vr, own p vp, own q vq, own r2 w]) |>.append_right Δ
  refine Wp.bind (wp_lineAdd (h.perm p1)) fun l s' h => ?_
  have p2 := List.perm_middle (a := own ret v) (l₁ := [own l.1 (lineFunctionAdd vr vp vq w).1, own l.2.1 (lineFunctionAdd vr vp vq w).2.1,
    own l.2.2.1 (lineFunctionAdd vr vp vq w).2.2.1, own l.2.2.2 (lineFunctionAdd vr vp vq w).2.2.2, own r vr, own p vp, own q vq,
    own r2 w]) (l₂ := Δ)
  exact (wp_lineUse (Δ := own p vp :: own q vq :: own r2 w :: Δ) (h.perm p2)).mono fun _ _ h => h

theorem wp_millerStep {s : BigHeap} {Δ : List (List (Cell × Int))} {ret : Gf12} {aA mA r : TwistP} {bA : CurveP} {r2 : Gf2}
    {va vm : TwistPoint} {vb : CurvePoint} {w : GfP2} (first : Bool) (digit : Int) {st : MillerState}
    (h : Rel s (own ret st.ret :: own r st.r :: own bA vb :: own aA va :: own mA vm :: own r2 w :: Δ)) :
    Wp (millerStepH ret aA mA bA r2 first digit r) s fun r' s' =>
      Rel s' (own ret (millerStep va vm vb w first digit st).ret :: own r' (millerStep va vm vb w first digit st).r ::
        own bA vb :: own aA va :: own mA vm :: own r2 w :: Δ) := by
  unfold millerStepH
  have p1 : (own ret st.ret :: own r st.r :: own bA vb :: own aA va :: own mA vm :: own r2 w :: Δ).Perm
      (own r st.r :: own bA vb :: own ret st.ret :: own aA va :: own mA vm :: own r2 w :: Δ) :=
    List.perm_append_comm (l₁ := [own ret st.ret]) (l₂ := [own r st.r, own bA vb]) |>.append_right _
  refine Wp.bind (wp_lineDouble (h.perm p1)) fun l s' h => ?_
  have p2 := List.perm_middle (a := own ret st.ret) (l₁ := [own l.1 (lineFunctionDouble st.r vb).1, own l.2.1 (lineFunctionDouble st.r vb).2.1,
    own l.2.2.1 (lineFunctionDouble st.r vb).2.2.1, own l.2.2.2 (lineFunctionDouble st.r vb).2.2.2, own r st.r, own bA vb])
    (l₂ := own aA va :: own mA vm :: own r2 w :: Δ)
  replace h := h.perm p2
  have key : ∀ (s : BigHeap) (v : GfP12), v = (if first then st.ret else st.ret.square) →
      Rel s (own ret v :: own l.1 (lineFunctionDouble st.r vb).1 :: own l.2.1 (lineFunctionDouble st.r vb).2.1 ::
        own l.2.2.1 (lineFunctionDouble st.r vb).2.2.1 :: own l.2.2.2 (lineFunctionDouble st.r vb).2.2.2 :: own r st.r ::
        own bA vb :: own aA va :: own mA vm :: own r2 w :: Δ) →
      Wp (lineUse ret r l >>= fun r =>
        if digit = 1 then lineAddH r aA bA r2 >>= fun l => lineUse ret r l
        else if digit = -1 then lineAddH r mA bA r2 >>= fun l => lineUse ret r l
        else pure r) s fun r' s' =>
      Rel s' (own ret (millerStep va vm vb w first digit st).ret :: own r' (millerStep va vm vb w first digit st).r ::
        own bA vb :: own aA va :: own mA vm :: own r2 w :: Δ) := by
    intro s v hv h
    refine Wp.bind (wp_lineUse h) fun r s h => ?_
    unfold millerStep
    simp only [← hv]
    by_cases d1 : digit = 1
    · rw [if_pos d1, if_pos d1]
      have q : ∀ (e f b a m r : List (Cell × Int)), (e :: f :: b :: a :: m :: r :: Δ).Perm (e :: f :: a :: b :: r :: m :: Δ) :=
        fun e f b a m r => (((List.Perm.swap a b _).trans (((List.Perm.swap r m Δ).cons b).cons a)).cons f).cons e
      exact (wp_addUse (h.perm (q _ _ _ _ _ _))).mono fun _ _ h => h.perm (q _ _ _ _ _ _).symm
    · rw [if_neg d1, if_neg d1]
      by_cases d2 : digit = -1
      · rw [if_pos d2, if_pos d2]
        have q : ∀ (e f b a m r : List (Cell × Int)), (e :: f :: b :: a :: m :: r :: Δ).Perm (e :: f :: m :: b :: r :: a :: Δ) :=
          fun e f b a m r => (((((List.Perm.swap m a _).cons b).trans (List.Perm.swap m b _)).trans
            (((List.Perm.swap r a Δ).cons b).cons m)).cons f).cons e
        exact (wp_addUse (h.perm (q _ _ _ _ _ _))).mono fun _ _ h => h.perm (q _ _ _ _ _ _).symm
      · rw [if_neg d2, if_neg d2]
        exact Wp.pure h
  cases first with
  | true => exact key _ _ rfl h
  | false =>
    refine Wp.bind (wp_op1 (m := Gf12.square) h) fun _ _ h => ?_
    exact key _ _ rfl h

theorem wp_millerLoop {Δ : List (List (Cell × Int))} {ret : Gf12} {aA mA : TwistP} {bA : CurveP} {r2 : Gf2}
    {va vm : TwistPoint} {vb : CurvePoint} {w : GfP2} (ds : List Int) : ∀ {s : BigHeap} {r : TwistP} (first : Bool) {st : MillerState},
    Rel s (own ret st.ret :: own r st.r :: own bA vb :: own aA va :: own mA vm :: own r2 w :: Δ) →
    Wp (millerLoopH ret aA mA bA r2 first ds r) s fun r' s' =>
      Rel s' (own ret (millerLoop va vm vb w first ds st).ret :: own r' (millerLoop va vm vb w first ds st).r ::
        own bA vb :: own aA va :: own mA vm :: own r2 w :: Δ) := by
  induction ds with
  | nil => exact fun _ _ h => Wp.pure h
  | cons d ds ih => exact fun first _ h => Wp.bind (wp_millerStep first d h) fun _ _ h => ih false h

/-- Two statements whose rule is about both. -/
theorem Wp.bind2 {α β γ : Type} {m : BigM α} {k : α → BigM β} {k' : β → BigM γ} {s : BigHeap} {R : β → BigHeap → Prop}
    {Q : γ → BigHeap → Prop} (h : Wp (m >>= k) s R) (hk : ∀ b s', R b s' → Wp (k' b) s' Q) :
    Wp (m >>= fun a => k a >>= k') s Q := by
  obtain ⟨c, s', e, hQ⟩ := Wp.bind h hk
  refine ⟨c, s', ?_, hQ⟩
  rw [← e]
  show (m s >>= fun r => k r.1 r.2 >>= fun r => k' r.1 r.2) = ((m s >>= fun r => k r.1 r.2) >>= fun r => k' r.1 r.2)
  cases m s <;> rfl

theorem pull1 {α : Type} {a x1 : α} {l r : List α} (h : (x1 :: l).Perm r) : (x1 :: a :: l).Perm (a :: r) :=
  (List.perm_middle (a := a) (l₁ := [x1]) (l₂ := l)).trans (h.cons a)

theorem pull2 {α : Type} {a x1 x2 : α} {l r : List α} (h : (x1 :: x2 :: l).Perm r) : (x1 :: x2 :: a :: l).Perm (a :: r) :=
  (List.perm_middle (a := a) (l₁ := [x1, x2]) (l₂ := l)).trans (h.cons a)

theorem pull3 {α : Type} {a x1 x2 x3 : α} {l r : List α} (h : (x1 :: x2 :: x3 :: l).Perm r) : (x1 :: x2 :: x3 :: a :: l).Perm (a :: r) :=
  (List.perm_middle (a := a) (l₁ := [x1, x2, x3]) (l₂ := l)).trans (h.cons a)

theorem pull4 {α : Type} {a x1 x2 x3 x4 : α} {l r : List α} (h : (x1 :: x2 :: x3 :: x4 :: l).Perm r) : (x1 :: x2 :: x3 :: x4 :: a :: l).Perm (a :: r) :=
  (List.perm_middle (a := a) (l₁ := [x1, x2, x3, x4]) (l₂ := l)).trans (h.cons a)

theorem pull5 {α : Type} {a x1 x2 x3 x4 x5 : α} {l r : List α} (h : (x1 :: x2 :: x3 :: x4 :: x5 :: l).Perm r) : (x1 :: x2 :: x3 :: x4 :: x5 :: a :: l).Perm (a :: r) :=
  (List.perm_middle (a := a) (l₁ := [x1, x2, x3, x4, x5]) (l₂ := l)).trans (h.cons a)

theorem pull6 {α : Type} {a x1 x2 x3 x4 x5 x6 : α} {l r : List α} (h : (x1 :: x2 :: x3 :: x4 :: x5 :: x6 :: l).Perm r) : (x1 :: x2 :: x3 :: x4 :: x5 :: x6 :: a :: l).Perm (a :: r) :=
  (List.perm_middle (a := a) (l₁ := [x1, x2, x3, x4, x5, x6]) (l₂ := l)).trans (h.cons a)

theorem pull7 {α : Type} {a x1 x2 x3 x4 x5 x6 x7 : α} {l r : List α} (h : (x1 :: x2 :: x3 :: x4 :: x5 :: x6 :: x7 :: l).Perm r) : (x1 :: x2 :: x3 :: x4 :: x5 :: x6 :: x7 :: a :: l).Perm (a :: r) :=
  (List.perm_middle (a := a) (l₁ := [x1, x2, x3, x4, x5, x6, x7]) (l₂ := l)).trans (h.cons a)

theorem pull8 {α : Type} {a x1 x2 x3 x4 x5 x6 x7 x8 : α} {l r : List α} (h : (x1 :: x2 :: x3 :: x4 :: x5 :: x6 :: x7 :: x8 :: l).Perm r) : (x1 :: x2 :: x3 :: x4 :: x5 :: x6 :: x7 :: x8 :: a :: l).Perm (a :: r) :=
  (List.perm_middle (a := a) (l₁ := [x1, x2, x3, x4, x5, x6, x7, x8]) (l₂ := l)).trans (h.cons a)

theorem pull9 {α : Type} {a x1 x2 x3 x4 x5 x6 x7 x8 x9 : α} {l r : List α} (h : (x1 :: x2 :: x3 :: x4 :: x5 :: x6 :: x7 :: x8 :: x9 :: l).Perm r) : (x1 :: x2 :: x3 :: x4 :: x5 :: x6 :: x7 :: x8 :: x9 :: a :: l).Perm (a :: r) :=
  (List.perm_middle (a := a) (l₁ := [x1, x2, x3, x4, x5, x6, x7, x8, x9]) (l₂ := l)).trans (h.cons a)

theorem pull10 {α : Type} {a x1 x2 x3 x4 x5 x6 x7 x8 x9 x10 : α} {l r : List α} (h : (x1 :: x2 :: x3 :: x4 :: x5 :: x6 :: x7 :: x8 :: x9 :: x10 :: l).Perm r) : (x1 :: x2 :: x3 :: x4 :: x5 :: x6 :: x7 :: x8 :: x9 :: x10 :: a :: l).Perm (a :: r) :=
  (List.perm_middle (a := a) (l₁ := [x1, x2, x3, x4, x5, x6, x7, x8, x9, x10]) (l₂ := l)).trans (h.cons a)

theorem pull11 {α : Type} {a x1 x2 x3 x4 x5 x6 x7 x8 x9 x10 x11 : α} {l r : List α} (h : (x1 :: x2 :: x3 :: x4 :: x5 :: x6 :: x7 :: x8 :: x9 :: x10 :: x11 :: l).Perm r) : (x1 :: x2 :: x3 :: x4 :: x5 :: x6 :: x7 :: x8 :: x9 :: x10 :: x11 :: a :: l).Perm (a :: r) :=
  (List.perm_middle (a := a) (l₁ := [x1, x2, x3, x4, x5, x6, x7, x8, x9, x10, x11]) (l₂ := l)).trans (h.cons a)

theorem pull12 {α : Type} {a x1 x2 x3 x4 x5 x6 x7 x8 x9 x10 x11 x12 : α} {l r : List α} (h : (x1 :: x2 :: x3 :: x4 :: x5 :: x6 :: x7 :: x8 :: x9 :: x10 :: x11 :: x12 :: l).Perm r) : (x1 :: x2 :: x3 :: x4 :: x5 :: x6 :: x7 :: x8 :: x9 :: x10 :: x11 :: x12 :: a :: l).Perm (a :: r) :=
  (List.perm_middle (a := a) (l₁ := [x1, x2, x3, x4, x5, x6, x7, x8, x9, x10, x11, x12]) (l₂ := l)).trans (h.cons a)

/-- Two lists of the same entries in another order. -/
macro "perm_tac" : tactic => `(tactic| (
  repeat (first
    | with_reducible exact List.Perm.refl _
    | with_reducible refine List.Perm.cons _ ?_
    | with_reducible refine pull1 ?_
    | with_reducible refine pull2 ?_
    | with_reducible refine pull3 ?_
    | with_reducible refine pull4 ?_
    | with_reducible refine pull5 ?_
    | with_reducible refine pull6 ?_
    | with_reducible refine pull7 ?_
    | with_reducible refine pull8 ?_
    | with_reducible refine pull9 ?_
    | with_reducible refine pull10 ?_
    | with_reducible refine pull11 ?_
    | with_reducible refine pull12 ?_)))

/-- The end of `miller` on values. -/
def millerFin (aAffine : TwistPoint) (bAffine : CurvePoint) (s : MillerState) : GfP12 :=
  let q1 := millerQ1 aAffine
  let minusQ2 := millerMinusQ2 aAffine
  let l := lineFunctionAdd s.r q1 bAffine q1.y.square
  let ret := mulLine s.ret l.1 l.2.1 l.2.2.1
  let l := lineFunctionAdd l.2.2.2 minusQ2 bAffine minusQ2.y.square
  mulLine ret l.1 l.2.1 l.2.2.1

theorem miller_eq (q : TwistPoint) (p : CurvePoint) : miller q p = millerFin q.makeAffine p.makeAffine
    (millerLoop q.makeAffine q.makeAffine.neg p.makeAffine q.makeAffine.y.square true sixuPlus2NAF.dropLast.reverse
      ⟨.one, q.makeAffine⟩) := rfl

theorem TwistP.merge {s : BigHeap} {Δ : List (List (Cell × Int))} {d : TwistP} {x y z t : GfP2}
    (h : Rel s (own d.x x :: own d.y y :: own d.z z :: own d.t t :: Δ)) : Rel s (own d (⟨x, y, z, t⟩ : TwistPoint) :: Δ) := h

theorem wp_millerTail {s : BigHeap} {Δ : List (List (Cell × Int))} {g : BnGlobals} {ret : Gf12} {aA mA r : TwistP} {bA : CurveP} {r2 : Gf2}
    {va vm vr : TwistPoint} {vb : CurvePoint} {w : GfP2} {v : GfP12}
    (h : Rel s (own ret v :: own r vr :: own bA vb :: own aA va :: own mA vm :: own r2 w :: own g () :: Δ)) :
    Wp (millerTail g ret aA mA bA r2 r) s fun _ s' =>
      Rel s' (own ret (millerFin va vb ⟨v, vr⟩) :: own g () :: Δ) := by
  unfold millerTail
  replace h : Rel s (own ret v :: own r vr :: own bA vb :: own aA.x va.x :: own aA.y va.y :: own aA.z va.z :: own aA.t va.t ::
    own mA vm :: own r2 w :: own g.p6 xiToPMinus1Over6 :: own g.p3 xiToPMinus1Over3 :: own g.p2 xiToPMinus1Over2 ::
    own g.p23 xiTo2PMinus2Over3 :: own g.s3 xiToPSquaredMinus1Over3 :: own g.s23 xiTo2PSquaredMinus2Over3 ::
    own g.s6 xiToPSquaredMinus1Over6 :: Δ) := h
  refine Wp.bind (wp_new h) fun q1 _ ⟨_, h⟩ => ?_
  replace h := TwistP.split h
  iterate 6 wp_step
  refine Wp.bind (wp_new h) fun mq _ ⟨_, h⟩ => ?_
  replace h := TwistP.split h
  iterate 5 wp_step
  rename_i s1
  replace h : Rel s1 (own mq (millerMinusQ2 va) :: own q1 (millerQ1 va) :: own ret v :: own r vr :: own bA vb :: own aA va ::
    own mA vm :: own r2 (millerQ1 va).y.square :: own g () :: Δ) := h
  replace h : Rel s1 (own ret v :: own r vr :: own q1 (millerQ1 va) :: own bA vb :: own r2 (millerQ1 va).y.square ::
    own mq (millerMinusQ2 va) :: own aA va :: own mA vm :: own g () :: Δ) := h.perm (by perm_tac)
  refine Wp.bind2 (wp_addUse h) fun r s2 h => ?_
  generalize e1 : lineFunctionAdd vr (millerQ1 va) vb (millerQ1 va).y.square = l1 at h
  replace h : Rel s2 (own ret (mulLine v l1.1 l1.2.1 l1.2.2.1) :: own r l1.2.2.2 :: own q1 (millerQ1 va) :: own bA vb ::
    own r2 (millerQ1 va).y.square :: own mq.x (millerMinusQ2 va).x :: own mq.y (millerMinusQ2 va).y ::
    own mq.z (millerMinusQ2 va).z :: own mq.t (millerMinusQ2 va).t :: own aA va :: own mA vm :: own g () :: Δ) := h
  wp_step
  rename_i s3
  replace h : Rel s3 (own ret (mulLine v l1.1 l1.2.1 l1.2.2.1) :: own r l1.2.2.2 :: own q1 (millerQ1 va) :: own bA vb ::
    own r2 (millerMinusQ2 va).y.square :: own mq (millerMinusQ2 va) :: own aA va :: own mA vm :: own g () :: Δ) := h
  replace h : Rel s3 (own ret (mulLine v l1.1 l1.2.1 l1.2.2.1) :: own r l1.2.2.2 :: own mq (millerMinusQ2 va) :: own bA vb ::
    own r2 (millerMinusQ2 va).y.square :: own q1 (millerQ1 va) :: own aA va :: own mA vm :: own g () :: Δ) := h.perm (by perm_tac)
  refine Wp.bind2 (wp_addUse h) fun r s4 h => ?_
  generalize e2 : lineFunctionAdd l1.2.2.2 (millerMinusQ2 va) vb (millerMinusQ2 va).y.square = l2 at h
  have e : millerFin va vb ⟨v, vr⟩ = mulLine (mulLine v l1.1 l1.2.1 l1.2.2.1) l2.1 l2.2.1 l2.2.2.1 := by
    subst e1; subst e2; rfl
  rw [e]
  replace h : Rel s4 (own mq (millerMinusQ2 va) :: own q1 (millerQ1 va) ::
    own ret (mulLine (mulLine v l1.1 l1.2.1 l1.2.2.1) l2.1 l2.2.1 l2.2.2.1) :: own r l2.2.2.2 :: own bA vb ::
    own r2 (millerMinusQ2 va).y.square :: own aA va :: own mA vm :: own g () :: Δ) := h.perm (by perm_tac)
  replace h := h.tail.tail
  iterate 4 wp_step
  exact (wp_put h).mono fun _ _ h => h

theorem wp_miller {s : BigHeap} {Δ : List (List (Cell × Int))} {g : BnGlobals} {q : TwistP} {p : CurveP} {vq : TwistPoint}
    {vp : CurvePoint} (hp : vp.Invertible) (h : Rel s (own g () :: own q vq :: own p vp :: Δ)) :
    Wp (millerH g q p) s fun r s' => Rel s' (own r (miller vq vp) :: own g () :: own q vq :: own p vp :: Δ) := by
  unfold millerH
  refine Wp.bind (wp_new h) fun ret _ ⟨_, h⟩ => ?_
  wp_step
  refine Wp.bind (wp_new h) fun aA _ ⟨_, h⟩ => ?_
  iterate 2 wp_step
  refine Wp.bind (wp_new h) fun bA _ ⟨_, h⟩ => ?_
  wp_step
  refine Wp.bind (CurveP.wp_makeAffine hp h) fun _ _ h => ?_
  refine Wp.bind (wp_new h) fun mA _ ⟨_, h⟩ => ?_
  rename_i w0
  have h1 := h
  replace h1 : Rel _ (own mA w0 :: own aA vq.makeAffine :: own bA vp.makeAffine :: own ret GfP12.one :: own g () :: own q vq ::
    own p vp :: Δ) := h1.perm (by perm_tac)
  refine Wp.bind (OpD.apart h1) fun _ s1 h => ?_
  refine Wp.bind (wp_new h) fun r s2 ⟨w1, h⟩ => ?_
  wp_step
  refine Wp.bind (wp_new h) fun r2 s3 ⟨w2, h⟩ => ?_
  replace h : Rel s3 (own r2 w2 :: own r vq.makeAffine :: own mA vq.makeAffine.neg :: own aA.x vq.makeAffine.x ::
    own aA.y vq.makeAffine.y :: own aA.z vq.makeAffine.z :: own aA.t vq.makeAffine.t :: own bA vp.makeAffine ::
    own ret GfP12.one :: own g () :: own q vq :: own p vp :: Δ) := h
  wp_step
  rename_i s4
  replace h : Rel s4 (own r2 vq.makeAffine.y.square :: own r vq.makeAffine :: own mA vq.makeAffine.neg :: own aA vq.makeAffine ::
    own bA vp.makeAffine :: own ret GfP12.one :: own g () :: own q vq :: own p vp :: Δ) := h
  have p2 : (own r2 vq.makeAffine.y.square :: own r vq.makeAffine :: own mA vq.makeAffine.neg :: own aA vq.makeAffine ::
    own bA vp.makeAffine :: own ret GfP12.one :: own g () :: own q vq :: own p vp :: Δ).Perm
    (own ret GfP12.one :: own r vq.makeAffine :: own bA vp.makeAffine :: own aA vq.makeAffine :: own mA vq.makeAffine.neg ::
      own r2 vq.makeAffine.y.square :: own g () :: own q vq :: own p vp :: Δ) := by perm_tac
  refine Wp.bind (wp_millerLoop (st := ⟨.one, vq.makeAffine⟩) sixuPlus2NAF.dropLast.reverse true (h.perm p2)) fun r s5 h => ?_
  refine Wp.bind (wp_millerTail h) fun _ _ h => ?_
  exact Wp.pure h

/-- `miller` panics when the point of the curve cannot be made affine. -/
theorem miller_panic {s : BigHeap} {Δ : List (List (Cell × Int))} {g : BnGlobals} {q : TwistP} {p : CurveP} {vq : TwistPoint}
    {vp : CurvePoint} (hp : ¬ vp.Invertible) (h : Rel s (own g () :: own q vq :: own p vp :: Δ)) :
    millerH g q p s = .panic := by
  have key : ∀ {α : Type} {m : BigM α} {k : α → BigM Gf12} {s : BigHeap} {R : α → BigHeap → Prop},
      Wp m s R → (∀ a s', R a s' → k a s' = .panic) → (m >>= k) s = .panic := by
    intro α m k s R ⟨a, s', e, hR⟩ hk
    show (m s >>= fun r => k r.1 r.2) = _
    rw [e]; exact hk a s' hR
  unfold millerH
  refine key (wp_new h) fun ret _ ⟨_, h⟩ => ?_
  refine key (wp_op0 h) fun _ _ h => ?_
  refine key (wp_new h) fun aA _ ⟨_, h⟩ => ?_
  refine key (wp_op1 h) fun _ _ h => ?_
  refine key (wp_opSelf h) fun _ _ h => ?_
  refine key (wp_new h) fun bA _ ⟨_, h⟩ => ?_
  refine key (wp_op1 h) fun _ s' h => ?_
  have := CurveP.makeAffine_panic hp h
  show (bA.makeAffine s' >>= _) = _
  rw [this]; rfl

theorem wp_finalExponentiation {s : BigHeap} {Δ : List (List (Cell × Int))} {g : BnGlobals} {e : Gf12} {v : GfP12}
    (h : Rel s (own g () :: own e v :: Δ)) :
    Wp (finalExponentiationH g e) s fun r s' => Rel s' (own r (finalExponentiation v) :: own g () :: own e v :: Δ) := by
  unfold finalExponentiationH
  refine Wp.bind (wp_new h) fun t1 s1 ⟨_, h⟩ => ?_
  replace h : Rel s1 (own t1.x _ :: own t1.y _ :: own g () :: own e.x v.x :: own e.y v.y :: Δ) := h
  iterate 2 wp_step
  rename_i s2
  replace h : Rel s2 (own t1 (⟨v.x.neg, v.y⟩ : GfP12) :: own g () :: own e v :: Δ) := h
  refine Wp.bind (wp_new h) fun inv _ ⟨_, h⟩ => ?_
  repeat wp_step
  refine Wp.bind (wp_op1 (m := fun c a => Gf12.exp c a bnU) h) fun _ _ h => ?_
  refine Wp.bind (wp_op1 (m := fun c a => Gf12.exp c a bnU) h) fun _ _ h => ?_
  refine Wp.bind (wp_op1 (m := fun c a => Gf12.exp c a bnU) h) fun _ _ h => ?_
  repeat wp_step
  exact Wp.pure h

theorem wp_optimalAte {s : BigHeap} {Δ : List (List (Cell × Int))} {g : BnGlobals} {q : TwistP} {p : CurveP} {vq : TwistPoint}
    {vp : CurvePoint} (hp : vp.Invertible) (h : Rel s (own g () :: own q vq :: own p vp :: Δ)) :
    Wp (optimalAteH g q p) s fun r s' => Rel s' (own r (optimalAte vq vp) :: own g () :: own q vq :: own p vp :: Δ) := by
  unfold optimalAteH
  refine Wp.bind (wp_miller hp h) fun e _ h => ?_
  have p1 : (own e (miller vq vp) :: own g () :: own q vq :: own p vp :: Δ).Perm
      (own g () :: own e (miller vq vp) :: own q vq :: own p vp :: Δ) := List.Perm.swap _ _ _
  refine Wp.bind (wp_finalExponentiation (h.perm p1)) fun r _ h => ?_
  wp_step
  refine Wp.bind (wp_test h) fun i s1 ⟨e1, h⟩ => ?_
  refine Wp.bind (wp_test h) fun j s2 ⟨e2, h⟩ => ?_
  subst e1 e2
  unfold optimalAte
  by_cases c : (vq.isInfinity || vp.isInfinity) = true
  · rw [if_pos c, if_pos c]
    refine Wp.bind (wp_op0 h) fun _ _ h => ?_
    exact Wp.pure h
  · rw [if_neg c, if_neg c]
    exact Wp.pure h

end Verif

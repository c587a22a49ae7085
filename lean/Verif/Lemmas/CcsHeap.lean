import Verif.Spec.CcsHeap
import Verif.Props.BnHeap
import Verif.Lemmas.Ccs

/-! # Calls in sequence on objects in memory -/

namespace Verif

open BigM

/-! ### Values depend on the cells only -/

/-- The value of an object depends on its cells only. -/
class HeapLaw (A : Type) {V : Type} [HeapObj A V] : Prop where
  congr : ∀ {a : A} {m m' : Cell → Int}, (∀ c ∈ HeapObj.cells a, m c = m' c) → HeapObj.val m a = HeapObj.val m' a

instance {A V : Type} [Ob A V] [HeapObj A V] [ObjLaw A] : HeapLaw A where
  congr {a m m'} h := by
    refine (ObjLaw.val a _ m).1 fun p hp => ?_
    have h1 := (ObjLaw.val a (HeapObj.val m' a) m').2 rfl p hp
    rw [h p.1 (by rw [← ObjLaw.cells a (HeapObj.val m' a)]; exact List.mem_map_of_mem hp)]
    exact h1

instance {A V : Type} [HeapObj A V] [HeapLaw A] : HeapLaw (List A) where
  congr {l m m'} h := List.map_congr_left fun a ha => HeapLaw.congr fun c hc =>
    h c (List.mem_flatten.2 ⟨_, List.mem_map_of_mem ha, hc⟩)

instance {A V : Type} [HeapObj A V] [HeapLaw A] : HeapLaw (Option A) where
  congr {a m m'} h := by
    cases a with
    | none => rfl
    | some a => exact congrArg some (HeapLaw.congr h)

instance : HeapLaw (Int × Option TwistP) where
  congr {a m m'} h := congrArg (Prod.mk a.1) (HeapLaw.congr (a := a.2) h)

instance : HeapLaw KeygenH where
  congr {a m m'} h := by
    show (⟨_, _, _⟩ : KeygenResult) = ⟨_, _, _⟩
    rw [HeapLaw.congr (a := a.pubk) h]

instance : HeapLaw ParamsSetH where
  congr {a m m'} h := by
    have h1 : ∀ c ∈ HeapObj.cells a.signatures ++ HeapObj.cells a.H ++ HeapObj.cells a.kp, m c = m' c := h
    simp only [List.mem_append, or_imp, forall_and] at h1
    show (⟨_, _, _⟩ : ParamsSet) = ⟨_, _, _⟩
    rw [HeapLaw.congr h1.1.1, HeapLaw.congr h1.1.2, HeapLaw.congr h1.2]

instance : HeapLaw ParamsULH where
  congr {a m m'} h := by
    have h1 : ∀ c ∈ HeapObj.cells a.signatures ++ HeapObj.cells a.H ++ HeapObj.cells a.kp, m c = m' c := h
    simp only [List.mem_append, or_imp, forall_and] at h1
    show (⟨_, _, _, _, _⟩ : ParamsUL) = ⟨_, _, _, _, _⟩
    rw [HeapLaw.congr h1.1.1, HeapLaw.congr h1.1.2, HeapLaw.congr h1.2]

instance : HeapLaw CcsParamsH where
  congr {a m m'} h := by
    show (⟨_, _, _⟩ : CcsParams) = ⟨_, _, _⟩
    rw [HeapLaw.congr (a := a.p) h]

instance : HeapLaw ProofSetH where
  congr {a m m'} h := by
    have h1 : ∀ c ∈ HeapObj.cells a.V ++ HeapObj.cells a.D ++ HeapObj.cells a.C ++ HeapObj.cells a.a, m c = m' c := h
    simp only [List.mem_append, or_imp, forall_and] at h1
    show (⟨_, _, _, _, _, _, _, _, _, _, _⟩ : ProofSet) = ⟨_, _, _, _, _, _, _, _, _, _, _⟩
    rw [HeapLaw.congr h1.1.1.1, HeapLaw.congr h1.1.1.2, HeapLaw.congr h1.1.2, HeapLaw.congr h1.2]

instance : HeapLaw ProofULH where
  congr {a m m'} h := by
    have h1 : ∀ c ∈ HeapObj.cells a.V ++ HeapObj.cells a.D ++ HeapObj.cells a.C ++ HeapObj.cells a.a, m c = m' c := h
    simp only [List.mem_append, or_imp, forall_and] at h1
    show (⟨_, _, _, _, _, _, _, _, _, _, _⟩ : ProofUL) = ⟨_, _, _, _, _, _, _, _, _, _, _⟩
    rw [HeapLaw.congr h1.1.1.1, HeapLaw.congr h1.1.1.2, HeapLaw.congr h1.1.2, HeapLaw.congr h1.2]

instance : HeapLaw CcsProofH where
  congr {a m m'} h := by
    have h1 : ∀ c ∈ HeapObj.cells a.p1 ++ HeapObj.cells a.p2, m c = m' c := h
    simp only [List.mem_append, or_imp, forall_and] at h1
    show (⟨_, _⟩ : CcsProof) = ⟨_, _⟩
    rw [HeapLaw.congr h1.1, HeapLaw.congr h1.2]

/-! ### The objects a function has made so far -/

/-- Since `s0`, of the cells that existed then only those in `W` may have changed; the objects in `L` are new or in `W`, have no
parts in common and have these values. -/
structure Loc (s0 : BigHeap) (W : List Cell) (s : BigHeap) (L : List (List (Cell × Int))) : Prop where
  pool : s.pool = none
  next : s0.next ≤ s.next
  keep : ∀ c < s0.next, c ∉ W → s.mem c = s0.mem c
  nodup : (L.flatten.map Prod.fst).Nodup
  cell : ∀ p ∈ L.flatten, (s0.next ≤ p.1 ∨ p.1 ∈ W) ∧ p.1 < s.next ∧ s.mem p.1 = p.2

section
variable {s0 s : BigHeap} {W : List Cell} {L L' : List (List (Cell × Int))}

theorem Loc.start (hs : s.pool = none) : Loc s W s [] :=
  ⟨hs, le_refl _, fun _ _ _ => rfl, List.nodup_nil, by simp⟩

theorem Loc.perm (h : Loc s0 W s L) (hp : L.Perm L') : Loc s0 W s L' :=
  ⟨h.pool, h.next, h.keep, ((hp.flatten).map _).nodup_iff.1 h.nodup, fun p hp' => h.cell p (hp.flatten.mem_iff.2 hp')⟩

theorem Loc.sub (h : Loc s0 W s L) (hl : L'.Sublist L) : Loc s0 W s L' :=
  ⟨h.pool, h.next, h.keep, h.nodup.sublist (hl.flatten.map _), fun p hp => h.cell p (hl.flatten.subset hp)⟩

theorem Loc.swap {x y : List (Cell × Int)} (h : Loc s0 W s (x :: y :: L)) : Loc s0 W s (y :: x :: L) :=
  h.perm (List.Perm.swap _ _ _)

/-- Bring the third object to the front. -/
theorem Loc.third {x y z : List (Cell × Int)} (h : Loc s0 W s (x :: y :: z :: L)) : Loc s0 W s (z :: x :: y :: L) :=
  h.perm (((List.Perm.swap z y L).cons x).trans (List.Perm.swap z x (y :: L)))

/-- Bring the fourth object to the front. -/
theorem Loc.fourth {x y z w : List (Cell × Int)} (h : Loc s0 W s (x :: y :: z :: w :: L)) : Loc s0 W s (w :: x :: y :: z :: L) :=
  h.perm ((((List.Perm.swap w z L).cons y).trans (List.Perm.swap w y (z :: L))).cons x |>.trans (List.Perm.swap w x (y :: z :: L)))

theorem Loc.tail {x : List (Cell × Int)} (h : Loc s0 W s (x :: L)) : Loc s0 W s L := h.sub (List.sublist_cons_self _ _)

/-- Drop the second object. -/
theorem Loc.drop2 {x y : List (Cell × Int)} (h : Loc s0 W s (x :: y :: L)) : Loc s0 W s (x :: L) :=
  h.sub ((List.sublist_cons_self _ _).cons₂ _)

/-- Drop the fifth object. -/
theorem Loc.drop5 {x y z w u : List (Cell × Int)} (h : Loc s0 W s (x :: y :: z :: w :: u :: L)) :
    Loc s0 W s (x :: y :: z :: w :: L) :=
  h.sub (((((List.sublist_cons_self _ _).cons₂ _).cons₂ _).cons₂ _).cons₂ _)

variable {A V : Type} [Ob A V] [HeapObj A V] [ObjLaw A]

theorem own_nodup {L : List (List (Cell × Int))} {a : List (Cell × Int)} (h : (L.flatten.map Prod.fst).Nodup) (ha : a ∈ L) :
    (a.map Prod.fst).Nodup :=
  h.sublist ((List.sublist_flatten_of_mem ha).map _)

theorem Loc.mem {a : A} {v : V} (h : Loc s0 W s L) (ha : own a v ∈ L) : Live s a ∧ HeapObj.val s.mem a = v := by
  refine ⟨⟨?_, fun c hc => ?_⟩, (ObjLaw.val a v s.mem).1 fun p hp => (h.cell p (List.mem_flatten.2 ⟨_, ha, hp⟩)).2.2⟩
  · rw [← ObjLaw.cells a v]; exact own_nodup h.nodup ha
  · rw [← ObjLaw.cells a v] at hc
    obtain ⟨p, hp, rfl⟩ := List.mem_map.1 hc
    exact (h.cell p (List.mem_flatten.2 ⟨_, ha, hp⟩)).2.1

theorem Loc.head {a : A} {v : V} (h : Loc s0 W s (own a v :: L)) : Live s a ∧ HeapObj.val s.mem a = v :=
  h.mem List.mem_cons_self

theorem Loc.where {a : A} {v : V} (h : Loc s0 W s L) (ha : own a v ∈ L) : ∀ c ∈ HeapObj.cells a, s0.next ≤ c ∨ c ∈ W := by
  intro c hc
  rw [← ObjLaw.cells a v] at hc
  obtain ⟨p, hp, rfl⟩ := List.mem_map.1 hc
  exact (h.cell p (List.mem_flatten.2 ⟨_, ha, hp⟩)).1

theorem Loc.disj {B U : Type} [Ob B U] [HeapObj B U] [ObjLaw B] {a : A} {v : V} {b : B} {w : U} (h : Loc s0 W s (own a v :: L))
    (hb : own b w ∈ L) : Disj (HeapObj.cells a) (HeapObj.cells b) := by
  intro c hc hc'
  rw [← ObjLaw.cells a v] at hc
  rw [← ObjLaw.cells b w] at hc'
  have h1 := h.nodup
  rw [List.flatten_cons, List.map_append, List.nodup_append] at h1
  exact h1.2.2 c hc c ((List.sublist_flatten_of_mem hb).map _ |>.subset hc') rfl

/-! ### Objects that existed before -/

/-- An object that existed in `s0`, had the value `v`, and is not in `W`. -/
structure Old {A V : Type} [HeapObj A V] (s0 : BigHeap) (W : List Cell) (a : A) (v : V) : Prop where
  live : Live s0 a
  val : HeapObj.val s0.mem a = v
  apart : Disj (HeapObj.cells a) W

theorem Loc.old {A V : Type} [HeapObj A V] [HeapLaw A] {a : A} {v : V} (h : Loc s0 W s L) (ha : Old s0 W a v) :
    Live s a ∧ HeapObj.val s.mem a = v :=
  ⟨⟨ha.live.1, fun c hc => (ha.live.2 c hc).trans_le h.next⟩,
   (HeapLaw.congr fun c hc => h.keep c (ha.live.2 c hc) (ha.apart c hc)).trans ha.val⟩

theorem Loc.disj_old {B U : Type} [HeapObj B U] {a : A} {v : V} {b : B} {w : U} (h : Loc s0 W s L)
    (ha : own a v ∈ L) (hb : Old s0 W b w) : Disj (HeapObj.cells a) (HeapObj.cells b) := by
  intro c hc hc'
  rcases h.where ha c hc with h1 | h1
  · exact absurd (hb.live.2 c hc') (not_lt.2 h1)
  · exact hb.apart c hc' h1

/-- An object that may be used as an argument. -/
def Arg {A V : Type} [Ob A V] [HeapObj A V] (s0 : BigHeap) (W : List Cell) (L : List (List (Cell × Int))) (a : A) (v : V) : Prop :=
  Old s0 W a v ∨ own a v ∈ L

theorem Loc.arg {a : A} {v : V} (h : Loc s0 W s L) (ha : Arg s0 W L a v) : Live s a ∧ HeapObj.val s.mem a = v :=
  ha.elim h.old h.mem

theorem Loc.disj_arg {B U : Type} [Ob B U] [HeapObj B U] [ObjLaw B] {a : A} {v : V} {b : B} {w : U}
    (h : Loc s0 W s (own a v :: L)) (hb : Arg s0 W L b w) : Disj (HeapObj.cells a) (HeapObj.cells b) :=
  hb.elim (h.disj_old List.mem_cons_self) h.disj

/-! ### Steps -/

/-- A call that makes an object. -/
theorem Loc.new {m : BigM A} {v : V} (h : Loc s0 W s L) (hm : Gives m s none v) :
    Wp m s fun r s' => Loc s0 W s' (own r v :: L) := by
  obtain ⟨r, s', e, hp, hn, hk, hl, hv, -, hf⟩ := hm
  refine ⟨r, s', e, hp, h.next.trans hn, fun c hc hW => ?_, ?_, fun p hp' => ?_⟩
  · rw [hk c (hc.trans_le h.next) (by simp [recvCells]), h.keep c hc hW]
  · rw [List.flatten_cons, List.map_append, List.nodup_append, ObjLaw.cells]
    refine ⟨hl.1, h.nodup, fun c hc c' hc' => ?_⟩
    rintro rfl
    obtain ⟨p, hp', rfl⟩ := List.mem_map.1 hc'
    exact absurd (h.cell p hp').2.1 (not_lt.2 (hf rfl _ hc))
  · rw [List.flatten_cons, List.mem_append] at hp'
    rcases hp' with hp' | hp'
    · have hc : p.1 ∈ HeapObj.cells r := by rw [← ObjLaw.cells r v]; exact List.mem_map_of_mem hp'
      exact ⟨Or.inl (h.next.trans (hf rfl _ hc)), hl.2 _ hc, (ObjLaw.val r v s'.mem).2 hv p hp'⟩
    · obtain ⟨h1, h2, h3⟩ := h.cell p hp'
      exact ⟨h1, h2.trans_le hn, (hk p.1 h2 (by simp [recvCells])).trans h3⟩

/-- A call that changes the first object. -/
theorem Loc.change {α : Type} {m : BigM α} {a : A} {v w : V} {Q : α → Prop} (h : Loc s0 W s (own a v :: L))
    (hm : Effect m s (HeapObj.cells a) fun r s' => Q r ∧ Live s' a ∧ HeapObj.val s'.mem a = w) :
    Wp m s fun r s' => Q r ∧ Loc s0 W s' (own a w :: L) := by
  obtain ⟨r, s', e, hp, hn, hk, hQ, hl, hv⟩ := hm
  have hd : ∀ p ∈ L.flatten, p.1 ∉ HeapObj.cells a := by
    intro p hp' hc
    have h1 := h.nodup
    rw [List.flatten_cons, List.map_append, List.nodup_append, ObjLaw.cells] at h1
    exact h1.2.2 _ hc _ (List.mem_map_of_mem hp') rfl
  refine ⟨r, s', e, hQ, hp, h.next.trans hn, fun c hc hW => ?_, ?_, fun p hp' => ?_⟩
  · refine (hk c (hc.trans_le h.next) fun hca => ?_).trans (h.keep c hc hW)
    exact (h.where List.mem_cons_self c hca).elim (fun h1 => absurd hc (not_lt.2 h1)) hW
  · have h1 := h.nodup
    rw [List.flatten_cons, List.map_append, ObjLaw.cells] at h1 ⊢
    exact h1
  · rw [List.flatten_cons, List.mem_append] at hp'
    rcases hp' with hp' | hp'
    · have hc : p.1 ∈ HeapObj.cells a := by rw [← ObjLaw.cells a w]; exact List.mem_map_of_mem hp'
      exact ⟨h.where List.mem_cons_self _ hc, hl.2 _ hc, (ObjLaw.val a w s'.mem).2 hv p hp'⟩
    · obtain ⟨h1, h2, h3⟩ := h.cell p (List.mem_append_right _ hp')
      exact ⟨h1, h2.trans_le hn, (hk p.1 h2 (hd p hp')).trans h3⟩

/-- A call with the first object as receiver. -/
theorem Loc.upd {m : BigM A} {a : A} {v w : V} (h : Loc s0 W s (own a v :: L)) (hm : Gives m s (some a) w) :
    Wp m s fun _ s' => Loc s0 W s' (own a w :: L) := by
  have : Effect m s (HeapObj.cells a) fun r s' => True ∧ Live s' a ∧ HeapObj.val s'.mem a = w := by
    obtain ⟨r, s', e, hp, hn, hk, hl, hv, hr, -⟩ := hm
    obtain rfl := hr a rfl
    exact ⟨r, s', e, hp, hn, hk, trivial, hl, hv⟩
  exact (h.change this).mono fun _ _ h => h.2

/-- A call that only returns something. -/
theorem Loc.ret {α : Type} {m : BigM α} {b : α} (h : Loc s0 W s L) (hm : Returns m s b) :
    Wp m s fun r s' => r = b ∧ Loc s0 W s' L := by
  obtain ⟨r, s', e, hp, hn, hk, hr⟩ := hm
  refine ⟨r, s', e, hr, hp, h.next.trans hn, fun c hc hW => ?_, h.nodup, fun p hp' => ?_⟩
  · rw [hk c (hc.trans_le h.next) (by simp), h.keep c hc hW]
  · obtain ⟨h1, h2, h3⟩ := h.cell p hp'
    exact ⟨h1, h2.trans_le hn, (hk p.1 h2 (by simp)).trans h3⟩

end

/-! ### The operations used by ccs08 -/

section
variable {s0 s : BigHeap} {W : List Cell} {L : List (List (Cell × Int))}

theorem Loc.g2_scalarMult {a : TwistP} {v : TwistPoint} (h : Loc s0 W s L) (ha : Arg s0 W L a v) (k : Int) :
    Wp (G2H.scalarMult none a k) s fun r s' => Loc s0 W s' (own r (G2.scalarMult v k) :: L) := by
  obtain ⟨h1, h2⟩ := h.arg ha
  have := C74_g2_scalarMult h.pool (e := none) (a := a) (fun _ h => by cases h) h1 (fun _ h => by cases h) k
  rw [h2] at this
  exact h.new this

theorem Loc.g2_add {a b : TwistP} {v w : TwistPoint} (h : Loc s0 W s (own a v :: L)) (hb : Arg s0 W L b w) :
    Wp (G2H.add (some a) a b) s fun _ s' => Loc s0 W s' (own a (v.addSelf w) :: L) := by
  have hd := h.disj_arg hb
  obtain ⟨h1, h2⟩ := h.head
  obtain ⟨h3, h4⟩ := h.tail.arg hb
  have := (C74_g2_add h.pool (e := some a) (a := a) (b := b) (fun _ h => by cases h; exact h1) h1 h3
    (fun _ h => by cases h; exact Or.inl rfl) (fun _ h => by cases h; exact Or.inr hd) (Or.inr hd)).2 rfl
  rw [h2, h4] at this
  exact h.upd this

theorem Loc.g2_marshal {a : TwistP} {v : TwistPoint} (h : Loc s0 W s (own a v :: L)) :
    Wp (G2H.marshal a) s fun r s' => r = (G2.marshal v).1 ∧ Loc s0 W s' (own a (G2.marshal v).2 :: L) := by
  obtain ⟨h1, h2⟩ := h.head
  have := C74_g2_marshal h.pool h1
  rw [h2] at this
  exact h.change this

theorem Loc.g2_infinity (h : Loc s0 W s L) :
    Wp G2H.setInfinity s fun r s' => Loc s0 W s' (own r TwistPoint.new.setInfinity :: L) :=
  h.new (C74_g2_infinity h.pool)

theorem Loc.gt_scalarMult {a : Gf12} {v : GfP12} (h : Loc s0 W s L) (ha : Arg s0 W L a v) (k : Int) :
    Wp (GTH.scalarMult none a k) s fun r s' => Loc s0 W s' (own r (GT.scalarMult v k) :: L) := by
  obtain ⟨h1, h2⟩ := h.arg ha
  have := C74_gt_scalarMult h.pool (e := none) (a := a) (fun _ h => by cases h) h1 (fun _ h => by cases h) k
  rw [h2] at this
  exact h.new this

theorem Loc.gt_scalarSelf {a : Gf12} {v : GfP12} (h : Loc s0 W s (own a v :: L)) (k : Int) :
    Wp (GTH.scalarMult (some a) a k) s fun _ s' => Loc s0 W s' (own a (GT.scalarMult v k) :: L) := by
  obtain ⟨h1, h2⟩ := h.head
  have := C74_gt_scalarMult h.pool (e := some a) (a := a) (fun _ h => by cases h; exact h1) h1
    (fun _ h => by cases h; exact Or.inl rfl) k
  rw [h2] at this
  exact h.upd this

theorem Loc.gt_invert {a : Gf12} {v : GfP12} (h : Loc s0 W s (own a v :: L)) :
    Wp (GTH.invert (some a) a) s fun _ s' => Loc s0 W s' (own a v.invert :: L) := by
  obtain ⟨h1, h2⟩ := h.head
  have := (C74_gt_invert h.pool (e := some a) (a := a) (fun _ h => by cases h; exact h1) h1
    (fun _ h => by cases h; exact Or.inl rfl)).1
  rw [h2] at this
  exact h.upd this

theorem Loc.gt_add {a b : Gf12} {v w : GfP12} (h : Loc s0 W s (own a v :: L)) (hb : Arg s0 W L b w) :
    Wp (GTH.add (some a) a b) s fun _ s' => Loc s0 W s' (own a (v.mul w) :: L) := by
  have hd := h.disj_arg hb
  obtain ⟨h1, h2⟩ := h.head
  obtain ⟨h3, h4⟩ := h.tail.arg hb
  have := C74_gt_add h.pool (e := some a) (a := a) (b := b) (fun _ h => by cases h; exact h1) h1 h3
    (fun _ h => by cases h; exact Or.inl rfl) (fun _ h => by cases h; exact Or.inr hd) (Or.inr hd)
  rw [h2, h4] at this
  exact h.upd this

theorem Loc.gt_marshal {a : Gf12} {v : GfP12} (h : Loc s0 W s (own a v :: L)) :
    Wp (GTH.marshal a) s fun r s' => r = (GT.marshal v).1 ∧ Loc s0 W s' (own a (GT.marshal v).2 :: L) := by
  obtain ⟨h1, h2⟩ := h.head
  have := (C74_gt_tests h.pool h1).2.2
  rw [h2] at this
  exact h.change this

theorem Loc.gt_isOne {a : Gf12} {v : GfP12} (h : Loc s0 W s (own a v :: L)) :
    Wp (GTH.isOne a) s fun r s' => r = v.isOne ∧ Loc s0 W s' (own a v.minimal :: L) := by
  obtain ⟨h1, h2⟩ := h.head
  have := (C74_gt_tests h.pool h1).2.1
  rw [h2] at this
  exact h.change this

theorem Loc.g1_scalarMult {a : CurveP} {v : CurvePoint} (h : Loc s0 W s L) (ha : Arg s0 W L a v) (k : Int) :
    Wp (G1H.scalarMult none a k) s fun r s' => Loc s0 W s' (own r (G1.scalarMult .new v k) :: L) := by
  obtain ⟨h1, h2⟩ := h.arg ha
  have := C74_g1_scalarMult h.pool (e := none) (a := a) (fun _ h => by cases h) h1 (fun _ h => by cases h) k
  rw [h2] at this
  exact h.new this

theorem Loc.g1_marshal {a : CurveP} {v : CurvePoint} (h : Loc s0 W s (own a v :: L)) (hv : v.Invertible) :
    Wp (G1H.marshal a) s fun r s' => r = (G1.marshal v).1 ∧ Loc s0 W s' (own a (G1.marshal v).2 :: L) := by
  obtain ⟨h1, h2⟩ := h.head
  have := C74_g1_marshal h.pool h1
  rw [h2] at this
  exact h.change (this.1 hv)

theorem Loc.g1_add {a b : CurveP} {v w : CurvePoint} (h : Loc s0 W s (own a v :: L)) (hb : Arg s0 W L b w) :
    Wp (G1H.add (some a) a b) s fun _ s' => Loc s0 W s' (own a (v.addSelf w) :: L) := by
  have hd := h.disj_arg hb
  obtain ⟨h1, h2⟩ := h.head
  obtain ⟨h3, h4⟩ := h.tail.arg hb
  have := (C74_g1_add h.pool (e := some a) (a := a) (b := b) (fun _ h => by cases h; exact h1) h1 h3
    (fun _ h => by cases h; exact Or.inl rfl) (fun _ h => by cases h; exact Or.inr hd) (Or.inr hd)).2 rfl
  rw [h2, h4] at this
  exact h.upd this

/-! ### Texts -/

theorem Returns.bind {α β : Type} {m : BigM α} {k : α → BigM β} {a : α} {b : β} (h : Returns m s a)
    (hk : ∀ s', s'.pool = none → s.next ≤ s'.next → (∀ c < s.next, s'.mem c = s.mem c) → Returns (k a) s' b) :
    Returns (m >>= k) s b := by
  obtain ⟨r, s', e, hp, hn, hm, rfl⟩ := h
  obtain ⟨r', s'', e', hp', hn', hm', hr⟩ := hk s' hp hn fun c hc => hm c hc (by simp)
  refine ⟨r', s'', ?_, hp', hn.trans hn', fun c hc _ => ?_, hr⟩
  · show (m s >>= fun r => k r.1 r.2) = _
    rw [e]; exact e'
  · rw [hm' c (hc.trans_le hn) (by simp), hm c hc (by simp)]

theorem returns_pure {α : Type} {a : α} (hs : s.pool = none) : Returns (pure a) s a :=
  ⟨a, s, rfl, hs, le_refl _, fun _ _ _ => rfl, rfl⟩

theorem returns_modNew {c : Cell} (hs : s.pool = none) (hc : c < s.next) : Returns (modNew c) s (s.mem c % bnP) := by
  refine ⟨_, _, rfl, hs, Nat.le_succ _, fun c' hc' _ => ?_, ?_⟩
  · simp [hc'.ne]
  · simp [hc.ne]

theorem live_mono {A V : Type} [HeapObj A V] [HeapLaw A] {s' : BigHeap} {a : A} (ha : ∀ c ∈ HeapObj.cells a, c < s.next)
    (hn : s.next ≤ s'.next) (hm : ∀ c < s.next, s'.mem c = s.mem c) :
    (∀ c ∈ HeapObj.cells a, c < s'.next) ∧ HeapObj.val s'.mem a = HeapObj.val s.mem a :=
  ⟨fun c hc => (ha c hc).trans_le hn, HeapLaw.congr fun c hc => hm c (ha c hc)⟩

theorem returns_string2 {e : Gf2} (hs : s.pool = none) (he : ∀ c ∈ HeapObj.cells e, c < s.next) :
    Returns e.string s (HeapObj.val s.mem e).string := by
  have hx : e.x < s.next := he _ (by simp [HeapObj.cells])
  have hy : e.y < s.next := he _ (by simp [HeapObj.cells])
  refine (returns_modNew hs hx).bind fun s1 h1 h2 h3 => ?_
  have := returns_modNew h1 (hy.trans_le h2)
  rw [h3 _ hy] at this
  exact this.bind fun s2 h4 _ _ => returns_pure h4

theorem returns_string6 {e : Gf6} (hs : s.pool = none) (he : ∀ c ∈ HeapObj.cells e, c < s.next) :
    Returns e.string s (HeapObj.val s.mem e).string := by
  have hx : ∀ c ∈ HeapObj.cells e.x, c < s.next := fun c hc => he c (by simp [HeapObj.cells] at hc ⊢; tauto)
  have hy : ∀ c ∈ HeapObj.cells e.y, c < s.next := fun c hc => he c (by simp [HeapObj.cells] at hc ⊢; tauto)
  have hz : ∀ c ∈ HeapObj.cells e.z, c < s.next := fun c hc => he c (by simp [HeapObj.cells] at hc ⊢; tauto)
  refine (returns_string2 hs hx).bind fun s1 h1 h2 h3 => ?_
  have h4 := live_mono hy h2 h3
  have h5 := live_mono hz h2 h3
  have := returns_string2 h1 h4.1
  rw [h4.2] at this
  refine this.bind fun s2 h6 h7 h8 => ?_
  have h9 := live_mono h5.1 h7 h8
  have := returns_string2 h6 h9.1
  rw [h9.2, h5.2] at this
  exact this.bind fun s2 h4 _ _ => returns_pure h4

theorem returns_stringGT {e : Gf12} (hs : s.pool = none) (he : Live s e) :
    Returns (GTH.string e) s (GT.string (HeapObj.val s.mem e)) := by
  have hx : ∀ c ∈ HeapObj.cells e.x, c < s.next := fun c hc => he.2 c (List.mem_append_left _ hc)
  have hy : ∀ c ∈ HeapObj.cells e.y, c < s.next := fun c hc => he.2 c (List.mem_append_right _ hc)
  refine (returns_string6 hs hx).bind fun s1 h1 h2 h3 => ?_
  have h4 := live_mono hy h2 h3
  have := returns_string6 h1 h4.1
  rw [h4.2] at this
  exact this.bind fun s2 h4 _ _ => returns_pure h4

theorem returns_stringG2 {e : TwistP} (hs : s.pool = none) (he : Live s e) :
    Returns (G2H.string e) s (G2.string (HeapObj.val s.mem e)) := by
  have hx : ∀ c ∈ HeapObj.cells e.x, c < s.next := fun c hc => he.2 c (by simp [HeapObj.cells] at hc ⊢; tauto)
  have hy : ∀ c ∈ HeapObj.cells e.y, c < s.next := fun c hc => he.2 c (by simp [HeapObj.cells] at hc ⊢; tauto)
  have hz : ∀ c ∈ HeapObj.cells e.z, c < s.next := fun c hc => he.2 c (by simp [HeapObj.cells] at hc ⊢; tauto)
  refine (returns_string2 hs hx).bind fun s1 h1 h2 h3 => ?_
  have h4 := live_mono hy h2 h3
  have h5 := live_mono hz h2 h3
  have := returns_string2 h1 h4.1
  rw [h4.2] at this
  refine this.bind fun s2 h6 h7 h8 => ?_
  have h9 := live_mono h5.1 h7 h8
  have := returns_string2 h6 h9.1
  rw [h9.2, h5.2] at this
  exact this.bind fun s2 h4 _ _ => returns_pure h4

end

/-! ### Outcomes as in the model on values -/

/-- The call panics if the value model does; otherwise `Q` holds of the value, the result and the heap afterwards. -/
def Sim {α V : Type} (m : BigM α) (s : BigHeap) (rv : Res V) (Q : V → α → BigHeap → Prop) : Prop :=
  (rv = .panic → m s = .panic) ∧ ∀ v, rv = .ok v → Wp m s (Q v)

theorem Sim.step {α β V : Type} {m : BigM α} {k : α → BigM β} {s : BigHeap} {rv : Res V} {R : α → BigHeap → Prop}
    {Q : V → β → BigHeap → Prop} (h : Wp m s R) (hk : ∀ a s', R a s' → Sim (k a) s' rv Q) : Sim (m >>= k) s rv Q := by
  refine ⟨fun hp => ?_, fun v hv => h.bind fun a s' hR => (hk a s' hR).2 v hv⟩
  obtain ⟨a, s', e, hR⟩ := h
  show (m s >>= fun r => k r.1 r.2) = _
  rw [e]
  exact (hk a s' hR).1 hp

theorem Sim.bind {α β V U : Type} {m : BigM α} {k : α → BigM β} {s : BigHeap} {rv : Res V} {f : V → Res U}
    {R : V → α → BigHeap → Prop} {Q : U → β → BigHeap → Prop} (h : Sim m s rv R)
    (hk : ∀ v a s', rv = .ok v → R v a s' → Sim (k a) s' (f v) Q) : Sim (m >>= k) s (rv >>= f) Q := by
  cases rv with
  | panic =>
    refine ⟨fun _ => ?_, fun v hv => by cases hv⟩
    show (m s >>= fun r => k r.1 r.2) = _
    rw [h.1 rfl]; rfl
  | ok v => exact Sim.step (h.2 v rfl) fun a s' hR => hk v a s' rfl hR

theorem Sim.pure {α V : Type} {s : BigHeap} {a : α} {v : V} {Q : V → α → BigHeap → Prop} (h : Q v a s) :
    Sim (Pure.pure a) s (.ok v) Q := by
  refine And.intro (fun h => by cases h) fun w hw => ?_
  obtain rfl := Res.ok.inj hw
  exact Wp.pure h

theorem Sim.ofRes {V : Type} {s : BigHeap} (x : Res V) : Sim (BigM.ofRes x) s x fun v a s' => a = v ∧ s' = s := by
  refine ⟨fun h => ?_, fun v hv => ?_⟩
  · subst h; rfl
  · subst hv; exact ⟨v, s, rfl, rfl, rfl⟩

theorem Sim.mono {α V : Type} {m : BigM α} {s : BigHeap} {rv : Res V} {Q Q' : V → α → BigHeap → Prop} (h : Sim m s rv Q)
    (hq : ∀ v a s', rv = .ok v → Q v a s' → Q' v a s') : Sim m s rv Q' :=
  ⟨h.1, fun v hv => (h.2 v hv).mono fun a s' => hq v a s' hv⟩

theorem Sim.map {α V U : Type} {m : BigM α} {s : BigHeap} {rv : Res V} {f : V → U} {R : V → α → BigHeap → Prop}
    {Q : U → α → BigHeap → Prop} (h : Sim m s rv R) (hq : ∀ v a s', R v a s' → Q (f v) a s') :
    Sim m s (rv >>= fun v => .ok (f v)) Q := by
  cases rv with
  | panic => exact ⟨fun _ => h.1 rfl, fun v hv => by cases hv⟩
  | ok v =>
    refine And.intro (fun h => by cases h) fun u hu => ?_
    obtain rfl := Res.ok.inj hu
    exact (h.2 v rfl).mono fun a s' => hq v a s'

/-- A lookup in a pointer that may be nil. -/
theorem Sim.opt {β U A V : Type} {s : BigHeap} {oa : Option A} {ov : Option V} {k : A → BigM β} {f : V → Res U}
    {Q : U → β → BigHeap → Prop} (val : A → V) (h : ov = oa.map val)
    (hk : ∀ a, oa = some a → Sim (k a) s (f (val a)) Q) :
    Sim (BigM.ofRes (Res.ofOption oa) >>= k) s (Res.ofOption ov >>= f) Q := by
  subst h
  cases oa with
  | none => exact ⟨fun _ => rfl, fun v hv => by cases hv⟩
  | some a => exact hk a rfl

/-! ### The package variables -/

/-- The package variables are there, and not in `W`. -/
structure Env (g : CcsGlobals) (s0 : BigHeap) (W : List Cell) : Prop where
  ready : CcsReady g s0
  apart : Disj g.cells W

section
variable {g : CcsGlobals} {s0 s : BigHeap} {W : List Cell} {L : List (List (Cell × Int))}

theorem liveCells_sub {l l' : List Cell} (h : LiveCells s l) (hl : l'.Sublist l) : LiveCells s l' :=
  ⟨h.1.sublist hl, fun c hc => h.2 c (hl.subset hc)⟩

theorem disj_sub {l l' k : List Cell} (h : Disj l k) (hl : l'.Sublist l) : Disj l' k := fun c hc => h c (hl.subset hc)

theorem sub_bn : g.bn.cells.Sublist g.cells := by
  unfold CcsGlobals.cells
  simp only [List.append_assoc]
  exact List.sublist_append_left _ _

private theorem sub_curveGen : (HeapObj.cells g.curveGen).Sublist g.cells := by
  unfold CcsGlobals.cells
  simp only [List.append_assoc]
  exact (List.sublist_append_left _ _).trans (List.sublist_append_right _ _)

private theorem sub_twistGen : (HeapObj.cells g.twistGen).Sublist g.cells := by
  unfold CcsGlobals.cells
  simp only [List.append_assoc]
  exact (List.sublist_append_left _ _).trans ((List.sublist_append_right _ _).trans (List.sublist_append_right _ _))

private theorem sub_twistB : (HeapObj.cells g.twistB).Sublist g.cells := by
  unfold CcsGlobals.cells
  rw [List.append_assoc]
  exact (List.sublist_append_right _ _).trans (List.sublist_append_left _ _)

private theorem sub_G1 : (HeapObj.cells g.G1).Sublist g.cells :=
  (List.sublist_append_right _ _).trans (List.sublist_append_left _ _)

private theorem sub_E : (HeapObj.cells g.E).Sublist g.cells := List.sublist_append_right _ _

theorem Env.curveGen (he : Env g s0 W) : Old s0 W g.curveGen .gen :=
  ⟨liveCells_sub he.ready.live sub_curveGen, he.ready.intact.2.1, disj_sub he.apart sub_curveGen⟩

theorem Env.twistGen (he : Env g s0 W) : Old s0 W g.twistGen .gen :=
  ⟨liveCells_sub he.ready.live sub_twistGen, he.ready.intact.2.2.1, disj_sub he.apart sub_twistGen⟩

theorem Env.twistB (he : Env g s0 W) : Old s0 W g.twistB Verif.twistB :=
  ⟨liveCells_sub he.ready.live sub_twistB, he.ready.intact.2.2.2.1, disj_sub he.apart sub_twistB⟩

theorem Env.G1 (he : Env g s0 W) : Old s0 W g.G1 utilG1 :=
  ⟨liveCells_sub he.ready.live sub_G1, he.ready.intact.2.2.2.2.1, disj_sub he.apart sub_G1⟩

theorem Env.E (he : Env g s0 W) : Old s0 W g.E utilE :=
  ⟨liveCells_sub he.ready.live sub_E, he.ready.intact.2.2.2.2.2, disj_sub he.apart sub_E⟩

theorem Loc.bn (h : Loc s0 W s L) (he : Env g s0 W) : LiveCells s g.bn.cells ∧ g.bn.Intact s.mem := by
  have h0 := liveCells_sub he.ready.live sub_bn
  refine ⟨⟨h0.1, fun c hc => (h0.2 c hc).trans_le h.next⟩, (globals_val _ _).1 fun p hp => ?_⟩
  have h1 := (globals_val g.bn s0.mem).2 he.ready.intact.1 p hp
  have hc : p.1 ∈ g.bn.cells := by rw [← globals_cells]; exact List.mem_map_of_mem hp
  rw [h.keep p.1 (h0.2 _ hc) (disj_sub he.apart sub_bn _ hc)]
  exact h1

/-- An object apart from the package variables. -/
def NotGlobal {A V : Type} [HeapObj A V] (g : CcsGlobals) (a : A) : Prop := Disj g.cells (HeapObj.cells a)

theorem Loc.apart {A V : Type} [Ob A V] [HeapObj A V] [ObjLaw A] {a : A} {v : V} (h : Loc s0 W s L) (he : Env g s0 W)
    (ha : own a v ∈ L) : NotGlobal g a := by
  intro c hc hca
  rcases h.where ha c hca with h1 | h1
  · exact absurd (he.ready.live.2 c hc) (not_lt.2 h1)
  · exact he.apart c hc h1

theorem disj_bn_G1 (hg : LiveCells s g.cells) : Disj g.bn.cells (HeapObj.cells g.G1) := by
  intro c hc hc'
  have h := hg.1
  unfold CcsGlobals.cells at h
  simp only [List.append_assoc] at h
  rw [List.nodup_append] at h
  exact h.2.2 c hc c (by simp only [List.mem_append]; exact Or.inr (Or.inr (Or.inr (Or.inl hc')))) rfl

theorem Loc.g2_base (h : Loc s0 W s L) (he : Env g s0 W) (k : Int) :
    Wp (G2H.scalarBaseMult g.twistGen none k) s fun r s' => Loc s0 W s' (own r (G2.scalarBaseMult k) :: L) :=
  h.g2_scalarMult (Or.inl he.twistGen) k

theorem Loc.g1_base (h : Loc s0 W s L) (he : Env g s0 W) (k : Int) :
    Wp (G1H.scalarBaseMult g.curveGen none k) s fun r s' => Loc s0 W s' (own r (G1.scalarBaseMult .new k) :: L) :=
  h.g1_scalarMult (Or.inl he.curveGen) k

theorem Loc.pair {p : CurveP} {q : TwistP} {v : CurvePoint} {w : TwistPoint} (h : Loc s0 W s L) (he : Env g s0 W)
    (hp : Arg s0 W L p v) (hq : Arg s0 W L q w) (hv : v.Invertible) (h1 : Disj g.bn.cells (HeapObj.cells p))
    (h2 : Disj g.bn.cells (HeapObj.cells q)) (h3 : Disj (HeapObj.cells q) (HeapObj.cells p)) :
    Wp (pairH g.bn p q) s fun r s' => Loc s0 W s' (own r (Verif.pair v w) :: L) := by
  obtain ⟨hl, hi⟩ := h.bn he
  obtain ⟨p1, p2⟩ := h.arg hp
  obtain ⟨q1, q2⟩ := h.arg hq
  have := C74_pair h.pool hl hi p1 q1 h1 h2 h3
  rw [p2, q2] at this
  exact h.new (this.1 hv)

/-- `Pair(G1, V)`. -/
theorem Loc.pairG1 {q : TwistP} {w : TwistPoint} (h : Loc s0 W s L) (he : Env g s0 W) (hq : Arg s0 W L q w) (ha : NotGlobal g q) :
    Wp (pairH g.bn g.G1 q) s fun r s' => Loc s0 W s' (own r (Verif.pair utilG1 w) :: L) :=
  h.pair he (Or.inl he.G1) hq (CurvePoint.invertible_of_rep rep1_utilG1) (disj_bn_G1 he.ready.live) (disj_sub ha sub_bn)
    (disj_symm (disj_sub ha sub_G1))

theorem Loc.g1_unmarshal (h : Loc s0 W s L) (m : List UInt8) :
    (∀ v, G1.unmarshal m = some v → Wp (G1H.unmarshal none m) s fun r s' => ∃ p, r = (true, some p) ∧ Loc s0 W s' (own p v :: L)) ∧
    (G1.unmarshal m = none → Wp (G1H.unmarshal none m) s fun r s' => r.1 = false ∧ Loc s0 W s' L) := by
  have hu := C74_g1_unmarshal h.pool (e := none) (fun _ h => by cases h) m
  have key : ∀ {b : Bool} {v : CurvePoint}, Effect (G1H.unmarshal none m) s (recvCells (none : Option CurveP)) (fun r s' =>
      ∃ p, r = (b, some p) ∧ IsResult s none v p s') → Wp (G1H.unmarshal none m) s fun r s' =>
      ∃ p, r = (b, some p) ∧ Loc s0 W s' (own p v :: L) := by
    rintro b v ⟨r, s', e, h1, h2, h3, p, rfl, hr⟩
    obtain ⟨p', s'', e', h'⟩ := h.new (m := fun _ => .ok (p, s')) (v := v) ⟨p, s', rfl, h1, h2, h3, hr⟩
    obtain ⟨rfl, rfl⟩ := Prod.mk.inj (Res.ok.inj e')
    exact ⟨_, _, e, _, rfl, h'⟩
  have hlen : ∀ v, G1.unmarshal m = some v → m.length = 64 := by
    intro v hv
    by_contra hm
    unfold G1.unmarshal at hv
    rw [if_pos hm] at hv
    cases hv
  refine ⟨fun v hv => key (hu.2.1 (hlen v hv) v hv), fun hv => ?_⟩
  by_cases hm : m.length = 64
  · exact (key (hu.2.2 hm hv)).mono fun r s' ⟨p, hr, h⟩ => ⟨by rw [hr], h.tail⟩
  · exact (h.ret (hu.1 hm)).mono fun r s' ⟨hr, h⟩ => ⟨by rw [hr], h⟩

theorem Loc.g2_unmarshal (h : Loc s0 W s L) (he : Env g s0 W) (m : List UInt8) :
    (∀ v, G2.unmarshal m = some v → Wp (G2H.unmarshal g.twistB none m) s fun r s' =>
      ∃ p, r = (true, some p) ∧ Loc s0 W s' (own p v :: L)) ∧
    (G2.unmarshal m = none → Wp (G2H.unmarshal g.twistB none m) s fun r s' => r.1 = false ∧ Loc s0 W s' L) := by
  obtain ⟨hb, hv⟩ := h.old he.twistB
  have hu := C74_g2_unmarshal h.pool (e := none) (b := g.twistB) (fun _ h => by cases h) hb hv (fun _ h => by cases h) m
  have key : ∀ {b : Bool} {v : TwistPoint}, Effect (G2H.unmarshal g.twistB none m) s (recvCells (none : Option TwistP)) (fun r s' =>
      ∃ p, r = (b, some p) ∧ IsResult s none v p s') → Wp (G2H.unmarshal g.twistB none m) s fun r s' =>
      ∃ p, r = (b, some p) ∧ Loc s0 W s' (own p v :: L) := by
    rintro b v ⟨r, s', e, h1, h2, h3, p, rfl, hr⟩
    obtain ⟨p', s'', e', h'⟩ := h.new (m := fun _ => .ok (p, s')) (v := v) ⟨p, s', rfl, h1, h2, h3, hr⟩
    obtain ⟨rfl, rfl⟩ := Prod.mk.inj (Res.ok.inj e')
    exact ⟨_, _, e, _, rfl, h'⟩
  have hlen : ∀ v, G2.unmarshal m = some v → m.length = 128 := by
    intro v hv
    by_contra hm
    unfold G2.unmarshal at hv
    rw [if_pos hm] at hv
    cases hv
  refine ⟨fun v hv => key (hu.2.1 (hlen v hv) v hv), fun hv => ?_⟩
  by_cases hm : m.length = 128
  · exact (key (hu.2.2 hm hv)).mono fun r s' ⟨p, hr, h⟩ => ⟨by rw [hr], h.tail⟩
  · exact (h.ret (hu.1 hm)).mono fun r s' ⟨hr, h⟩ => ⟨by rw [hr], h⟩

end

end Verif

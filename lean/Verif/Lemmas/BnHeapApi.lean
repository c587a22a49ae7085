import Verif.Spec.BnHeap
import Verif.Spec.BnGroup
import Verif.Lemmas.BnHeapPair
import Mathlib.Data.List.Nodup
import Mathlib.Data.List.Perm.Subperm

/-! # From ownership to what a caller sees -/

namespace Verif

open BigM

/-- The two descriptions of objects agree. -/
class ObjLaw (A : Type) {V : Type} [Ob A V] [HeapObj A V] : Prop where
  cells : ∀ (a : A) (v : V), (own a v).map Prod.fst = HeapObj.cells a
  val : ∀ (a : A) (v : V) (m : Cell → Int), (∀ p ∈ own a v, m p.1 = p.2) ↔ HeapObj.val m a = v

instance : ObjLaw Gf2 where
  cells _ _ := rfl
  val a v m := by
    obtain ⟨x, y⟩ := v
    simp [own, Ob.flat, HeapObj.val]

theorem own_append {A V : Type} [Ob A V] {L : List (Cell × Int)} {a : A} {v : V} {m : Cell → Int} :
    (∀ p ∈ own a v ++ L, m p.1 = p.2) ↔ (∀ p ∈ own a v, m p.1 = p.2) ∧ ∀ p ∈ L, m p.1 = p.2 := by
  simp only [List.mem_append, or_imp, forall_and]

instance : ObjLaw Gf6 where
  cells _ _ := rfl
  val a v m := by
    show (∀ p ∈ own a.x v.x ++ (own a.y v.y ++ own a.z v.z), _) ↔ _
    rw [own_append, own_append, ObjLaw.val, ObjLaw.val, ObjLaw.val]
    obtain ⟨x, y, z⟩ := v
    simp [HeapObj.val]

instance : ObjLaw Gf12 where
  cells _ _ := rfl
  val a v m := by
    show (∀ p ∈ own a.x v.x ++ own a.y v.y, _) ↔ _
    rw [own_append, ObjLaw.val, ObjLaw.val]
    obtain ⟨x, y⟩ := v
    simp [HeapObj.val]

instance : ObjLaw CurveP where
  cells _ _ := rfl
  val a v m := by
    obtain ⟨x, y, z, t⟩ := v
    simp [own, Ob.flat, HeapObj.val]

instance : ObjLaw TwistP where
  cells _ _ := rfl
  val a v m := by
    show (∀ p ∈ own a.x v.x ++ (own a.y v.y ++ (own a.z v.z ++ own a.t v.t)), _) ↔ _
    rw [own_append, own_append, own_append, ObjLaw.val, ObjLaw.val, ObjLaw.val, ObjLaw.val]
    obtain ⟨x, y, z, t⟩ := v
    simp [HeapObj.val]

theorem globals_cells (g : BnGlobals) : (own g ()).map Prod.fst = g.cells := rfl

theorem own_cell {L : List (Cell × Int)} {c : Cell} {v : Int} {m : Cell → Int} :
    (∀ p ∈ own c v ++ L, m p.1 = p.2) ↔ m c = v ∧ ∀ p ∈ L, m p.1 = p.2 := by
  rw [own_append]
  simp [own, Ob.flat]

theorem globals_val (g : BnGlobals) (m : Cell → Int) : (∀ p ∈ own g (), m p.1 = p.2) ↔ g.Intact m := by
  show (∀ p ∈ own g.p6 _ ++ (own g.p3 _ ++ (own g.p2 _ ++ (own g.p23 _ ++ (own g.s3 _ ++ (own g.s23 _ ++ own g.s6 _))))), _) ↔ _
  rw [own_append, own_append, own_append, own_append, own_cell, own_cell, ObjLaw.val, ObjLaw.val, ObjLaw.val, ObjLaw.val]
  simp [own, Ob.flat, BnGlobals.Intact]

/-- The objects listed exist, have no parts in common and hold these values. -/
structure Known (s : BigHeap) (E : List (List (Cell × Int))) : Prop where
  pool : s.pool = none
  live : LiveCells s (E.flatten.map Prod.fst)
  mem : ∀ p ∈ E.flatten, s.mem p.1 = p.2

/-- All other cells. -/
def others (s : BigHeap) (l : List Cell) : List (Cell × Int) :=
  ((List.range s.next).filter fun c => c ∉ l).map fun c => (c, s.mem c)

theorem others_fst (s : BigHeap) (l : List Cell) : (others s l).map Prod.fst = (List.range s.next).filter fun c => c ∉ l := by
  simp [others, Function.comp_def]

theorem Known.rel {s : BigHeap} {E : List (List (Cell × Int))} (h : Known s E) :
    Rel0 s (E ++ [others s (E.flatten.map Prod.fst)]) := by
  refine ⟨h.pool, ?_, ?_, ?_, ?_⟩
  · rw [List.flatten_append, List.map_append]
    show (_ ++ List.map _ (_ ++ [])).Nodup
    rw [List.append_nil, others_fst, List.nodup_append]
    refine ⟨h.live.1, List.Nodup.filter _ List.nodup_range, ?_⟩
    intro a ha b hb e
    subst e
    simp only [List.mem_filter, decide_eq_true_eq] at hb
    exact hb.2 ha
  · intro p hp
    rw [List.flatten_append, List.mem_append] at hp
    refine ⟨?_, by simp [BigHeap.free, h.pool], ?_⟩
    · rcases hp with hp | hp
      · exact h.live.2 _ (List.mem_map_of_mem hp)
      · have : p ∈ others s (E.flatten.map Prod.fst) := by simpa using hp
        simp only [others, List.mem_map, List.mem_filter, List.mem_range] at this
        obtain ⟨c, ⟨hc, _⟩, rfl⟩ := this
        exact hc
    · rcases hp with hp | hp
      · exact h.mem p hp
      · have : p ∈ others s (E.flatten.map Prod.fst) := by simpa using hp
        simp only [others, List.mem_map, List.mem_filter, List.mem_range] at this
        obtain ⟨c, _, rfl⟩ := this
        rfl
  · simp [BigHeap.free, h.pool]
  · simp [BigHeap.free, h.pool]

/-- `W` may change and becomes `W'`; `E` and everything else stays. -/
theorem effect_of' {α : Type} {m : BigM α} {s : BigHeap} {W E : List (List (Cell × Int))} {W' : α → List (List (Cell × Int))}
    {P : α → Prop} {Q : α → BigHeap → Prop} (hk : Known s (W ++ E))
    (h : Wp m s fun r s' => P r ∧ Rel0 s' (W' r ++ E ++ [others s ((W ++ E).flatten.map Prod.fst)]))
    (hw : ∀ r, P r → ∀ c ∈ W.flatten.map Prod.fst, c ∈ (W' r).flatten.map Prod.fst)
    (hq : ∀ r s', P r → (W'r : List (List (Cell × Int))) → W' r = W'r → LiveCells s' (W'r.flatten.map Prod.fst) →
      (∀ p ∈ W'r.flatten, s'.mem p.1 = p.2) →
      (∀ c ∈ W'r.flatten.map Prod.fst, c ∈ W.flatten.map Prod.fst ∨ s.next ≤ c) → Q r s') :
    Effect m s (W.flatten.map Prod.fst) Q := by
  obtain ⟨r, s', e, hP, hpool, hr⟩ := h
  have cover : ∀ c < s.next, c ∈ W.flatten.map Prod.fst ∨
      (c, s.mem c) ∈ (E ++ [others s ((W ++ E).flatten.map Prod.fst)]).flatten := by
    intro c hc
    by_cases h1 : c ∈ W.flatten.map Prod.fst
    · exact Or.inl h1
    refine Or.inr ?_
    rw [List.flatten_append, List.mem_append]
    by_cases h2 : c ∈ E.flatten.map Prod.fst
    · obtain ⟨p, hp, rfl⟩ := List.mem_map.1 h2
      left
      have := hk.mem p (by rw [List.flatten_append]; exact List.mem_append_right _ hp)
      rw [this]; exact hp
    · right
      have : (c, s.mem c) ∈ others s ((W ++ E).flatten.map Prod.fst) := by
        refine List.mem_map.2 ⟨c, List.mem_filter.2 ⟨List.mem_range.2 hc, ?_⟩, rfl⟩
        rw [List.flatten_append, List.map_append, decide_eq_true_eq, List.mem_append]
        exact not_or.2 ⟨h1, h2⟩
      simpa using this
  have hsplit : (W' r ++ E ++ [others s ((W ++ E).flatten.map Prod.fst)]).flatten =
      (W' r).flatten ++ (E ++ [others s ((W ++ E).flatten.map Prod.fst)]).flatten := by
    rw [List.append_assoc, List.flatten_append]
  have hr' : Own s' ((W' r).flatten ++ (E ++ [others s ((W ++ E).flatten.map Prod.fst)]).flatten) := by
    rw [← hsplit]; exact hr
  have hnd := hr'.nodup
  rw [List.map_append, List.nodup_append] at hnd
  have hnext : s.next ≤ s'.next := by
    by_contra hlt
    have hlt : s'.next < s.next := by omega
    rcases cover s'.next hlt with h1 | h1
    · obtain ⟨p, hp, e1⟩ := List.mem_map.1 (hw r hP _ h1)
      have := (hr'.cell p (List.mem_append_left _ hp)).1
      rw [e1] at this
      exact absurd this (lt_irrefl _)
    · have := (hr'.cell _ (List.mem_append_right _ h1)).1
      simp at this
  refine ⟨r, s', e, hpool, hnext, ?_, ?_⟩
  · intro c hc hcw
    rcases cover c hc with h1 | h1
    · exact absurd h1 hcw
    · exact (hr'.cell _ (List.mem_append_right _ h1)).2.2
  · refine hq r s' hP _ rfl ⟨hnd.1, ?_⟩ ?_ ?_
    · intro c hc
      obtain ⟨p, hp, rfl⟩ := List.mem_map.1 hc
      exact (hr'.cell p (List.mem_append_left _ hp)).1
    · exact fun p hp => (hr'.cell p (List.mem_append_left _ hp)).2.2
    · intro c hc
      by_contra hn
      obtain ⟨h1, h2⟩ := not_or.1 hn
      rcases cover c (by omega) with h3 | h3
      · exact h1 h3
      · exact hnd.2.2 c hc c (List.mem_map_of_mem h3) rfl


theorem effect_of {α : Type} {m : BigM α} {s : BigHeap} {W E : List (List (Cell × Int))} {W' : α → List (List (Cell × Int))}
    {P : α → Prop} {Q : α → BigHeap → Prop} (hk : Known s (W ++ E))
    (h : ∀ rest, Rel0 s (W ++ E ++ [rest]) → Wp m s fun r s' => P r ∧ Rel0 s' (W' r ++ E ++ [rest]))
    (hw : ∀ r, P r → ∀ c ∈ W.flatten.map Prod.fst, c ∈ (W' r).flatten.map Prod.fst)
    (hq : ∀ r s', P r → (W'r : List (List (Cell × Int))) → W' r = W'r → LiveCells s' (W'r.flatten.map Prod.fst) →
      (∀ p ∈ W'r.flatten, s'.mem p.1 = p.2) →
      (∀ c ∈ W'r.flatten.map Prod.fst, c ∈ W.flatten.map Prod.fst ∨ s.next ≤ c) → Q r s') :
    Effect m s (W.flatten.map Prod.fst) Q :=
  effect_of' hk (h _ hk.rel) hw hq

theorem gives_new {A V : Type} [Ob A V] [HeapObj A V] [ObjLaw A] {m : BigM A} {s : BigHeap} {E : List (List (Cell × Int))} {v : V}
    (hk : Known s E) (h : ∀ rest, Rel0 s (E ++ [rest]) → Wp m s fun r s' => Rel0 s' (own r v :: (E ++ [rest]))) :
    Gives m s none v := by
  refine effect_of (W := []) (W' := fun r => [own r v]) (P := fun _ => True) hk
    (fun rest hr => (h rest hr).mono fun r s' h => ⟨trivial, h⟩) (fun _ _ c hc => by simp at hc) ?_
  rintro r s' _ _ rfl h1 h2 h3
  have e : ([own r v] : List (List (Cell × Int))).flatten = own r v := by simp
  rw [e, ObjLaw.cells] at h1 h3
  rw [e] at h2
  exact ⟨h1, (ObjLaw.val r v s'.mem).1 h2, by simp, fun _ c hc => (h3 c hc).resolve_left (by simp)⟩

theorem gives_old {A V : Type} [Ob A V] [HeapObj A V] [ObjLaw A] {m : BigM A} {s : BigHeap} {E : List (List (Cell × Int))} {p : A} {w v : V}
    (hk : Known s (own p w :: E))
    (h : ∀ rest, Rel0 s (own p w :: (E ++ [rest])) → Wp m s fun r s' => r = p ∧ Rel0 s' (own p v :: (E ++ [rest]))) :
    Gives m s (some p) v := by
  have e : ∀ w : V, ([own p w] : List (List (Cell × Int))).flatten = own p w := by simp
  have := effect_of (m := m) (W := [own p w]) (W' := fun _ => [own p v]) (P := fun r => r = p) (Q := IsResult s (some p) v) hk h
    (fun _ _ c hc => by rwa [e, ObjLaw.cells] at hc ⊢) (by
      rintro r s' hr _ rfl h1 h2 _
      subst hr
      rw [e, ObjLaw.cells] at h1
      rw [e] at h2
      exact ⟨h1, (ObjLaw.val r v s'.mem).1 h2, fun p hp => by simpa using hp, by simp⟩)
  rw [e, ObjLaw.cells] at this
  exact this

theorem returns_of {α : Type} {m : BigM α} {s : BigHeap} {E : List (List (Cell × Int))} {b : α} (hk : Known s E)
    (h : ∀ rest, Rel0 s (E ++ [rest]) → Wp m s fun r s' => r = b ∧ Rel0 s' (E ++ [rest])) : Returns m s b :=
  effect_of (W := []) (W' := fun _ => []) (P := fun r => r = b) hk h (fun _ _ c hc => by simp at hc)
    (fun _ _ hr _ _ _ _ _ => hr)

/-! ### Known objects -/

theorem known_nil {s : BigHeap} (hp : s.pool = none) : Known s [] := ⟨hp, ⟨List.nodup_nil, by simp⟩, by simp⟩

theorem known_cons {s : BigHeap} {E : List (List (Cell × Int))} {L : List (Cell × Int)} (h : Known s E)
    (h1 : LiveCells s (L.map Prod.fst)) (h2 : ∀ p ∈ L, s.mem p.1 = p.2)
    (h3 : Disj (L.map Prod.fst) (E.flatten.map Prod.fst)) : Known s (L :: E) := by
  refine ⟨h.pool, ⟨?_, ?_⟩, ?_⟩
  · rw [List.flatten_cons, List.map_append, List.nodup_append]
    exact ⟨h1.1, h.live.1, fun a ha b hb e => h3 a ha (e ▸ hb)⟩
  · intro c hc
    rw [List.flatten_cons, List.map_append, List.mem_append] at hc
    exact hc.elim (h1.2 c) (h.live.2 c)
  · intro p hp
    rw [List.flatten_cons, List.mem_append] at hp
    exact hp.elim (h2 p) (h.mem p)

theorem known_obj {A V : Type} [Ob A V] [HeapObj A V] [ObjLaw A] {s : BigHeap} {E : List (List (Cell × Int))} {a : A} (h : Known s E)
    (h1 : Live s a) (h3 : Disj (HeapObj.cells a) (E.flatten.map Prod.fst)) : Known s (own a (HeapObj.val s.mem a) :: E) := by
  refine known_cons h ?_ ((ObjLaw.val a _ s.mem).2 rfl) ?_
  · rw [ObjLaw.cells]; exact h1
  · rw [ObjLaw.cells]; exact h3

theorem disj_nil {l : List Cell} : Disj l (([] : List (List (Cell × Int))).flatten.map Prod.fst) := by simp [Disj]

theorem disj_cons {A V : Type} [Ob A V] [HeapObj A V] [ObjLaw A] {l : List Cell} {E : List (List (Cell × Int))} {b : A} {v : V}
    (h : Disj l (HeapObj.cells b)) (h' : Disj l (E.flatten.map Prod.fst)) : Disj l ((own b v :: E).flatten.map Prod.fst) := by
  intro c hc hm
  rw [List.flatten_cons, List.map_append, List.mem_append, ObjLaw.cells] at hm
  exact hm.elim (h c hc) (h' c hc)

theorem disj_symm {l l' : List Cell} (h : Disj l l') : Disj l' l := fun c hc hc' => h c hc' hc

/-- Split off the objects needed from a frame. -/
theorem known1 {A V : Type} [Ob A V] [HeapObj A V] [ObjLaw A] {s : BigHeap} {a : A} (hp : s.pool = none) (ha : Live s a) :
    Known s [own a (HeapObj.val s.mem a)] := known_obj (known_nil hp) ha disj_nil

theorem known2 {A B V W : Type} [Ob A V] [HeapObj A V] [ObjLaw A] [Ob B W] [HeapObj B W] [ObjLaw B] {s : BigHeap} {a : A} {b : B}
    (hp : s.pool = none) (ha : Live s a) (hb : Live s b) (h : Disj (HeapObj.cells a) (HeapObj.cells b)) :
    Known s [own a (HeapObj.val s.mem a), own b (HeapObj.val s.mem b)] :=
  known_obj (known1 hp hb) ha (disj_cons h disj_nil)

theorem known3 {A B C V W X : Type} [Ob A V] [HeapObj A V] [ObjLaw A] [Ob B W] [HeapObj B W] [ObjLaw B] [Ob C X] [HeapObj C X]
    [ObjLaw C] {s : BigHeap} {a : A} {b : B} {c : C} (hp : s.pool = none) (ha : Live s a) (hb : Live s b) (hc : Live s c)
    (hab : Disj (HeapObj.cells a) (HeapObj.cells b)) (hac : Disj (HeapObj.cells a) (HeapObj.cells c))
    (hbc : Disj (HeapObj.cells b) (HeapObj.cells c)) :
    Known s [own a (HeapObj.val s.mem a), own b (HeapObj.val s.mem b), own c (HeapObj.val s.mem c)] :=
  known_obj (known2 hp hb hc hbc) ha (disj_cons hab (disj_cons hac disj_nil))

/-! ### Methods that fill a nil receiver -/

/-- `newX(nil)` gives a zero value. -/
class OpZero {A V : Type} [Ob A V] (new : BigM A) (v0 : outParam V) : Prop where
  run : ∀ {s : BigHeap} {Γ : List (List (Cell × Int))}, s.Empty → Rel s Γ → Wp new s fun d s' => Rel s' (own d v0 :: Γ) ∧ s'.Empty

instance : OpZero CurveP.new CurvePoint.new := ⟨CurveP.wp_new_zero⟩
instance : OpZero TwistP.new TwistPoint.new := ⟨TwistP.wp_new_zero⟩
instance : OpZero Gf12.new GfP12.zero := ⟨Gf12.wp_new_zero⟩

section
variable {A V : Type} [Ob A V] [HeapObj A V] [ObjLaw A] {new : BigM A} {v0 : V} {s : BigHeap} {e : Option A}
  {pl : Option (List Cell)}

/-- The receiver, filled if it was nil. -/
def fillWith (new : BigM A) : Option A → BigM A
  | some p => pure p
  | none => withPool none new

omit [HeapObj A V] [ObjLaw A] in
theorem wp_fillNone [H : OpZero new v0] {Γ : List (List (Cell × Int))} (h : Rel0 s Γ) :
    Wp (fillWith new none) s fun r s' => Rel0 s' (own r v0 :: Γ) :=
  wp_withPool' (Or.inl rfl) h fun _ h1 _ h => (H.run h1 h).mono fun _ _ h => h.1

/-- A method with one operand. -/
theorem gives_body1 {m : A → A → BigM Unit} {f : V → V → V} {g : V → V} [OpZero new v0]
    (apart : ∀ {s : BigHeap} {Δ : List (List (Cell × Int))} {d a : A} {v w : V}, Rel0 s (own d v :: own a w :: Δ) →
      Wp (m d a) s fun _ s' => Rel0 s' (own d (f v w) :: own a w :: Δ))
    (same : ∀ {s : BigHeap} {Δ : List (List (Cell × Int))} {d : A} {v : V}, Rel0 s (own d v :: Δ) →
      Wp (m d d) s fun _ s' => Rel0 s' (own d (g v) :: Δ))
    (hs : s.pool = none) (he : Live? s e) {a : A} (ha : Live s a) (hea : SameOrDisj? e a) :
    (e ≠ some a → Gives (fillWith new e >>= fun p => m p a >>= fun _ => pure p) s e
      (f (recvVal s v0 e) (HeapObj.val s.mem a))) ∧
    (e = some a → Gives (fillWith new e >>= fun p => m p a >>= fun _ => pure p) s e (g (HeapObj.val s.mem a))) := by
  constructor
  · intro hne
    cases e with
    | none =>
      refine gives_new (known1 hs ha) fun rest h => ?_
      refine Wp.bind (wp_fillNone (v0 := v0) h) fun p _ h => ?_
      refine Wp.bind (apart h) fun _ _ h => ?_
      exact Wp.pure h
    | some p =>
      have hd : Disj (HeapObj.cells p) (HeapObj.cells a) := (hea p rfl).resolve_left fun e => hne (e ▸ rfl)
      refine gives_old (known2 hs (he p rfl) ha hd) fun rest h => ?_
      refine Wp.bind (Wp.pure (Q := fun r s' => r = p ∧ s' = s) ⟨rfl, rfl⟩) fun q s' ⟨e1, e2⟩ => ?_
      subst e1 e2
      refine Wp.bind (apart h) fun _ _ h => ?_
      exact Wp.pure ⟨rfl, h⟩
  · rintro rfl
    refine gives_old (E := []) (known1 hs ha) fun rest h => ?_
    refine Wp.bind (Wp.pure (Q := fun r s' => r = a ∧ s' = s) ⟨rfl, rfl⟩) fun q s' ⟨e1, e2⟩ => ?_
    subst e1 e2
    refine Wp.bind (same h) fun _ _ h => ?_
    exact Wp.pure ⟨rfl, h⟩

theorem gives_opD {m : A → A → BigM Unit} {f : V → V → V} {g : V → V} [OpZero new v0] [OpD m f g] (hpl : pl = none ∨ pl = some [])
    (hs : s.pool = none) (he : Live? s e) {a : A} (ha : Live s a) (hea : SameOrDisj? e a) :
    (e ≠ some a → Gives (fillWith new e >>= fun p => withPool pl (m p a) >>= fun _ => pure p) s e
      (f (recvVal s v0 e) (HeapObj.val s.mem a))) ∧
    (e = some a → Gives (fillWith new e >>= fun p => withPool pl (m p a) >>= fun _ => pure p) s e (g (HeapObj.val s.mem a))) :=
  gives_body1 (m := fun p a => withPool pl (m p a)) (fun h => wp_withPool' hpl h fun _ _ _ h => OpD.apart h)
    (fun h => wp_withPool' hpl h fun _ _ _ h => OpD.same h) hs he ha hea

/-- A method with two operands. -/
theorem gives_opA {m : A → A → A → BigM Unit} {f : V → V → V → V} {g : V → V → V} [OpZero new v0] [OpA m f g]
    (hpl : pl = none ∨ pl = some []) (hs : s.pool = none) (he : Live? s e) {a b : A} (ha : Live s a) (hb : Live s b)
    (hea : SameOrDisj? e a) (heb : SameOrDisj? e b) (hab : SameOrDisj a b) :
    (e ≠ some a → Gives (fillWith new e >>= fun p => withPool pl (m p a b) >>= fun _ => pure p) s e
      (f (recvVal s v0 e) (HeapObj.val s.mem a) (HeapObj.val s.mem b))) ∧
    (e = some a → Gives (fillWith new e >>= fun p => withPool pl (m p a b) >>= fun _ => pure p) s e
      (g (HeapObj.val s.mem a) (HeapObj.val s.mem b))) := by
  constructor
  · intro hne
    cases e with
    | none =>
      rcases hab with rfl | hab
      · refine gives_new (known1 hs ha) fun rest h => ?_
        refine Wp.bind (wp_fillNone (v0 := v0) h) fun p _ h => ?_
        refine Wp.bind (wp_withPool' hpl h fun _ _ _ h => OpA.args h) fun _ _ h => ?_
        exact Wp.pure h
      · refine gives_new (known2 hs ha hb hab) fun rest h => ?_
        refine Wp.bind (wp_fillNone (v0 := v0) h) fun p _ h => ?_
        refine Wp.bind (wp_withPool' hpl h fun _ _ _ h => OpA.apart h) fun _ _ h => ?_
        exact Wp.pure h
    | some p =>
      have hd : Disj (HeapObj.cells p) (HeapObj.cells a) := (hea p rfl).resolve_left fun e => hne (e ▸ rfl)
      rcases heb p rfl with rfl | hpb
      · refine gives_old (known2 hs (he p rfl) ha hd) fun rest h => ?_
        refine Wp.bind (Wp.pure (Q := fun r s' => r = p ∧ s' = s) ⟨rfl, rfl⟩) fun q s' ⟨e1, e2⟩ => ?_
        subst e1 e2
        refine Wp.bind (wp_withPool' hpl h fun _ _ _ h => OpA.right h) fun _ _ h => ?_
        exact Wp.pure ⟨rfl, h⟩
      · rcases hab with rfl | hab
        · refine gives_old (known2 hs (he p rfl) ha hd) fun rest h => ?_
          refine Wp.bind (Wp.pure (Q := fun r s' => r = p ∧ s' = s) ⟨rfl, rfl⟩) fun q s' ⟨e1, e2⟩ => ?_
          subst e1 e2
          refine Wp.bind (wp_withPool' hpl h fun _ _ _ h => OpA.args h) fun _ _ h => ?_
          exact Wp.pure ⟨rfl, h⟩
        · refine gives_old (known3 hs (he p rfl) ha hb hd hpb hab) fun rest h => ?_
          refine Wp.bind (Wp.pure (Q := fun r s' => r = p ∧ s' = s) ⟨rfl, rfl⟩) fun q s' ⟨e1, e2⟩ => ?_
          subst e1 e2
          refine Wp.bind (wp_withPool' hpl h fun _ _ _ h => OpA.apart h) fun _ _ h => ?_
          exact Wp.pure ⟨rfl, h⟩
  · rintro rfl
    rcases hab with rfl | hab
    · refine gives_old (E := []) (known1 hs ha) fun rest h => ?_
      refine Wp.bind (Wp.pure (Q := fun r s' => r = a ∧ s' = s) ⟨rfl, rfl⟩) fun q s' ⟨e1, e2⟩ => ?_
      subst e1 e2
      refine Wp.bind (wp_withPool' hpl h fun _ _ _ h => OpA.all h) fun _ _ h => ?_
      exact Wp.pure ⟨rfl, h⟩
    · refine gives_old (known2 hs ha hb hab) fun rest h => ?_
      refine Wp.bind (Wp.pure (Q := fun r s' => r = a ∧ s' = s) ⟨rfl, rfl⟩) fun q s' ⟨e1, e2⟩ => ?_
      subst e1 e2
      refine Wp.bind (wp_withPool' hpl h fun _ _ _ h => OpA.left h) fun _ _ h => ?_
      exact Wp.pure ⟨rfl, h⟩

end

instance {A V : Type} [Ob A V] {m : A → A → BigM Unit} {f : V → V} [H : Op1 m f] : OpD m (fun _ a => f a) f :=
  ⟨fun h => H.apart h, fun h => H.same h⟩

instance {A V : Type} [Ob A V] {m : A → A → A → BigM Unit} {f : V → V → V} [H : Op2 m f] : OpA m (fun _ a b => f a b) f :=
  ⟨fun h => H.apart h, fun h => H.left h, fun h => H.right h, fun h => H.args h, fun h => H.all h⟩

/-! ### The methods of `G1`, `G2`, `GT` -/

theorem BigM.assoc {α β γ : Type} (m : BigM α) (k : α → BigM β) (k' : β → BigM γ) :
    (m >>= k) >>= k' = m >>= fun a => k a >>= k' := by
  funext s
  show ((m s >>= fun r => k r.1 r.2) >>= fun r => k' r.1 r.2) = (m s >>= fun r => k r.1 r.2 >>= fun r => k' r.1 r.2)
  cases m s <;> rfl

theorem g1_fill : G1H.fill = fillWith CurveP.new := by funext e; cases e <;> rfl
theorem g2_fill : G2H.fill = fillWith TwistP.new := by funext e; cases e <;> rfl
theorem gt_fill : GTH.fill = fillWith Gf12.new := by funext e; cases e <;> rfl

/-- `ScalarMult` of `G1` without the receiver's handling. -/
def g1Scalar (k : Int) (p a : CurveP) : BigM Unit :=
  if k ≥ 0 then
    if k = 0 then withPool none p.setInfinity else withPool (some []) (p.mul a k)
  else withPool (some []) (p.mul a k.natAbs) >>= fun _ => withPool none (p.neg p)

theorem g1_scalarMult (e : Option CurveP) (a : CurveP) (k : Int) :
    G1H.scalarMult e a k = fillWith CurveP.new e >>= fun p => g1Scalar k p a >>= fun _ => pure p := by
  unfold G1H.scalarMult g1Scalar
  rw [g1_fill]
  congr 1
  funext p
  by_cases h1 : k ≥ 0
  · by_cases h2 : k = 0
    · simp only [if_pos h1, if_pos h2]
    · simp only [if_pos h1, if_neg h2]
  · simp only [if_neg h1]
    exact (BigM.assoc _ _ _).symm

theorem g1Scalar_apart (k : Int) {s : BigHeap} {Δ : List (List (Cell × Int))} {d a : CurveP} {v w : CurvePoint}
    (h : Rel0 s (own d v :: own a w :: Δ)) :
    Wp (g1Scalar k d a) s fun _ s' => Rel0 s' (own d (G1.scalarMult v w k) :: own a w :: Δ) := by
  unfold g1Scalar G1.scalarMult
  split
  · split
    · exact wp_withPool' (Or.inl rfl) h fun _ _ _ h => (wp_opSelf h).mono fun _ _ h => h
    · exact wp_withPool' (Or.inr rfl) h fun _ h1 _ h => CurveP.wp_mul k h1 h
  · refine Wp.bind (wp_withPool' (Or.inr rfl) h fun _ h1 _ h => CurveP.wp_mul _ h1 h) fun _ _ h => ?_
    exact wp_withPool' (Or.inl rfl) h fun _ _ _ h => Op1.same h

theorem g1Scalar_same (k : Int) {s : BigHeap} {Δ : List (List (Cell × Int))} {d : CurveP} {v : CurvePoint}
    (h : Rel0 s (own d v :: Δ)) :
    Wp (g1Scalar k d d) s fun _ s' => Rel0 s' (own d (G1.scalarMult v v k) :: Δ) := by
  unfold g1Scalar G1.scalarMult
  split
  · split
    · exact wp_withPool' (Or.inl rfl) h fun _ _ _ h => (wp_opSelf h).mono fun _ _ h => h
    · exact wp_withPool' (Or.inr rfl) h fun _ h1 _ h => CurveP.wp_mul_same k h1 h
  · refine Wp.bind (wp_withPool' (Or.inr rfl) h fun _ h1 _ h => CurveP.wp_mul_same _ h1 h) fun _ _ h => ?_
    exact wp_withPool' (Or.inl rfl) h fun _ _ _ h => Op1.same h

/-- `ScalarMult` of `G2`. -/
def g2Scalar (k : Int) (p a : TwistP) : BigM Unit :=
  if k ≥ 0 then withPool (some []) (p.mul a k)
  else withPool (some []) (p.mul a k.natAbs) >>= fun _ => withPool (some []) (p.neg p)

theorem g2_scalarMult (e : Option TwistP) (a : TwistP) (k : Int) :
    G2H.scalarMult e a k = fillWith TwistP.new e >>= fun p => g2Scalar k p a >>= fun _ => pure p := by
  unfold G2H.scalarMult g2Scalar
  rw [g2_fill]
  congr 1
  funext p
  by_cases h1 : k ≥ 0
  · simp only [if_pos h1]
  · simp only [if_neg h1]
    exact (BigM.assoc _ _ _).symm

theorem g2Scalar_apart (k : Int) {s : BigHeap} {Δ : List (List (Cell × Int))} {d a : TwistP} {v w : TwistPoint}
    (h : Rel0 s (own d v :: own a w :: Δ)) :
    Wp (g2Scalar k d a) s fun _ s' => Rel0 s' (own d (G2.scalarMult w k) :: own a w :: Δ) := by
  unfold g2Scalar G2.scalarMult
  split
  · exact wp_withPool' (Or.inr rfl) h fun _ h1 _ h => TwistP.wp_mul k h1 h
  · refine Wp.bind (wp_withPool' (Or.inr rfl) h fun _ h1 _ h => TwistP.wp_mul _ h1 h) fun _ _ h => ?_
    exact wp_withPool' (Or.inr rfl) h fun _ _ _ h => OpD.same h

theorem g2Scalar_same (k : Int) {s : BigHeap} {Δ : List (List (Cell × Int))} {d : TwistP} {v : TwistPoint}
    (h : Rel0 s (own d v :: Δ)) :
    Wp (g2Scalar k d d) s fun _ s' => Rel0 s' (own d (G2.scalarMult v k) :: Δ) := by
  unfold g2Scalar G2.scalarMult
  split
  · exact wp_withPool' (Or.inr rfl) h fun _ h1 _ h => TwistP.wp_mul_same k h1 h
  · refine Wp.bind (wp_withPool' (Or.inr rfl) h fun _ h1 _ h => TwistP.wp_mul_same _ h1 h) fun _ _ h => ?_
    exact wp_withPool' (Or.inr rfl) h fun _ _ _ h => OpD.same h

/-! ### Reading -/

theorem wp_modNew {s : BigHeap} {Γ : List (List (Cell × Int))} {c : Cell} {v : Int} [Has Γ c v] (h : Rel s Γ) :
    Wp (modNew c) s fun r s' => r = v % bnP ∧ Rel s' Γ := by
  unfold modNew
  refine Wp.bind (wp_bigNew h) fun t _ h => ?_
  refine Wp.bind (wp_op1 h) fun _ _ h => ?_
  have h1 := wp_test (m := BigM.read) (d := t) h
  exact h1.mono fun r s' h => ⟨h.1, h.2.tail⟩

theorem wp_g1_marshal {s : BigHeap} {Δ : List (List (Cell × Int))} {d : CurveP} {v : CurvePoint} (hv : v.Invertible)
    (h : Rel0 s (own d v :: Δ)) :
    Wp (G1H.marshal d) s fun r s' => r = (G1.marshal v).1 ∧ Rel0 s' (own d (G1.marshal v).2 :: Δ) := by
  unfold G1H.marshal
  refine wp_withPool (P := fun r => r = (G1.marshal v).1) (Γ' := fun _ => own d (G1.marshal v).2 :: Δ) (Or.inl rfl) h fun s _ _ h => ?_
  refine Wp.bind (CurveP.wp_makeAffine hv h) fun _ s h => ?_
  replace h : Rel s (own d.x v.makeAffine.x :: own d.y v.makeAffine.y :: own d.z v.makeAffine.z :: own d.t v.makeAffine.t :: Δ) := h
  refine Wp.bind (wp_modNew h) fun x _ ⟨e1, h⟩ => ?_
  refine Wp.bind (wp_modNew h) fun y _ ⟨e2, h⟩ => ?_
  exact Wp.pure ⟨by rw [e1, e2]; rfl, h⟩

theorem g1_marshal_panic {s : BigHeap} {Δ : List (List (Cell × Int))} {d : CurveP} {v : CurvePoint} (hv : ¬ v.Invertible)
    (h : Rel0 s (own d v :: Δ)) : G1H.marshal d s = .panic := by
  have h' : Rel { s with pool := none } (own d v :: Δ) := by
    rw [show ({ s with pool := none } : BigHeap) = s by rw [← h.1]]; exact h.2
  have := CurveP.makeAffine_panic hv h'
  show ((d.makeAffine { s with pool := none } >>= _) >>= _) = _
  rw [this]; rfl

theorem wp_g2_marshal {s : BigHeap} {Δ : List (List (Cell × Int))} {d : TwistP} {v : TwistPoint}
    (h : Rel0 s (own d v :: Δ)) :
    Wp (G2H.marshal d) s fun r s' => r = (G2.marshal v).1 ∧ Rel0 s' (own d (G2.marshal v).2 :: Δ) := by
  unfold G2H.marshal
  refine wp_withPool (P := fun r => r = (G2.marshal v).1) (Γ' := fun _ => own d (G2.marshal v).2 :: Δ) (Or.inl rfl) h fun s _ _ h => ?_
  refine Wp.bind (wp_opSelf h) fun _ s h => ?_
  replace h : Rel s (own d.x.x v.makeAffine.x.x :: own d.x.y v.makeAffine.x.y :: own d.y.x v.makeAffine.y.x ::
    own d.y.y v.makeAffine.y.y :: own d.z v.makeAffine.z :: own d.t v.makeAffine.t :: Δ) := h
  refine Wp.bind (wp_modNew h) fun _ _ ⟨e1, h⟩ => ?_
  refine Wp.bind (wp_modNew h) fun _ _ ⟨e2, h⟩ => ?_
  refine Wp.bind (wp_modNew h) fun _ _ ⟨e3, h⟩ => ?_
  refine Wp.bind (wp_modNew h) fun _ _ ⟨e4, h⟩ => ?_
  exact Wp.pure ⟨by rw [e1, e2, e3, e4]; rfl, h⟩

theorem wp_gt_marshal {s : BigHeap} {Δ : List (List (Cell × Int))} {d : Gf12} {v : GfP12}
    (h : Rel0 s (own d v :: Δ)) :
    Wp (GTH.marshal d) s fun r s' => r = (GT.marshal v).1 ∧ Rel0 s' (own d (GT.marshal v).2 :: Δ) := by
  unfold GTH.marshal
  refine wp_withPool (P := fun r => r = (GT.marshal v).1) (Γ' := fun _ => own d (GT.marshal v).2 :: Δ) (Or.inl rfl) h fun s _ _ h => ?_
  refine Wp.bind (wp_opSelf h) fun _ s h => ?_
  replace h : Rel s (own d.x.x.x v.minimal.x.x.x :: own d.x.x.y v.minimal.x.x.y :: own d.x.y.x v.minimal.x.y.x ::
    own d.x.y.y v.minimal.x.y.y :: own d.x.z.x v.minimal.x.z.x :: own d.x.z.y v.minimal.x.z.y ::
    own d.y.x.x v.minimal.y.x.x :: own d.y.x.y v.minimal.y.x.y :: own d.y.y.x v.minimal.y.y.x ::
    own d.y.y.y v.minimal.y.y.y :: own d.y.z.x v.minimal.y.z.x :: own d.y.z.y v.minimal.y.z.y :: Δ) := h
  iterate 12 refine Wp.bind (wp_test h) fun _ _ ⟨e, h⟩ => ?_; subst e
  exact Wp.pure ⟨rfl, h⟩

/-! ### `Unmarshal` -/

theorem wp_write0 {s : BigHeap} {Γ Γ' : List (List (Cell × Int))} {c : Cell} {v w : Int} [U : Upd Γ c v w Γ'] (h : Rel0 s Γ) :
    Wp (write c w) s fun _ s' => Rel0 s' Γ' := by
  obtain ⟨_, s', e, h'⟩ := wp_setInt (d := c) (n := w) (Γ' := Γ') h.2
  refine ⟨_, s', e, ?_, h'⟩
  cases e
  exact h.1

theorem wp_read0 {s : BigHeap} {Γ : List (List (Cell × Int))} {c : Cell} {v : Int} [U : Has Γ c v] (h : Rel0 s Γ) :
    Wp (read c) s fun r s' => r = v ∧ Rel0 s' Γ := by
  obtain ⟨r, s', e, e', h'⟩ := wp_test (m := BigM.read) (d := c) h.2
  refine ⟨r, s', e, e', ?_, h'⟩
  cases e
  exact h.1

/-- The value of the receiver after `Unmarshal` of 64 bytes, also when it fails. -/
def G1.unmarshalRaw (m : List UInt8) : CurvePoint :=
  (G1.unmarshal m).getD ⟨setBytes (m.take 32), setBytes (m.drop 32), 1, 1⟩

theorem wp_g1_unmarshal {s : BigHeap} {Δ : List (List (Cell × Int))} {d : CurveP} {v : CurvePoint} {m : List UInt8}
    (hm : m.length = 64) (h : Rel s (own d v :: Δ)) :
    Wp (setBytesH d.x (m.take 32) >>= fun _ => setBytesH d.y (m.drop 32) >>= fun _ => G1H.unmarshalTail d) s
      fun r s' => r = (G1.unmarshal m).isSome ∧ Rel s' (own d (G1.unmarshalRaw m) :: Δ) := by
  replace h : Rel s (own d.x v.x :: own d.y v.y :: own d.z v.z :: own d.t v.t :: Δ) := h
  refine Wp.bind (wp_setInt (n := (setBytes (m.take 32) : Int)) h) fun _ _ h => ?_
  refine Wp.bind (wp_setInt (n := (setBytes (m.drop 32) : Int)) h) fun _ _ h => ?_
  unfold G1H.unmarshalTail
  refine Wp.bind (wp_test h) fun x _ ⟨e1, h⟩ => ?_
  refine Wp.bind (wp_test h) fun y s ⟨e2, h⟩ => ?_
  subst e1 e2
  unfold G1.unmarshalRaw G1.unmarshal
  rw [if_neg (not_not.2 hm)]
  simp only []
  by_cases c : ((setBytes (m.take 32) : Int) = 0 ∧ (setBytes (m.drop 32) : Int) = 0) ∨
      ((setBytes (m.take 32) : Int) = 0 ∧ (setBytes (m.drop 32) : Int) = 1)
  · rw [if_pos c, if_pos c]
    wp_step
    wp_step
    wp_step
    exact Wp.pure ⟨rfl, h⟩
  · rw [if_neg c, if_neg c]
    wp_step
    wp_step
    rename_i s
    replace h : Rel s (own d (⟨setBytes (m.take 32), setBytes (m.drop 32), 1, 1⟩ : CurvePoint) :: Δ) := h
    refine (CurveP.wp_isOnCurve h).mono fun r s' h => ?_
    by_cases hc : (⟨setBytes (m.take 32), setBytes (m.drop 32), 1, 1⟩ : CurvePoint).isOnCurve = true
    · rw [if_neg (not_not.2 hc)]; exact ⟨by rw [h.1, hc]; rfl, h.2⟩
    · rw [if_pos hc]; exact ⟨by rw [h.1]; simpa using hc, h.2⟩

/-- The value of the receiver after `Unmarshal` of 128 bytes, also when it fails. -/
def G2.unmarshalRaw (m : List UInt8) : TwistPoint :=
  (G2.unmarshal m).getD ⟨⟨setBytes (m.take 32), setBytes ((m.drop 32).take 32)⟩,
    ⟨setBytes ((m.drop 64).take 32), setBytes (m.drop 96)⟩, .one, .one⟩

theorem wp_g2_unmarshal {s : BigHeap} {Δ : List (List (Cell × Int))} {d : TwistP} {v : TwistPoint} {m : List UInt8} {b : Gf2}
    (hm : m.length = 128) (h : Rel0 s (own d v :: own b twistB :: Δ)) :
    Wp (setBytesH d.x.x (m.take 32) >>= fun _ => setBytesH d.x.y ((m.drop 32).take 32) >>= fun _ =>
      setBytesH d.y.x ((m.drop 64).take 32) >>= fun _ => setBytesH d.y.y (m.drop 96) >>= fun _ => G2H.unmarshalTail b d) s
      fun r s' => r = (G2.unmarshal m).isSome ∧ Rel s' (own d (G2.unmarshalRaw m) :: own b twistB :: Δ) := by
  replace h : Rel0 s (own d.x.x v.x.x :: own d.x.y v.x.y :: own d.y.x v.y.x :: own d.y.y v.y.y :: own d.z.x v.z.x ::
    own d.z.y v.z.y :: own d.t.x v.t.x :: own d.t.y v.t.y :: own b twistB :: Δ) := h
  refine Wp.bind (wp_write0 (w := (setBytes (m.take 32) : Int)) h) fun _ _ h => ?_
  refine Wp.bind (wp_write0 (w := (setBytes ((m.drop 32).take 32) : Int)) h) fun _ _ h => ?_
  refine Wp.bind (wp_write0 (w := (setBytes ((m.drop 64).take 32) : Int)) h) fun _ _ h => ?_
  refine Wp.bind (wp_write0 (w := (setBytes (m.drop 96) : Int)) h) fun _ _ h => ?_
  unfold G2H.unmarshalTail
  iterate 4 refine Wp.bind (wp_read0 h) fun _ _ ⟨e, h⟩ => ?_; subst e
  unfold G2.unmarshalRaw G2.unmarshal
  rw [if_neg (not_not.2 hm)]
  simp only []
  by_cases c : (setBytes (m.take 32) : Int) = 0 ∧ (setBytes ((m.drop 32).take 32) : Int) = 0 ∧
      (setBytes ((m.drop 64).take 32) : Int) = 0 ∧ (setBytes (m.drop 96) : Int) = 0
  · rw [if_pos c, if_pos c]
    refine Wp.bind (Wp.bind (wp_write0 h) fun _ _ h => wp_write0 h) fun _ _ h => ?_
    refine Wp.bind (Wp.bind (wp_write0 h) fun _ _ h => wp_write0 h) fun _ _ h => ?_
    refine Wp.bind (Wp.bind (wp_write0 h) fun _ _ h => wp_write0 h) fun _ _ h => ?_
    exact Wp.pure ⟨rfl, h.2⟩
  · rw [if_neg c, if_neg c]
    refine Wp.bind (Wp.bind (wp_write0 h) fun _ _ h => wp_write0 h) fun _ _ h => ?_
    refine Wp.bind (Wp.bind (wp_write0 h) fun _ _ h => wp_write0 h) fun _ s h => ?_
    generalize hp : (⟨⟨setBytes (m.take 32), setBytes ((m.drop 32).take 32)⟩,
      ⟨setBytes ((m.drop 64).take 32), setBytes (m.drop 96)⟩, .one, .one⟩ : TwistPoint) = p
    replace h : Rel0 s (own d p :: own b twistB :: Δ) := hp ▸ h
    refine (TwistP.wp_isOnCurve h).mono fun r s' h => ?_
    by_cases hc : p.isOnCurve = true
    · rw [if_neg (not_not.2 hc)]; exact ⟨by rw [h.1, hc]; rfl, h.2.2⟩
    · rw [if_pos hc]; exact ⟨by rw [h.1]; simpa using hc, h.2.2⟩

theorem wp_gt_unmarshal {s : BigHeap} {Δ : List (List (Cell × Int))} {d : Gf12} {v w : GfP12} (h : Rel s (own d v :: Δ)) :
    Wp (do
      write d.x.x.x w.x.x.x
      write d.x.x.y w.x.x.y
      write d.x.y.x w.x.y.x
      write d.x.y.y w.x.y.y
      write d.x.z.x w.x.z.x
      write d.x.z.y w.x.z.y
      write d.y.x.x w.y.x.x
      write d.y.x.y w.y.x.y
      write d.y.y.x w.y.y.x
      write d.y.y.y w.y.y.y
      write d.y.z.x w.y.z.x
      write d.y.z.y w.y.z.y
      pure true) s fun r s' => r = true ∧ Rel s' (own d w :: Δ) := by
  replace h : Rel s (own d.x.x.x v.x.x.x :: own d.x.x.y v.x.x.y :: own d.x.y.x v.x.y.x ::
    own d.x.y.y v.x.y.y :: own d.x.z.x v.x.z.x :: own d.x.z.y v.x.z.y ::
    own d.y.x.x v.y.x.x :: own d.y.x.y v.y.x.y :: own d.y.y.x v.y.y.x ::
    own d.y.y.y v.y.y.y :: own d.y.z.x v.y.z.x :: own d.y.z.y v.y.z.y :: Δ) := h
  refine Wp.bind (wp_setInt (n := w.x.x.x) h) fun _ _ h => ?_
  refine Wp.bind (wp_setInt (n := w.x.x.y) h) fun _ _ h => ?_
  refine Wp.bind (wp_setInt (n := w.x.y.x) h) fun _ _ h => ?_
  refine Wp.bind (wp_setInt (n := w.x.y.y) h) fun _ _ h => ?_
  refine Wp.bind (wp_setInt (n := w.x.z.x) h) fun _ _ h => ?_
  refine Wp.bind (wp_setInt (n := w.x.z.y) h) fun _ _ h => ?_
  refine Wp.bind (wp_setInt (n := w.y.x.x) h) fun _ _ h => ?_
  refine Wp.bind (wp_setInt (n := w.y.x.y) h) fun _ _ h => ?_
  refine Wp.bind (wp_setInt (n := w.y.y.x) h) fun _ _ h => ?_
  refine Wp.bind (wp_setInt (n := w.y.y.y) h) fun _ _ h => ?_
  refine Wp.bind (wp_setInt (n := w.y.z.x) h) fun _ _ h => ?_
  refine Wp.bind (wp_setInt (n := w.y.z.y) h) fun _ _ h => ?_
  exact Wp.pure ⟨rfl, h⟩

/-- A body that writes the receiver, filled if it was nil, and returns a truth value. -/
theorem effect_fill {A V : Type} [Ob A V] [HeapObj A V] [ObjLaw A] {new : BigM A} {v0 : V} [OpZero new v0] {s : BigHeap}
    {e : Option A} {b : Bool} {v : V} {body : A → BigM Bool} (E : List (List (Cell × Int))) (hk : Known s E)
    (he : ∀ p, e = some p → Known s (own p (HeapObj.val s.mem p) :: E))
    (hbody : ∀ {s1 : BigHeap} {Δ : List (List (Cell × Int))} {d : A} {w : V}, Rel0 s1 (own d w :: (E ++ Δ)) →
      Wp (body d) s1 fun r s' => r = b ∧ Rel s' (own d v :: (E ++ Δ))) :
    Effect (withPool none (fillWith new e >>= fun p => body p >>= fun r => pure (r, some p))) s (recvCells e) fun r s' =>
      ∃ p, r = (b, some p) ∧ IsResult s e v p s' := by
  cases e with
  | none =>
    refine effect_of (W := []) (E := E) (W' := fun r => match r.2 with | some p => [own p v] | none => [])
      (P := fun r => ∃ p, r = (b, some p)) hk (fun rest hr => ?_) (fun _ _ c hc => by simp at hc) ?_
    · refine wp_withPool (P := fun r => ∃ p, r = (b, some p)) (Or.inl rfl) hr fun s1 _ hp h => ?_
      refine Wp.bind (wp_fillNone (v0 := v0) ⟨hp, h⟩) fun p _ h => ?_
      refine Wp.bind (hbody h) fun r _ ⟨e1, h⟩ => ?_
      subst e1
      exact Wp.pure ⟨⟨p, rfl⟩, h⟩
    · rintro r s' ⟨p, rfl⟩ _ rfl h1 h2 h3
      have e : ([own p v] : List (List (Cell × Int))).flatten = own p v := by simp
      simp only [] at h1 h2 h3
      rw [e, ObjLaw.cells] at h1 h3
      rw [e] at h2
      exact ⟨p, rfl, h1, (ObjLaw.val p v s'.mem).1 h2, by simp, fun _ c hc => (h3 c hc).resolve_left (by simp)⟩
  | some p =>
    have e : ∀ w : V, ([own p w] : List (List (Cell × Int))).flatten = own p w := by simp
    have := effect_of (m := withPool none (fillWith new (some p) >>= fun p => body p >>= fun r => pure (r, some p)))
      (W := [own p (HeapObj.val s.mem p)]) (E := E) (W' := fun _ => [own p v])
      (P := fun r => r = (b, some p)) (Q := fun r s' => ∃ q, r = (b, some q) ∧ IsResult s (some p) v q s') (he p rfl) ?_
      (fun _ _ c hc => by rwa [e, ObjLaw.cells] at hc ⊢) (by
        rintro r s' rfl _ rfl h1 h2 _
        rw [e, ObjLaw.cells] at h1
        rw [e] at h2
        exact ⟨p, rfl, h1, (ObjLaw.val p v s'.mem).1 h2, fun q hq => by simpa using hq, by simp⟩)
    · rw [e, ObjLaw.cells] at this
      exact this
    · intro rest hr
      refine wp_withPool (P := fun r => r = (b, some p)) (Or.inl rfl) hr fun s1 _ hp h => ?_
      refine Wp.bind (Wp.pure (Q := fun r s' => r = p ∧ s' = s1) ⟨rfl, rfl⟩) fun q s' ⟨e1, e2⟩ => ?_
      subst e1 e2
      refine Wp.bind (hbody ⟨hp, h⟩) fun r _ ⟨e1, h⟩ => ?_
      subst e1
      exact Wp.pure ⟨rfl, h⟩

/-! ### Tests of `GT` and pairings -/

theorem wp_isZero12 {s : BigHeap} {Δ : List (List (Cell × Int))} {d : Gf12} {v : GfP12} (h : Rel s (own d v :: Δ)) :
    Wp d.isZero s fun r s' => r = v.isZero ∧ Rel s' (own d v.minimal :: Δ) := by
  unfold Gf12.isZero
  refine Wp.bind (wp_opSelf h) fun _ s h => ?_
  replace h : Rel s (own d.x v.minimal.x :: own d.y v.minimal.y :: Δ) := h
  refine Wp.bind (wp_test h) fun _ _ ⟨e1, h⟩ => ?_
  refine Wp.bind (wp_test h) fun _ _ ⟨e2, h⟩ => ?_
  subst e1 e2
  exact Wp.pure ⟨rfl, h⟩

theorem wp_isOne12 {s : BigHeap} {Δ : List (List (Cell × Int))} {d : Gf12} {v : GfP12} (h : Rel s (own d v :: Δ)) :
    Wp d.isOne s fun r s' => r = v.isOne ∧ Rel s' (own d v.minimal :: Δ) := by
  unfold Gf12.isOne
  refine Wp.bind (wp_opSelf h) fun _ s h => ?_
  replace h : Rel s (own d.x v.minimal.x :: own d.y v.minimal.y :: Δ) := h
  refine Wp.bind (wp_test h) fun _ _ ⟨e1, h⟩ => ?_
  refine Wp.bind (wp_test h) fun _ _ ⟨e2, h⟩ => ?_
  subst e1 e2
  exact Wp.pure ⟨rfl, h⟩

/-- Two objects whose cells are in the frame. -/
theorem frame_split {A B V W : Type} [Ob A V] [HeapObj A V] [ObjLaw A] [Ob B W] [HeapObj B W] [ObjLaw B] {m : Cell → Int}
    {rest : List (Cell × Int)} {a : A} {b : B} (ha : (HeapObj.cells a).Nodup) (hb : (HeapObj.cells b).Nodup)
    (hab : Disj (HeapObj.cells a) (HeapObj.cells b)) (hia : ∀ c ∈ HeapObj.cells a, (c, m c) ∈ rest)
    (hib : ∀ c ∈ HeapObj.cells b, (c, m c) ∈ rest) :
    ∃ rest', rest.Perm (own a (HeapObj.val m a) ++ (own b (HeapObj.val m b) ++ rest')) := by
  have va := (ObjLaw.val a (HeapObj.val m a) m).2 rfl
  have vb := (ObjLaw.val b (HeapObj.val m b) m).2 rfl
  have ca := ObjLaw.cells a (HeapObj.val m a)
  have cb := ObjLaw.cells b (HeapObj.val m b)
  have hn : (own a (HeapObj.val m a) ++ own b (HeapObj.val m b)).Nodup := by
    refine List.Nodup.of_map Prod.fst ?_
    rw [List.map_append, ca, cb, List.nodup_append]
    exact ⟨ha, hb, fun c hc d hd e => hab c hc (e ▸ hd)⟩
  have hsub : own a (HeapObj.val m a) ++ own b (HeapObj.val m b) ⊆ rest := by
    intro p hp
    rcases List.mem_append.1 hp with hp | hp
    · have := hia p.1 (ca ▸ List.mem_map_of_mem hp)
      rwa [va p hp] at this
    · have := hib p.1 (cb ▸ List.mem_map_of_mem hp)
      rwa [vb p hp] at this
  obtain ⟨l, h1, h2⟩ := List.subperm_of_subset hn hsub
  obtain ⟨rest', h3⟩ := h2.exists_perm_append
  refine ⟨rest', h3.trans ?_⟩
  rw [← List.append_assoc]
  exact h1.append_right rest'

theorem frame_split1 {A V : Type} [Ob A V] [HeapObj A V] [ObjLaw A] {m : Cell → Int}
    {rest : List (Cell × Int)} {a : A} (ha : (HeapObj.cells a).Nodup) (hia : ∀ c ∈ HeapObj.cells a, (c, m c) ∈ rest) :
    ∃ rest', rest.Perm (own a (HeapObj.val m a) ++ rest') := by
  have va := (ObjLaw.val a (HeapObj.val m a) m).2 rfl
  have ca := ObjLaw.cells a (HeapObj.val m a)
  have hn : (own a (HeapObj.val m a)).Nodup := by
    refine List.Nodup.of_map Prod.fst ?_
    rw [ca]
    exact ha
  have hsub : own a (HeapObj.val m a) ⊆ rest := by
    intro p hp
    have := hia p.1 (ca ▸ List.mem_map_of_mem hp)
    rwa [va p hp] at this
  obtain ⟨l, h1, h2⟩ := List.subperm_of_subset hn hsub
  obtain ⟨rest', h3⟩ := h2.exists_perm_append
  exact ⟨rest', h3.trans (h1.append_right rest')⟩

/-- Reordering inside the last entry. -/
theorem Rel.rest {s : BigHeap} {E E' : List (List (Cell × Int))} {l l' : List (Cell × Int)} (h : Rel s (E ++ [l]))
    (hp : l.Perm (E'.flatten ++ l')) : Rel s (E ++ E' ++ [l']) := by
  refine Own.perm ?_ h
  simp only [List.flatten_append, List.flatten_cons, List.flatten_nil, List.append_nil, List.append_assoc]
  exact hp.append_left _

theorem Rel.rest' {s : BigHeap} {E E' : List (List (Cell × Int))} {l l' : List (Cell × Int)} (h : Rel s (E ++ E' ++ [l']))
    (hp : l.Perm (E'.flatten ++ l')) : Rel s (E ++ [l]) := by
  refine Own.perm ?_ h
  simp only [List.flatten_append, List.flatten_cons, List.flatten_nil, List.append_nil, List.append_assoc]
  exact hp.symm.append_left _

theorem wp_pairingCheckLoop {g : BnGlobals} {acc : Gf12} {m : Cell → Int} {rest : List (Cell × Int)} (a : List CurveP) :
    ∀ (b : List TwistP) {s : BigHeap} {v : GfP12}, Rel s [own acc v, own g (), rest] →
    (∀ p ∈ a, (HeapObj.cells p).Nodup ∧ (∀ c ∈ HeapObj.cells p, (c, m c) ∈ rest) ∧ (HeapObj.val m p).Invertible) →
    (∀ q ∈ b, (HeapObj.cells q).Nodup ∧ ∀ c ∈ HeapObj.cells q, (c, m c) ∈ rest) →
    (∀ p ∈ a, ∀ q ∈ b, Disj (HeapObj.cells q) (HeapObj.cells p)) →
    (∀ w, pairingCheckLoop (a.map (HeapObj.val m)) (b.map (HeapObj.val m)) v = .ok w →
      Wp (pairingCheckLoopH g acc a b) s fun _ s' => Rel s' [own acc w, own g (), rest]) ∧
    (pairingCheckLoop (a.map (HeapObj.val m)) (b.map (HeapObj.val m)) v = .panic → pairingCheckLoopH g acc a b s = .panic) := by
  induction a with
  | nil =>
    intro b s v h _ _ _
    simp only [List.map_nil, pairingCheckLoop]
    refine ⟨fun w hw => ?_, fun hw => by cases hw⟩
    cases hw
    exact Wp.pure h
  | cons p a ih =>
    intro b s v h ha hb hab
    have ha' : ∀ p ∈ a, _ := fun q hq => ha q (List.mem_cons_of_mem _ hq)
    obtain ⟨p1, p2, p3⟩ := ha p List.mem_cons_self
    have tp : Wp p.isInfinity s fun r s' => r = (HeapObj.val m p).isInfinity ∧ s' = s := by
      obtain ⟨rest', hr⟩ := frame_split1 (m := m) p1 p2
      have h1 := Rel.rest (E := [own acc v, own g ()]) (E' := [own p (HeapObj.val m p)]) h (by simpa using hr)
      replace h1 : Rel s (own acc v :: own g () :: own p (HeapObj.val m p) :: [rest']) := h1
      obtain ⟨r, s', e, e1, h1⟩ := wp_test (m := CurveP.isInfinity) (d := p) h1
      refine ⟨r, s', e, e1, ?_⟩
      cases e
      rfl
    cases b with
    | nil =>
      obtain ⟨i, s1, e1, e2, e3⟩ := tp
      subst e2 e3
      have hrec := ih [] h ha' hb (fun _ _ _ hq => by cases hq)
      have hx : pairingCheckLoopH g acc (p :: a) [] s1 =
          if (HeapObj.val m p).isInfinity then pairingCheckLoopH g acc a [] s1 else .panic := by
        show (p.isInfinity s1 >>= fun r => (if r.1 = true then pairingCheckLoopH g acc a [] else BigM.panic) r.2) = _
        rw [e1]
        show (if (HeapObj.val m p).isInfinity = true then pairingCheckLoopH g acc a [] else BigM.panic) s1 = _
        split <;> rfl
      simp only [List.map_nil, List.map_cons, pairingCheckLoop] at hrec ⊢
      unfold Wp
      rw [hx]
      by_cases c : (HeapObj.val m p).isInfinity = true
      · simp only [if_pos c]; exact hrec
      · simp only [if_neg c]
        exact ⟨fun w hw => (by cases hw), fun _ => (by trivial)⟩
    | cons q b =>
      have hb' : ∀ q ∈ b, _ := fun r hr => hb r (List.mem_cons_of_mem _ hr)
      have hab' : ∀ p ∈ a, ∀ q ∈ b, _ := fun p' hp q' hq => hab p' (List.mem_cons_of_mem _ hp) q' (List.mem_cons_of_mem _ hq)
      obtain ⟨q1, q2⟩ := hb q List.mem_cons_self
      obtain ⟨rest', hr⟩ := frame_split (m := m) q1 p1 (hab p List.mem_cons_self q List.mem_cons_self) q2 p2
      have hr' : rest.Perm ([own q (HeapObj.val m q), own p (HeapObj.val m p)].flatten ++ rest') := by simpa using hr
      have tq : Wp q.isInfinity s fun r s' => r = (HeapObj.val m q).isInfinity ∧ s' = s := by
        have h1 := Rel.rest (E := [own acc v, own g ()]) h hr'
        replace h1 : Rel s (own acc v :: own g () :: own q (HeapObj.val m q) :: own p (HeapObj.val m p) :: [rest']) := h1
        obtain ⟨r, s', e, e1, h1⟩ := wp_test (m := TwistP.isInfinity) (d := q) h1
        refine ⟨r, s', e, e1, ?_⟩
        cases e
        rfl
      obtain ⟨i, s1, e1, e2, e3⟩ := tp
      subst e2 e3
      obtain ⟨j, s2, f1, f2, f3⟩ := tq
      subst f2 f3
      have hx : pairingCheckLoopH g acc (p :: a) (q :: b) s2 =
          (if ((HeapObj.val m p).isInfinity || (HeapObj.val m q).isInfinity) = true then pairingCheckLoopH g acc a b
            else millerH g q p >>= fun e => acc.mul acc e >>= fun _ => pairingCheckLoopH g acc a b) s2 := by
        show (p.isInfinity s2 >>= fun r => (q.isInfinity r.2 >>= fun t => (if (r.1 || t.1) = true then pairingCheckLoopH g acc a b
            else millerH g q p >>= fun e => acc.mul acc e >>= fun _ => pairingCheckLoopH g acc a b) t.2)) = _
        rw [e1]
        show (q.isInfinity s2 >>= fun t => _) = _
        rw [f1]
        rfl
      simp only [List.map_cons, pairingCheckLoop]
      unfold Wp
      rw [hx]
      by_cases c : ((HeapObj.val m p).isInfinity || (HeapObj.val m q).isInfinity) = true
      · simp only [if_pos c]
        exact ih b h ha' hb' hab'
      · simp only [if_neg c]
        have h1 := Rel.rest (E := [own acc v, own g ()]) h hr'
        replace h1 : Rel s2 (own g () :: own q (HeapObj.val m q) :: own p (HeapObj.val m p) :: [own acc v, rest']) :=
          h1.perm (by show List.Perm (_ :: _ :: _ :: _ :: _ :: []) _; perm_tac)
        have hm : Wp (millerH g q p >>= fun e => acc.mul acc e) s2 fun _ s' =>
            Rel s' [own acc (v.mul (miller (HeapObj.val m q) (HeapObj.val m p))), own g (), rest] := by
          refine Wp.bind (wp_miller p3 h1) fun e _ h => ?_
          refine (wp_op2 (m := Gf12.mul) h).mono fun _ s' h => ?_
          refine Rel.rest' (E := [own acc _, own g ()]) (h.tail.perm ?_) hr'
          show List.Perm (_ :: _ :: _ :: _ :: _ :: []) (_ :: _ :: _ :: _ :: _ :: [])
          perm_tac
        rw [show (millerH g q p >>= fun e => acc.mul acc e >>= fun _ => pairingCheckLoopH g acc a b) =
          (millerH g q p >>= fun e => acc.mul acc e) >>= fun _ => pairingCheckLoopH g acc a b from (BigM.assoc _ _ _).symm]
        obtain ⟨_, s', e, h⟩ := hm
        have hrec := ih b h ha' hb' hab'
        have hy : ((millerH g q p >>= fun e => acc.mul acc e) >>= fun _ => pairingCheckLoopH g acc a b) s2 =
            pairingCheckLoopH g acc a b s' := by
          show ((millerH g q p >>= fun e => acc.mul acc e) s2 >>= fun r => pairingCheckLoopH g acc a b r.2) = _
          rw [e]; rfl
        rw [hy]
        exact hrec

theorem wp_pairingCheck {g : BnGlobals} {m : Cell → Int} {rest : List (Cell × Int)} {a : List CurveP} {b : List TwistP}
    {s : BigHeap} (h : Rel0 s [own g (), rest])
    (ha : ∀ p ∈ a, (HeapObj.cells p).Nodup ∧ (∀ c ∈ HeapObj.cells p, (c, m c) ∈ rest) ∧ (HeapObj.val m p).Invertible)
    (hb : ∀ q ∈ b, (HeapObj.cells q).Nodup ∧ ∀ c ∈ HeapObj.cells q, (c, m c) ∈ rest)
    (hab : ∀ p ∈ a, ∀ q ∈ b, Disj (HeapObj.cells q) (HeapObj.cells p)) :
    (∀ w, pairingCheck (a.map (HeapObj.val m)) (b.map (HeapObj.val m)) = .ok w →
      Wp (pairingCheckH g a b) s fun r s' => r = w ∧ Rel0 s' [own g (), rest]) ∧
    (pairingCheck (a.map (HeapObj.val m)) (b.map (HeapObj.val m)) = .panic → pairingCheckH g a b s = .panic) := by
  have h1 : Rel { s with pool := some [] } [own g (), rest] :=
    ⟨h.2.nodup, fun q hq => ⟨(h.2.cell q hq).1, by simp [BigHeap.free], (h.2.cell q hq).2.2⟩, by simp [BigHeap.free],
      by simp [BigHeap.free]⟩
  constructor
  · intro w hw
    unfold pairingCheckH
    refine wp_withPool (P := fun r => r = w) (Γ' := fun _ => [own g (), rest]) (Or.inr rfl) h fun s1 _ _ h => ?_
    refine Wp.bind (wp_new h) fun acc _ ⟨_, h⟩ => ?_
    refine Wp.bind (wp_op0 h) fun _ _ h => ?_
    have hl := wp_pairingCheckLoop (m := m) a b h ha hb hab
    unfold pairingCheck at hw
    cases hc : pairingCheckLoop (a.map (HeapObj.val m)) (b.map (HeapObj.val m)) .one with
    | panic => rw [hc] at hw; cases hw
    | ok v =>
      rw [hc] at hw
      have hw : (finalExponentiation v).isOne = w := Res.ok.inj hw
      subst hw
      refine Wp.bind (hl.1 v hc) fun _ _ h => ?_
      refine Wp.bind (wp_finalExponentiation (h.perm (List.Perm.swap _ _ _))) fun ret _ h => ?_
      refine Wp.bind (wp_put (d := acc) h) fun _ _ h => ?_
      exact (wp_isOne12 h).mono fun r s' h => ⟨h.1, h.2.tail⟩
  · intro hw
    have key : ∀ {α β : Type} {m : BigM α} {k : α → BigM β} {s : BigHeap} {R : α → BigHeap → Prop},
        Wp m s R → (∀ a s', R a s' → k a s' = .panic) → (m >>= k) s = .panic := by
      intro α β m k s R ⟨a, s', e, hR⟩ hk
      show (m s >>= fun r => k r.1 r.2) = _
      rw [e]; exact hk a s' hR
    unfold pairingCheckH
    rw [show ∀ (x : BigM Bool), withPool (some []) x s = (x { s with pool := some [] } >>= _) from fun _ => rfl]
    rw [key (wp_new h1) fun acc _ ⟨_, h⟩ => key (wp_op0 h) fun _ _ h => by
      have hl := wp_pairingCheckLoop (m := m) a b h ha hb hab
      unfold pairingCheck at hw
      cases hc : pairingCheckLoop (a.map (HeapObj.val m)) (b.map (HeapObj.val m)) .one with
      | ok v => rw [hc] at hw; cases hw
      | panic =>
        show (pairingCheckLoopH g acc a b _ >>= _) = _
        rw [hl.2 hc]; rfl]
    rfl

theorem CurvePoint.invertible_of_rep {a : CurvePoint} {Q : BG1} (h : Rep1 a Q) : a.Invertible := by
  by_cases hz : (a.z : BF) = 0
  · exact Or.inr (Or.inl (by simp [CurvePoint.isInfinity, h.2.2 hz]))
  · obtain ⟨r, hr, _⟩ := modInverse_bn hz
    exact Or.inr (Or.inr (by rw [hr]; rfl))

/-- A method that rewrites its receiver and returns `b`. -/
theorem effect_self {A V α : Type} [Ob A V] [HeapObj A V] [ObjLaw A] {m : BigM α} {s : BigHeap} {d : A} {v : V} {b : α}
    (hs : s.pool = none) (hd : Live s d)
    (h : ∀ {Δ : List (List (Cell × Int))}, Rel0 s (own d (HeapObj.val s.mem d) :: Δ) →
      Wp m s fun r s' => r = b ∧ Rel0 s' (own d v :: Δ)) :
    Effect m s (HeapObj.cells d) fun r s' => r = b ∧ Live s' d ∧ HeapObj.val s'.mem d = v := by
  have e : ∀ w : V, ([own d w] : List (List (Cell × Int))).flatten = own d w := by simp
  have := effect_of (m := m) (W := [own d (HeapObj.val s.mem d)]) (E := []) (W' := fun _ => [own d v]) (P := fun r => r = b)
    (Q := fun r s' => r = b ∧ Live s' d ∧ HeapObj.val s'.mem d = v) (known1 hs hd) (fun rest hr => h hr)
    (fun _ _ c hc => by rwa [e, ObjLaw.cells] at hc ⊢) (by
      rintro r s' hr _ rfl h1 h2 _
      rw [e, ObjLaw.cells] at h1
      rw [e] at h2
      exact ⟨hr, h1, (ObjLaw.val d v s'.mem).1 h2⟩)
  rw [e, ObjLaw.cells] at this
  exact this

end Verif

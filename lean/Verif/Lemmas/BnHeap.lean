import Verif.Model.BnHeap
import Verif.Lemmas.Gfp
import Mathlib.Data.List.Perm.Basic

/-!
# Ownership of cells

`Rel s Γ`: the heap `s` has the objects listed in `Γ`, all their cells are different from each other and not in the pool, and they
hold the values listed.  Every method of `crypto/bn256` gets a rule which says how it changes such a list; the rest of the list
is arbitrary, so the rules also say that nothing else changes.
-/

namespace Verif

open BigM

/-! ### Running computations -/

/-- The computation does not panic and ends with `Q`. -/
def Wp {α : Type} (m : BigM α) (s : BigHeap) (Q : α → BigHeap → Prop) : Prop :=
  ∃ a s', m s = .ok (a, s') ∧ Q a s'

theorem Wp.bind {α β : Type} {m : BigM α} {k : α → BigM β} {s : BigHeap} {R : α → BigHeap → Prop} {Q : β → BigHeap → Prop}
    (h : Wp m s R) (hk : ∀ a s', R a s' → Wp (k a) s' Q) : Wp (m >>= k) s Q := by
  obtain ⟨a, s', e, hR⟩ := h
  obtain ⟨b, s'', e', hQ⟩ := hk a s' hR
  refine ⟨b, s'', ?_, hQ⟩
  show (m s >>= fun r => k r.1 r.2) = _
  rw [e]; exact e'

theorem Wp.mono {α : Type} {m : BigM α} {s : BigHeap} {R Q : α → BigHeap → Prop}
    (h : Wp m s R) (hk : ∀ a s', R a s' → Q a s') : Wp m s Q := by
  obtain ⟨a, s', e, hR⟩ := h
  exact ⟨a, s', e, hk a s' hR⟩

theorem Wp.assoc {α β γ : Type} {m : BigM α} {k : α → BigM β} {k' : β → BigM γ} {s : BigHeap} {Q : γ → BigHeap → Prop}
    (h : Wp (m >>= fun a => k a >>= k') s Q) : Wp ((m >>= k) >>= k') s Q := by
  obtain ⟨c, s', e, hQ⟩ := h
  refine ⟨c, s', ?_, hQ⟩
  rw [← e]
  show ((m s >>= fun r => k r.1 r.2) >>= fun r => k' r.1 r.2) = (m s >>= fun r => k r.1 r.2 >>= fun r => k' r.1 r.2)
  cases m s <;> rfl

theorem Wp.pure {α : Type} {a : α} {s : BigHeap} {Q : α → BigHeap → Prop} (h : Q a s) : Wp (pure a) s Q :=
  ⟨a, s, rfl, h⟩

/-! ### Ownership -/

/-- The cells in the pool. -/
def BigHeap.free (s : BigHeap) : List Cell := s.pool.getD []

/-- The heap owns these cells with these values. -/
structure Own (s : BigHeap) (L : List (Cell × Int)) : Prop where
  nodup : (L.map Prod.fst).Nodup
  cell : ∀ p ∈ L, p.1 < s.next ∧ p.1 ∉ s.free ∧ s.mem p.1 = p.2
  free_nodup : s.free.Nodup
  free_lt : ∀ c ∈ s.free, c < s.next

/-- Objects: a type `A` of pointers, and for each pointer and value the cells with their contents. -/
class Ob (A : Type) (V : outParam Type) where
  flat : A → V → List (Cell × Int)
  inj : ∀ {a b : A} {v w : V}, flat a v = flat b w → a = b ∧ v = w

/-- An object with its value, as an entry of a list `Γ`. -/
def own {A V : Type} [Ob A V] (a : A) (v : V) : List (Cell × Int) := Ob.flat a v

/-- The heap has the objects in `Γ`. -/
def Rel (s : BigHeap) (Γ : List (List (Cell × Int))) : Prop := Own s Γ.flatten

theorem Own.perm {s : BigHeap} {L L' : List (Cell × Int)} (hp : L.Perm L') (h : Own s L) : Own s L' :=
  ⟨(hp.map _).nodup_iff.1 h.nodup, fun p hp' => h.cell p (hp.mem_iff.2 hp'), h.free_nodup, h.free_lt⟩

theorem Rel.perm {s : BigHeap} {Γ Γ' : List (List (Cell × Int))} (hp : Γ.Perm Γ') (h : Rel s Γ) : Rel s Γ' :=
  Own.perm hp.flatten h

/-! ### Finding objects in a list -/

/-- The object is in the list. -/
class Has {A V : Type} [Ob A V] (Γ : List (List (Cell × Int))) (a : A) (v : outParam V) : Prop where
  mem : own a v ∈ Γ

instance Has.head {A V : Type} [Ob A V] {Γ : List (List (Cell × Int))} {a : A} {v : V} : Has (own a v :: Γ) a v :=
  ⟨List.mem_cons_self⟩

instance (priority := low) Has.tail {A V : Type} [Ob A V] {E : List (Cell × Int)} {Γ : List (List (Cell × Int))} {a : A} {v : V}
    [h : Has Γ a v] : Has (E :: Γ) a v :=
  ⟨List.mem_cons_of_mem _ h.mem⟩

/-- The second list is the first with a new value for one object. -/
class Upd {A V : Type} [Ob A V] (Γ : List (List (Cell × Int))) (a : A) (v : outParam V) (v' : V)
    (Γ' : outParam (List (List (Cell × Int)))) : Prop where
  perm : ∃ Δ, Γ.Perm (own a v :: Δ) ∧ Γ'.Perm (own a v' :: Δ)

instance Upd.head {A V : Type} [Ob A V] {Γ : List (List (Cell × Int))} {a : A} {v v' : V} :
    Upd (own a v :: Γ) a v v' (own a v' :: Γ) :=
  ⟨Γ, List.Perm.refl _, List.Perm.refl _⟩

instance (priority := low) Upd.tail {A V : Type} [Ob A V] {E : List (Cell × Int)} {Γ Γ' : List (List (Cell × Int))} {a : A}
    {v v' : V} [h : Upd Γ a v v' Γ'] : Upd (E :: Γ) a v v' (E :: Γ') := by
  obtain ⟨Δ, h1, h2⟩ := h.perm
  exact ⟨E :: Δ, (h1.cons E).trans (List.Perm.swap _ _ _), (h2.cons E).trans (List.Perm.swap _ _ _)⟩

/-- The second list is the first without one object. -/
class Rem {A V : Type} [Ob A V] (Γ : List (List (Cell × Int))) (a : A) (v : outParam V)
    (Γ' : outParam (List (List (Cell × Int)))) : Prop where
  perm : Γ.Perm (own a v :: Γ')

instance Rem.head {A V : Type} [Ob A V] {Γ : List (List (Cell × Int))} {a : A} {v : V} : Rem (own a v :: Γ) a v Γ :=
  ⟨List.Perm.refl _⟩

instance (priority := low) Rem.tail {A V : Type} [Ob A V] {E : List (Cell × Int)} {Γ Γ' : List (List (Cell × Int))} {a : A}
    {v : V} [h : Rem Γ a v Γ'] : Rem (E :: Γ) a v (E :: Γ') :=
  ⟨(h.perm.cons E).trans (List.Perm.swap _ _ _)⟩

/-! ### Kinds of methods -/

/-- `e.Op()` with a result that does not depend on the old value. -/
class Op0 {A V : Type} [Ob A V] (m : A → BigM Unit) (v' : outParam V) : Prop where
  run : ∀ {s : BigHeap} {Δ : List (List (Cell × Int))} {d : A} {v : V}, Rel s (own d v :: Δ) →
    Wp (m d) s fun _ s' => Rel s' (own d v' :: Δ)

/-- `e.Op()` with a result computed from the old value. -/
class OpSelf {A V : Type} [Ob A V] (m : A → BigM Unit) (f : outParam (V → V)) : Prop where
  run : ∀ {s : BigHeap} {Δ : List (List (Cell × Int))} {d : A} {v : V}, Rel s (own d v :: Δ) →
    Wp (m d) s fun _ s' => Rel s' (own d (f v) :: Δ)

/-- `e.Op(a)`, where `e` may be `a`. -/
class Op1 {A V : Type} [Ob A V] (m : A → A → BigM Unit) (f : outParam (V → V)) : Prop where
  apart : ∀ {s : BigHeap} {Δ : List (List (Cell × Int))} {d a : A} {v w : V}, Rel s (own d v :: own a w :: Δ) →
    Wp (m d a) s fun _ s' => Rel s' (own d (f w) :: own a w :: Δ)
  same : ∀ {s : BigHeap} {Δ : List (List (Cell × Int))} {d : A} {v : V}, Rel s (own d v :: Δ) →
    Wp (m d d) s fun _ s' => Rel s' (own d (f v) :: Δ)

/-- `e.Op(a, b)` with `b` of another type, where `e` may be `a`. -/
class OpM {A V B W : Type} [Ob A V] [Ob B W] (m : A → A → B → BigM Unit) (f : outParam (V → W → V)) : Prop where
  apart : ∀ {s : BigHeap} {Δ : List (List (Cell × Int))} {d a : A} {b : B} {v w : V} {u : W},
    Rel s (own d v :: own a w :: own b u :: Δ) →
    Wp (m d a b) s fun _ s' => Rel s' (own d (f w u) :: own a w :: own b u :: Δ)
  same : ∀ {s : BigHeap} {Δ : List (List (Cell × Int))} {d : A} {b : B} {v : V} {u : W}, Rel s (own d v :: own b u :: Δ) →
    Wp (m d d b) s fun _ s' => Rel s' (own d (f v u) :: own b u :: Δ)

/-- `e.Op(a, b)`, where `e`, `a` and `b` may be the same. -/
class Op2 {A V : Type} [Ob A V] (m : A → A → A → BigM Unit) (f : outParam (V → V → V)) : Prop where
  apart : ∀ {s : BigHeap} {Δ : List (List (Cell × Int))} {d a b : A} {v w u : V},
    Rel s (own d v :: own a w :: own b u :: Δ) →
    Wp (m d a b) s fun _ s' => Rel s' (own d (f w u) :: own a w :: own b u :: Δ)
  left : ∀ {s : BigHeap} {Δ : List (List (Cell × Int))} {d b : A} {v u : V}, Rel s (own d v :: own b u :: Δ) →
    Wp (m d d b) s fun _ s' => Rel s' (own d (f v u) :: own b u :: Δ)
  right : ∀ {s : BigHeap} {Δ : List (List (Cell × Int))} {d a : A} {v w : V}, Rel s (own d v :: own a w :: Δ) →
    Wp (m d a d) s fun _ s' => Rel s' (own d (f w v) :: own a w :: Δ)
  args : ∀ {s : BigHeap} {Δ : List (List (Cell × Int))} {d a : A} {v w : V}, Rel s (own d v :: own a w :: Δ) →
    Wp (m d a a) s fun _ s' => Rel s' (own d (f w w) :: own a w :: Δ)
  all : ∀ {s : BigHeap} {Δ : List (List (Cell × Int))} {d : A} {v : V}, Rel s (own d v :: Δ) →
    Wp (m d d d) s fun _ s' => Rel s' (own d (f v v) :: Δ)

/-- Constructor of a new object with unknown value. -/
class OpNew {A V : Type} [Ob A V] (m : BigM A) : Prop where
  run : ∀ {s : BigHeap} {Δ : List (List (Cell × Int))}, Rel s Δ → Wp m s fun d s' => ∃ v, Rel s' (own d v :: Δ)

/-- Return of an object to the pool. -/
class OpPut {A V : Type} [Ob A V] (m : A → BigM Unit) : Prop where
  run : ∀ {s : BigHeap} {Δ : List (List (Cell × Int))} {d : A} {v : V}, Rel s (own d v :: Δ) →
    Wp (m d) s fun _ s' => Rel s' Δ

/-- A test that changes nothing. -/
class OpTest {A V β : Type} [Ob A V] (m : A → BigM β) (f : outParam (V → β)) : Prop where
  run : ∀ {s : BigHeap} {Δ : List (List (Cell × Int))} {d : A} {v : V}, Rel s (own d v :: Δ) →
    Wp (m d) s fun r s' => r = f v ∧ Rel s' (own d v :: Δ)

/-! ### The rules for arbitrary lists -/

theorem perm_cons_of_mem {α : Type} {a : α} {l : List α} (h : a ∈ l) : ∃ l', l.Perm (a :: l') := by
  obtain ⟨p, q, rfl⟩ := List.append_of_mem h
  exact ⟨p ++ q, List.perm_middle⟩

section
variable {A V B W β : Type} [Ob A V] [Ob B W] {s : BigHeap} {Γ Γ' : List (List (Cell × Int))}

theorem wp_op0 {m : A → BigM Unit} {v' v : V} {d : A} [H : Op0 m v'] [U : Upd Γ d v v' Γ'] (h : Rel s Γ) :
    Wp (m d) s fun _ s' => Rel s' Γ' := by
  obtain ⟨Δ, h1, h2⟩ := U.perm
  exact (H.run (h.perm h1)).mono fun _ _ h => h.perm h2.symm

theorem wp_opSelf {m : A → BigM Unit} {f : V → V} {v : V} {d : A} [H : OpSelf m f] [Has Γ d v] [U : Upd Γ d v (f v) Γ']
    (h : Rel s Γ) : Wp (m d) s fun _ s' => Rel s' Γ' := by
  obtain ⟨Δ, h1, h2⟩ := U.perm
  exact (H.run (h.perm h1)).mono fun _ _ h => h.perm h2.symm

theorem wp_op1 {m : A → A → BigM Unit} {f : V → V} {v w : V} {d a : A} [H : Op1 m f] [M : Has Γ a w]
    [U : Upd Γ d v (f w) Γ'] (h : Rel s Γ) : Wp (m d a) s fun _ s' => Rel s' Γ' := by
  obtain ⟨Δ, h1, h2⟩ := U.perm
  rcases List.mem_cons.1 (h1.mem_iff.1 M.mem) with e | hm
  · obtain ⟨rfl, rfl⟩ := Ob.inj e
    exact (H.same (h.perm h1)).mono fun _ _ h => h.perm h2.symm
  · obtain ⟨Δ', p⟩ := perm_cons_of_mem hm
    exact (H.apart (h.perm (h1.trans (p.cons _)))).mono fun _ _ h => h.perm ((p.symm.cons _).trans h2.symm)

theorem wp_opM {m : A → A → B → BigM Unit} {f : V → W → V} {v w : V} {u : W} {d a : A} {b : B} [H : OpM m f] [M : Has Γ a w]
    [N : Has Γ b u] [U : Upd Γ d v (f w u) Γ'] (hb : ∀ {v : V} {u : W}, own d v ≠ own b u) (hb' : ∀ {v : V} {u : W}, own a v ≠ own b u)
    (h : Rel s Γ) : Wp (m d a b) s fun _ s' => Rel s' Γ' := by
  obtain ⟨Δ, h1, h2⟩ := U.perm
  have hbm : own b u ∈ Δ := by
    rcases List.mem_cons.1 (h1.mem_iff.1 N.mem) with e | hm
    · exact absurd e.symm hb
    · exact hm
  rcases List.mem_cons.1 (h1.mem_iff.1 M.mem) with e | hm
  · obtain ⟨rfl, rfl⟩ := Ob.inj e
    obtain ⟨Δ', p⟩ := perm_cons_of_mem hbm
    exact (H.same (h.perm (h1.trans (p.cons _)))).mono fun _ _ h => h.perm ((p.symm.cons _).trans h2.symm)
  · obtain ⟨Δ', p⟩ := perm_cons_of_mem hm
    have hbm' : own b u ∈ Δ' := by
      rcases List.mem_cons.1 (p.mem_iff.1 hbm) with e | hm
      · exact absurd e.symm hb'
      · exact hm
    obtain ⟨Δ'', q⟩ := perm_cons_of_mem hbm'
    have p' := p.trans (q.cons _)
    exact (H.apart (h.perm (h1.trans (p'.cons _)))).mono fun _ _ h => h.perm ((p'.symm.cons _).trans h2.symm)

theorem wp_op2 {m : A → A → A → BigM Unit} {f : V → V → V} {v w u : V} {d a b : A} [H : Op2 m f] [M : Has Γ a w]
    [N : Has Γ b u] [U : Upd Γ d v (f w u) Γ'] (h : Rel s Γ) : Wp (m d a b) s fun _ s' => Rel s' Γ' := by
  obtain ⟨Δ, h1, h2⟩ := U.perm
  rcases List.mem_cons.1 (h1.mem_iff.1 M.mem) with e | hm
  · obtain ⟨rfl, rfl⟩ := Ob.inj e
    rcases List.mem_cons.1 (h1.mem_iff.1 N.mem) with e | hn
    · obtain ⟨rfl, rfl⟩ := Ob.inj e
      exact (H.all (h.perm h1)).mono fun _ _ h => h.perm h2.symm
    · obtain ⟨Δ', p⟩ := perm_cons_of_mem hn
      exact (H.left (h.perm (h1.trans (p.cons _)))).mono fun _ _ h => h.perm ((p.symm.cons _).trans h2.symm)
  · obtain ⟨Δ', p⟩ := perm_cons_of_mem hm
    rcases List.mem_cons.1 (h1.mem_iff.1 N.mem) with e | hn
    · obtain ⟨rfl, rfl⟩ := Ob.inj e
      exact (H.right (h.perm (h1.trans (p.cons _)))).mono fun _ _ h => h.perm ((p.symm.cons _).trans h2.symm)
    · rcases List.mem_cons.1 (p.mem_iff.1 hn) with e | hn
      · obtain ⟨rfl, rfl⟩ := Ob.inj e
        exact (H.args (h.perm (h1.trans (p.cons _)))).mono fun _ _ h => h.perm ((p.symm.cons _).trans h2.symm)
      · obtain ⟨Δ'', q⟩ := perm_cons_of_mem hn
        have p' := p.trans (q.cons _)
        exact (H.apart (h.perm (h1.trans (p'.cons _)))).mono fun _ _ h => h.perm ((p'.symm.cons _).trans h2.symm)

theorem wp_new {m : BigM A} [H : OpNew m] (h : Rel s Γ) : Wp m s fun d s' => ∃ v, Rel s' (own d v :: Γ) := H.run h

theorem wp_put {m : A → BigM Unit} {d : A} {v : V} [H : OpPut m] [R : Rem Γ d v Γ'] (h : Rel s Γ) :
    Wp (m d) s fun _ s' => Rel s' Γ' := H.run (h.perm R.perm)

theorem wp_test {m : A → BigM β} {f : V → β} {d : A} {v : V} [H : OpTest m f] [M : Has Γ d v] (h : Rel s Γ) :
    Wp (m d) s fun r s' => r = f v ∧ Rel s' Γ := by
  obtain ⟨Δ, p⟩ := perm_cons_of_mem M.mem
  exact (H.run (h.perm p)).mono fun _ _ h => ⟨h.1, h.2.perm p.symm⟩

end

/-! ### `big.Int` objects -/

instance : Ob Cell Int where
  flat a v := [(a, v)]
  inj h := by simpa using h

theorem Own.write {s : BigHeap} {d : Cell} {v v' : Int} {L : List (Cell × Int)} (h : Own s ((d, v) :: L)) :
    Own { s with mem := fun c => if c = d then v' else s.mem c } ((d, v') :: L) := by
  have hn := h.nodup
  rw [List.map_cons, List.nodup_cons] at hn
  refine ⟨by rw [List.map_cons, List.nodup_cons]; exact hn, ?_, h.free_nodup, h.free_lt⟩
  intro p hp
  rcases List.mem_cons.1 hp with rfl | hp
  · have := h.cell (d, v) List.mem_cons_self
    exact ⟨this.1, this.2.1, by simp⟩
  · have := h.cell p (List.mem_cons_of_mem _ hp)
    refine ⟨this.1, this.2.1, ?_⟩
    have hne : p.1 ≠ d := by
      intro e
      apply hn.1
      show d ∈ _
      rw [← e]
      exact List.mem_map_of_mem hp
    simp only [if_neg hne]
    exact this.2.2

theorem Rel.write {s : BigHeap} {d : Cell} {v v' : Int} {Γ : List (List (Cell × Int))} (h : Rel s (own d v :: Γ)) :
    Wp (write d v') s fun _ s' => Rel s' (own d v' :: Γ) :=
  ⟨(), _, rfl, Own.write (v := v) h⟩

theorem Rel.mem {s : BigHeap} {a : Cell} {v : Int} {Γ : List (List (Cell × Int))} (h : Rel s Γ) (ha : own a v ∈ Γ) :
    s.mem a = v :=
  (h.cell (a, v) (List.mem_flatten.2 ⟨_, ha, List.mem_cons_self⟩)).2.2

instance : OpTest BigM.read (fun v => v) where
  run h := ⟨_, _, rfl, h.mem List.mem_cons_self, h⟩

theorem rel_read2 {s : BigHeap} {d a b : Cell} {v w u : Int} {f : Int → Int → Int} {Γ : List (List (Cell × Int))}
    (h : Rel s (own d v :: Γ)) (ha : s.mem a = w) (hb : s.mem b = u) :
    Wp (do write d (f (← read a) (← read b))) s fun _ s' => Rel s' (own d (f w u) :: Γ) := by
  subst ha; subst hb
  exact ⟨(), _, rfl, Own.write (v := v) h⟩

theorem rel_read1 {s : BigHeap} {d a : Cell} {v w : Int} {f : Int → Int} {Γ : List (List (Cell × Int))}
    (h : Rel s (own d v :: Γ)) (ha : s.mem a = w) :
    Wp (do write d (f (← read a))) s fun _ s' => Rel s' (own d (f w) :: Γ) := by
  subst ha
  exact ⟨(), _, rfl, Own.write (v := v) h⟩

theorem op2_of (f : Int → Int → Int) : Op2 (fun d a b => do write d (f (← read a) (← read b))) f where
  apart h := rel_read2 h (h.mem (by simp)) (h.mem (by simp))
  left h := rel_read2 h (h.mem (by simp)) (h.mem (by simp))
  right h := rel_read2 h (h.mem (by simp)) (h.mem (by simp))
  args h := rel_read2 h (h.mem (by simp)) (h.mem (by simp))
  all h := rel_read2 h (h.mem (by simp)) (h.mem (by simp))

theorem op1_of (f : Int → Int) : Op1 (fun d a => do write d (f (← read a))) f where
  apart h := rel_read1 h (h.mem (by simp))
  same h := rel_read1 h (h.mem (by simp))

instance : Op2 BigM.add (fun a b => a + b) := op2_of _
instance : Op2 BigM.sub (fun a b => a - b) := op2_of _
instance : Op2 BigM.mul (fun a b => a * b) := op2_of _
instance : Op1 BigM.mod (fun a => a % bnP) := op1_of _
instance : Op1 BigM.neg (fun a => -a) := op1_of _
instance : Op1 BigM.set (fun a => a) := op1_of (fun a => a)
instance : Op1 BigM.lsh1 (fun a => a * 2) := op1_of (fun a => a * 2)
instance : Op1 BigM.lsh3 (fun a => a * 8) := op1_of (fun a => a * 8)
instance (n : Int) : Op0 (fun d => BigM.setInt d n) n where
  run h := ⟨(), _, rfl, Own.write h⟩

instance : OpSelf BigM.reduce (fun v => if v < 0 ∨ v ≥ bnP then v % bnP else v) where
  run {s Δ d v} h := by
    have hv : s.mem d = v := h.mem List.mem_cons_self
    refine ⟨(), if v < 0 ∨ v ≥ bnP then { s with mem := fun c => if c = d then v % bnP else s.mem c } else s, ?_, ?_⟩
    · show (if s.mem d < 0 ∨ s.mem d ≥ bnP then mod d d else pure ()) s = _
      rw [hv]
      split
      · show Res.ok _ = _
        rw [hv]
      · rfl
    · split
      · exact Own.write h
      · exact h

theorem wp_setInt {s : BigHeap} {d : Cell} {v n : Int} {Γ Γ' : List (List (Cell × Int))} [U : Upd Γ d v n Γ'] (h : Rel s Γ) :
    Wp (setInt d n) s fun _ s' => Rel s' Γ' := wp_op0 (m := fun d => setInt d n) h

theorem wp_modInv {s : BigHeap} {d a : Cell} {v w : Int} {Γ Γ' : List (List (Cell × Int))} [M : Has Γ a w] [Has Γ d v]
    [U : Upd Γ d v ((modInverse w bnP).getD v) Γ'] (h : Rel s Γ) :
    Wp (modInv d a) s fun r s' => r = (modInverse w bnP).isNone ∧ Rel s' Γ' := by
  obtain ⟨Δ, h1, h2⟩ := U.perm
  have hw : s.mem a = w := h.mem M.mem
  have h' := h.perm h1
  cases e : modInverse w bnP with
  | none =>
    refine ⟨true, s, ?_, rfl, ?_⟩
    · show (match modInverse (s.mem a) bnP with | none => pure true | some v => (do write d v; pure false : BigM Bool)) s = _
      rw [hw, e]; rfl
    · rw [e] at h2; exact h'.perm h2.symm
  | some x =>
    refine ⟨false, { s with mem := fun c => if c = d then x else s.mem c }, ?_, rfl, ?_⟩
    · show (match modInverse (s.mem a) bnP with | none => pure true | some v => (do write d v; pure false : BigM Bool)) s = _
      rw [hw, e]; rfl
    · rw [e] at h2; exact Rel.perm h2.symm (Own.write (v := v) h')

theorem Own.fresh {s : BigHeap} {L : List (Cell × Int)} (h : Own s L) :
    Own { s with mem := fun c => if c = s.next then 0 else s.mem c, next := s.next + 1 } ((s.next, 0) :: L) := by
  refine ⟨?_, ?_, h.free_nodup, fun c hc => Nat.lt_succ_of_lt (h.free_lt c hc)⟩
  · rw [List.map_cons, List.nodup_cons]
    refine ⟨?_, h.nodup⟩
    intro hm
    obtain ⟨p, hp, e⟩ := List.mem_map.1 hm
    exact Nat.lt_irrefl _ (e ▸ (h.cell p hp).1)
  · intro p hp
    rcases List.mem_cons.1 hp with rfl | hp
    · refine ⟨Nat.lt_succ_self _, fun hf => ?_, by simp⟩
      have := h.free_lt _ hf
      simp at this
    · obtain ⟨h1, h2, h3⟩ := h.cell p hp
      refine ⟨Nat.lt_succ_of_lt h1, h2, ?_⟩
      simp only [if_neg (Nat.ne_of_lt h1)]
      exact h3

theorem get_new {s : BigHeap} (hp : s.pool = none ∨ s.pool = some []) : BigM.get s = BigM.new s := by
  rcases hp with hp | hp <;> simp [BigM.get, hp]

theorem get_last {s : BigHeap} {bns : List Cell} {bn : Cell} (hp : s.pool = some bns) (hl : bns.getLast? = some bn) :
    BigM.get s = .ok (bn, { s with pool := some bns.dropLast }) := by
  simp [BigM.get, hp, hl]

instance : OpNew BigM.get where
  run {s Δ} h := by
    cases hp : s.pool with
    | none => exact ⟨_, _, get_new (Or.inl hp), 0, Own.fresh h⟩
    | some bns =>
      cases hl : bns.getLast? with
      | none =>
        rw [List.getLast?_eq_none_iff] at hl
        subst hl
        exact ⟨_, _, get_new (Or.inr hp), 0, Own.fresh h⟩
      | some bn =>
        refine ⟨_, _, get_last hp hl, s.mem bn, ?_⟩
        have hfree : s.free = bns := by simp [BigHeap.free, hp]
        have hsplit : bns = bns.dropLast ++ [bn] := (List.dropLast_append_getLast? bn hl).symm
        have hn := h.free_nodup
        have hlt := h.free_lt
        rw [hfree, hsplit] at hn hlt
        have hmem : bn ∈ s.free := by rw [hfree, hsplit]; simp
        refine ⟨?_, ?_, ?_, ?_⟩
        · show (List.map Prod.fst ((bn, s.mem bn) :: Δ.flatten)).Nodup
          rw [List.map_cons, List.nodup_cons]
          refine ⟨?_, h.nodup⟩
          intro hm
          obtain ⟨p, hp', e⟩ := List.mem_map.1 hm
          exact (h.cell p hp').2.1 (e ▸ hmem)
        · intro p hp'
          rcases List.mem_cons.1 (show p ∈ (bn, s.mem bn) :: Δ.flatten from hp') with rfl | hp'
          · refine ⟨h.free_lt _ hmem, ?_, rfl⟩
            show bn ∉ bns.dropLast
            rw [List.nodup_append] at hn
            exact fun hm => hn.2.2 bn hm bn (by simp) rfl
          · obtain ⟨h1, h2, h3⟩ := h.cell p hp'
            refine ⟨h1, ?_, h3⟩
            show p.1 ∉ bns.dropLast
            rw [hfree] at h2
            exact fun hm => h2 (List.mem_of_mem_dropLast hm)
        · exact (List.nodup_append.1 hn).1
        · intro c hc
          exact hlt c (List.mem_append_left _ hc)

theorem put_none {s : BigHeap} (c : Cell) (hp : s.pool = none) : BigM.put c s = .ok ((), s) := by simp [BigM.put, hp]

theorem put_some {s : BigHeap} (c : Cell) {bns : List Cell} (hp : s.pool = some bns) :
    BigM.put c s = .ok ((), { s with pool := some (bns ++ [c]) }) := by simp [BigM.put, hp]

instance : OpPut BigM.put where
  run {s Δ d v} h := by
    have hn := h.nodup
    rw [show (own d v :: Δ).flatten = (d, v) :: Δ.flatten from rfl, List.map_cons, List.nodup_cons] at hn
    have hd := h.cell (d, v) List.mem_cons_self
    have hc : ∀ p ∈ Δ.flatten, p.1 < s.next ∧ p.1 ∉ s.free ∧ s.mem p.1 = p.2 := fun p hp => h.cell p (List.mem_cons_of_mem _ hp)
    cases hp : s.pool with
    | none => exact ⟨_, _, put_none d hp, hn.2, hc, h.free_nodup, h.free_lt⟩
    | some bns =>
      have hfree : s.free = bns := by simp [BigHeap.free, hp]
      refine ⟨_, _, put_some d hp, hn.2, ?_, ?_, ?_⟩
      · intro p hp'
        obtain ⟨h1, h2, h3⟩ := hc p hp'
        refine ⟨h1, ?_, h3⟩
        show p.1 ∉ bns ++ [d]
        rw [hfree] at h2
        simp only [List.mem_append, List.mem_singleton, not_or]
        exact ⟨h2, fun e => hn.1 (show d ∈ _ from e ▸ List.mem_map_of_mem hp')⟩
      · show (bns ++ [d]).Nodup
        rw [List.nodup_append]
        refine ⟨hfree ▸ h.free_nodup, by simp, ?_⟩
        rintro a ha b hb rfl
        rw [List.mem_singleton] at hb
        subst hb
        exact hd.2.1 (hfree ▸ ha)
      · intro c hc'
        rcases List.mem_append.1 (show c ∈ bns ++ [d] from hc') with hc' | hc'
        · exact h.free_lt c (hfree ▸ hc')
        · rw [List.mem_singleton.1 hc']; exact hd.1

/-! ### Stepping through a method -/

set_option hygiene false in
/-- One statement; the hypothesis about the heap is always called `h`. -/
macro "wp_step" : tactic => `(tactic| with_reducible first
  | refine Wp.bind (wp_put h) fun _ _ h => ?_
  | refine Wp.bind (wp_op2 h) fun _ _ h => ?_
  | refine Wp.bind (wp_op1 h) fun _ _ h => ?_
  | refine Wp.bind (wp_new h) fun _ _ ⟨_, h⟩ => ?_
  | refine Wp.bind (wp_setInt h) fun _ _ h => ?_
  | refine Wp.bind (wp_op0 h) fun _ _ h => ?_
  | refine Wp.bind (wp_opSelf h) fun _ _ h => ?_
  | refine Wp.bind (wp_opM (by intros; exact own_ne) (by intros; exact own_ne) h) fun _ _ h => ?_)

set_option hygiene false in
/-- A method without control flow. -/
macro "wp_run" : tactic => `(tactic| (
  repeat wp_step
  first
  | exact Wp.mono (wp_put h) fun _ _ h => h
  | exact Wp.mono (wp_op2 h) fun _ _ h => h
  | exact Wp.mono (wp_op1 h) fun _ _ h => h
  | exact Wp.mono (wp_setInt h) fun _ _ h => h
  | exact Wp.mono (wp_op0 h) fun _ _ h => h
  | exact Wp.mono (wp_opSelf h) fun _ _ h => h
  | exact Wp.mono (wp_opM (by intros; exact own_ne) (by intros; exact own_ne) h) fun _ _ h => h))

/-- Two objects of types with different numbers of cells. -/
class Apart (A B : Type) {V W : Type} [Ob A V] [Ob B W] : Prop where
  ne : ∀ (a : A) (b : B) (v : V) (w : W), own a v ≠ own b w

theorem own_ne {A B V W : Type} [Ob A V] [Ob B W] [H : Apart A B] {a : A} {b : B} {v : V} {w : W} : own a v ≠ own b w :=
  H.ne a b v w

/-! ### `gfP2` -/

instance : Ob Gf2 GfP2 where
  flat a v := [(a.x, v.x), (a.y, v.y)]
  inj {a b v w} h := by
    cases a; cases b; cases v; cases w
    simp only [List.cons.injEq, Prod.mk.injEq, and_true] at h
    obtain ⟨⟨rfl, rfl⟩, rfl, rfl⟩ := h
    exact ⟨rfl, rfl⟩

set_option hygiene false in
/-- Cases of `Op2` for a method of `gfP2`. -/
macro "gf2_op2" m:ident : tactic => `(tactic| (
  refine ⟨?_, ?_, ?_, ?_, ?_⟩
  · intro s Δ d a b v w u h
    replace h : Rel s (own d.x v.x :: own d.y v.y :: own a.x w.x :: own a.y w.y :: own b.x u.x :: own b.y u.y :: Δ) := h
    unfold $m
    wp_run
  · intro s Δ d b v u h
    replace h : Rel s (own d.x v.x :: own d.y v.y :: own b.x u.x :: own b.y u.y :: Δ) := h
    unfold $m
    wp_run
  · intro s Δ d b v u h
    replace h : Rel s (own d.x v.x :: own d.y v.y :: own b.x u.x :: own b.y u.y :: Δ) := h
    unfold $m
    wp_run
  · intro s Δ d b v u h
    replace h : Rel s (own d.x v.x :: own d.y v.y :: own b.x u.x :: own b.y u.y :: Δ) := h
    unfold $m
    wp_run
  · intro s Δ d v h
    replace h : Rel s (own d.x v.x :: own d.y v.y :: Δ) := h
    unfold $m
    wp_run))

set_option hygiene false in
/-- Cases of `Op1` for a method of `gfP2`. -/
macro "gf2_op1" m:ident : tactic => `(tactic| (
  refine ⟨?_, ?_⟩
  · intro s Δ d b v u h
    replace h : Rel s (own d.x v.x :: own d.y v.y :: own b.x u.x :: own b.y u.y :: Δ) := h
    unfold $m
    wp_run
  · intro s Δ d v h
    replace h : Rel s (own d.x v.x :: own d.y v.y :: Δ) := h
    unfold $m
    wp_run))

set_option hygiene false in
/-- A method of `gfP2` without arguments. -/
macro "gf2_op0" m:ident : tactic => `(tactic| (
  refine ⟨?_⟩
  · intro s Δ d v h
    replace h : Rel s (own d.x v.x :: own d.y v.y :: Δ) := h
    unfold $m
    wp_run))

instance : OpNew Gf2.new where
  run h := by
    unfold Gf2.new
    refine Wp.bind (wp_new h) fun x _ ⟨v, h⟩ => ?_
    refine Wp.bind (wp_new h) fun y _ ⟨w, h⟩ => ?_
    replace h := h.perm (List.Perm.swap (own x v) (own y w) _)
    exact Wp.pure ⟨⟨v, w⟩, h⟩

instance : OpPut Gf2.put := by gf2_op0 Gf2.put
instance : Op1 Gf2.set (fun a => a) := by gf2_op1 Gf2.set
instance : Op0 Gf2.setZero GfP2.zero := by gf2_op0 Gf2.setZero
instance : Op0 Gf2.setOne GfP2.one := by gf2_op0 Gf2.setOne
instance : OpSelf Gf2.minimal GfP2.minimal := by gf2_op0 Gf2.minimal
instance : Op1 Gf2.conj GfP2.conj := by gf2_op1 Gf2.conj
instance : Op1 Gf2.neg GfP2.neg := by gf2_op1 Gf2.neg
instance : Op2 Gf2.add GfP2.add := by gf2_op2 Gf2.add
instance : Op2 Gf2.sub GfP2.sub := by gf2_op2 Gf2.sub
instance : Op1 Gf2.double GfP2.double := by gf2_op1 Gf2.double
instance : Op2 Gf2.mul GfP2.mul := by gf2_op2 Gf2.mul
instance : Op1 Gf2.mulXi GfP2.mulXi := by gf2_op1 Gf2.mulXi
instance : Op1 Gf2.square GfP2.square := by gf2_op1 Gf2.square


instance : Apart Gf2 Cell := ⟨fun _ _ _ _ e => absurd (congrArg List.length e) (by simp [own, Ob.flat])⟩

instance : OpM Gf2.mulScalar GfP2.mulScalar where
  apart {s Δ d a b v w u} h := by
    replace h : Rel s (own d.x v.x :: own d.y v.y :: own a.x w.x :: own a.y w.y :: own b u :: Δ) := h
    unfold Gf2.mulScalar
    wp_run
  same {s Δ d b v u} h := by
    replace h : Rel s (own d.x v.x :: own d.y v.y :: own b u :: Δ) := h
    unfold Gf2.mulScalar
    wp_run

instance : Op1 Gf2.invert GfP2.invert where
  apart {s Δ d a v w} h := by
    replace h : Rel s (own d.x v.x :: own d.y v.y :: own a.x w.x :: own a.y w.y :: Δ) := h
    unfold Gf2.invert
    iterate 5 wp_step
    refine Wp.bind (wp_new h) fun _ _ ⟨l, h⟩ => ?_
    refine Wp.bind (wp_modInv h) fun _ _ ⟨_, h⟩ => ?_
    rw [← GfP2.invertWith_eq l w]
    wp_run
  same {s Δ d w} h := by
    replace h : Rel s (own d.x w.x :: own d.y w.y :: Δ) := h
    unfold Gf2.invert
    iterate 5 wp_step
    refine Wp.bind (wp_new h) fun _ _ ⟨l, h⟩ => ?_
    refine Wp.bind (wp_modInv h) fun _ _ ⟨_, h⟩ => ?_
    rw [← GfP2.invertWith_eq l w]
    wp_run

instance : OpTest Gf2.isZero GfP2.isZero where
  run {s Δ d v} h := by
    replace h : Rel s (own d.x v.x :: own d.y v.y :: Δ) := h
    unfold Gf2.isZero
    refine Wp.bind (wp_test h) fun _ _ ⟨e1, h⟩ => ?_
    refine Wp.bind (wp_test h) fun _ _ ⟨e2, h⟩ => ?_
    subst e1 e2
    exact Wp.pure ⟨rfl, h⟩

instance : OpTest Gf2.isOne GfP2.isOne where
  run {s Δ d v} h := by
    replace h : Rel s (own d.x v.x :: own d.y v.y :: Δ) := h
    unfold Gf2.isOne
    refine Wp.bind (wp_test h) fun _ _ ⟨e1, h⟩ => ?_
    refine Wp.bind (wp_test h) fun _ _ ⟨e2, h⟩ => ?_
    subst e1 e2
    exact Wp.pure ⟨rfl, h⟩

/-- `Exp` is used with `c` and `a` different or equal. -/
theorem Gf2.wp_expLoop {s : BigHeap} {Δ : List (List (Cell × Int))} {sum t a : Gf2} {v w u : GfP2} (power : Int) (n : Nat)
    (h : Rel s (own sum v :: own t w :: own a u :: Δ)) :
    Wp (Gf2.expLoop sum t a power n) s fun _ s' => ∃ w', Rel s' (own sum (u.expLoop power n v) :: own t w' :: own a u :: Δ) := by
  induction n generalizing s v w with
  | zero => exact Wp.pure ⟨w, h⟩
  | succ n ih =>
    unfold Gf2.expLoop
    refine Wp.bind (wp_op1 h) fun _ _ h => ?_
    rw [GfP2.expLoop]
    split
    · refine Wp.bind (wp_op2 h) fun _ _ h => ?_
      exact ih h
    · refine Wp.bind (wp_op1 h) fun _ _ h => ?_
      exact ih h

end Verif

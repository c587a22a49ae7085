import Mathlib.Data.List.Forall2
import Verif.Model.Heap

/-!
# Lemmas about the heap model
-/

namespace Verif

open Mem

variable {α β γ δ : Type}

/-! ### The monad -/

theorem Mem.bind_def (m : Mem α) (f : α → Mem β) (s : Heap) : (m >>= f) s = m s >>= fun r => f r.1 r.2 := rfl

theorem Mem.pure_def (a : α) (s : Heap) : (pure a : Mem α) s = .ok (a, s) := rfl

theorem Mem.bind_ok {m : Mem α} {f : α → Mem β} {s s' : Heap} {a : α} (h : m s = .ok (a, s')) : (m >>= f) s = f a s' := by
  rw [Mem.bind_def, h]; rfl

theorem Mem.bind_panic {m : Mem α} {f : α → Mem β} {s : Heap} (h : m s = .panic) : (m >>= f) s = .panic := by
  rw [Mem.bind_def, h]; rfl

theorem Mem.lift_ok (a : α) (s : Heap) : lift (.ok a) s = .ok (a, s) := rfl

theorem Mem.lift_panic (s : Heap) : (lift (.panic : Res α)) s = .panic := rfl

/-! ### Primitive operations -/

theorem load_eq {s : Heap} {a : Addr} {v : P256} (h : s[a]? = some v) : load a s = .ok (v, s) := by
  simp [load, h]

theorem writeM_eq {s : Heap} {p : Addr} {c : P256} (h : s[p]? = some c) (v : P256) :
    writeM p v s = .ok ((), s.set p v) := by
  have hp : p < s.length := (List.getElem?_eq_some_iff.1 h).1
  simp [writeM, Mem.bind_def, setX, setY, h, hp]

theorem setInfinityM_eq {s : Heap} {p : Addr} {c : P256} (h : s[p]? = some c) :
    setInfinityM p s = .ok ((), s.set p P256.infinity) := writeM_eq h P256.infinity

theorem copyM_eq {s : Heap} {p a : Addr} {c v : P256} (h : s[p]? = some c) (ha : s[a]? = some v) :
    copyM p a s = .ok ((), s.set p v) := by
  have hp : p < s.length := (List.getElem?_eq_some_iff.1 h).1
  by_cases e : p = a
  · subst e
    have e1 : s[p] = v := (List.getElem?_eq_some_iff.1 ha).2
    simp [copyM, Mem.bind_def, load, setX, setY, e1, hp]
  · simp [copyM, Mem.bind_def, load, setX, setY, ha, hp, List.getElem?_set_ne e]

theorem addM_eq {s : Heap} {p a b : Addr} {c va vb : P256} (h : s[p]? = some c) (ha : s[a]? = some va)
    (hb : s[b]? = some vb) : addM p a b s = .ok ((), s.set p (va.add vb)) := by
  simp only [addM, Mem.bind_ok (load_eq ha)]
  by_cases h1 : va.isZero = true
  · simp only [h1, if_true, copyM_eq h hb, P256.add]
  · rw [if_neg h1, Mem.bind_ok (load_eq hb)]
    by_cases h2 : vb.isZero = true
    · simp [h1, h2, copyM_eq h hb, P256.add]
    · simp [h1, h2, writeM_eq h, P256.add]

theorem multiplyM_eq (E : Ext) {s : Heap} {p a b : Addr} {c va vb : P256} (h : s[p]? = some c) (ha : s[a]? = some va)
    (hb : s[b]? = some vb) : multiplyM E p a b s = .ok ((), s.set p (va.multiply E vb)) := by
  simp only [multiplyM, Mem.bind_ok (load_eq ha)]
  by_cases h1 : va.isZero = true
  · simp only [h1, if_true, copyM_eq h hb, P256.multiply]
  · rw [if_neg h1, Mem.bind_ok (load_eq hb)]
    by_cases h2 : vb.isZero = true
    · simp [h1, h2, copyM_eq h ha, P256.multiply]
    · by_cases h3 : va.x = vb.x ∧ va.y = vb.y
      · simp [h1, h2, h3, writeM_eq h, P256.multiply]
      · simp [h1, h2, h3, writeM_eq h, P256.multiply]

theorem doubleM_eq (E : Ext) {s : Heap} {p a : Addr} {c va : P256} (h : s[p]? = some c) (ha : s[a]? = some va) :
    doubleM E p a s = .ok ((), s.set p (va.double E)) := by
  simp only [doubleM, Mem.bind_ok (load_eq ha)]
  by_cases h1 : va.isZero = true
  · simp only [h1, if_true, setInfinityM_eq h, P256.double]
  · simp [h1, writeM_eq h, P256.double]

theorem scalarMultM_eq (E : Ext) {s : Heap} {p a : Addr} {c va : P256} (h : s[p]? = some c) (ha : s[a]? = some va) (n : Int) :
    scalarMultM E p a n s = .ok ((), s.set p (va.scalarMult E n)) := by
  simp only [scalarMultM, Mem.bind_ok (load_eq ha)]
  by_cases h1 : va.isZero = true
  · simp only [h1, if_true, setInfinityM_eq h, P256.scalarMult]
  · by_cases h2 : n = 0
    · simp [h1, h2, setInfinityM_eq h, P256.scalarMult]
    · simp [h1, h2, writeM_eq h, P256.scalarMult]

theorem scalarBaseMultM_eq (E : Ext) {s : Heap} {p : Addr} {c : P256} (h : s[p]? = some c) (n : Int) :
    scalarBaseMultM E p n s = .ok ((), s.set p (P256.scalarBaseMult E n)) := by
  by_cases h2 : n = 0
  · simp [scalarBaseMultM, h2, setInfinityM_eq h, P256.scalarBaseMult]
  · simp [scalarBaseMultM, h2, writeM_eq h, P256.scalarBaseMult]

theorem negM_eq (E : Ext) {s : Heap} {p a : Addr} {c va : P256} (h : s[p]? = some c) (ha : s[a]? = some va) :
    negM E p a s = .ok ((), s.set p (P256.neg E c va)) := by
  simp only [negM, Mem.bind_ok (load_eq ha)]
  by_cases h1 : va.isZero = true
  · simp only [h1, if_true, setInfinityM_eq h, P256.neg]
  · simp [h1, scalarMultM_eq E h h, P256.neg]

/-! ### Growth of the heap -/

/-- Every struct of `s` is still in `s'`, unchanged. -/
def Grow (s s' : Heap) : Prop := ∀ (i : Addr) (v : P256), s[i]? = some v → s'[i]? = some v

theorem Grow.refl (s : Heap) : Grow s s := fun _ _ h => h

theorem Grow.trans {s t u : Heap} (h : Grow s t) (h' : Grow t u) : Grow s u := fun i v e => h' i v (h i v e)

theorem Grow.append (s l : Heap) : Grow s (s ++ l) := fun i v e => by
  rw [List.getElem?_append_left (List.getElem?_eq_some_iff.1 e).1, e]

theorem Grow.get_none {s t : Heap} (h : Grow s t) {i : Addr} (hi : t[i]? = none) : s[i]? = none := by
  by_contra hc
  obtain ⟨v, hv⟩ := Option.ne_none_iff_exists'.1 hc
  simp [h i v hv] at hi

theorem ne_of_fresh {s : Heap} {i p : Addr} {v : P256} (hi : s[i]? = some v) (hp : s[p]? = none) : i ≠ p := by
  rintro rfl; simp [hi] at hp

/-- Writing to a struct which is not in `s` keeps `s`. -/
theorem Grow.set {s t : Heap} (h : Grow s t) {p : Addr} (hp : s[p]? = none) (v : P256) : Grow s (t.set p v) := fun i w e => by
  rw [List.getElem?_set_ne (ne_of_fresh e hp).symm]; exact h i w e

theorem get_set_self {s : Heap} {p : Addr} {c : P256} (h : s[p]? = some c) (v : P256) : (s.set p v)[p]? = some v := by
  simp [(List.getElem?_eq_some_iff.1 h).1]

theorem get_set_ne {s : Heap} {p a : Addr} {w : P256} (h : s[a]? = some w) (hne : a ≠ p) (v : P256) :
    (s.set p v)[a]? = some w := by
  rw [List.getElem?_set_ne (Ne.symm hne), h]

/-- The slice `as` of points has the values `vs`. -/
def Reads (s : Heap) (as : List Addr) (vs : List P256) : Prop := List.Forall₂ (fun a v => s[a]? = some v) as vs

theorem Reads.grow {s t : Heap} {as : List Addr} {vs : List P256} (h : Reads s as vs) (hg : Grow s t) : Reads t as vs :=
  List.Forall₂.imp (fun _ _ e => hg _ _ e) h

theorem Reads.length {s : Heap} {as : List Addr} {vs : List P256} (h : Reads s as vs) : as.length = vs.length :=
  List.Forall₂.length_eq h

theorem Reads.take {s : Heap} {as : List Addr} {vs : List P256} (h : Reads s as vs) (n : Nat) :
    Reads s (as.take n) (vs.take n) := List.forall₂_take n h

theorem Reads.drop {s : Heap} {as : List Addr} {vs : List P256} (h : Reads s as vs) (n : Nat) :
    Reads s (as.drop n) (vs.drop n) := List.forall₂_drop n h

theorem Reads.append {s : Heap} {as bs : List Addr} {vs ws : List P256} (h : Reads s as vs) (h' : Reads s bs ws) :
    Reads s (as ++ bs) (vs ++ ws) := List.rel_append h h'

theorem Reads.mem {s : Heap} {as : List Addr} {vs : List P256} (h : Reads s as vs) {a : Addr} (ha : a ∈ as) :
    ∃ v, s[a]? = some v := by
  induction h with
  | nil => simp at ha
  | cons e _ ih =>
    rcases List.mem_cons.1 ha with rfl | ha
    · exact ⟨_, e⟩
    · exact ih ha

/-! ### Comparison with the model on values -/

/-- `m`, started with heap `s`, does what the computation `r` on values does: it panics if `r` does, and otherwise ends with a
result and a heap which are related to the result of `r` by `Q`. -/
def Mem.Sim (m : Mem α) (s : Heap) (r : Res β) (Q : α → Heap → β → Prop) : Prop :=
  match r with
  | .ok b => ∃ a s', m s = .ok (a, s') ∧ Q a s' b
  | .panic => m s = .panic

theorem Mem.Sim.ok {m : Mem α} {s s' : Heap} {a : α} {b : β} {Q : α → Heap → β → Prop} (h : m s = .ok (a, s'))
    (hQ : Q a s' b) : m.Sim s (.ok b) Q := ⟨a, s', h, hQ⟩

theorem Mem.Sim.bind {m : Mem α} {f : α → Mem γ} {s : Heap} {r : Res β} {g : β → Res δ} {Q : α → Heap → β → Prop}
    {Q' : γ → Heap → δ → Prop} (h : m.Sim s r Q) (h' : ∀ a s' b, r = .ok b → Q a s' b → (f a).Sim s' (g b) Q') :
    (m >>= f).Sim s (r >>= g) Q' := by
  cases r with
  | panic =>
    have h : m s = .panic := h
    show (m >>= f) s = .panic
    exact Mem.bind_panic h
  | ok b =>
    obtain ⟨a, s', e, q⟩ := h
    have := h' a s' b rfl q
    show (m >>= f).Sim s (g b) Q'
    unfold Mem.Sim at this ⊢
    rw [Mem.bind_ok e]
    exact this

theorem Mem.Sim.step {m : Mem α} {f : α → Mem γ} {s s' : Heap} {a : α} {r : Res δ} {Q' : γ → Heap → δ → Prop}
    (h : m s = .ok (a, s')) (h' : (f a).Sim s' r Q') : (m >>= f).Sim s r Q' := by
  unfold Mem.Sim at h' ⊢
  rw [Mem.bind_ok h]
  exact h'

theorem Mem.Sim.lift {f : β → Mem γ} {s : Heap} {r : Res β} {g : β → Res δ} {Q' : γ → Heap → δ → Prop}
    (h' : ∀ b, r = .ok b → (f b).Sim s (g b) Q') : (Mem.lift r >>= f).Sim s (r >>= g) Q' := by
  cases r with
  | panic => exact Mem.bind_panic (Mem.lift_panic s)
  | ok b => exact Mem.Sim.step (Mem.lift_ok b s) (h' b rfl)

theorem Mem.Sim.mono {m : Mem α} {s : Heap} {r : Res β} {Q Q' : α → Heap → β → Prop} (h : m.Sim s r Q)
    (h' : ∀ a s' b, r = .ok b → Q a s' b → Q' a s' b) : m.Sim s r Q' := by
  cases r with
  | panic => exact h
  | ok b =>
    obtain ⟨a, s', e, q⟩ := h
    exact ⟨a, s', e, h' a s' b rfl q⟩

/-! ### Operations on new structs -/

theorem get_len (s : Heap) (v : P256) : (s ++ [v])[s.length]? = some v := by simp

theorem fresh_len (s : Heap) : s[s.length]? = none := by simp

theorem set_len (s : Heap) (c v : P256) : (s ++ [c]).set s.length v = s ++ [v] := by simp

theorem newScalarMultM_eq (E : Ext) {s : Heap} {a : Addr} {va : P256} (ha : s[a]? = some va) (n : Int) :
    newScalarMultM E a n s = .ok (s.length, s ++ [va.scalarMult E n]) := by
  unfold newScalarMultM
  rw [Mem.bind_ok (rfl : new s = .ok (s.length, s ++ [⟨none, none⟩])),
    Mem.bind_ok (scalarMultM_eq E (get_len s _) (Grow.append s _ _ _ ha) n), set_len]
  rfl

theorem newMultiplyM_eq (E : Ext) {s : Heap} {a b : Addr} {va vb : P256} (ha : s[a]? = some va) (hb : s[b]? = some vb) :
    newMultiplyM E a b s = .ok (s.length, s ++ [va.multiply E vb]) := by
  unfold newMultiplyM
  rw [Mem.bind_ok (rfl : new s = .ok (s.length, s ++ [⟨none, none⟩])),
    Mem.bind_ok (multiplyM_eq E (get_len s _) (Grow.append s _ _ _ ha) (Grow.append s _ _ _ hb)), set_len]
  rfl

/-- `m` returns the address of a new struct with value `v` and changes no struct which existed before. -/
def Mem.Makes (m : Mem Addr) (s : Heap) (v : P256) : Prop :=
  ∃ a s', m s = .ok (a, s') ∧ Grow s s' ∧ s[a]? = none ∧ s'[a]? = some v

theorem newScalarMultM_makes (E : Ext) {s : Heap} {a : Addr} {va : P256} (ha : s[a]? = some va) (n : Int) :
    (newScalarMultM E a n).Makes s (va.scalarMult E n) :=
  ⟨_, _, newScalarMultM_eq E ha n, Grow.append _ _, fresh_len s, get_len _ _⟩

theorem newMultiplyM_makes (E : Ext) {s : Heap} {a b : Addr} {va vb : P256} (ha : s[a]? = some va) (hb : s[b]? = some vb) :
    (newMultiplyM E a b).Makes s (va.multiply E vb) :=
  ⟨_, _, newMultiplyM_eq E ha hb, Grow.append _ _, fresh_len s, get_len _ _⟩

theorem commitG1M_makes (E : Ext) (x r : Int) {s : Heap} {h : Addr} {vh : P256} (hh : s[h]? = some vh) :
    (commitG1M E x r h).Makes s (commitG1 E x r vh) := by
  have e1 : new s = .ok (s.length, s ++ [⟨none, none⟩]) := rfl
  have e2 := scalarBaseMultM_eq E (get_len s ⟨none, none⟩) x
  rw [set_len] at e2
  have g1 := Grow.append s [P256.scalarBaseMult E x]
  have e3 := newScalarMultM_eq E (g1 _ _ hh) r
  have c3 := Grow.append _ [vh.scalarMult E r] _ _ (get_len s (P256.scalarBaseMult E x))
  have e4 := addM_eq c3 c3 (get_len _ (vh.scalarMult E r))
  refine ⟨s.length, _, ?_, ?_, fresh_len s, get_set_self c3 _⟩
  rotate_left
  · exact (g1.trans (Grow.append _ _)).set (fresh_len s) _
  · unfold commitG1M
    rw [Mem.bind_ok e1, Mem.bind_ok e2, Mem.bind_ok e3, Mem.bind_ok e4]; rfl

/-! ### Vectors -/

theorem vectorExpLoopM_spec (E : Ext) {res : Addr} : ∀ {a : List Addr} {va : List P256} {b : List Int} {s s0 : Heap} {w : P256},
    Reads s0 a va → Grow s0 s → s0[res]? = none → s[res]? = some w →
    ∃ s', vectorExpLoopM E res a b s = .ok ((), s') ∧ Grow s0 s' ∧ s'[res]? = some (vectorExpLoop E va b w) := by
  intro a
  induction a with
  | nil =>
    intro va b s s0 w ha hg hf hw
    cases ha
    exact ⟨s, rfl, hg, by simpa [vectorExpLoop] using hw⟩
  | cons p a ih =>
    intro va b s s0 w ha hg hf hw
    cases ha with
    | cons hp ha =>
      rename_i v va
      cases b with
      | nil => exact ⟨s, rfl, hg, by simpa [vectorExpLoop] using hw⟩
      | cons n b =>
        have e1 := newScalarMultM_eq E (hg _ _ hp) n
        have w1 := Grow.append s [v.scalarMult E n] _ _ hw
        have e2 := multiplyM_eq E w1 w1 (get_len s (v.scalarMult E n))
        obtain ⟨s', e3, hg', hw'⟩ := ih (b := b) ha ((hg.trans (Grow.append s [v.scalarMult E n])).set hf
          (w.multiply E (v.scalarMult E n))) hf (get_set_self w1 _)
        refine ⟨s', ?_, hg', by simpa [vectorExpLoop] using hw'⟩
        unfold vectorExpLoopM
        rw [Mem.bind_ok e1, Mem.bind_ok e2, e3]

theorem vectorExpM_sim (E : Ext) {a : List Addr} {va : List P256} (b : List Int) {s : Heap} (ha : Reads s a va) :
    (vectorExpM E a b).Sim s (Res.ofOption (vectorExp E va b))
      (fun p s' v => Grow s s' ∧ s[p]? = none ∧ s'[p]? = some v) := by
  unfold vectorExpM vectorExp
  rw [ha.length]
  by_cases hl : va.length ≠ b.length
  · rw [if_pos hl, if_pos hl]; rfl
  · rw [if_neg hl, if_neg hl]
    have e1 : new s = .ok (s.length, s ++ [⟨none, none⟩]) := rfl
    have e2 := setInfinityM_eq (get_len s ⟨none, none⟩)
    rw [set_len] at e2
    obtain ⟨s', e3, hg, hw⟩ := vectorExpLoopM_spec E (b := b) ha (Grow.append s [P256.infinity]) (fresh_len s) (get_len s _)
    refine Mem.Sim.step e1 (Mem.Sim.step e2 (Mem.Sim.step e3 (Mem.Sim.ok rfl ⟨hg, fresh_len s, hw⟩)))

theorem vectorScalarExpM_spec (E : Ext) (b : Int) : ∀ {a : List Addr} {va : List P256} {s : Heap}, Reads s a va →
    ∃ l s', vectorScalarExpM E b a s = .ok (l, s') ∧ Grow s s' ∧ Reads s' l (vectorScalarExp E va b) := by
  intro a
  induction a with
  | nil => intro va s ha; cases ha; exact ⟨[], s, rfl, Grow.refl s, List.Forall₂.nil⟩
  | cons p a ih =>
    intro va s ha
    cases ha with
    | cons hp ha =>
      rename_i v va
      have e1 := newScalarMultM_eq E hp b
      have g1 := Grow.append s [v.scalarMult E b]
      obtain ⟨l, s', e2, hg, hr⟩ := ih (Reads.grow ha g1)
      refine ⟨s.length :: l, s', ?_, g1.trans hg, List.Forall₂.cons (hg _ _ (get_len s _)) hr⟩
      unfold vectorScalarExpM
      rw [Mem.bind_ok e1, Mem.bind_ok e2]; rfl

theorem vectorECAddLoopM_spec (E : Ext) : ∀ {a : List Addr} {va : List P256} {b : List Addr} {vb : List P256} {s : Heap},
    Reads s a va → Reads s b vb →
    ∃ l s', vectorECAddLoopM E a b s = .ok (l, s') ∧ Grow s s' ∧
      Reads s' l (List.zipWith (fun x y => x.multiply E y) va vb) ∧ ∀ p ∈ l, s[p]? = none := by
  intro a
  induction a with
  | nil => intro va b vb s ha hb; cases ha; exact ⟨[], s, rfl, Grow.refl s, List.Forall₂.nil, by simp⟩
  | cons p a ih =>
    intro va b vb s ha hb
    cases ha with
    | cons hp ha =>
      rename_i v va
      cases hb with
      | nil => exact ⟨[], s, rfl, Grow.refl s, List.Forall₂.nil, by simp⟩
      | cons hq hb =>
        rename_i q w b vb
        have e1 := newMultiplyM_eq E hp hq
        have g1 := Grow.append s [v.multiply E w]
        obtain ⟨l, s', e2, hg, hr, hf⟩ := ih (Reads.grow ha g1) (Reads.grow hb g1)
        refine ⟨s.length :: l, s', ?_, g1.trans hg, List.Forall₂.cons (hg _ _ (get_len s _)) hr,
          List.forall_mem_cons.2 ⟨fresh_len s, fun p hp => g1.get_none (hf p hp)⟩⟩
        unfold vectorECAddLoopM
        rw [Mem.bind_ok e1, Mem.bind_ok e2]; rfl

theorem vectorECAddM_spec (E : Ext) {a : List Addr} {va : List P256} {b : List Addr} {vb : List P256} {s : Heap}
    (ha : Reads s a va) (hb : Reads s b vb) :
    ∃ l s', vectorECAddM E a b s = .ok (l, s') ∧ Grow s s' ∧ Reads s' l ((vectorECAdd E va vb).getD []) ∧
      ∀ p ∈ l, s[p]? = none := by
  unfold vectorECAddM vectorECAdd
  rw [ha.length, hb.length]
  by_cases hl : va.length ≠ vb.length
  · rw [if_pos hl, if_pos hl]; exact ⟨[], s, rfl, Grow.refl s, List.Forall₂.nil, by simp⟩
  · rw [if_neg hl, if_neg hl]; exact vectorECAddLoopM_spec E ha hb

theorem foldM_spec (E : Ext) {a : List Addr} {va : List P256} {b : List Addr} {vb : List P256} (x y : Int) {s : Heap}
    (ha : Reads s a va) (hb : Reads s b vb) :
    ∃ l s', foldM E a x b y s = .ok (l, s') ∧ Grow s s' ∧
      Reads s' l ((vectorECAdd E (vectorScalarExp E va x) (vectorScalarExp E vb y)).getD []) ∧ ∀ p ∈ l, s[p]? = none := by
  obtain ⟨l1, s1, e1, g1, r1⟩ := vectorScalarExpM_spec E x ha
  obtain ⟨l2, s2, e2, g2, r2⟩ := vectorScalarExpM_spec E y (hb.grow g1)
  obtain ⟨l3, s3, e3, g3, r3, f3⟩ := vectorECAddM_spec E (r1.grow g2) r2
  refine ⟨l3, s3, ?_, (g1.trans g2).trans g3, r3, fun p hp => (g1.trans g2).get_none (f3 p hp)⟩
  unfold foldM
  rw [Mem.bind_ok e1, Mem.bind_ok e2, e3]

theorem hashBPM_eq (E : Ext) {s : Heap} {a b : Addr} {va vb : P256} (ha : s[a]? = some va) (hb : s[b]? = some vb) :
    hashBPM E a b s = .ok (hashBP E va vb, s) := by
  unfold hashBPM
  rw [Mem.bind_ok (load_eq ha), Mem.bind_ok (load_eq hb)]; rfl

theorem isZeroM_eq {s : Heap} {a : Addr} {va : P256} (ha : s[a]? = some va) : isZeroM a s = .ok (va.isZero, s) := by
  unfold isZeroM
  rw [Mem.bind_ok (load_eq ha)]; rfl

theorem loadAllM_eq : ∀ {a : List Addr} {va : List P256} {s : Heap}, Reads s a va → loadAllM a s = .ok (va, s) := by
  intro a
  induction a with
  | nil => intro va s ha; cases ha; rfl
  | cons p a ih =>
    intro va s ha
    cases ha with
    | cons hp ha =>
      unfold loadAllM
      rw [Mem.bind_ok (load_eq hp), Mem.bind_ok (ih ha)]; rfl

theorem idx_sim {s : Heap} {a : List Addr} {va : List P256} (ha : Reads s a va) (i : Nat) :
    (Mem.lift (idx a i)).Sim s (idx va i) (fun p s' v => s' = s ∧ s[p]? = some v) := by
  induction ha generalizing i with
  | nil => rfl
  | cons e _ ih =>
    cases i with
    | zero => exact ⟨_, s, rfl, rfl, e⟩
    | succ i => exact ih i

theorem sliceTo_sim {s : Heap} {a : List Addr} {va : List P256} (ha : Reads s a va) (n : Int) :
    (Mem.lift (sliceTo a n)).Sim s (sliceTo va n) (fun l s' w => s' = s ∧ Reads s l w) := by
  unfold sliceTo
  rw [ha.length]
  by_cases h : n < 0 ∨ (va.length : Int) < n
  · rw [if_pos h, if_pos h]; rfl
  · rw [if_neg h, if_neg h]; exact ⟨_, s, rfl, rfl, ha.take _⟩

theorem sliceFrom_sim {s : Heap} {a : List Addr} {va : List P256} (ha : Reads s a va) (n : Int) :
    (Mem.lift (sliceFrom a n)).Sim s (sliceFrom va n) (fun l s' w => s' = s ∧ Reads s l w) := by
  unfold sliceFrom
  rw [ha.length]
  by_cases h : n < 0 ∨ (va.length : Int) < n
  · rw [if_pos h, if_pos h]; rfl
  · rw [if_neg h, if_neg h]; exact ⟨_, s, rfl, rfl, ha.drop _⟩

end Verif

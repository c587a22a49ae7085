import Verif.Spec.BnTrace
import Verif.Lemmas.BnParAlone
import Verif.Lemmas.BnPoolMul

/-!
# Access traces of scalar multiplications
-/

namespace Verif

namespace BProg
variable {α β γ : Type}

theorem bind_assoc (p : BProg α) (f : α → BProg β) (g : β → BProg γ) :
    (p.bind f).bind g = p.bind fun a => (f a).bind g := by
  induction p with
  | ret a => rfl
  | panic => rfl
  | new k ih => exact congrArg BProg.new (funext ih)
  | read c k ih => exact congrArg (BProg.read c) (funext ih)
  | write c v k ih => exact congrArg (BProg.write c v) ih

theorem trace_bind (p : BProg α) (f : α → BProg β) (mem : Cell → Int) (next : Nat) : (p.bind f).trace mem next =
    p.trace mem next ++ match p.run mem next with
      | .ok r => (f r.1).trace r.2.1 r.2.2
      | .panic => [] := by
  induction p generalizing mem next with
  | ret a => rfl
  | panic => rfl
  | new k ih => exact congrArg (_ :: ·) (ih _ _ _)
  | read c k ih => exact congrArg (_ :: ·) (ih _ _ _)
  | write c v k ih => exact congrArg (_ :: ·) (ih _ _)

end BProg

namespace BigP
variable {α β γ : Type}

theorem bind_assoc (m : BigP α) (f : α → BigP β) (g : β → BigP γ) : (m >>= f) >>= g = m >>= fun a => f a >>= g := by
  funext p
  exact BProg.bind_assoc _ _ _

theorem pure_bind (a : α) (f : α → BigP β) : (pure a : BigP α) >>= f = f a := rfl

/-- The computation does not panic. -/
def NoPanic (m : BigP α) : Prop := ∀ p mem next, (m p).run mem next ≠ .panic

theorem NoPanic.bind {m : BigP α} {f : α → BigP β} (h : m.NoPanic) (h' : ∀ a, (f a).NoPanic) : (m >>= f).NoPanic := by
  intro p mem next
  change ((m p).bind _).run _ _ ≠ _
  rw [BProg.run_bind]
  cases hr : (m p).run mem next with
  | ok r => exact h' _ _ _ _
  | panic => exact absurd hr (h _ _ _)

theorem NoPanic.pure (a : α) : (Pure.pure a : BigP α).NoPanic := fun _ _ _ => nofun
theorem NoPanic.read (c : Cell) : (BigP.read c).NoPanic := fun _ _ _ => nofun
theorem NoPanic.write (c : Cell) (v : Int) : (BigP.write c v).NoPanic := fun _ _ _ => nofun
theorem NoPanic.get : BigP.get.NoPanic := by
  intro p mem next
  unfold BigP.get
  split
  · nofun
  · split <;> nofun
theorem NoPanic.put (c : Cell) : (BigP.put c).NoPanic := by
  intro p mem next
  unfold BigP.put
  split <;> nofun
theorem NoPanic.ite {c : Prop} [Decidable c] {m m' : BigP α} (h : m.NoPanic) (h' : m'.NoPanic) :
    (if c then m else m').NoPanic := by
  split
  · exact h
  · exact h'
theorem NoPanic.withPool {q : Option (List Cell)} {m : BigP α} (h : m.NoPanic) : (BigP.withPool q m).NoPanic := by
  intro p mem next
  change ((m q).bind _).run _ _ ≠ _
  rw [BProg.run_bind]
  cases hr : (m q).run mem next with
  | ok r => nofun
  | panic => exact absurd hr (h _ _ _)

/-- A common beginning may be left out. -/
theorem trace_cancel {m : BigP α} (h : m.NoPanic) {f g : α → BigP β} {p : Option (List Cell)} {mem : Cell → Int} {next : Nat}
    (e : ((m >>= f) p).trace mem next = ((m >>= g) p).trace mem next) :
    ∃ a p' mem' next', (f a p').trace mem' next' = (g a p').trace mem' next' := by
  change ((m p).bind _).trace _ _ = ((m p).bind _).trace _ _ at e
  rw [BProg.trace_bind, BProg.trace_bind] at e
  have e := List.append_cancel_left e
  cases hr : (m p).run mem next with
  | ok r =>
    rw [hr] at e
    exact ⟨_, _, _, _, e⟩
  | panic => exact absurd hr (h _ _ _)

end BigP

/-! ### The loop -/

/-- The loop of a scalar multiplication or exponentiation. -/
def bitLoop (D A S : BigP Unit) (k : Int) : Nat → BigP Unit
  | 0 => pure ()
  | n + 1 => do
    D
    if intBit k n then A else S
    bitLoop D A S k n

/-- Two computations whose accesses are different whatever follows. -/
def Differ {α β : Type} (m : BigP α) (m' : BigP β) : Prop := ∀ (γ : Type) (f : α → BigP γ) (g : β → BigP γ) p mem next,
  ((m >>= f) p).trace mem next ≠ ((m' >>= g) p).trace mem next

theorem Differ.symm {α β : Type} {m : BigP α} {m' : BigP β} (h : Differ m m') : Differ m' m :=
  fun γ f g p mem next e => h γ g f p mem next e.symm

theorem bitLoop_trace {D A S F : BigP Unit} (hD : D.NoPanic) (hA : A.NoPanic) (hS : S.NoPanic) (hF : F.NoPanic)
    (hAS : Differ A S) (hFD : Differ F D) {γ : Type} (r r' : BigP γ) (k k' : Int) :
    ∀ (n n' : Nat) p mem next, ((bitLoop D A S k n >>= fun _ => F >>= fun _ => r) p).trace mem next =
      ((bitLoop D A S k' n' >>= fun _ => F >>= fun _ => r') p).trace mem next →
      n = n' ∧ (∀ i < n, intBit k i = intBit k' i) ∧ ∃ p' mem' next', (r p').trace mem' next' = (r' p').trace mem' next' := by
  intro n
  induction n with
  | zero =>
    intro n' p mem next e
    cases n' with
    | zero =>
      obtain ⟨_, p', mem', next', e⟩ := BigP.trace_cancel hF (f := fun _ => r) (g := fun _ => r') e
      exact ⟨rfl, fun i hi => absurd hi (by omega), p', mem', next', e⟩
    | succ n' =>
      simp only [bitLoop, BigP.bind_assoc, BigP.pure_bind] at e
      exact absurd e (hFD _ _ _ _ _ _)
  | succ n ih =>
    intro n' p mem next e
    cases n' with
    | zero =>
      simp only [bitLoop, BigP.bind_assoc, BigP.pure_bind] at e
      exact absurd e (hFD.symm _ _ _ _ _ _)
    | succ n' =>
      simp only [bitLoop, BigP.bind_assoc, BigP.pure_bind] at e
      obtain ⟨_, p, mem, next, e⟩ := BigP.trace_cancel hD e
      by_cases hb : intBit k n = true <;> by_cases hb' : intBit k' n' = true
      · rw [if_pos hb, if_pos hb', BigP.bind_assoc, BigP.bind_assoc] at e
        obtain ⟨_, p, mem, next, e⟩ := BigP.trace_cancel hA e
        obtain ⟨h1, h2, h3⟩ := ih _ _ _ _ e
        subst h1
        refine ⟨rfl, fun i hi => ?_, h3⟩
        rcases Nat.lt_succ_iff_lt_or_eq.1 hi with hi | rfl
        · exact h2 i hi
        · rw [hb, hb']
      · rw [if_pos hb, if_neg hb', BigP.bind_assoc, BigP.bind_assoc] at e
        exact absurd e (hAS _ _ _ _ _ _)
      · rw [if_neg hb, if_pos hb', BigP.bind_assoc, BigP.bind_assoc] at e
        exact absurd e (hAS.symm _ _ _ _ _ _)
      · rw [if_neg hb, if_neg hb', BigP.bind_assoc, BigP.bind_assoc] at e
        obtain ⟨_, p, mem, next, e⟩ := BigP.trace_cancel hS e
        obtain ⟨h1, h2, h3⟩ := ih _ _ _ _ e
        subst h1
        refine ⟨rfl, fun i hi => ?_, h3⟩
        rcases Nat.lt_succ_iff_lt_or_eq.1 hi with hi | rfl
        · exact h2 i hi
        · rw [Bool.not_eq_true] at hb hb'
          rw [hb, hb']

/-! ### First accesses -/

/-- Whatever follows, the accesses have the property `P`. -/
def Begins {α : Type} (m : BigP α) (P : List Access → Prop) : Prop := ∀ (γ : Type) (f : α → BigP γ) p mem next,
  P (((m >>= f) p).trace mem next)

theorem Begins.differ {α β : Type} {m : BigP α} {m' : BigP β} {P Q : List Access → Prop} (h : Begins m P) (h' : Begins m' Q)
    (hPQ : ∀ l, P l → ¬ Q l) : Differ m m' := by
  intro γ f g p mem next e
  have h1 := h γ f p mem next
  rw [e] at h1
  exact hPQ _ h1 (h' γ g p mem next)

theorem Begins.get {α : Type} {f : Cell → BigP α} {P : List Access → Prop} (hnew : ∀ l, P (.new :: l))
    (h : ∀ c, Begins (f c) P) : Begins (BigP.get >>= f) P := by
  intro γ g p mem next
  rw [BigP.bind_assoc]
  have hn : ∀ q : Option (List Cell), P (((BigP.new >>= fun c => f c >>= g) q).trace mem next) := fun q => hnew _
  cases p with
  | none => exact hn _
  | some bns =>
    cases hb : bns.getLast? with
    | none =>
      have : (BigP.get >>= fun c => f c >>= g) (some bns) = (BigP.new >>= fun c => f c >>= g) (some bns) := by
        change ((BigP.get (some bns)).bind _) = ((BigP.new (some bns)).bind _)
        unfold BigP.get
        simp only [hb]
      rw [this]
      exact hn _
    | some c =>
      have : (BigP.get >>= fun c => f c >>= g) (some bns) = (f c >>= g) (some bns.dropLast) := by
        change ((BigP.get (some bns)).bind _) = _
        unfold BigP.get
        simp only [hb]
        rfl
      rw [this]
      exact h c γ g _ _ _

theorem Begins.bind {α β : Type} {m : BigP α} {f : α → BigP β} {P : List Access → Prop} (h : Begins m P) :
    Begins (m >>= f) P := by
  intro γ g p mem next
  rw [BigP.bind_assoc]
  exact h _ _ _ _ _

theorem Begins.read {c : Cell} {P : List Access → Prop} (h : ∀ l, P (.read c :: l)) : Begins (BigP.read c) P :=
  fun _ _ _ _ _ => h _

end Verif

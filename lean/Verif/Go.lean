/-!
# Go-level primitives used by every model

A Go call either returns or panics (`Res`).  Functions returning `(T, error)` in the
repository return either `(v, nil)` or `(nil, err)`; they are modelled with result `Option T`
(`none` is the error case).
-/

namespace Verif

/-- Outcome of a Go call: it returned `a`, or it panicked. -/
inductive Res (α : Type) where
  | ok (a : α)
  | panic
  deriving DecidableEq, Repr

namespace Res

/-- Sequencing: a panic aborts. -/
@[inline] def bind {α β : Type} (r : Res α) (f : α → Res β) : Res β :=
  match r with
  | ok a => f a
  | panic => panic

instance : Monad Res where
  pure := ok
  bind := bind

@[simp] theorem pure_eq {α : Type} (a : α) : (pure a : Res α) = ok a := rfl
@[simp] theorem ok_bind {α β : Type} (a : α) (f : α → Res β) : (ok a >>= f) = f a := rfl
@[simp] theorem panic_bind {α β : Type} (f : α → Res β) : ((panic : Res α) >>= f) = panic := rfl
@[simp] theorem map_ok {α β : Type} (a : α) (f : α → β) : (f <$> (ok a : Res α)) = ok (f a) := rfl
@[simp] theorem map_panic {α β : Type} (f : α → β) : (f <$> (panic : Res α)) = panic := rfl

theorem bind_eq_ok {α β : Type} {r : Res α} {f : α → Res β} {b : β} :
    (r >>= f) = ok b ↔ ∃ a, r = ok a ∧ f a = ok b := by
  cases r with
  | ok a => exact ⟨fun h => ⟨a, rfl, h⟩, fun ⟨a', h1, h2⟩ => by cases h1; exact h2⟩
  | panic => exact ⟨fun h => (nomatch (show (panic : Res β) = ok b from h)), fun ⟨_, h1, _⟩ => (nomatch h1)⟩

/-- A panic unless the optional value is present (nil dereference). -/
def ofOption {α : Type} : Option α → Res α
  | some a => ok a
  | none => panic

@[simp] theorem ofOption_some {α : Type} (a : α) : ofOption (some a) = ok a := rfl
@[simp] theorem ofOption_none {α : Type} : ofOption (none : Option α) = panic := rfl

end Res

/-- Go `s[i]`: panics when out of range. -/
def idx {α : Type} (s : List α) (i : Nat) : Res α := Res.ofOption s[i]?

end Verif

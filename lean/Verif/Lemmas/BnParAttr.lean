import Mathlib.Tactic.Attr.Register

/-!
# Lemmas on computations run without interruption
-/

/-- `(f x).alone` for the functions of `Verif.Inter`. -/
register_simp_attr inter_alone

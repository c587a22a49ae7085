import Mathlib.Tactic.Common
import Verif.Model.Heap

/-!
# What `Prove` and `Verify` write, for any aliasing of the pointers in their arguments
-/

namespace Verif

open Mem

/-- If `m` returns, its result satisfies `Q`, and it has changed none of the first `n` structs except possibly the one at
`w` (`none`: no struct). -/
def Mem.Safe {α : Type} (n : Nat) (w : Option Addr) (m : Mem α) (Q : α → Prop) : Prop :=
  ∀ s a s', n ≤ s.length → m s = .ok (a, s') →
    Q a ∧ s.length ≤ s'.length ∧ ∀ i < n, w ≠ some i → s'[i]? = s[i]?

namespace Mem.Safe

variable {α β : Type} {n : Nat} {w : Option Addr}

theorem pure {a : α} {Q : α → Prop} (h : Q a) : Safe n w (Pure.pure a) Q := by
  intro s b s' _ e
  cases e
  exact ⟨h, le_refl _, fun _ _ _ => rfl⟩

theorem lift {r : Res α} {Q : α → Prop} (h : ∀ a, r = .ok a → Q a) : Safe n w (Mem.lift r) Q := by
  intro s b s' _ e
  cases r with
  | panic => cases e
  | ok a => cases e; exact ⟨h _ rfl, le_refl _, fun _ _ _ => rfl⟩

theorem bind {m : Mem α} {f : α → Mem β} {Q : α → Prop} {Q' : β → Prop} (h : Safe n w m Q)
    (h' : ∀ a, Q a → Safe n w (f a) Q') : Safe n w (m >>= f) Q' := by
  intro s b s' hs e
  obtain ⟨⟨a, s1⟩, e1, e2⟩ := Res.bind_eq_ok.1 (show (m s >>= fun r => f r.1 r.2) = _ from e)
  obtain ⟨q, l, k⟩ := h s a s1 hs e1
  obtain ⟨q', l', k'⟩ := h' a q s1 b s' (le_trans hs l) e2
  exact ⟨q', le_trans l l', fun i hi hw => (k' i hi hw).trans (k i hi hw)⟩

theorem mono {m : Mem α} {Q Q' : α → Prop} (h : Safe n w m Q) (h' : ∀ a, Q a → Q' a) : Safe n w m Q' := by
  intro s a s' hs e
  obtain ⟨q, l, k⟩ := h s a s' hs e
  exact ⟨h' a q, l, k⟩

theorem ite {c : Prop} [Decidable c] {m m' : Mem α} {Q : α → Prop} (h : Safe n w m Q) (h' : Safe n w m' Q) :
    Safe n w (if c then m else m') Q := by
  split
  · exact h
  · exact h'

end Mem.Safe

/-- Addresses which may be written. -/
def Free (n : Nat) (w : Option Addr) (p : Addr) : Prop := n ≤ p ∨ w = some p

section
variable {n : Nat} {w : Option Addr} (E : Ext)

theorem load_safe (a : Addr) : Safe n w (load a) (fun _ => True) := by
  intro s b s' _ e
  cases h : s[a]? with
  | none => simp [load, h] at e
  | some v =>
    simp only [load, h, Res.ofOption_some, Res.ok_bind, Res.ok.injEq, Prod.mk.injEq] at e
    obtain ⟨-, rfl⟩ := e
    exact ⟨trivial, le_refl _, fun _ _ _ => rfl⟩

theorem new_safe : Safe n w new (fun p => Free n w p) := by
  intro s b s' hs e
  cases e
  refine ⟨Or.inl hs, by simp, fun i hi _ => ?_⟩
  rw [List.getElem?_append_left (by omega)]

theorem setX_safe {p : Addr} (hp : Free n w p) (v : Option Int) : Safe n w (setX p v) (fun _ => True) := by
  intro s b s' hs e
  cases h : s[p]? with
  | none => simp [setX, h] at e
  | some c =>
    simp only [setX, h, Res.ofOption_some, Res.ok_bind, Res.ok.injEq, Prod.mk.injEq] at e
    obtain ⟨-, rfl⟩ := e
    refine ⟨trivial, by simp, fun i hi hw => ?_⟩
    rw [List.getElem?_set_ne]
    rintro rfl
    rcases hp with h1 | h1
    · omega
    · exact hw h1

theorem setY_safe {p : Addr} (hp : Free n w p) (v : Option Int) : Safe n w (setY p v) (fun _ => True) := by
  intro s b s' hs e
  cases h : s[p]? with
  | none => simp [setY, h] at e
  | some c =>
    simp only [setY, h, Res.ofOption_some, Res.ok_bind, Res.ok.injEq, Prod.mk.injEq] at e
    obtain ⟨-, rfl⟩ := e
    refine ⟨trivial, by simp, fun i hi hw => ?_⟩
    rw [List.getElem?_set_ne]
    rintro rfl
    rcases hp with h1 | h1
    · omega
    · exact hw h1

theorem writeM_safe {p : Addr} (hp : Free n w p) (v : P256) : Safe n w (writeM p v) (fun _ => True) :=
  (setX_safe hp _).bind fun _ _ => setY_safe hp _

theorem setInfinityM_safe {p : Addr} (hp : Free n w p) : Safe n w (setInfinityM p) (fun _ => True) :=
  (setX_safe hp _).bind fun _ _ => setY_safe hp _

theorem copyM_safe {p : Addr} (hp : Free n w p) (a : Addr) : Safe n w (copyM p a) (fun _ => True) :=
  (load_safe a).bind fun _ _ => (setX_safe hp _).bind fun _ _ => (load_safe a).bind fun _ _ => setY_safe hp _

theorem addM_safe {p : Addr} (hp : Free n w p) (a b : Addr) : Safe n w (addM p a b) (fun _ => True) :=
  (load_safe a).bind fun _ _ => .ite (copyM_safe hp b)
    ((load_safe b).bind fun _ _ => .ite (copyM_safe hp b) (writeM_safe hp _))

theorem multiplyM_safe {p : Addr} (hp : Free n w p) (a b : Addr) : Safe n w (multiplyM E p a b) (fun _ => True) :=
  (load_safe a).bind fun _ _ => .ite (copyM_safe hp b)
    ((load_safe b).bind fun _ _ => .ite (copyM_safe hp a) (.ite (writeM_safe hp _) (writeM_safe hp _)))

theorem scalarMultM_safe {p : Addr} (hp : Free n w p) (a : Addr) (k : Int) : Safe n w (scalarMultM E p a k) (fun _ => True) :=
  (load_safe a).bind fun _ _ => .ite (setInfinityM_safe hp) (.ite (setInfinityM_safe hp) (writeM_safe hp _))

theorem scalarBaseMultM_safe {p : Addr} (hp : Free n w p) (k : Int) : Safe n w (scalarBaseMultM E p k) (fun _ => True) :=
  .ite (setInfinityM_safe hp) (writeM_safe hp _)

theorem negM_safe {p : Addr} (hp : Free n w p) (a : Addr) : Safe n w (negM E p a) (fun _ => True) :=
  (load_safe a).bind fun _ _ => .ite (setInfinityM_safe hp) (scalarMultM_safe E hp _ _)

theorem newScalarMultM_safe (a : Addr) (k : Int) : Safe n w (newScalarMultM E a k) (fun p => Free n w p) :=
  new_safe.bind fun _ hp => (scalarMultM_safe E hp a k).bind fun _ _ => .pure hp

theorem newMultiplyM_safe (a b : Addr) : Safe n w (newMultiplyM E a b) (fun p => Free n w p) :=
  new_safe.bind fun _ hp => (multiplyM_safe E hp a b).bind fun _ _ => .pure hp

theorem mapToGroupM_safe (m : List UInt8) : Safe n w (mapToGroupM E m) (fun _ => True) := by
  refine (Mem.Safe.lift (Q := fun _ => True) fun _ _ => trivial).bind fun q _ => ?_
  cases q with
  | none => exact .pure trivial
  | some q => exact new_safe.bind fun _ hp => (writeM_safe hp q).bind fun _ _ => .pure trivial

theorem commitG1M_safe (x r : Int) (h : Addr) : Safe n w (commitG1M E x r h) (fun p => Free n w p) :=
  new_safe.bind fun _ hp => (scalarBaseMultM_safe E hp x).bind fun _ _ => (newScalarMultM_safe E h r).bind fun _ _ =>
    (addM_safe hp _ _).bind fun _ _ => .pure hp

theorem vectorExpLoopM_safe {res : Addr} (hp : Free n w res) : ∀ (a : List Addr) (b : List Int),
    Safe n w (vectorExpLoopM E res a b) (fun _ => True)
  | [], _ => .pure trivial
  | _ :: _, [] => .pure trivial
  | p :: a, k :: b => (newScalarMultM_safe E p k).bind fun _ _ => (multiplyM_safe E hp _ _).bind fun _ _ =>
      vectorExpLoopM_safe hp a b

theorem vectorExpM_safe (a : List Addr) (b : List Int) : Safe n w (vectorExpM E a b) (fun p => Free n w p) :=
  .ite (.lift fun _ h => by cases h) (new_safe.bind fun _ hp => (setInfinityM_safe hp).bind fun _ _ =>
    (vectorExpLoopM_safe E hp a b).bind fun _ _ => .pure hp)

theorem vectorScalarExpM_safe (b : Int) : ∀ a : List Addr, Safe n w (vectorScalarExpM E b a) (fun _ => True)
  | [] => .pure trivial
  | p :: a => (newScalarMultM_safe E p b).bind fun _ _ => (vectorScalarExpM_safe b a).bind fun _ _ => .pure trivial

theorem vectorECAddLoopM_safe : ∀ a b : List Addr, Safe n w (vectorECAddLoopM E a b) (fun _ => True)
  | [], _ => .pure trivial
  | _ :: _, [] => .pure trivial
  | p :: a, q :: b => (newMultiplyM_safe E p q).bind fun _ _ => (vectorECAddLoopM_safe a b).bind fun _ _ => .pure trivial

theorem foldM_safe (a : List Addr) (x : Int) (b : List Addr) (y : Int) : Safe n w (foldM E a x b y) (fun _ => True) :=
  (vectorScalarExpM_safe E x a).bind fun _ _ => (vectorScalarExpM_safe E y b).bind fun _ _ =>
    .ite (.pure trivial) (vectorECAddLoopM_safe E _ _)

theorem hashBPM_safe (a b : Addr) : Safe n w (hashBPM E a b) (fun _ => True) :=
  (load_safe a).bind fun _ _ => (load_safe b).bind fun _ _ => .pure trivial

theorem isZeroM_safe (a : Addr) : Safe n w (isZeroM a) (fun _ => True) := (load_safe a).bind fun _ _ => .pure trivial

theorem loadAllM_safe : ∀ a : List Addr, Safe n w (loadAllM a) (fun _ => True)
  | [] => .pure trivial
  | p :: a => (load_safe p).bind fun _ _ => (loadAllM_safe a).bind fun _ _ => .pure trivial

theorem lift_safe {α : Type} (r : Res α) : Safe n w (Mem.lift r) (fun _ => True) := .lift fun _ _ => trivial

theorem hashIPM_safe (g h : List Addr) (P : Addr) (c k : Int) : Safe n w (hashIPM E g h P c k) (fun _ => True) :=
  (load_safe P).bind fun _ _ => (loadAllM_safe g).bind fun _ _ => (loadAllM_safe h).bind fun _ _ => lift_safe _

theorem commitInnerProductM_safe (g h : List Addr) (a b : List Int) :
    Safe n w (commitInnerProductM E g h a b) (fun p => Free n w p) :=
  (vectorExpM_safe E g a).bind fun _ _ => (vectorExpM_safe E h b).bind fun _ _ => newMultiplyM_safe E _ _

theorem crossTermM_safe (g : List Addr) (a : List Int) (h : List Addr) (b : List Int) (u : Addr) (c : Int) :
    Safe n w (crossTermM E g a h b u c) (fun p => Free n w p) :=
  (vectorExpM_safe E g a).bind fun _ hp => (vectorExpM_safe E h b).bind fun _ _ => (multiplyM_safe E hp _ _).bind fun _ _ =>
    (newScalarMultM_safe E u c).bind fun _ _ => (multiplyM_safe E hp _ _).bind fun _ _ => .pure hp

theorem computeBipM_safe (params : IPParamsM) : ∀ (fuel : Nat) (a b : List Int) (g h : List Addr) (u P : Addr) (k : Nat)
    (Ls Rs : List Addr), Safe n w (computeBipM E params fuel a b g h u P k Ls Rs) (fun _ => True)
  | 0, _, _, _, _, _, _, _, _, _ => lift_safe _
  | fuel + 1, a, b, g, h, u, P, k, Ls, Rs => by
    unfold computeBipM
    refine .ite ((lift_safe _).bind fun _ _ => (lift_safe _).bind fun _ _ => (lift_safe _).bind fun _ _ =>
      (lift_safe _).bind fun _ _ => .pure trivial) ?_
    exact (lift_safe _).bind fun _ _ => (lift_safe _).bind fun _ _ => (lift_safe _).bind fun _ _ => (lift_safe _).bind fun _ _ =>
      (lift_safe _).bind fun _ _ => (lift_safe _).bind fun _ _ => (lift_safe _).bind fun _ _ => (lift_safe _).bind fun _ _ =>
      (lift_safe _).bind fun _ _ => (lift_safe _).bind fun _ _ =>
      (crossTermM_safe E _ _ _ _ _ _).bind fun _ _ => (crossTermM_safe E _ _ _ _ _ _).bind fun _ _ =>
      (hashBPM_safe E _ _).bind fun _ _ => (lift_safe _).bind fun _ _ => (foldM_safe E _ _ _ _).bind fun _ _ =>
      (foldM_safe E _ _ _ _).bind fun _ _ => (lift_safe _).bind fun _ _ => (newScalarMultM_safe E _ _).bind fun _ hp =>
      (multiplyM_safe E hp _ _).bind fun _ _ => (newScalarMultM_safe E _ _).bind fun _ _ =>
      (multiplyM_safe E hp _ _).bind fun _ _ => (computeBipM_safe params fuel _ _ _ _ _ _ _ _ _).bind fun _ _ => .pure trivial

theorem proveInnerProductM_safe (a b : List Int) (P : Addr) (params : IPParamsM) :
    Safe n w (proveInnerProductM E a b P params) (fun _ => True) :=
  .ite (.pure trivial) ((hashIPM_safe E _ _ _ _ _).bind fun _ _ => (lift_safe _).bind fun _ _ =>
    (newScalarMultM_safe E _ _).bind fun _ _ => (newScalarMultM_safe E _ _).bind fun _ _ =>
    (newMultiplyM_safe E _ _).bind fun _ _ => (computeBipM_safe E _ _ _ _ _ _ _ _ _ _ _).bind fun _ _ => .pure trivial)

theorem commitVectorLoopM_safe (aL aR : List Int) (g h : List Addr) {R : Addr} (hp : Free n w R) : ∀ fuel i : Nat,
    Safe n w (commitVectorLoopM E aL aR g h R fuel i) (fun _ => True)
  | 0, _ => .pure trivial
  | fuel + 1, i => (lift_safe _).bind fun _ _ => (lift_safe _).bind fun _ _ => (lift_safe _).bind fun _ _ =>
      (lift_safe _).bind fun _ _ => (newScalarMultM_safe E _ _).bind fun _ _ => (newScalarMultM_safe E _ _).bind fun _ _ =>
      (multiplyM_safe E hp _ _).bind fun _ _ => (multiplyM_safe E hp _ _).bind fun _ _ =>
      commitVectorLoopM_safe aL aR g h hp fuel (i + 1)

theorem commitVectorM_safe (aL aR : List Int) (alpha : Int) (H : Addr) (g h : List Addr) (k : Int) :
    Safe n w (commitVectorM E aL aR alpha H g h k) (fun _ => True) :=
  (newScalarMultM_safe E _ _).bind fun _ hp => (commitVectorLoopM_safe E aL aR g h hp _ _).bind fun _ _ => .pure trivial

theorem updateGeneratorsLoopM_safe (Hh : List Addr) (yinv : Int) : ∀ (fuel i : Nat) (expy : Int),
    Safe n w (updateGeneratorsLoopM E Hh yinv fuel i expy) (fun _ => True)
  | 0, _, _ => .pure trivial
  | fuel + 1, i, expy => (lift_safe _).bind fun _ _ => (newScalarMultM_safe E _ _).bind fun _ _ =>
      (updateGeneratorsLoopM_safe Hh yinv fuel (i + 1) _).bind fun _ _ => .pure trivial

theorem updateGeneratorsM_safe (Hh : List Addr) (y k : Int) : Safe n w (updateGeneratorsM E Hh y k) (fun _ => True) :=
  .ite (lift_safe _) ((lift_safe _).bind fun _ _ => .ite (.pure trivial) ((lift_safe _).bind fun _ _ =>
    (updateGeneratorsLoopM_safe E Hh _ _ _ _).bind fun _ _ => .pure trivial))

theorem setupInnerProductM_safe (H : Addr) (g h : List Addr) (c k : Int) :
    Safe n w (setupInnerProductM E H g h c k) (fun _ => True) :=
  .ite (.pure trivial) ((mapToGroupM_safe E _).bind fun _ _ => (lift_safe _).bind fun _ _ => new_safe.bind fun _ hp =>
    (setInfinityM_safe hp).bind fun _ _ => .pure trivial)

theorem proveM_safe (rnd : BPRand) (secret : Int) (params : BPParamsM) :
    Safe n w (proveM E rnd secret params) (fun _ => True) := by
  unfold proveM
  refine (commitG1M_safe E _ _ _).bind fun _ _ => (lift_safe _).bind fun _ _ => (commitVectorM_safe E _ _ _ _ _ _ _).bind fun _ _ =>
    (commitVectorM_safe E _ _ _ _ _ _ _).bind fun _ _ => (hashBPM_safe E _ _).bind fun _ _ => ?_
  refine (lift_safe _).bind fun _ _ => (lift_safe _).bind fun _ _ => (lift_safe _).bind fun _ _ => (lift_safe _).bind fun _ _ =>
    (lift_safe _).bind fun _ _ => (lift_safe _).bind fun _ _ => (lift_safe _).bind fun _ _ => (lift_safe _).bind fun _ _ =>
    (commitG1M_safe E _ _ _).bind fun _ _ => (commitG1M_safe E _ _ _).bind fun _ _ => (hashBPM_safe E _ _).bind fun _ _ => ?_
  refine (lift_safe _).bind fun _ _ => (updateGeneratorsM_safe E _ _ _).bind fun _ _ =>
    (setupInnerProductM_safe E _ _ _ _ _).bind fun ipp _ => ?_
  cases ipp with
  | none => exact .pure trivial
  | some ipp =>
    exact (commitInnerProductM_safe E _ _ _ _).bind fun _ _ => (proveInnerProductM_safe E _ _ _ _).bind fun _ _ =>
      (lift_safe _).bind fun _ _ => .pure trivial

theorem ipVerifyLoopM_safe {P : Addr} (hP : Free n w P) : ∀ (Ls Rs g h : List Addr) (k : Int),
    Safe n w (ipVerifyLoopM E P Ls Rs g h k) (fun _ => True)
  | [], _, _, _, _ => by unfold ipVerifyLoopM; exact .pure trivial
  | _ :: _, [], _, _, _ => lift_safe _
  | L :: Ls, R :: Rs, g, h, k => (hashBPM_safe E _ _).bind fun _ _ => (lift_safe _).bind fun _ _ => (lift_safe _).bind fun _ _ =>
      (lift_safe _).bind fun _ _ => (foldM_safe E _ _ _ _).bind fun _ _ => (lift_safe _).bind fun _ _ =>
      (lift_safe _).bind fun _ _ => (foldM_safe E _ _ _ _).bind fun _ _ => (lift_safe _).bind fun _ _ =>
      (newScalarMultM_safe E _ _).bind fun _ _ => (multiplyM_safe E hP _ _).bind fun _ _ =>
      (newScalarMultM_safe E _ _).bind fun _ _ => (multiplyM_safe E hP _ _).bind fun _ _ =>
      ipVerifyLoopM_safe hP Ls Rs _ _ _

theorem ipVerifyM_safe (proof : IPProofM) (hP : Free n w proof.Params.P) : Safe n w (ipVerifyM E proof) (fun _ => True) :=
  (ipVerifyLoopM_safe E hP _ _ _ _ _).bind fun _ _ => (lift_safe _).bind fun _ _ => (lift_safe _).bind fun _ _ =>
    (newScalarMultM_safe E _ _).bind fun _ hr => (newScalarMultM_safe E _ _).bind fun _ _ =>
    (multiplyM_safe E hr _ _).bind fun _ _ => (newScalarMultM_safe E _ _).bind fun _ _ =>
    (multiplyM_safe E hr _ _).bind fun _ _ => (negM_safe E hP _).bind fun _ _ => (multiplyM_safe E hP _ _).bind fun _ _ =>
    isZeroM_safe _

theorem check65M_safe (proof : BPProofM) (x y z : Int) : Safe n w (check65M E proof x y z) (fun _ => True) :=
  (commitG1M_safe E _ _ _).bind fun _ hl => (newScalarMultM_safe E _ _).bind fun _ hr => (lift_safe _).bind fun _ _ =>
    new_safe.bind fun _ hd => (scalarBaseMultM_safe E hd _).bind fun _ _ => (multiplyM_safe E hr _ _).bind fun _ _ =>
    (newScalarMultM_safe E _ _).bind fun _ _ => (newScalarMultM_safe E _ _).bind fun _ _ =>
    (multiplyM_safe E hr _ _).bind fun _ _ => (multiplyM_safe E hr _ _).bind fun _ _ => (negM_safe E hl _).bind fun _ _ =>
    (multiplyM_safe E hr _ _).bind fun _ _ => isZeroM_safe _

theorem check67M_safe (proof : BPProofM) (hprime : List Addr) (x y z : Int) :
    Safe n w (check67M E proof hprime x y z) (fun _ => True) :=
  (newScalarMultM_safe E _ _).bind fun _ _ => new_safe.bind fun _ ha => (addM_safe ha _ _).bind fun _ _ =>
    (lift_safe _).bind fun _ _ => (vectorExpM_safe E _ _).bind fun _ _ => (lift_safe _).bind fun _ _ =>
    (lift_safe _).bind fun _ _ => (lift_safe _).bind fun _ _ => new_safe.bind fun _ hl => (addM_safe hl _ _).bind fun _ _ =>
    (vectorExpM_safe E _ _).bind fun _ _ => (addM_safe hl _ _).bind fun _ _ => (newScalarMultM_safe E _ _).bind fun _ hr =>
    (multiplyM_safe E hr _ _).bind fun _ _ => (negM_safe E hl _).bind fun _ _ => (addM_safe hr _ _).bind fun _ _ =>
    isZeroM_safe _

theorem bpVerifyM_safe (proof : BPProofM) (hP : Free n w proof.IP.Params.P) :
    Safe n w (bpVerifyM E proof) (fun _ => True) :=
  (hashBPM_safe E _ _).bind fun _ _ => (hashBPM_safe E _ _).bind fun _ _ => (updateGeneratorsM_safe E _ _ _).bind fun _ _ =>
    (check65M_safe E _ _ _ _).bind fun _ _ => (check67M_safe E _ _ _ _ _).bind fun _ _ =>
    (ipVerifyM_safe E _ hP).bind fun _ _ => .pure trivial

end

end Verif

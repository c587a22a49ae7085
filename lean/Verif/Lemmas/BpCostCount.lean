import Verif.Lemmas.BpCostLog
import Verif.Lemmas.GoProve

/-!
# Number of curve calls and of requested slice elements
-/

namespace Verif

namespace Cost

variable {α β : Type}

/-- At most `c` curve calls and `r` requested elements. -/
def Within (m : Cost α) (c r : Nat) : Prop := curveCalls m.log ≤ c ∧ requested m.log ≤ r

/-- With `k` calls and `q` elements before `m`, at most `c` and `r`. -/
def Rest (m : Cost α) (k q c r : Nat) : Prop := curveCalls m.log + k ≤ c ∧ requested m.log + q ≤ r

theorem Rest.within {m : Cost α} {c r : Nat} (h : m.Rest 0 0 c r) : m.Within c r := h

theorem Rest.bind {m : Cost α} {f : α → Cost β} {c r k q c' r' : Nat} (h : m.Within c' r')
    (hf : ∀ a, m.res = .ok a → (f a).Rest (k + c') (q + r') c r) (hp : m.res = .panic → k + c' ≤ c ∧ q + r' ≤ r) :
    (m >>= f).Rest k q c r := by
  cases e : m.res with
  | ok a =>
    obtain ⟨h1, h2⟩ := hf a e
    obtain ⟨h3, h4⟩ := h
    rw [Rest, log_bind_ok e, curveCalls_append, requested_append]
    omega
  | panic =>
    obtain ⟨h3, h4⟩ := h
    have := hp e
    rw [Rest, log_bind_panic e]
    omega

/-- A step that does not panic. -/
theorem Rest.step {m : Cost α} {f : α → Cost β} {c r k q c' r' : Nat} {a : α} (e : m.res = .ok a) (h : m.Within c' r')
    (hf : (f a).Rest (k + c') (q + r') c r) : (m >>= f).Rest k q c r := by
  refine .bind h (fun b hb => ?_) fun hp => ?_
  · rw [e] at hb
    injection hb with hb
    rw [← hb]
    exact hf
  · rw [e] at hp
    cases hp

/-- A step without calls. -/
theorem Rest.lift {x : Res α} {f : α → Cost β} {c r k q : Nat} (hf : ∀ a, x = .ok a → (f a).Rest k q c r) (hp : k ≤ c ∧ q ≤ r) :
    (Cost.lift x >>= f).Rest k q c r :=
  .bind (c' := 0) (r' := 0) ⟨Nat.le_refl _, Nat.le_refl _⟩ hf fun _ => hp

theorem Rest.pure {a : α} {k q c r : Nat} (h : k ≤ c ∧ q ≤ r) : (Pure.pure a : Cost α).Rest k q c r := by
  obtain ⟨h1, h2⟩ := h
  exact ⟨by simpa [Pure.pure, curveCalls] using h1, by simpa [Pure.pure, requested] using h2⟩

theorem Rest.last {m : Cost α} {c r k q c' r' : Nat} (h : m.Within c' r') (hf : k + c' ≤ c ∧ q + r' ≤ r) : m.Rest k q c r := by
  obtain ⟨h1, h2⟩ := h
  exact ⟨by omega, by omega⟩

theorem Within.mono {m : Cost α} {c r c' r' : Nat} (h : m.Within c' r') (h1 : c' ≤ c) (h2 : r' ≤ r) : m.Within c r :=
  ⟨h.1.trans h1, h.2.trans h2⟩

theorem Within.pure (a : α) (c r : Nat) : (Pure.pure a : Cost α).Within c r := ⟨Nat.zero_le _, Nat.zero_le _⟩

theorem Within.emit (e : Ev) (he : ∀ n, e ≠ .make n) : (Cost.emit e).Within 1 0 := by
  cases e with
  | make n => exact absurd rfl (he n)
  | _ => exact ⟨Nat.le_refl _, Nat.le_refl _⟩

theorem Within.make (n : Int) : (Cost.make n).Within 0 n.toNat := by
  by_cases h : n < 0
  · rw [Cost.make, if_pos h]
    exact ⟨Nat.le_refl _, Nat.zero_le _⟩
  · rw [Cost.make, if_neg h]
    exact ⟨Nat.le_refl _, by simp [Cost.emit, requested]⟩

theorem Within.make_nat (n : Nat) : (Cost.make n).Within 0 n := Within.make n

theorem Within.make_then (n : Int) (f : Unit → Cost β) (c r : Nat) (h : (f ()).Within c r) : (Cost.make n >>= f).Within c (n.toNat + r) :=
  (Rest.bind (Within.make n) (fun _ _ => Rest.last h ⟨by omega, by omega⟩) fun _ => by omega).within

end Cost

open Cost

theorem addC_within (a b : P256) : (a.addC b).Within 1 0 := by
  rw [P256.addC]
  split
  · exact .pure ..
  · split
    · exact .pure ..
    · exact (Rest.step rfl (.emit _ (by simp)) (.pure (by omega))).within

theorem scalarMultC_within (E : Ext) (a : P256) (n : Int) : (a.scalarMultC E n).Within 1 0 := by
  rw [P256.scalarMultC]
  split
  · exact .pure ..
  · split
    · exact .pure ..
    · exact (Rest.step rfl (.emit _ (by simp)) (.pure (by omega))).within

theorem scalarBaseMultC_within (E : Ext) (n : Int) : (P256.scalarBaseMultC E n).Within 1 0 := by
  rw [P256.scalarBaseMultC]
  split
  · exact .pure ..
  · exact (Rest.step rfl (.emit _ (by simp)) (.pure (by omega))).within

theorem negC_within (E : Ext) (p a : P256) : (P256.negC E p a).Within 1 0 := by
  rw [P256.negC]
  split
  · exact .pure ..
  · exact scalarMultC_within ..

theorem multiplyC_within (E : Ext) (a b : P256) : (a.multiplyC E b).Within 1 0 := by
  rw [P256.multiplyC]
  split
  · exact .pure ..
  · split
    · exact .pure ..
    · split <;> exact (Rest.step rfl (.emit _ (by simp)) (.pure (by omega))).within

theorem commitG1C_within (E : Ext) (x r : Int) (h : P256) : (commitG1C E x r h).Within 3 0 :=
  (Rest.step (P256.scalarBaseMultC_res ..) (scalarBaseMultC_within ..) <| Rest.step (P256.scalarMultC_res ..) (scalarMultC_within ..) <|
    Rest.last (addC_within ..) (by omega)).within

theorem vectorCopyC_within (a n : Int) : (vectorCopyC a n).Within 0 n.toNat := Within.make_then _ _ 0 0 (.pure ..)
theorem powerOfC_within (a n : Int) : (powerOfC a n).Within 0 n.toNat := Within.make_then _ _ 0 0 (.pure ..)
theorem decomposeC_within (x u n : Int) : (decomposeC x u n).Within 0 n.toNat :=
  Within.make_then _ _ 0 0 ⟨Nat.le_refl _, Nat.le_refl _⟩
theorem computeARC_within (a : List Int) : (computeARC a).Within 0 a.length := Within.make_then _ _ 0 0 (.pure ..)
theorem vectorScalarMulC_within (a : List Int) (b : Int) : (vectorScalarMulC a b).Within 0 a.length := Within.make_then _ _ 0 0 (.pure ..)
theorem sampleC_within (s : List Int) (n : Int) : (sampleRandomVectorC s n).Within 0 n.toNat := Within.make_then _ _ 0 0 (.pure ..)

theorem vectorConvertToBigC_within (a : List Int) (n : Int) : (vectorConvertToBigC a n).Within 0 n.toNat := by
  refine Within.make_then _ _ 0 0 ?_
  split
  · exact ⟨Nat.le_refl _, Nat.le_refl _⟩
  · exact .pure ..

theorem vectorOpC_within (op : Int → Int → Int) (a b : List Int) : (vectorOpC op a b).Within 0 a.length := by
  rw [vectorOpC]
  split
  · exact .pure ..
  · exact Within.make_then _ _ 0 0 (.pure ..)

theorem deltaC_within (n y z : Int) : (deltaC n y z).Within 0 (3 * n.toNat) := by
  refine Rest.within ?_
  refine .bind (vectorCopyC_within ..) (fun _ _ => ?_) fun _ => by omega
  refine .bind (powerOfC_within ..) (fun _ _ => ?_) fun _ => by omega
  refine .lift (fun _ _ => ?_) (by omega)
  refine .bind (powerOfC_within ..) (fun _ _ => ?_) fun _ => by omega
  exact .lift (fun _ _ => .pure (by omega)) (by omega)

theorem vectorExpLoopC_within (E : Ext) (a : List P256) : ∀ (b : List Int) (r : P256), (vectorExpLoopC E a b r).Within (2 * a.length) 0 := by
  induction a with
  | nil => intro b r; cases b <;> exact .pure ..
  | cons p a ih =>
    intro b r
    cases b with
    | nil => exact .pure ..
    | cons n b =>
      rw [List.length_cons]
      refine Rest.within ?_
      refine .step (P256.scalarMultC_res ..) (scalarMultC_within ..) ?_
      refine .step (P256.multiplyC_res ..) (multiplyC_within ..) ?_
      exact .last (ih ..) (by omega)

theorem vectorExpC_within (E : Ext) (a : List P256) (b : List Int) : (vectorExpC E a b).Within (2 * a.length) 0 := by
  rw [vectorExpC]
  split
  · exact .pure ..
  · refine Rest.within ?_
    refine .step (vectorExpLoopC_res ..) (vectorExpLoopC_within ..) ?_
    exact .pure (by omega)

theorem vectorECAddLoopC_within (E : Ext) (a : List P256) : ∀ b : List P256, (vectorECAddLoopC E a b).Within a.length 0 := by
  induction a with
  | nil => intro b; cases b <;> exact .pure ..
  | cons p a ih =>
    intro b
    cases b with
    | nil => exact .pure ..
    | cons n b =>
      rw [List.length_cons]
      refine Rest.within ?_
      refine .step (P256.multiplyC_res ..) (multiplyC_within ..) ?_
      refine .step (vectorECAddLoopC_res ..) (ih ..) ?_
      exact .pure (by omega)

/-- The cost of `VectorECAdd` is the length of its result. -/
theorem vectorECAddC_within (E : Ext) (a b : List P256) :
    (vectorECAddC E a b).Within ((vectorECAdd E a b).getD []).length ((vectorECAdd E a b).getD []).length := by
  rw [vectorECAddC, vectorECAdd]
  by_cases h : a.length ≠ b.length
  · rw [if_pos h, if_pos h]
    exact .pure ..
  · rw [if_neg h, if_neg h]
    have e : ((some (List.zipWith (fun x y => P256.multiply E x y) a b) : Option (List P256)).getD []).length = a.length := by
      rw [Option.getD_some, List.length_zipWith]
      omega
    rw [e]
    exact Within.make_then _ _ _ 0 (vectorECAddLoopC_within ..)

theorem vectorScalarExpLoopC_within (E : Ext) (b : Int) (a : List P256) : (vectorScalarExpLoopC E b a).Within a.length 0 := by
  induction a with
  | nil => exact .pure ..
  | cons p a ih =>
    rw [List.length_cons]
    refine Rest.within ?_
    refine .step (P256.scalarMultC_res ..) (scalarMultC_within ..) ?_
    refine .step (vectorScalarExpLoopC_res ..) ih ?_
    exact .pure (by omega)

theorem vectorScalarExpC_within (E : Ext) (a : List P256) (b : Int) : (vectorScalarExpC E a b).Within a.length a.length :=
  Within.make_then _ _ _ 0 (vectorScalarExpLoopC_within ..)

theorem updateGeneratorsLoopC_within (E : Ext) (Hh : List P256) (yinv : Int) : ∀ (fuel i : Nat) (e : Int),
    (updateGeneratorsLoopC E Hh yinv fuel i e).Within (Hh.length - i) 0 := by
  intro fuel
  induction fuel with
  | zero => intros; exact .pure ..
  | succ fuel ih =>
    intro i e
    refine Rest.within (.lift (fun p hp => ?_) (by omega))
    have hi : i < Hh.length := by
      by_contra hi
      rw [idx, List.getElem?_eq_none (by omega)] at hp
      cases hp
    refine .step (P256.scalarMultC_res ..) (scalarMultC_within ..) ?_
    exact .bind (ih ..) (fun _ _ => .pure (by omega)) fun _ => by omega

theorem updateGeneratorsC_within (E : Ext) (Hh : List P256) (y n : Int) : (updateGeneratorsC E Hh y n).Within (Hh.length - 1) n.toNat := by
  refine (Within.make_then _ _ (Hh.length - 1) 0 ?_)
  split
  · exact ⟨Nat.zero_le _, Nat.le_refl _⟩
  · refine Rest.within (.lift (fun p hp => ?_) (by omega))
    split
    · exact .pure (by omega)
    · exact .lift (fun _ _ => .bind (updateGeneratorsLoopC_within ..) (fun _ _ => .pure (by omega)) fun _ => by omega) (by omega)

theorem updateGenerators_size {E : Ext} {Hh hp : List P256} {y n : Int} (h : updateGenerators E Hh y n = .ok hp) :
    hp.length = n.toNat ∧ n.toNat ≤ Hh.length := by
  have loop : ∀ (fuel i : Nat) (e yinv : Int) (r : List P256), updateGeneratorsLoop E Hh yinv fuel i e = .ok r →
      r.length = fuel ∧ (fuel = 0 ∨ i + fuel ≤ Hh.length) := by
    intro fuel
    induction fuel with
    | zero => intro i e yinv r h; cases h; exact ⟨rfl, Or.inl rfl⟩
    | succ fuel ih =>
      intro i e yinv r h
      rw [updateGeneratorsLoop] at h
      cases e1 : idx Hh i with
      | panic => rw [e1] at h; cases h
      | ok p =>
        rw [e1, Res.ok_bind] at h
        cases e2 : updateGeneratorsLoop E Hh yinv fuel (i + 1) (e * yinv) with
        | panic => rw [e2] at h; cases h
        | ok r' =>
          rw [e2, Res.ok_bind] at h
          cases h
          have hi : i < Hh.length := by
            by_contra hi
            rw [idx, List.getElem?_eq_none (by omega)] at e1
            cases e1
          obtain ⟨h1, h2⟩ := ih _ _ _ _ e2
          exact ⟨by rw [List.length_cons, h1], by omega⟩
  rw [updateGenerators] at h
  by_cases h0 : n ≤ 0
  · rw [if_pos h0] at h; cases h
  rw [if_neg h0] at h
  cases e1 : idx Hh 0 with
  | panic => rw [e1] at h; cases h
  | ok p =>
    rw [e1, Res.ok_bind] at h
    have hi : 0 < Hh.length := by
      by_contra hi
      rw [idx, List.getElem?_eq_none (by omega)] at e1
      cases e1
    by_cases h1 : n = 1
    · rw [if_pos h1] at h
      cases h
      subst h1
      exact ⟨rfl, hi⟩
    rw [if_neg h1] at h
    cases e2 : modInverse y ORDER with
    | none => rw [e2] at h; cases h
    | some yi =>
      rw [e2, Res.ofOption_some, Res.ok_bind] at h
      cases e3 : updateGeneratorsLoop E Hh yi (n.toNat - 1) 1 yi with
      | panic => rw [e3] at h; cases h
      | ok r =>
        rw [e3, Res.ok_bind] at h
        cases h
        obtain ⟨h2, h3⟩ := loop _ _ _ _ _ e3
        exact ⟨by rw [List.length_cons, h2]; omega, by omega⟩

theorem powerOfLoop_length (x : Int) (n : Nat) (c : Int) : (powerOfLoop x n c).length = n := by
  induction n generalizing c with
  | zero => rfl
  | succ n ih => rw [powerOfLoop, List.length_cons, ih]

theorem slice_lengths {α : Type} {s a b : List α} {n : Int} (h1 : sliceTo s n = .ok a) (h2 : sliceFrom s n = .ok b) :
    a.length + b.length = s.length := by
  rw [sliceTo] at h1
  rw [sliceFrom] at h2
  by_cases h : n < 0 ∨ (s.length : Int) < n
  · rw [if_pos h] at h1; cases h1
  rw [if_neg h] at h1 h2
  cases h1
  cases h2
  rw [List.length_take, List.length_drop]
  omega

theorem ecAdd_half {E : Ext} {a b : List P256} {m : Nat} (h : a.length + b.length = m) : 2 * ((vectorECAdd E a b).getD []).length ≤ m := by
  rw [vectorECAdd]
  by_cases h' : a.length ≠ b.length
  · rw [if_pos h']
    simp
  · rw [if_neg h', Option.getD_some, List.length_zipWith]
    omega

theorem scalarExp_length (E : Ext) (a : List P256) (b : Int) : (vectorScalarExp E a b).length = a.length := by
  simp [vectorScalarExp]

theorem ipVerifyLoopC_within (E : Ext) : ∀ (Ls Rs g h : List P256) (P : P256) (n : Int),
    (ipVerifyLoopC E Ls Rs g h P n).Within (3 * g.length + 3 * h.length + 4 * Ls.length) (3 * g.length + 3 * h.length) := by
  intro Ls
  induction Ls with
  | nil => intro Rs; cases Rs <;> intros <;> exact .pure ..
  | cons L Ls ih =>
    intro Rs g h P n
    cases Rs with
    | nil => exact ⟨Nat.zero_le _, Nat.zero_le _⟩
    | cons R Rs =>
      refine Rest.within ?_
      rw [List.length_cons]
      refine .lift (fun xi _ => ?_) (by omega)
      refine .lift (fun gL e1 => ?_) (by omega)
      have t1 : gL.length ≤ g.length := by
        rw [sliceTo] at e1
        split at e1
        · cases e1
        · cases e1
          rw [List.length_take]
          omega
      refine .step (vectorScalarExpC_res ..) (vectorScalarExpC_within ..) ?_
      refine .lift (fun gR e2 => ?_) (by omega)
      have l1 := slice_lengths e1 e2
      refine .step (vectorScalarExpC_res ..) (vectorScalarExpC_within ..) ?_
      have q1 := ecAdd_half (E := E) (a := vectorScalarExp E gL xi) (b := vectorScalarExp E gR (hashBP E L R).1) (m := g.length)
        (by rw [scalarExp_length, scalarExp_length]; exact l1)
      refine .step (vectorECAddC_res ..) (vectorECAddC_within ..) ?_
      generalize (vectorECAdd E (vectorScalarExp E gL xi) (vectorScalarExp E gR (hashBP E L R).1)).getD [] = g' at q1 ⊢
      refine .lift (fun hL e3 => ?_) (by omega)
      have t2 : hL.length ≤ h.length := by
        rw [sliceTo] at e3
        split at e3
        · cases e3
        · cases e3
          rw [List.length_take]
          omega
      refine .step (vectorScalarExpC_res ..) (vectorScalarExpC_within ..) ?_
      refine .lift (fun hR e4 => ?_) (by omega)
      have l2 := slice_lengths e3 e4
      refine .step (vectorScalarExpC_res ..) (vectorScalarExpC_within ..) ?_
      have q2 := ecAdd_half (E := E) (a := vectorScalarExp E hL (hashBP E L R).1) (b := vectorScalarExp E hR xi) (m := h.length)
        (by rw [scalarExp_length, scalarExp_length]; exact l2)
      refine .step (vectorECAddC_res ..) (vectorECAddC_within ..) ?_
      generalize (vectorECAdd E (vectorScalarExp E hL (hashBP E L R).1) (vectorScalarExp E hR xi)).getD [] = h' at q2 ⊢
      refine .lift (fun _ _ => ?_) (by omega)
      refine .step (P256.scalarMultC_res ..) (scalarMultC_within ..) ?_
      refine .step (P256.multiplyC_res ..) (multiplyC_within ..) ?_
      refine .step (P256.scalarMultC_res ..) (scalarMultC_within ..) ?_
      refine .step (P256.multiplyC_res ..) (multiplyC_within ..) ?_
      exact .last (ih ..) (by omega)

theorem ipVerifyC_within (E : Ext) (p : IPProof) : (ipVerifyC E p).Within
    (3 * p.Params.Gg.length + 3 * p.Params.Hh.length + 4 * p.Ls.length + 7) (3 * p.Params.Gg.length + 3 * p.Params.Hh.length) := by
  refine Rest.within (.bind (ipVerifyLoopC_within ..) (fun r _ => ?_) fun _ => by omega)
  obtain ⟨g, h, P⟩ := r
  refine .lift (fun g0 _ => ?_) (by omega)
  refine .step (P256.scalarMultC_res ..) (scalarMultC_within ..) ?_
  refine .lift (fun h0 _ => ?_) (by omega)
  refine .step (P256.scalarMultC_res ..) (scalarMultC_within ..) ?_
  refine .step (P256.multiplyC_res ..) (multiplyC_within ..) ?_
  refine .step (P256.scalarMultC_res ..) (scalarMultC_within ..) ?_
  refine .step (P256.multiplyC_res ..) (multiplyC_within ..) ?_
  refine .step (P256.negC_res ..) (negC_within ..) ?_
  refine .step (P256.multiplyC_res ..) (multiplyC_within ..) ?_
  exact .pure (by omega)

theorem bpVerifyC_within (E : Ext) (p : BPProof) : (bpVerifyC E p).Within
    (3 * p.Params.Hh.length + 2 * p.Params.Gg.length + 3 * p.IP.Params.Gg.length + 3 * p.IP.Params.Hh.length + 4 * p.IP.Ls.length + 27)
    (11 * p.Params.N.toNat + 3 * p.IP.Params.Gg.length + 3 * p.IP.Params.Hh.length) := by
  unfold bpVerifyC
  refine Rest.within ?_
  cases hashBP E p.A p.S with | mk y z => ?_
  refine .bind (updateGeneratorsC_within ..) (fun hprime e => ?_) fun _ => by omega
  rw [updateGeneratorsC_res] at e
  obtain ⟨e1, e2⟩ := updateGenerators_size e
  refine .step (commitG1C_res ..) (commitG1C_within ..) ?_
  refine .step (P256.scalarMultC_res ..) (scalarMultC_within ..) ?_
  refine .bind (deltaC_within ..) (fun _ _ => ?_) fun _ => by omega
  refine .step (P256.scalarBaseMultC_res ..) (scalarBaseMultC_within ..) ?_
  refine .step (P256.multiplyC_res ..) (multiplyC_within ..) ?_
  refine .step (P256.scalarMultC_res ..) (scalarMultC_within ..) ?_
  refine .step (P256.scalarMultC_res ..) (scalarMultC_within ..) ?_
  refine .step (P256.multiplyC_res ..) (multiplyC_within ..) ?_
  refine .step (P256.multiplyC_res ..) (multiplyC_within ..) ?_
  refine .step (P256.negC_res ..) (negC_within ..) ?_
  refine .step (P256.multiplyC_res ..) (multiplyC_within ..) ?_
  refine .step (P256.scalarMultC_res ..) (scalarMultC_within ..) ?_
  refine .step (P256.addC_res ..) (addC_within ..) ?_
  refine .bind (vectorCopyC_within ..) (fun _ _ => ?_) fun _ => by omega
  refine .step (vectorExpC_res ..) (vectorExpC_within ..) ?_
  refine .bind (vectorCopyC_within ..) (fun _ _ => ?_) fun _ => by omega
  refine .bind (powerOfC_within ..) (fun vy ey => ?_) fun _ => by omega
  have ly : vy.length = p.Params.N.toNat := by
    rw [powerOfC_res, powerOf] at ey
    split at ey
    · cases ey
    · cases ey
      rw [powerOfLoop_length]
  refine .step (vectorMulC_res ..) (vectorOpC_within ..) ?_
  refine .bind (powerOfC_within ..) (fun p2 e2 => ?_) fun _ => by omega
  have l2 : p2.length = p.Params.N.toNat := by
    rw [powerOfC_res, powerOf] at e2
    split at e2
    · cases e2
    · cases e2
      rw [powerOfLoop_length]
  refine .step (vectorScalarMulC_res ..) (vectorScalarMulC_within ..) ?_
  rename_i vz ez
  have l3 : ((vectorMul vy vz).getD []).length ≤ p.Params.N.toNat := by
    rw [vectorMul]
    split
    · exact Nat.zero_le _
    · rw [Option.getD_some, List.length_zipWith]
      omega
  refine .step (vectorAddC_res ..) (vectorOpC_within ..) ?_
  generalize (vectorMul vy vz).getD [] = zyn at l3 ⊢
  refine .lift (fun _ _ => ?_) (by omega)
  refine .step (P256.addC_res ..) (addC_within ..) ?_
  refine .step (vectorExpC_res ..) (vectorExpC_within ..) ?_
  refine .lift (fun _ _ => ?_) (by omega)
  refine .step (P256.addC_res ..) (addC_within ..) ?_
  refine .step (P256.scalarMultC_res ..) (scalarMultC_within ..) ?_
  refine .step (P256.multiplyC_res ..) (multiplyC_within ..) ?_
  refine .step (P256.negC_res ..) (negC_within ..) ?_
  refine .step (P256.addC_res ..) (addC_within ..) ?_
  refine .bind (ipVerifyC_within ..) (fun r _ => ?_) fun _ => by omega
  exact .pure (by omega)

/-! ### `Prove` -/

theorem commitVectorLoopC_within (E : Ext) (aL aR : List Int) (g h : List P256) : ∀ (fuel i : Nat) (R : P256),
    (commitVectorLoopC E aL aR g h fuel i R).Within (4 * fuel) 0 := by
  intro fuel
  induction fuel with
  | zero => intros; exact .pure ..
  | succ fuel ih =>
    intro i R
    refine Rest.within ?_
    refine .lift (fun _ _ => ?_) (by omega)
    refine .lift (fun _ _ => ?_) (by omega)
    refine .step (P256.scalarMultC_res ..) (scalarMultC_within ..) ?_
    refine .lift (fun _ _ => ?_) (by omega)
    refine .lift (fun _ _ => ?_) (by omega)
    refine .step (P256.scalarMultC_res ..) (scalarMultC_within ..) ?_
    refine .step (P256.multiplyC_res ..) (multiplyC_within ..) ?_
    refine .step (P256.multiplyC_res ..) (multiplyC_within ..) ?_
    exact .last (ih ..) (by omega)

theorem commitVectorBigLoopC_within (E : Ext) (aL aR : List Int) (g h : List P256) : ∀ (fuel i : Nat) (R : P256),
    (commitVectorBigLoopC E aL aR g h fuel i R).Within (4 * fuel) 0 := by
  intro fuel
  induction fuel with
  | zero => intros; exact .pure ..
  | succ fuel ih =>
    intro i R
    refine Rest.within ?_
    refine .lift (fun _ _ => ?_) (by omega)
    refine .lift (fun _ _ => ?_) (by omega)
    refine .step (P256.scalarMultC_res ..) (scalarMultC_within ..) ?_
    refine .step (P256.multiplyC_res ..) (multiplyC_within ..) ?_
    refine .lift (fun _ _ => ?_) (by omega)
    refine .lift (fun _ _ => ?_) (by omega)
    refine .step (P256.scalarMultC_res ..) (scalarMultC_within ..) ?_
    refine .step (P256.multiplyC_res ..) (multiplyC_within ..) ?_
    exact .last (ih ..) (by omega)

theorem commitVectorC_within (E : Ext) (aL aR : List Int) (alpha : Int) (H : P256) (g h : List P256) (n : Int) :
    (commitVectorC E aL aR alpha H g h n).Within (4 * n.toNat + 1) 0 := by
  refine Rest.within ?_
  refine .step (P256.scalarMultC_res ..) (scalarMultC_within ..) ?_
  exact .last (commitVectorLoopC_within ..) (by omega)

theorem commitVectorBigC_within (E : Ext) (aL aR : List Int) (alpha : Int) (H : P256) (g h : List P256) (n : Int) :
    (commitVectorBigC E aL aR alpha H g h n).Within (4 * n.toNat + 1) 0 := by
  refine Rest.within ?_
  refine .step (P256.scalarMultC_res ..) (scalarMultC_within ..) ?_
  exact .last (commitVectorBigLoopC_within ..) (by omega)

theorem commitInnerProductC_within (E : Ext) (g h : List P256) (a b : List Int) :
    (commitInnerProductC E g h a b).Within (2 * g.length + 2 * h.length + 1) 0 := by
  refine Rest.within ?_
  refine .step (vectorExpC_res ..) (vectorExpC_within ..) ?_
  refine .step (vectorExpC_res ..) (vectorExpC_within ..) ?_
  refine .lift (fun _ _ => ?_) (by omega)
  refine .lift (fun _ _ => ?_) (by omega)
  exact .last (multiplyC_within ..) (by omega)

/-- The cost of `VectorAdd` is the length of its result. -/
theorem vectorAddC_within (a b : List Int) : (vectorOpC (· + ·) a b).Within 0 ((vectorAdd a b).getD []).length := by
  rw [vectorOpC, vectorAdd]
  by_cases h : a.length ≠ b.length
  · rw [if_pos h, if_pos h]
    exact .pure ..
  · rw [if_neg h, if_neg h]
    have e : ((some (List.zipWith (fun x y => (x + y) % ORDER) a b) : Option (List Int)).getD []).length = a.length := by
      rw [Option.getD_some, List.length_zipWith]
      omega
    rw [e]
    exact Within.make_then _ _ 0 0 (.pure ..)

theorem vectorAdd_half {a b : List Int} {m : Nat} (h : a.length + b.length = m) : 2 * ((vectorAdd a b).getD []).length ≤ m := by
  rw [vectorAdd]
  by_cases h' : a.length ≠ b.length
  · rw [if_pos h']
    simp
  · rw [if_neg h', Option.getD_some, List.length_zipWith]
    omega

theorem scalarMul_length (a : List Int) (b : Int) : (vectorScalarMul a b).length = a.length := by
  simp [vectorScalarMul]

theorem computeBipC_within (E : Ext) (params : IPParams) : ∀ (fuel : Nat) (a b : List Int) (g h : List P256) (u P : P256) (n : Nat)
    (Ls Rs : List P256), n ≠ 0 → (computeBipC E params fuel a b g h u P n Ls Rs).Within (7 * g.length + 7 * h.length + 10 * Nat.log2 n)
      (3 * g.length + 3 * h.length + 3 * a.length + 3 * b.length) := by
  intro fuel
  induction fuel with
  | zero => intros; exact ⟨Nat.zero_le _, Nat.zero_le _⟩
  | succ fuel ih =>
    intro a b g h u P n Ls Rs hn
    rw [computeBipC]
    by_cases h1 : n = 1
    · rw [if_pos h1]
      refine Rest.within ?_
      refine .lift (fun _ _ => ?_) (by omega)
      refine .lift (fun _ _ => ?_) (by omega)
      refine .lift (fun _ _ => ?_) (by omega)
      refine .lift (fun _ _ => ?_) (by omega)
      exact .pure (by omega)
    rw [if_neg h1]
    have hlog : Nat.log2 n = Nat.log2 (n / 2) + 1 := by
      rw [Nat.log2_def, if_pos (by omega)]
    have ih' := fun a' b' g' h' P' Ls Rs => ih a' b' g' h' u P' (n / 2) Ls Rs (by omega)
    generalize Nat.log2 (n / 2) = lg at hlog ih'
    rw [hlog]
    refine Rest.within ?_
    refine .lift (fun aL ea => ?_) (by omega)
    refine .lift (fun aR ea' => ?_) (by omega)
    refine .lift (fun bL eb => ?_) (by omega)
    refine .lift (fun bR eb' => ?_) (by omega)
    refine .lift (fun gL eg => ?_) (by omega)
    refine .lift (fun gR eg' => ?_) (by omega)
    refine .lift (fun hL eh => ?_) (by omega)
    refine .lift (fun hR eh' => ?_) (by omega)
    have la := slice_lengths ea ea'
    have lb := slice_lengths eb eb'
    have lg := slice_lengths eg eg'
    have lh := slice_lengths eh eh'
    refine .lift (fun cL _ => ?_) (by omega)
    refine .lift (fun cR _ => ?_) (by omega)
    refine .step (vectorExpC_res ..) (vectorExpC_within ..) ?_
    refine .step (vectorExpC_res ..) (vectorExpC_within ..) ?_
    refine .lift (fun L _ => ?_) (by omega)
    refine .lift (fun Lh _ => ?_) (by omega)
    refine .step (P256.multiplyC_res ..) (multiplyC_within ..) ?_
    refine .step (P256.scalarMultC_res ..) (scalarMultC_within ..) ?_
    refine .step (P256.multiplyC_res ..) (multiplyC_within ..) ?_
    generalize P256.multiply E (L.multiply E Lh) _ = L'
    refine .step (vectorExpC_res ..) (vectorExpC_within ..) ?_
    refine .step (vectorExpC_res ..) (vectorExpC_within ..) ?_
    refine .lift (fun R _ => ?_) (by omega)
    refine .lift (fun Rh _ => ?_) (by omega)
    refine .step (P256.multiplyC_res ..) (multiplyC_within ..) ?_
    refine .step (P256.scalarMultC_res ..) (scalarMultC_within ..) ?_
    refine .step (P256.multiplyC_res ..) (multiplyC_within ..) ?_
    generalize P256.multiply E (R.multiply E Rh) _ = R'
    generalize (hashBP E L' R').1 = x
    refine .lift (fun xi _ => ?_) (by omega)
    refine .step (vectorScalarExpC_res ..) (vectorScalarExpC_within ..) ?_
    refine .step (vectorScalarExpC_res ..) (vectorScalarExpC_within ..) ?_
    have q1 := ecAdd_half (E := E) (a := vectorScalarExp E gL xi) (b := vectorScalarExp E gR x) (m := g.length)
      (by rw [scalarExp_length, scalarExp_length]; exact lg)
    refine .step (vectorECAddC_res ..) (vectorECAddC_within ..) ?_
    generalize (vectorECAdd E (vectorScalarExp E gL xi) (vectorScalarExp E gR x)).getD [] = g' at q1 ⊢
    refine .step (vectorScalarExpC_res ..) (vectorScalarExpC_within ..) ?_
    refine .step (vectorScalarExpC_res ..) (vectorScalarExpC_within ..) ?_
    have q2 := ecAdd_half (E := E) (a := vectorScalarExp E hL x) (b := vectorScalarExp E hR xi) (m := h.length)
      (by rw [scalarExp_length, scalarExp_length]; exact lh)
    refine .step (vectorECAddC_res ..) (vectorECAddC_within ..) ?_
    generalize (vectorECAdd E (vectorScalarExp E hL x) (vectorScalarExp E hR xi)).getD [] = h' at q2 ⊢
    refine .lift (fun x2i _ => ?_) (by omega)
    refine .step (P256.scalarMultC_res ..) (scalarMultC_within ..) ?_
    refine .step (P256.multiplyC_res ..) (multiplyC_within ..) ?_
    refine .step (P256.scalarMultC_res ..) (scalarMultC_within ..) ?_
    refine .step (P256.multiplyC_res ..) (multiplyC_within ..) ?_
    generalize P256.multiply E _ _ = P'
    refine .step (vectorScalarMulC_res ..) (vectorScalarMulC_within ..) ?_
    refine .step (vectorScalarMulC_res ..) (vectorScalarMulC_within ..) ?_
    have q3 := vectorAdd_half (a := vectorScalarMul aL x) (b := vectorScalarMul aR xi) (m := a.length)
      (by rw [scalarMul_length, scalarMul_length]; exact la)
    refine .step (vectorAddC_res ..) (vectorAddC_within ..) ?_
    generalize (vectorAdd (vectorScalarMul aL x) (vectorScalarMul aR xi)).getD [] = a' at q3 ⊢
    refine .step (vectorScalarMulC_res ..) (vectorScalarMulC_within ..) ?_
    refine .step (vectorScalarMulC_res ..) (vectorScalarMulC_within ..) ?_
    have q4 := vectorAdd_half (a := vectorScalarMul bL xi) (b := vectorScalarMul bR x) (m := b.length)
      (by rw [scalarMul_length, scalarMul_length]; exact lb)
    refine .step (vectorAddC_res ..) (vectorAddC_within ..) ?_
    generalize (vectorAdd (vectorScalarMul bL xi) (vectorScalarMul bR x)).getD [] = b' at q4 ⊢
    exact .bind (ih' ..) (fun _ _ => .pure (by omega)) fun _ => by omega

theorem proveInnerProductC_within (E : Ext) (a b : List Int) (P : P256) (params : IPParams) (ha : a.length ≠ 0) :
    (proveInnerProductC E a b P params).Within (7 * params.Gg.length + 7 * params.Hh.length + 10 * Nat.log2 a.length + 3)
      (3 * params.Gg.length + 3 * params.Hh.length + 6 * a.length) := by
  rw [proveInnerProductC]
  by_cases h : a.length ≠ b.length
  · rw [if_pos h]
    exact .pure ..
  rw [if_neg h]
  refine Rest.within ?_
  refine .lift (fun _ _ => ?_) (by omega)
  refine .lift (fun _ _ => ?_) (by omega)
  refine .step (P256.scalarMultC_res ..) (scalarMultC_within ..) ?_
  refine .step (P256.scalarMultC_res ..) (scalarMultC_within ..) ?_
  refine .step (P256.multiplyC_res ..) (multiplyC_within ..) ?_
  exact .bind (computeBipC_within _ _ _ _ _ _ _ _ _ _ _ _ ha) (fun _ _ => .pure (by omega)) fun _ => by omega

theorem vectorOp_length {op : Int → Int → Int} {a b : List Int} {n : Nat} (ha : a.length = n) (hb : b.length = n) :
    ((if a.length ≠ b.length then none else some (List.zipWith (fun x y => op x y % ORDER) a b) : Option (List Int)).getD []).length = n := by
  rw [if_neg (by omega), Option.getD_some, List.length_zipWith]
  omega

theorem decompose_size {x u : Int} {n : Nat} {ds : List Int} (h : decompose x u n = .ok ds) : ds.length = n := by
  have := decompose_length h
  simpa using this

theorem powerOf_size {x : Int} {n : Nat} {v : List Int} (h : powerOf x n = .ok v) : v.length = n := by
  rw [powerOf, if_neg (by omega)] at h
  cases h
  rw [powerOfLoop_length, Int.toNat_natCast]

theorem vectorCopy_size {x : Int} {n : Nat} {v : List Int} (h : vectorCopy x n = .ok v) : v.length = n := by
  rw [vectorCopy, if_neg (by omega)] at h
  cases h
  simp

theorem convert_size {a : List Int} {n : Nat} {v : List Int} (h : vectorConvertToBig a n = .ok v) : v.length = n := by
  rw [vectorConvertToBig] at h
  split at h
  · cases h
  · cases h
    rw [List.length_take]
    omega

theorem proveC_within (E : Ext) (rnd : BPRand) (secret : Int) (params : BPParams) (n : Nat) (hN : params.N = n)
    (hG : params.Gg.length = n) (hH : params.Hh.length = n) (h1 : rnd.sL.length = n) (h2 : rnd.sR.length = n) :
    (proveC E rnd secret params).Within (27 * n + 10 * Nat.log2 n + 15) (34 * n) := by
  rw [proveC, hN]
  have hn : (n : Int).toNat = n := Int.toNat_natCast n
  have b1 : ∀ a m : Int, (vectorCopyC a n).Within 0 n := fun a _ => by have := vectorCopyC_within a n; rwa [hn] at this
  have b2 : ∀ a, (powerOfC a n).Within 0 n := fun a => by have := powerOfC_within a n; rwa [hn] at this
  have b3 : ∀ s, (sampleRandomVectorC s n).Within 0 n := fun a => by have := sampleC_within a n; rwa [hn] at this
  have b4 : ∀ a, (vectorConvertToBigC a n).Within 0 n := fun a => by have := vectorConvertToBigC_within a n; rwa [hn] at this
  have b5 : ∀ op a b, a.length = n → (vectorOpC op a b).Within 0 n := fun op a b h => by have := vectorOpC_within op a b; rwa [h] at this
  have b6 : ∀ a b, a.length = n → (vectorScalarMulC a b).Within 0 n := fun a b h => by have := vectorScalarMulC_within a b; rwa [h] at this
  refine Rest.within ?_
  refine .step (commitG1C_res ..) (commitG1C_within ..) ?_
  refine .bind (decomposeC_within ..) (fun aL eL => ?_) fun _ => by clear * - hG hH; omega
  rw [decomposeC_res] at eL
  have lL := decompose_size eL
  have har := computeAR_bits aL (fun v hv => by
    rw [decompose, if_neg (by omega), hn, decomposeLoop_two] at eL
    cases eL
    rw [vec, List.mem_map] at hv
    obtain ⟨i, _, rfl⟩ := hv
    exact bit_zero_or_one _ _)
  have b0 := computeARC_within aL
  rw [lL] at b0
  refine .step (computeARC_res ..) b0 ?_
  have lR : ((computeAR aL).getD []).length = n := by rw [har, Option.getD_some, List.length_map, lL]
  clear har
  generalize (computeAR aL).getD [] = aR at lR ⊢
  refine .bind (commitVectorC_within ..) (fun A _ => ?_) fun _ => by clear * - hG hH; omega
  refine .step (sampleC_res (by omega)) (b3 _) ?_
  refine .step (sampleC_res (by omega)) (b3 _) ?_
  refine .bind (commitVectorBigC_within ..) (fun S _ => ?_) fun _ => by clear * - hG hH; omega
  cases hashBP E A S with | mk y z => ?_
  refine .bind (b1 z 0) (fun vz ez => ?_) fun _ => by clear * - hG hH; omega
  rw [vectorCopyC_res] at ez
  have lz := vectorCopy_size ez
  refine .bind (b2 y) (fun vy ey => ?_) fun _ => by clear * - hG hH; omega
  rw [powerOfC_res] at ey
  have ly := powerOf_size ey
  refine .bind (b4 _) (fun naL en => ?_) fun _ => by clear * - hG hH; omega
  rw [vectorConvertToBigC_res] at en
  have ln := convert_size en
  refine .step (vectorSubC_res ..) (b5 _ _ _ ln) ?_
  have l3 : ((vectorSub naL vz).getD []).length = n := vectorOp_length ln lz
  generalize (vectorSub naL vz).getD [] = aLmvz at l3 ⊢
  refine .step (vectorMulC_res ..) (b5 _ _ _ ly) ?_
  have l4 : ((vectorMul vy rnd.sR).getD []).length = n := vectorOp_length ly h2
  generalize (vectorMul vy rnd.sR).getD [] = ynsR at l4 ⊢
  refine .lift (fun sp1 _ => ?_) (by clear * - hG hH; omega)
  refine .bind (b4 _) (fun naR en' => ?_) fun _ => by clear * - hG hH; omega
  rw [vectorConvertToBigC_res] at en'
  have lnR := convert_size en'
  refine .step (vectorAddC_res ..) (b5 _ _ _ lnR) ?_
  have l5 : ((vectorAdd naR vz).getD []).length = n := vectorOp_length lnR lz
  generalize (vectorAdd naR vz).getD [] = aRzn at l5 ⊢
  refine .step (vectorMulC_res ..) (b5 _ _ _ ly) ?_
  have l6 : ((vectorMul vy aRzn).getD []).length = n := vectorOp_length ly l5
  generalize (vectorMul vy aRzn).getD [] = ynaRzn at l6 ⊢
  refine .bind (b2 2) (fun p2n ep => ?_) fun _ => by clear * - hG hH; omega
  rw [powerOfC_res] at ep
  have lp := powerOf_size ep
  refine .step (vectorScalarMulC_res ..) (b6 _ _ lp) ?_
  have l7 : (vectorScalarMul p2n (z * z)).length = n := (scalarMul_length ..).trans lp
  generalize vectorScalarMul p2n (z * z) = z22n at l7 ⊢
  refine .step (vectorAddC_res ..) (b5 _ _ _ l6) ?_
  refine .lift (fun sp2 _ => ?_) (by clear * - hG hH; omega)
  refine .lift (fun t2 _ => ?_) (by clear * - hG hH; omega)
  refine .step (commitG1C_res ..) (commitG1C_within ..) ?_
  refine .step (commitG1C_res ..) (commitG1C_within ..) ?_
  generalize (hashBP E _ _).1 = x
  refine .step (vectorScalarMulC_res ..) (b6 _ _ h1) ?_
  have l8 : (vectorScalarMul rnd.sL x).length = n := (scalarMul_length ..).trans h1
  generalize vectorScalarMul rnd.sL x = sLx at l8 ⊢
  refine .step (vectorAddC_res ..) (b5 _ _ _ l3) ?_
  have l9 : ((vectorAdd aLmvz sLx).getD []).length = n := vectorOp_length l3 l8
  generalize (vectorAdd aLmvz sLx).getD [] = bl at l9 ⊢
  refine .step (vectorScalarMulC_res ..) (b6 _ _ h2) ?_
  have l10 : (vectorScalarMul rnd.sR x).length = n := (scalarMul_length ..).trans h2
  generalize vectorScalarMul rnd.sR x = sRx at l10 ⊢
  refine .step (vectorAddC_res ..) (b5 _ _ _ l5) ?_
  have l11 : ((vectorAdd aRzn sRx).getD []).length = n := vectorOp_length l5 l10
  generalize (vectorAdd aRzn sRx).getD [] = aRzn' at l11 ⊢
  refine .step (vectorMulC_res ..) (b5 _ _ _ ly) ?_
  have l12 : ((vectorMul vy aRzn').getD []).length = n := vectorOp_length ly l11
  generalize (vectorMul vy aRzn').getD [] = ynaRzn' at l12 ⊢
  refine .step (vectorAddC_res ..) (b5 _ _ _ l12) ?_
  generalize (vectorAdd ynaRzn' z22n).getD [] = br
  refine .lift (fun tprime _ => ?_) (by clear * - hG hH; omega)
  have b7 := updateGeneratorsC_within E params.Hh y n
  rw [hH, hn] at b7
  refine .bind b7 (fun hprime eh => ?_) fun _ => by clear * - hG hH; omega
  rw [updateGeneratorsC_res] at eh
  have hn0 : n ≠ 0 := by
    rintro rfl
    rw [updateGenerators, if_pos (by simp)] at eh
    cases eh
  obtain ⟨lh, _⟩ := updateGenerators_size eh
  rw [hn] at lh
  refine .lift (fun ipp ei => ?_) (by clear * - hG hH; omega)
  cases ipp with
  | none => exact .pure (by clear * - hG hH; omega)
  | some ipp =>
    have f : ipp.Gg = params.Gg ∧ ipp.Hh = hprime := by
      rw [setupInnerProduct] at ei
      split at ei
      · cases ei
      · cases e : mapToGroup E SEEDU with
        | panic => rw [e] at ei; cases ei
        | ok o =>
          cases o with
          | none => rw [e] at ei; cases ei
          | some u => rw [e] at ei; cases ei; exact ⟨rfl, rfl⟩
    have b8 := commitInnerProductC_within E params.Gg hprime bl br
    rw [hG, lh] at b8
    refine .bind b8 (fun commit _ => ?_) fun _ => by clear * - hG hH; omega
    have b9 := proveInnerProductC_within E bl br commit ipp (by clear * - l9 hn0; omega)
    rw [f.1, f.2, hG, lh, l9] at b9
    refine .bind b9 (fun ip _ => ?_) fun _ => by clear * - hG hH; omega
    exact .lift (fun _ _ => .pure (by clear * - hG hH; omega)) (by clear * - hG hH; omega)

end Verif

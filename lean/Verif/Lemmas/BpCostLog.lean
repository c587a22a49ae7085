import Verif.Lemmas.BpCost
import Verif.Lemmas.Bp
import Verif.Spec.BpCost

/-!
# Logs
-/

namespace Verif

theorem scalarLengths_append (l m : List Ev) : scalarLengths (l ++ m) = scalarLengths l ++ scalarLengths m := by
  induction l with
  | nil => rfl
  | cons e l ih => cases e <;> simp [scalarLengths, ih]

theorem curveCalls_append (l m : List Ev) : curveCalls (l ++ m) = curveCalls l + curveCalls m := by
  induction l with
  | nil => simp [curveCalls]
  | cons e l ih => cases e <;> simp only [List.cons_append, curveCalls, ih] <;> omega

theorem requested_append (l m : List Ev) : requested (l ++ m) = requested l + requested m := by
  induction l with
  | nil => simp [requested]
  | cons e l ih => cases e <;> simp only [List.cons_append, requested, ih] <;> omega

namespace Cost

variable {α β : Type}

theorem log_bind_ok {m : Cost α} {a : α} (h : m.res = .ok a) (f : α → Cost β) : (m >>= f).log = m.log ++ (f a).log := by
  show (Cost.bind m f).log = _
  unfold Cost.bind
  rw [h]

theorem log_bind_panic {m : Cost α} (h : m.res = .panic) (f : α → Cost β) : (m >>= f).log = m.log := by
  show (Cost.bind m f).log = _
  unfold Cost.bind
  rw [h]

theorem log_bind_prefix (m : Cost α) (f : α → Cost β) : m.log <+: (m >>= f).log := by
  cases h : m.res with
  | ok a => rw [log_bind_ok h]; exact List.prefix_append _ _
  | panic => rw [log_bind_panic h]

theorem log_make {n : Int} (h : 0 ≤ n) : (Cost.make n).log = [.make n.toNat] := by
  rw [Cost.make, if_neg (by omega)]
  rfl

end Cost

open Cost

theorem scalarMultC_log {E : Ext} {a : P256} {n : Int} (ha : a.isZero = false) (hn : n ≠ 0) :
    (a.scalarMultC E n).log = [.mult (byteLen (n % ORDER).toNat)] := by
  rw [P256.scalarMultC, if_neg (by simp [ha]), if_neg hn]
  rfl

theorem scalarMultC_log_zero {E : Ext} {a : P256} : (a.scalarMultC E 0).log = [] := by
  rw [P256.scalarMultC, if_pos rfl]
  split <;> rfl

theorem multiplyC_lens (E : Ext) (a b : P256) : scalarLengths (a.multiplyC E b).log = [] := by
  rw [P256.multiplyC]
  split
  · rfl
  · split
    · rfl
    · split <;> rfl

theorem addC_lens (a b : P256) : scalarLengths (a.addC b).log = [] := by
  rw [P256.addC]
  split
  · rfl
  · split <;> rfl

theorem scalarBaseMultC_lens (E : Ext) (n : Int) : scalarLengths (P256.scalarBaseMultC E n).log = [] := by
  rw [P256.scalarBaseMultC]
  split <;> rfl

theorem byteLen_one : byteLen ((1 : Int) % ORDER).toNat = 1 := by decide +kernel
theorem byteLen_neg_one : byteLen ((-1 : Int) % ORDER).toNat = 32 := by decide +kernel

theorem bit_succ (v : Int) (i : Nat) : Spec.bit v (i + 1) = Spec.bit (v / 2) i := by
  rw [Spec.bit, Spec.bit, Int.ediv_ediv_of_nonneg (by decide), pow_succ']

/-- Lengths of the scalars in `commitVector`. -/
theorem commitVectorLoopC_lens {E : Ext} {aL aR : List Int} {g h : List P256} : ∀ (fuel i : Nat) (secret : Int) (R : P256),
    (∀ j, j < fuel → aL[i + j]? = some (Spec.bit secret j) ∧ aR[i + j]? = some (Spec.bit secret j - 1) ∧
      ∃ p q, g[i + j]? = some p ∧ h[i + j]? = some q ∧ p.isZero = false ∧ q.isZero = false) →
    scalarLengths (commitVectorLoopC E aL aR g h fuel i R).log = bitLengths secret fuel := by
  intro fuel
  induction fuel with
  | zero => intros; rfl
  | succ fuel ih =>
    intro i secret R hj
    obtain ⟨h1, h2, p, q, h3, h4, h5, h6⟩ := hj 0 (by omega)
    rw [Nat.add_zero] at h1 h2 h3 h4
    have e1 : idx g i = .ok p := by rw [idx, h3]; rfl
    have e2 : idx aL i = .ok (Spec.bit secret 0) := by rw [idx, h1]; rfl
    have e3 : idx h i = .ok q := by rw [idx, h4]; rfl
    have e4 : idx aR i = .ok (Spec.bit secret 0 - 1) := by rw [idx, h2]; rfl
    have ih' := fun R => ih (i + 1) (secret / 2) R fun j hj' => by
      have := hj (j + 1) (by omega)
      rw [show i + 1 + j = i + (j + 1) by omega, ← bit_succ]
      exact this
    rw [commitVectorLoopC, log_bind_ok (a := p) e1, log_bind_ok (a := Spec.bit secret 0) e2,
      log_bind_ok (P256.scalarMultC_res ..), log_bind_ok (a := q) e3, log_bind_ok (a := Spec.bit secret 0 - 1) e4,
      log_bind_ok (P256.scalarMultC_res ..), log_bind_ok (P256.multiplyC_res ..), log_bind_ok (P256.multiplyC_res ..)]
    simp only [scalarLengths_append, multiplyC_lens, List.nil_append, ih']
    have hb : Spec.bit secret 0 = secret % 2 := by simp [Spec.bit]
    rw [bitLengths]
    rcases bit_zero_or_one secret 0 with h0 | h0
    · rw [h0, scalarMultC_log_zero, scalarMultC_log h6 (by decide), show (0 : Int) - 1 = -1 from rfl, byteLen_neg_one,
        if_neg (by omega)]
      rfl
    · rw [h0, show (1 : Int) - 1 = 0 from rfl, scalarMultC_log_zero, scalarMultC_log h5 (by decide), byteLen_one, if_pos (by omega)]
      rfl

theorem bitLengths_length (secret : Int) (n : Nat) : (bitLengths secret n).length = n := by
  induction n generalizing secret with
  | zero => rfl
  | succ n ih => rw [bitLengths, List.length_cons, ih]

theorem bitLengths_inj {n : Nat} : ∀ {s t : Int}, 0 ≤ s → s < 2 ^ n → 0 ≤ t → t < 2 ^ n → bitLengths s n = bitLengths t n → s = t := by
  induction n with
  | zero => intro s t h1 h2 h3 h4 _; rw [pow_zero] at h2 h4; omega
  | succ n ih =>
    intro s t h1 h2 h3 h4 h
    rw [bitLengths, bitLengths] at h
    injection h with ha hb
    have := ih (s := s / 2) (t := t / 2) (by omega) (by rw [pow_succ] at h2; omega) (by omega) (by rw [pow_succ] at h4; omega) hb
    have : s % 2 = t % 2 := by
      have b1 : s % 2 = 0 ∨ s % 2 = 1 := by omega
      have b2 : t % 2 = 0 ∨ t % 2 = 1 := by omega
      rcases b1 with b1 | b1 <;> rcases b2 with b2 | b2 <;> rw [b1, b2] at ha <;> revert ha <;> simp [b1, b2]
    omega

end Verif

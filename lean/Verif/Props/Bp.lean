import Verif.Lemmas.BpRepeat
import Verif.Props.Arith
import Verif.Props.Bip

/-!
# Properties of the range proof

C10 and C56 setup, C23 (second part) and C59 repeated verification, C24 honest range proofs, C25-C27
generic ranges, C28 forgery, C29 challenges, C31 the commitment check.
-/

namespace Verif
open Finset

/-- The parameters consist of points: `n` generators of each kind and `H`. -/
structure Generators (params : BPParams) (n : Nat) (G Hh : Nat → Secp) (H : Secp) : Prop where
  N : params.N = n
  Gg : Reps params.Gg (vec n G)
  Hh : Reps params.Hh (vec n Hh)
  H : Rep params.H H

/-- No call of `P256.Add` with operands outside the pairs on which it is the group law (`AddOk`)
in `CommitG1` for `T1` and `T2` in `Prove`, and for `Tprime` and `lP` in `Verify`. -/
structure NoExceptionalAdd (E : Ext) (rnd : BPRand) (secret : Int) (proof : BPProof) (n : Nat)
    (G Hh : Nat → Secp) (H : Secp) : Prop where
  T1 : ∀ y z : Fn, y = (hashBP E proof.A proof.S).1 → z = (hashBP E proof.A proof.S).2 →
    AddOk (Spec.t1 n secret y z (fun i => (rnd.sL.getD i 0 : Fn)) (fun i => (rnd.sR.getD i 0 : Fn)) • secpG)
      ((rnd.tau1 : Fn) • H)
  T2 : ∀ y : Fn, y = (hashBP E proof.A proof.S).1 →
    AddOk (Spec.t2 n y (fun i => (rnd.sL.getD i 0 : Fn)) (fun i => (rnd.sR.getD i 0 : Fn)) • secpG)
      ((rnd.tau2 : Fn) • H)
  lhs : AddOk ((proof.Tprime : Fn) • secpG) ((proof.Taux : Fn) • H)
  lP : ∀ (A S : Secp) (x y z : Fn), Rep proof.A A → Rep proof.S S → x = (hashBP E proof.T1 proof.T2).1 →
    y = (hashBP E proof.A proof.S).1 → z = (hashBP E proof.A proof.S).2 →
    AddOk A (x • S) ∧ AddOk (A + x • S) (-(z • ∑ i ∈ range n, G i)) ∧
    AddOk (A + x • S + -(z • ∑ i ∈ range n, G i))
      (∑ i ∈ range n, (y ^ i * z + 2 ^ i * z ^ 2) • (y⁻¹ ^ i • Hh i))

theorem order_dvd_two_pow_mul (n : Nat) (a : Int) : ORDER ∣ 2 ^ n * a ↔ ORDER ∣ a := by
  rw [← fn_eq_zero, ← fn_eq_zero, Int.cast_mul, mul_eq_zero]
  refine or_iff_right ?_
  rw [Int.cast_pow]
  exact pow_ne_zero _ (by decide +kernel)

/-- C24: verdict on the output of `Prove`.  The secret may be any integer. -/
theorem C24_verdict {E : Ext} (hE : E.Ok) {rnd : BPRand} {secret : Int} {params : BPParams} {n k : Nat}
    (hk : n = 2 ^ k) {G Hh : Nat → Secp} {H : Secp} (hgen : Generators params n G Hh H)
    (lsL : rnd.sL.length = n) (lsR : rnd.sR.length = n)
    {proof : BPProof} (hp : prove E rnd secret params = .ok (some proof))
    (hz : ¬ ORDER ∣ (hashBP E proof.A proof.S).2)
    (hV : AddOk ((secret : Fn) • secpG) ((rnd.gamma : Fn) • H))
    (hadd : NoExceptionalAdd E rnd secret proof n G Hh H) :
    ∃ v P', bpVerify E proof = .ok (v, P') ∧ (v = true ↔ ORDER ∣ secret / 2 ^ n) := by
  obtain ⟨x, y, z, h⟩ := prove_spec hE hk hgen.N hgen.Gg hgen.Hh hgen.H (castL_eq_vec _ lsL) (castL_eq_vec _ lsR) hp
  have ex := h.hx
  have ey : y = (hashBP E proof.A proof.S).1 := by rw [← h.hyz]
  have ez : z = (hashBP E proof.A proof.S).2 := by rw [← h.hyz]
  obtain ⟨k4, k5, k6⟩ := hadd.lP _ _ x y z h.A h.S (by rw [ex]) (by rw [ey]) (by rw [ez])
  have hVr := h.V
  rw [addOf_eq hV] at hVr
  obtain ⟨v, P', h1, h2⟩ := honest_verdict hE (by rw [hk]; exact Nat.one_le_two_pow) hgen.N hgen.Gg hgen.Hh hgen.H h
    h.A h.S hVr (hadd.T1 _ _ (by rw [ey]) (by rw [ez])) (hadd.T2 _ (by rw [ey])) hadd.lhs k4 k5 k6
  refine ⟨v, P', h1, h2.trans ?_⟩
  rw [← ez] at hz
  have hz' : ((z : Fn) ^ 2) ≠ 0 := pow_ne_zero _ (by rwa [Ne, fn_eq_zero])
  rw [(smul_right_injective Secp hz').eq_iff, add_left_inj, ← sub_eq_zero, ← sub_smul, smul_eq_zero,
    or_iff_left secpG_ne_zero, ← Int.cast_sub, fn_eq_zero]
  have := Int.emod_add_mul_ediv secret (2 ^ n)
  rw [show secret - secret % 2 ^ n = 2 ^ n * (secret / 2 ^ n) by omega, order_dvd_two_pow_mul]

/-- C24: secrets in `[0, 2^n)` are accepted. -/
theorem C24_in_range {E : Ext} (hE : E.Ok) {rnd : BPRand} {secret : Int} {params : BPParams} {n k : Nat}
    (hk : n = 2 ^ k) {G Hh : Nat → Secp} {H : Secp} (hgen : Generators params n G Hh H)
    (lsL : rnd.sL.length = n) (lsR : rnd.sR.length = n)
    {proof : BPProof} (hp : prove E rnd secret params = .ok (some proof))
    (hz : ¬ ORDER ∣ (hashBP E proof.A proof.S).2)
    (hV : AddOk ((secret : Fn) • secpG) ((rnd.gamma : Fn) • H))
    (hadd : NoExceptionalAdd E rnd secret proof n G Hh H) (h0 : 0 ≤ secret) (h1 : secret < 2 ^ n) :
    ∃ P', bpVerify E proof = .ok (true, P') := by
  obtain ⟨v, P', e1, e2⟩ := C24_verdict hE hk hgen lsL lsR hp hz hV hadd
  have : v = true := e2.2 (by rw [Int.ediv_eq_zero_of_lt h0 h1]; exact dvd_zero _)
  exact ⟨P', by rw [e1, this]⟩

/-- C24: other secrets `-2^n·(ORDER-1) ≤ secret < 2^n·ORDER` are rejected. -/
theorem C24_out_of_range {E : Ext} (hE : E.Ok) {rnd : BPRand} {secret : Int} {params : BPParams} {n k : Nat}
    (hk : n = 2 ^ k) {G Hh : Nat → Secp} {H : Secp} (hgen : Generators params n G Hh H)
    (lsL : rnd.sL.length = n) (lsR : rnd.sR.length = n)
    {proof : BPProof} (hp : prove E rnd secret params = .ok (some proof))
    (hz : ¬ ORDER ∣ (hashBP E proof.A proof.S).2)
    (hV : AddOk ((secret : Fn) • secpG) ((rnd.gamma : Fn) • H))
    (hadd : NoExceptionalAdd E rnd secret proof n G Hh H) (h : ¬ (0 ≤ secret ∧ secret < 2 ^ n))
    (h0 : -(2 ^ n * (ORDER - 1)) ≤ secret) (h1 : secret < 2 ^ n * ORDER) :
    ∃ P', bpVerify E proof = .ok (false, P') := by
  obtain ⟨v, P', e1, e2⟩ := C24_verdict hE hk hgen lsL lsR hp hz hV hadd
  have h2 : (0 : Int) < 2 ^ n := by positivity
  have q1 : secret / 2 ^ n < ORDER := Int.ediv_lt_of_lt_mul h2 (by rw [mul_comm]; exact h1)
  have q0 : -(ORDER - 1) ≤ secret / 2 ^ n := Int.le_ediv_of_mul_le h2 (by linarith)
  have hv : v = false := by
    rw [← Bool.not_eq_true, e2]
    rintro ⟨c, hc⟩
    have hO : 0 < ORDER := by decide
    have c0 : c = 0 := by
      rw [hc] at q0 q1
      have : c < 1 := by nlinarith
      have : -1 < c := by nlinarith
      omega
    rw [c0, mul_zero] at hc
    have := Int.emod_add_mul_ediv secret (2 ^ n)
    rw [hc, mul_zero, add_zero] at this
    exact h ⟨this ▸ Int.emod_nonneg _ h2.ne', this ▸ Int.emod_lt_of_pos _ h2⟩
  exact ⟨P', by rw [e1, hv]⟩

/-- C24: the exceptional addition matters: with blinding factor `γ ≡ 0` (and the other conditions
as before) `V` is infinity, and an in-range secret that is not a multiple of `ORDER` is rejected. -/
theorem C24_gamma_zero {E : Ext} (hE : E.Ok) {rnd : BPRand} {secret : Int} {params : BPParams} {n k : Nat}
    (hk : n = 2 ^ k) {G Hh : Nat → Secp} {H : Secp} (hgen : Generators params n G Hh H)
    (lsL : rnd.sL.length = n) (lsR : rnd.sR.length = n)
    {proof : BPProof} (hp : prove E rnd secret params = .ok (some proof))
    (hz : ¬ ORDER ∣ (hashBP E proof.A proof.S).2) (hg : ORDER ∣ rnd.gamma) (hs : ¬ ORDER ∣ secret)
    (hadd : NoExceptionalAdd E rnd secret proof n G Hh H) (h0 : 0 ≤ secret) (h1 : secret < 2 ^ n) :
    ∃ P', bpVerify E proof = .ok (false, P') := by
  obtain ⟨x, y, z, h⟩ := prove_spec hE hk hgen.N hgen.Gg hgen.Hh hgen.H (castL_eq_vec _ lsL) (castL_eq_vec _ lsR) hp
  have ex := h.hx
  have ey : y = (hashBP E proof.A proof.S).1 := by rw [← h.hyz]
  have ez : z = (hashBP E proof.A proof.S).2 := by rw [← h.hyz]
  obtain ⟨k4, k5, k6⟩ := hadd.lP _ _ x y z h.A h.S (by rw [ex]) (by rw [ey]) (by rw [ez])
  have hVr := h.V
  have hg' : (rnd.gamma : Fn) • H = 0 := by rw [(fn_eq_zero _).2 hg, zmod_zero_smul]
  have hsG : (secret : Fn) • secpG ≠ 0 := by
    rw [Ne, smul_eq_zero, or_iff_left secpG_ne_zero, fn_eq_zero]; exact hs
  rw [addOf, if_neg hsG, if_pos hg'] at hVr
  obtain ⟨v, P', e1, e2⟩ := honest_verdict hE (by rw [hk]; exact Nat.one_le_two_pow) hgen.N hgen.Gg hgen.Hh hgen.H h
    h.A h.S hVr (hadd.T1 _ _ (by rw [ey]) (by rw [ez])) (hadd.T2 _ (by rw [ey])) hadd.lhs k4 k5 k6
  have hv : v = false := by
    rw [← Bool.not_eq_true, e2]
    rw [← ez] at hz
    have hz' : ((z : Fn) ^ 2) ≠ 0 := pow_ne_zero _ (by rwa [Ne, fn_eq_zero])
    rw [(smul_right_injective Secp hz').eq_iff, hg', add_zero, Int.emod_eq_of_lt h0 h1]
    exact fun h => hsG h.symm
  exact ⟨P', by rw [e1, hv]⟩

/-- C24: `Prove` returns a proof (no panic, no error) for every secret, if no hash value is a
multiple of `ORDER` and `MapToGroup(SEEDU)` succeeds. -/
theorem C24_returns {E : Ext} (hE : E.Ok) {rnd : BPRand} {secret : Int} {params : BPParams} {n k : Nat}
    (hk : n = 2 ^ k) {G Hh : Nat → Secp} {H : Secp} (hgen : Generators params n G Hh H)
    (lsL : rnd.sL.length = n) (lsR : rnd.sR.length = n)
    (hinv : ∀ s, ¬ ORDER ∣ ((setBytes (E.sha256 s) : Nat) : Int))
    (hu : ∃ u, mapToGroup E SEEDU = .ok (some u)) :
    ∃ proof, prove E rnd secret params = .ok (some proof) := by
  obtain ⟨u, hu⟩ := hu
  exact prove_returns hE hk hgen.N hgen.Gg hgen.Hh hgen.H (castL_eq_vec _ lsL) (castL_eq_vec _ lsR) hinv hu

/-! ### A concrete instance -/

/-- `a·G` as a Go value. -/
noncomputable def mulG (a : Fn) : P256 := canonP (a • secpG)

/-- Parameters for two bits: `g = (G, 10·G)`, `h = (2·G, 3·G)`, `H = 1000·G`. -/
noncomputable def exBP : BPParams :=
  { N := 2, G := mulG 1, H := mulG 1000, Gg := [mulG 1, mulG 10], Hh := [mulG 2, mulG 3] }

noncomputable def exGg (i : Nat) : Secp := (if i = 0 then 1 else 10 : Fn) • secpG
noncomputable def exHh (i : Nat) : Secp := (if i = 0 then 2 else 3 : Fn) • secpG

/-- Randomness of the instance. -/
def exRand (gamma : Int) : BPRand :=
  { gamma := gamma, alpha := 1, sL := [1, 0], sR := [1, 0], rho := 2, tau1 := 1, tau2 := 1 }

theorem exBP_generators : Generators exBP 2 exGg exHh ((1000 : Fn) • secpG) where
  N := rfl
  Gg := .cons (rep_canonP _) (.cons (rep_canonP _) .nil)
  Hh := .cons (rep_canonP _) (.cons (rep_canonP _) .nil)
  H := rep_canonP _

theorem addOk_smul {a b : Fn} (h : a = 0 ∨ (b ≠ 0 ∧ a ≠ b)) : AddOk (a • secpG) (b • secpG) := by
  rcases h with h | ⟨h1, h2⟩
  · left; rw [h, zmod_zero_smul]
  · right
    refine ⟨?_, ?_⟩
    · rw [Ne, smul_eq_zero, or_iff_left secpG_ne_zero]; exact h1
    · rw [Ne, ← sub_eq_zero, ← sub_smul, smul_eq_zero, or_iff_left secpG_ne_zero, sub_eq_zero]; exact h2

theorem hashBP_hashOne (a s : P256) : hashBP (idealExt hashOne) a s = (1, 1) := by
  have h : setBytes (List.replicate 31 0 ++ [1]) = 1 := by decide +kernel
  simp only [hashBP, idealExt, hashOne, h]
  rfl

theorem mapToGroup_hashOne (m : List UInt8) : ∃ u, mapToGroup (idealExt hashOne) m = .ok (some u) := by
  have hE := idealExt_ok hashOne (fun _ => rfl)
  have h1 : Spec.twos (hashOne []) % secpP = 1 := by decide +kernel
  rcases mapToGroupLoop_spec hE m 256 0 (fun _ => 1) (fun _ => h1.symm) with ⟨_, h⟩ | ⟨j, p', _, _, h, _⟩
  · exfalso
    refine h 0 le_rfl (by norm_num)
      ⟨29896722852569046015560700294576055776214335159245303116488692907525646231534, ?_⟩
    decide +kernel
  · exact ⟨p', h⟩

/-- The instance satisfies the conditions of C24 for every secret `1 (mod 4)`. -/
theorem exBP_honest (gamma secret : Int) (hg : gamma = 0 ∨ gamma = 1) (hs : secret % 4 = 1) :
    ∃ proof, prove (idealExt hashOne) (exRand gamma) secret exBP = .ok (some proof) ∧
      NoExceptionalAdd (idealExt hashOne) (exRand gamma) secret proof 2 exGg exHh ((1000 : Fn) • secpG) := by
  have hE := idealExt_ok hashOne (fun _ => rfl)
  obtain ⟨proof, hp⟩ := C24_returns hE (rnd := exRand gamma) (secret := secret) (n := 2) (k := 1) rfl exBP_generators rfl rfl
    hashOne_order (mapToGroup_hashOne _)
  obtain ⟨x, y, z, h⟩ := prove_spec hE (n := 2) (k := 1) rfl exBP_generators.N exBP_generators.Gg exBP_generators.Hh
    exBP_generators.H (castL_eq_vec (exRand gamma).sL rfl) (castL_eq_vec (exRand gamma).sR rfl) hp
  have hx := h.hx
  have hyz := h.hyz
  rw [hashBP_hashOne] at hx hyz
  injection hyz with hy hz
  have b0 : Spec.bit secret 0 = 1 := by simp [Spec.bit]; omega
  have b1 : Spec.bit secret 1 = 0 := by simp [Spec.bit]; omega
  refine ⟨proof, hp, ⟨?_, ?_, ?_, ?_⟩⟩
  · intro y z ey ez
    rw [hashBP_hashOne] at ey ez
    rw [ey, ez, smul_smul]
    refine addOk_smul ?_
    simp only [Spec.t1, Spec.l0, Spec.r0, sum_range_succ, sum_range_zero, b0, b1, exRand]
    decide +kernel
  · intro y ey
    rw [hashBP_hashOne] at ey
    rw [ey, smul_smul]
    refine addOk_smul ?_
    simp only [Spec.t2, sum_range_succ, sum_range_zero, exRand]
    decide +kernel
  · rw [h.Tprime, h.Taux, hx, hy, hz, smul_smul]
    refine addOk_smul ?_
    simp only [Spec.l0, Spec.r0, sum_range_succ, sum_range_zero, b0, b1, exRand]
    rcases hg with rfl | rfl <;> decide +kernel
  · intro A S x y z hA hS ex ey ez
    rw [hashBP_hashOne] at ex ey ez
    rw [Rep.unique hA h.A, Rep.unique hS h.S, ex, ey, ez]
    simp only [sum_range_succ, sum_range_zero, b0, b1, exRand, exGg, exHh, smul_smul, ← add_smul, ← smul_add,
      ← neg_smul, zero_add]
    refine ⟨addOk_smul ?_, addOk_smul ?_, addOk_smul ?_⟩ <;> decide +kernel

/-- The honest proof for secret 1 is accepted, that for secret 5 (not in `[0,4)`) and that with
blinding factor 0 are rejected. -/
example : ∃ (E : Ext) (p1 p5 p0 : BPProof) (P1 P5 P0 : P256), E.Ok ∧
    prove E (exRand 1) 1 exBP = .ok (some p1) ∧ bpVerify E p1 = .ok (true, P1) ∧
    prove E (exRand 1) 5 exBP = .ok (some p5) ∧ bpVerify E p5 = .ok (false, P5) ∧
    prove E (exRand 0) 1 exBP = .ok (some p0) ∧ bpVerify E p0 = .ok (false, P0) := by
  have hE := idealExt_ok hashOne (fun _ => rfl)
  have hz : ∀ p : BPProof, ¬ ORDER ∣ (hashBP (idealExt hashOne) p.A p.S).2 := by
    intro p; rw [hashBP_hashOne]; decide
  have hV : ∀ s : Int, (s = 1 ∨ s = 5) → AddOk ((s : Fn) • secpG) (((exRand 1).gamma : Fn) • (1000 : Fn) • secpG) := by
    rintro s hs
    rw [smul_smul]
    refine addOk_smul ?_
    rcases hs with rfl | rfl <;> simp only [exRand] <;> decide +kernel
  obtain ⟨p1, h1, a1⟩ := exBP_honest 1 1 (Or.inr rfl) rfl
  obtain ⟨p5, h5, a5⟩ := exBP_honest 1 5 (Or.inr rfl) rfl
  obtain ⟨p0, h0, a0⟩ := exBP_honest 0 1 (Or.inl rfl) rfl
  obtain ⟨P1, v1⟩ := C24_in_range hE (k := 1) rfl exBP_generators rfl rfl h1 (hz _) (hV 1 (by simp)) a1 (by decide)
    (by decide)
  obtain ⟨P5, v5⟩ := C24_out_of_range hE (k := 1) rfl exBP_generators rfl rfl h5 (hz _) (hV 5 (by simp)) a5
    (by decide) (by decide) (by decide)
  obtain ⟨P0, v0⟩ := C24_gamma_zero hE (k := 1) rfl exBP_generators rfl rfl h0 (hz _) (by decide) (by decide)
    a0 (by decide) (by decide)
  exact ⟨_, p1, p5, p0, P1, P5, P0, hE, h1, v1, h5, v5, h0, v0⟩

/-! ### Repeated verification -/

/-- C23 for range proofs: on an accepted proof object whose inner-product proof stores a finite `P`,
successive calls of `BulletProof.Verify` return true, false, true, false, … -/
theorem C23_bulletproof_alternates {E : Ext} (hE : E.Ok) {proof : BPProof} (hp : proof.IP.WellFormed)
    (hfin : proof.IP.Params.P.isZero = false) {P' : P256} (hv : bpVerify E proof = .ok (true, P')) (k : Nat) :
    bpVerifyMany E k proof = .ok ((List.range k).map (fun i => decide (i % 2 = 0))) := by
  rw [bpVerifyMany_state k proof true (proofState_of_accepted hE hp hfin hv)]
  simp

/-- C59: on an accepted generic proof, successive calls of `ProofBPRP.Verify` return true, false,
false, false, true, false, false, false, … -/
theorem C59_generic_period {E : Ext} (hE : E.Ok) {proof : BPRPProof}
    (hp1 : proof.P1.IP.WellFormed) (hp2 : proof.P2.IP.WellFormed)
    (hfin1 : proof.P1.IP.Params.P.isZero = false) (hfin2 : proof.P2.IP.Params.P.isZero = false)
    {p' : BPRPProof} (hv : bprpVerify E proof = .ok (true, p')) (k : Nat) :
    bprpVerifyMany E k proof = .ok ((List.range k).map (fun i => decide (i % 4 = 0))) := by
  rw [bprpVerify] at hv
  cases h1 : bpVerify E proof.P1 with
  | panic => rw [h1] at hv; cases hv
  | ok r1 =>
    obtain ⟨v1, P1⟩ := r1
    rw [h1] at hv
    simp only [Res.ok_bind] at hv
    cases v1 with
    | false => simp at hv
    | true =>
      simp only [Bool.not_true, Bool.false_eq_true, if_false] at hv
      cases h2 : bpVerify E proof.P2 with
      | panic => rw [h2] at hv; cases hv
      | ok r2 =>
        obtain ⟨v2, P2⟩ := r2
        rw [h2] at hv
        simp only [Res.ok_bind, Res.ok.injEq, Prod.mk.injEq] at hv
        obtain ⟨rfl, _⟩ := hv
        rw [bprpVerifyMany_state k proof true true (proofState_of_accepted hE hp1 hfin1 h1)
          (proofState_of_accepted hE hp2 hfin2 h2)]
        simp [phase]

/-! ### Generic ranges -/

/-- The conditions of C24 for one half of a generic proof. -/
structure HalfOk (E : Ext) (rnd : BPRand) (secret : Int) (params : BPParams) (proof : BPProof) : Prop where
  ex : ∃ (G Hh : Nat → Secp) (H : Secp), Generators params 32 G Hh H ∧
    AddOk ((secret : Fn) • secpG) ((rnd.gamma : Fn) • H) ∧
    NoExceptionalAdd E rnd secret proof 32 G Hh H
  sL : rnd.sL.length = 32
  sR : rnd.sR.length = 32
  z : ¬ ORDER ∣ (hashBP E proof.A proof.S).2

theorem HalfOk.verdict {E : Ext} (hE : E.Ok) {rnd : BPRand} {secret : Int} {params : BPParams} {proof : BPProof}
    (h : HalfOk E rnd secret params proof) (hp : prove E rnd secret params = .ok (some proof))
    (h0 : -2 ^ 66 < secret) (h1 : secret < 2 ^ 66) :
    ∃ v P', bpVerify E proof = .ok (v, P') ∧ (v = true ↔ 0 ≤ secret ∧ secret < 2 ^ 32) := by
  obtain ⟨⟨G, Hh, H, hg, hV, hadd⟩, hsL, hsR, hz⟩ := h
  by_cases hr : 0 ≤ secret ∧ secret < 2 ^ 32
  · obtain ⟨P', e⟩ := C24_in_range hE (k := 5) rfl hg hsL hsR hp hz hV hadd hr.1 hr.2
    exact ⟨true, P', e, by simp only [true_iff]; exact hr⟩
  · have b1 : -(2 ^ 32 * (ORDER - 1)) ≤ secret := by
      have : -(2 ^ 32 * (ORDER - 1)) ≤ -2 ^ 66 := by decide +kernel
      omega
    have b2 : secret < 2 ^ 32 * ORDER := by
      have : (2 : Int) ^ 66 ≤ 2 ^ 32 * ORDER := by decide +kernel
      omega
    obtain ⟨P', e⟩ := C24_out_of_range hE (k := 5) rfl hg hsL hsR hp hz hV hadd hr b1 b2
    exact ⟨false, P', e, by simp only [Bool.false_eq_true, false_iff]; exact hr⟩

/-- `ProofBPRP.Verify` is the conjunction of the verdicts on the halves (when both return). -/
theorem bprpVerify_conj {E : Ext} {p1 p2 : BPProof} {v1 v2 : Bool} {P1 P2 : P256}
    (h1 : bpVerify E p1 = .ok (v1, P1)) (h2 : bpVerify E p2 = .ok (v2, P2)) :
    ∃ p', bprpVerify E ⟨p1, p2⟩ = .ok (v1 && v2, p') := by
  rw [bprpVerify, h1]
  cases v1
  · exact ⟨_, rfl⟩
  · simp only [Res.ok_bind, h2, Bool.not_true]
    exact ⟨_, rfl⟩

theorem proveGeneric_halves {E : Ext} {r1 r2 : BPRand} {x : Int} {params : BPRP} {proof : BPRPProof}
    (hp : proveGeneric E r1 r2 x params = .ok (some proof)) :
    prove E r1 (x - params.B + 2 ^ 32) params.BP1 = .ok (some proof.P1) ∧
    prove E r2 (x - params.A) params.BP2 = .ok (some proof.P2) := by
  simp only [proveGeneric, MAX_RANGE_END] at hp
  norm_num
  cases h1 : prove E r1 (x - params.B + 4294967296) params.BP1 with
  | panic => rw [h1] at hp; cases hp
  | ok o =>
    rw [h1] at hp
    cases o with
    | none => cases hp
    | some p1 =>
      simp only [Res.ok_bind] at hp
      cases h2 : prove E r2 (x - params.A) params.BP2 with
      | panic => rw [h2] at hp; cases hp
      | ok o =>
        rw [h2] at hp
        cases o with
        | none => cases hp
        | some p2 =>
          simp only [Res.ok_bind, Res.ok.injEq, Option.some.injEq] at hp
          rw [← hp]
          exact ⟨rfl, rfl⟩

/-- C25: verdict on the output of `ProveGeneric`. -/
theorem C25_generic_verdict {E : Ext} (hE : E.Ok) {r1 r2 : BPRand} {x : Int} {params : BPRP} {proof : BPRPProof}
    (hp : proveGeneric E r1 r2 x params = .ok (some proof))
    (hx : |x| < 2 ^ 64) (hA : |params.A| < 2 ^ 64) (hB : |params.B| < 2 ^ 64)
    (h1 : HalfOk E r1 (x - params.B + 2 ^ 32) params.BP1 proof.P1)
    (h2 : HalfOk E r2 (x - params.A) params.BP2 proof.P2) :
    ∃ v p', bprpVerify E proof = .ok (v, p') ∧
      (v = true ↔ max params.A (params.B - 2 ^ 32) ≤ x ∧ x < min params.B (params.A + 2 ^ 32)) := by
  obtain ⟨e1, e2⟩ := proveGeneric_halves hp
  rw [abs_lt] at hx hA hB
  obtain ⟨v1, P1, f1, g1⟩ := h1.verdict hE e1 (by omega) (by omega)
  obtain ⟨v2, P2, f2, g2⟩ := h2.verdict hE e2 (by omega) (by omega)
  obtain ⟨p', f⟩ := bprpVerify_conj f1 f2
  refine ⟨v1 && v2, p', f, ?_⟩
  rw [Bool.and_eq_true_iff, g1, g2, max_le_iff, lt_min_iff]
  omega

/-- C25: the accepted interval is `[A,B)` exactly for widths up to `2^32`. -/
theorem C25_interval (A B : Int) :
    (∀ x, (max A (B - 2 ^ 32) ≤ x ∧ x < min B (A + 2 ^ 32)) ↔ (A ≤ x ∧ x < B)) ↔ B - A ≤ 2 ^ 32 := by
  simp only [max_le_iff, lt_min_iff]
  constructor
  · intro h
    by_contra hc
    have := (h A).2 ⟨le_rfl, by omega⟩
    omega
  · intro h x
    omega

/-- C26: shifting the interval and the secret gives the very same result. -/
theorem C26_shift (E : Ext) (r1 r2 : BPRand) (x d A B : Int) (p1 p2 : BPParams) :
    proveGeneric E r1 r2 (x + d) ⟨A + d, B + d, p1, p2⟩ = proveGeneric E r1 r2 x ⟨A, B, p1, p2⟩ := by
  simp only [proveGeneric, show x + d - (B + d) = x - B by ring, show x + d - (A + d) = x - A by ring]

/-- C26: the proof is a function of the two differences only, so there are different intervals
and secrets with the same proof whenever there is a proof at all. -/
theorem C26_not_bound {E : Ext} {r1 r2 : BPRand} {x A B : Int} {p1 p2 : BPParams} {proof : BPRPProof}
    (hp : proveGeneric E r1 r2 x ⟨A, B, p1, p2⟩ = .ok (some proof)) (y : Int) :
    ∃ A' B', B' - A' = B - A ∧ (y - A' = x - A) ∧ proveGeneric E r1 r2 y ⟨A', B', p1, p2⟩ = .ok (some proof) := by
  refine ⟨A + (y - x), B + (y - x), by ring, by ring, ?_⟩
  have := C26_shift E r1 r2 x (y - x) A B p1 p2
  rw [show x + (y - x) = y by ring] at this
  rw [this, hp]

/-- C27: the verdict on any pair of halves is the conjunction of the verdicts. -/
theorem C27_conjunction {E : Ext} {p1 p2 : BPProof} {v1 v2 : Bool} {P1 P2 : P256}
    (h1 : bpVerify E p1 = .ok (v1, P1)) (h2 : bpVerify E p2 = .ok (v2, P2)) :
    ∃ p', bprpVerify E ⟨p1, p2⟩ = .ok (v1 && v2, p') := bprpVerify_conj h1 h2

/-- C27: the first half of an honest run with secret `x1`, combined with the second half of an
honest run with another secret `x2`, is accepted exactly when `B-2^32 ≤ x1 < B` and
`A ≤ x2 < A+2^32`. -/
theorem C27_mixed {E : Ext} (hE : E.Ok) {r1 r2 r1' r2' : BPRand} {x1 x2 : Int} {params : BPRP}
    {p q : BPRPProof} (hp : proveGeneric E r1 r2 x1 params = .ok (some p))
    (hq : proveGeneric E r1' r2' x2 params = .ok (some q))
    (hx1 : |x1| < 2 ^ 64) (hx2 : |x2| < 2 ^ 64) (hA : |params.A| < 2 ^ 64) (hB : |params.B| < 2 ^ 64)
    (h1 : HalfOk E r1 (x1 - params.B + 2 ^ 32) params.BP1 p.P1)
    (h2 : HalfOk E r2' (x2 - params.A) params.BP2 q.P2) :
    ∃ v p', bprpVerify E ⟨p.P1, q.P2⟩ = .ok (v, p') ∧
      (v = true ↔ (params.B - 2 ^ 32 ≤ x1 ∧ x1 < params.B) ∧ (params.A ≤ x2 ∧ x2 < params.A + 2 ^ 32)) := by
  obtain ⟨e1, _⟩ := proveGeneric_halves hp
  obtain ⟨_, e2⟩ := proveGeneric_halves hq
  rw [abs_lt] at hx1 hx2 hA hB
  obtain ⟨v1, P1, f1, g1⟩ := h1.verdict hE e1 (by omega) (by omega)
  obtain ⟨v2, P2, f2, g2⟩ := h2.verdict hE e2 (by omega) (by omega)
  obtain ⟨p', f⟩ := bprpVerify_conj f1 f2
  refine ⟨v1 && v2, p', f, ?_⟩
  rw [Bool.and_eq_true_iff, g1, g2]
  omega

/-- Parameters for 32 bits: `gᵢ = G`, `hᵢ = 2·G`, `H = 10^9·G`. -/
noncomputable def exBP32 : BPParams :=
  { N := 32, G := mulG 1, H := mulG 1000000000, Gg := vec 32 (fun _ => mulG 1), Hh := vec 32 (fun _ => mulG 2) }

/-- Randomness of the 32-bit instance. -/
def exRand32 : BPRand :=
  { gamma := 1, alpha := 1, sL := List.replicate 32 1, sR := List.replicate 32 1, rho := 2, tau1 := 1, tau2 := 1 }

theorem reps_vec {n : Nat} {f : Nat → P256} {g : Nat → Secp} (h : ∀ i, Rep (f i) (g i)) : Reps (vec n f) (vec n g) := by
  rw [vec, vec, Reps, List.forall₂_map_left_iff, List.forall₂_map_right_iff]
  exact List.forall₂_same.2 fun i _ => h i

theorem exBP32_generators : Generators exBP32 32 (fun _ => (1 : Fn) • secpG) (fun _ => (2 : Fn) • secpG)
    ((1000000000 : Fn) • secpG) where
  N := rfl
  Gg := reps_vec fun _ => rep_canonP _
  Hh := reps_vec fun _ => rep_canonP _
  H := rep_canonP _

/-- The scalar form of `AddOk`. -/
abbrev ScalarOk (a b : Fn) : Prop := a = 0 ∨ (b ≠ 0 ∧ a ≠ b)

/-- The conditions of C24 for the 32-bit instance, where all challenges are 1. -/
structure Ex32Ok (secret : Int) : Prop where
  V : ScalarOk secret (((1 : Int) : Fn) * 1000000000)
  T1 : ScalarOk (Spec.t1 32 secret ((1 : Int) : Fn) ((1 : Int) : Fn) (fun i => ((exRand32.sL.getD i 0 : Int) : Fn))
    (fun i => ((exRand32.sR.getD i 0 : Int) : Fn))) (((1 : Int) : Fn) * 1000000000)
  T2 : ScalarOk (Spec.t2 32 ((1 : Int) : Fn) (fun i => ((exRand32.sL.getD i 0 : Int) : Fn))
    (fun i => ((exRand32.sR.getD i 0 : Int) : Fn))) (((1 : Int) : Fn) * 1000000000)
  lhs : ScalarOk (∑ i ∈ range 32, (Spec.l0 secret ((1 : Int) : Fn) i + ((exRand32.sL.getD i 0 : Int) : Fn) * ((1 : Int) : Fn)) *
        (Spec.r0 secret ((1 : Int) : Fn) ((1 : Int) : Fn) i + ((1 : Int) : Fn) ^ i * ((exRand32.sR.getD i 0 : Int) : Fn) * ((1 : Int) : Fn)))
      ((((1 : Int) : Fn) * ((1 : Int) : Fn) ^ 2 + ((1 : Int) : Fn) * ((1 : Int) : Fn) + ((1 : Int) : Fn) ^ 2 * ((1 : Int) : Fn)) * 1000000000)
  l1 : ScalarOk (1000000000 + ∑ i ∈ range 32, ((Spec.bit secret i : Fn) + ((Spec.bit secret i : Fn) - 1) * 2))
    (2000000000 + ∑ i ∈ range 32, (((exRand32.sL.getD i 0 : Int) : Fn) + ((exRand32.sR.getD i 0 : Int) : Fn) * 2))
  l2 : ScalarOk (1000000000 + ∑ i ∈ range 32, ((Spec.bit secret i : Fn) + ((Spec.bit secret i : Fn) - 1) * 2) +
    (2000000000 + ∑ i ∈ range 32, (((exRand32.sL.getD i 0 : Int) : Fn) + ((exRand32.sR.getD i 0 : Int) : Fn) * 2)))
    (-32)
  l3 : ScalarOk (1000000000 + ∑ i ∈ range 32, ((Spec.bit secret i : Fn) + ((Spec.bit secret i : Fn) - 1) * 2) +
    (2000000000 + ∑ i ∈ range 32, (((exRand32.sL.getD i 0 : Int) : Fn) + ((exRand32.sR.getD i 0 : Int) : Fn) * 2)) +
    (-32)) (∑ i ∈ range 32, (1 + 2 ^ i) * 2)

theorem exBP32_honest {secret : Int} (hs : Ex32Ok secret) :
    ∃ proof, prove (idealExt hashOne) exRand32 secret exBP32 = .ok (some proof) ∧
      HalfOk (idealExt hashOne) exRand32 secret exBP32 proof := by
  have hE := idealExt_ok hashOne (fun _ => rfl)
  obtain ⟨proof, hp⟩ := C24_returns hE (rnd := exRand32) (secret := secret) (n := 32) (k := 5) rfl exBP32_generators rfl rfl
    hashOne_order (mapToGroup_hashOne _)
  obtain ⟨x, y, z, h⟩ := prove_spec hE (n := 32) (k := 5) rfl exBP32_generators.N exBP32_generators.Gg exBP32_generators.Hh
    exBP32_generators.H (castL_eq_vec exRand32.sL rfl) (castL_eq_vec exRand32.sR rfl) hp
  have hx := h.hx
  have hyz := h.hyz
  rw [hashBP_hashOne] at hx hyz
  injection hyz with hy hz
  refine ⟨proof, hp, ⟨_, _, _, exBP32_generators, ?_, ?_, ?_, ?_, ?_⟩, rfl, rfl, ?_⟩
  · rw [smul_smul]
    exact addOk_smul hs.V
  · intro y z ey ez
    rw [hashBP_hashOne] at ey ez
    rw [ey, ez, smul_smul]
    exact addOk_smul hs.T1
  · intro y ey
    rw [hashBP_hashOne] at ey
    rw [ey, smul_smul]
    exact addOk_smul hs.T2
  · rw [h.Tprime, h.Taux, hx, hy, hz, smul_smul]
    exact addOk_smul hs.lhs
  · intro A S x y z hA hS ex ey ez
    rw [hashBP_hashOne] at ex ey ez
    have e1 : (exRand32.alpha : Fn) • (1000000000 : Fn) • secpG + ∑ i ∈ range 32, ((Spec.bit secret i : Fn) •
        (1 : Fn) • secpG + ((Spec.bit secret i : Fn) - 1) • (2 : Fn) • secpG) =
        ((1000000000 : Fn) + ∑ i ∈ range 32, ((Spec.bit secret i : Fn) + ((Spec.bit secret i : Fn) - 1) * 2)) • secpG := by
      rw [add_smul, sum_smul]
      simp only [smul_smul, ← add_smul, exRand32, mul_one, Int.cast_one, one_mul]
    have e2 : (exRand32.rho : Fn) • (1000000000 : Fn) • secpG + ∑ i ∈ range 32, (((exRand32.sL.getD i 0 : Int) : Fn) •
        (1 : Fn) • secpG + ((exRand32.sR.getD i 0 : Int) : Fn) • (2 : Fn) • secpG) =
        ((2000000000 : Fn) + ∑ i ∈ range 32, (((exRand32.sL.getD i 0 : Int) : Fn) + ((exRand32.sR.getD i 0 : Int) : Fn) * 2)) • secpG := by
      rw [add_smul, sum_smul]
      simp only [smul_smul, ← add_smul, exRand32, mul_one]
      norm_num
    have e3 : -((((1, 1) : Int × Int).2 : Fn) • ∑ i ∈ range 32, (1 : Fn) • secpG) = (-32 : Fn) • secpG := by
      rw [← sum_smul, smul_smul, ← neg_smul]
      congr 1
    have e4 : ∑ i ∈ range 32, ((((1, 1) : Int × Int).1 : Fn) ^ i * (((1, 1) : Int × Int).2 : Fn) + 2 ^ i * (((1, 1) : Int × Int).2 : Fn) ^ 2) •
        ((((1, 1) : Int × Int).1 : Fn)⁻¹ ^ i • (2 : Fn) • secpG) = (∑ i ∈ range 32, ((1 : Fn) + 2 ^ i) * 2) • secpG := by
      rw [sum_smul]
      refine sum_congr rfl fun i _ => ?_
      simp only [Int.cast_one, one_pow, one_mul, mul_one, inv_one, smul_smul]
    rw [Rep.unique hA h.A, Rep.unique hS h.S, ex, ey, ez, e1, e2, e3, e4, Int.cast_one, one_smul, ← add_smul, ← add_smul]
    exact ⟨addOk_smul hs.l1, addOk_smul hs.l2, addOk_smul hs.l3⟩
  · rw [hashBP_hashOne]; decide

theorem ex32_a : Ex32Ok (50 - 100 + 2 ^ 32) := by constructor <;> decide +kernel
theorem ex32_b : Ex32Ok (50 - 10) := by constructor <;> decide +kernel
theorem ex32_c : Ex32Ok (99 - 100 + 2 ^ 32) := by constructor <;> decide +kernel
theorem ex32_d : Ex32Ok (200 - 150) := by constructor <;> decide +kernel

/-- `50 ∈ [10, 100)` is accepted by the generic proof, and satisfies the hypotheses of C25. -/
example : ∃ (E : Ext) (proof p' : BPRPProof), E.Ok ∧
    proveGeneric E exRand32 exRand32 50 ⟨10, 100, exBP32, exBP32⟩ = .ok (some proof) ∧
    HalfOk E exRand32 (50 - 100 + 2 ^ 32) exBP32 proof.P1 ∧ HalfOk E exRand32 (50 - 10) exBP32 proof.P2 ∧
    bprpVerify E proof = .ok (true, p') := by
  have hE := idealExt_ok hashOne (fun _ => rfl)
  obtain ⟨p1, h1, k1⟩ := exBP32_honest ex32_a
  obtain ⟨p2, h2, k2⟩ := exBP32_honest ex32_b
  have hp : proveGeneric (idealExt hashOne) exRand32 exRand32 50 ⟨10, 100, exBP32, exBP32⟩ = .ok (some ⟨p1, p2⟩) := by
    have h1' : prove (idealExt hashOne) exRand32 (50 - 100 + MAX_RANGE_END) exBP32 = .ok (some p1) := h1
    simp only [proveGeneric, h1', h2, Res.ok_bind]
  obtain ⟨v, p', e1, e2⟩ := C25_generic_verdict hE hp (by decide) (by decide) (by decide) k1 k2
  rw [e2.2 (by decide)] at e1
  exact ⟨_, _, p', hE, hp, k1, k2, e1⟩

/-- The same proof is one of `7` for another interval. -/
example : ∃ (E : Ext) (proof : BPRPProof) (A B : Int), E.Ok ∧
    proveGeneric E exRand32 exRand32 50 ⟨10, 100, exBP32, exBP32⟩ = .ok (some proof) ∧ B - A = 90 ∧ 7 - A = 40 ∧
    proveGeneric E exRand32 exRand32 7 ⟨A, B, exBP32, exBP32⟩ = .ok (some proof) := by
  obtain ⟨p1, h1, -⟩ := exBP32_honest ex32_a
  obtain ⟨p2, h2, -⟩ := exBP32_honest ex32_b
  have hp : proveGeneric (idealExt hashOne) exRand32 exRand32 50 ⟨10, 100, exBP32, exBP32⟩ = .ok (some ⟨p1, p2⟩) := by
    have h1' : prove (idealExt hashOne) exRand32 (50 - 100 + MAX_RANGE_END) exBP32 = .ok (some p1) := h1
    simp only [proveGeneric, h1', h2, Res.ok_bind]
  obtain ⟨A, B, e1, e2, e3⟩ := C26_not_bound hp 7
  exact ⟨_, _, A, B, idealExt_ok hashOne (fun _ => rfl), hp, by omega, by omega, e3⟩

/-- The empty interval `[150, 100)`: halves for the secrets 99 and 200 are accepted together. -/
example : ∃ (E : Ext) (p1 p2 : BPProof) (p' : BPRPProof), E.Ok ∧
    prove E exRand32 (99 - 100 + 2 ^ 32) exBP32 = .ok (some p1) ∧
    prove E exRand32 (200 - 150) exBP32 = .ok (some p2) ∧
    bprpVerify E ⟨p1, p2⟩ = .ok (true, p') := by
  have hE := idealExt_ok hashOne (fun _ => rfl)
  obtain ⟨p1, h1, k1⟩ := exBP32_honest ex32_c
  obtain ⟨p2, h2, k2⟩ := exBP32_honest ex32_d
  obtain ⟨v1, P1, f1, g1⟩ := k1.verdict hE h1 (by decide) (by decide)
  obtain ⟨v2, P2, f2, g2⟩ := k2.verdict hE h2 (by decide) (by decide)
  obtain ⟨p', f⟩ := C27_conjunction f1 f2
  rw [g1.2 (by decide), g2.2 (by decide)] at f
  exact ⟨_, p1, p2, p', hE, h1, h2, f⟩

/-! ### The checks of Verify -/

/-- C29: both challenges of `HashBP` are the same number. -/
theorem C29_challenges_equal (E : Ext) (a s : P256) : (hashBP E a s).1 = (hashBP E a s).2 := rfl

/-- C29: for a 32-byte hash they are below `2^256`. -/
theorem C29_range {E : Ext} (hE : E.Ok) (a s : P256) :
    0 ≤ (hashBP E a s).1 ∧ (hashBP E a s).1 < 2 ^ 256 := by
  rw [hashBP_value]
  refine ⟨Int.natCast_nonneg _, ?_⟩
  have h := unsigned_lt (E.sha256 (decimal a.X ++ decimal a.Y ++ decimal s.X ++ decimal s.Y))
  rw [hE.sha_len, ← setBytes_eq] at h
  have h2 : (256 : Nat) ^ 32 = 2 ^ 256 := by norm_num
  rw [h2] at h
  exact_mod_cast h

/-- C29: so the challenges `y` and `z` of a proof are never independent: in an instance with
SHA-256 replaced by a constant they are both 1. -/
example : hashBP (idealExt hashOne) P256.infinity P256.infinity = (1, 1) := hashBP_hashOne _ _

/-- The points in a proof object. -/
structure ProofPoints (proof : BPProof) (V A S T1 T2 C : Secp) : Prop where
  V : Rep proof.V V
  A : Rep proof.A A
  S : Rep proof.S S
  T1 : Rep proof.T1 T1
  T2 : Rep proof.T2 T2
  Commit : Rep proof.Commit C

/-- C31: exact verdict on every proof object made of points.  Condition (67) holds whenever the
point `lP` is infinity, or equals the right-hand point `H^Mu·Commit` or its inverse. -/
theorem C31_verdict {E : Ext} (hE : E.Ok) {proof : BPProof} {n : Nat} (hn : 1 ≤ n) {G Hh : Nat → Secp}
    {H V A S T1 T2 C : Secp} (hgen : Generators proof.Params n G Hh H) (hpts : ProofPoints proof V A S T1 T2 C)
    {x y z : Int} (hx : x = (hashBP E proof.T1 proof.T2).1) (hyz : (y, z) = hashBP E proof.A proof.S)
    (hy : n = 1 ∨ ¬ ORDER ∣ y) {w : Bool} {P' : P256} (hip : ipVerify E proof.IP = .ok (w, P')) :
    ∃ v, bpVerify E proof = .ok (v, P') ∧
      (v = true ↔
        addOf ((proof.Tprime : Fn) • secpG) ((proof.Taux : Fn) • H) =
          (z : Fn) ^ 2 • V + Spec.delta n (y : Fn) (z : Fn) • secpG + (x : Fn) • T1 + (x : Fn) ^ 2 • T2 ∧
        (let L := lPOf n A S G Hh x y z
         let R := (proof.Mu : Fn) • H + C
         L = 0 ∨ R = L ∨ R = -L) ∧
        w = true) := by
  obtain ⟨c, c1, c2⟩ := bpVerify_exact hE hn hgen.N hgen.Gg hgen.Hh hgen.H hpts.V hpts.A hpts.S hpts.T1 hpts.T2
    hpts.Commit hx hyz hy
  rw [hip] at c1
  refine ⟨c && w, c1, ?_⟩
  rw [Bool.and_eq_true_iff, c2, addOf_neg_eq_zero, and_assoc]

/-- C31: replacing the right-hand point of (67) by its inverse does not change the verdict. -/
theorem C31_sign_blind {E : Ext} (hE : E.Ok) {proof : BPProof} {n : Nat} (hn : 1 ≤ n) {G Hh : Nat → Secp}
    {H V A S T1 T2 C : Secp} (hgen : Generators proof.Params n G Hh H) (hpts : ProofPoints proof V A S T1 T2 C)
    (hy : n = 1 ∨ ¬ ORDER ∣ (hashBP E proof.A proof.S).1) {mu : Int} {commit : P256}
    (hmu : (mu : Fn) • H + proof.Mu • H = 0) (hC : Rep commit (-C)) :
    bpVerify E { proof with Mu := mu, Commit := commit } = bpVerify E proof := by
  obtain ⟨c, c1, c2⟩ := bpVerify_exact hE hn hgen.N hgen.Gg hgen.Hh hgen.H hpts.V hpts.A hpts.S hpts.T1 hpts.T2
    hpts.Commit rfl rfl hy
  obtain ⟨d, d1, d2⟩ := bpVerify_exact hE (proof := { proof with Mu := mu, Commit := commit }) hn hgen.N hgen.Gg
    hgen.Hh hgen.H hpts.V hpts.A hpts.S hpts.T1 hpts.T2 hC rfl rfl hy
  have hcd : c = d := by
    rw [Bool.eq_iff_iff, c2, d2]
    refine and_congr_right fun _ => ?_
    rw [addOf_neg_eq_zero, addOf_neg_eq_zero]
    have : (mu : Fn) • H + -C = -((proof.Mu : Fn) • H + C) := by
      rw [neg_add, add_left_inj, eq_neg_iff_add_eq_zero, ← hmu, zmod_smul_intCast proof.Mu]
    simp only [this]
    refine or_congr_right ?_
    rw [neg_eq_iff_eq_neg, neg_inj, or_comm]
  rw [d1, c1, hcd]

/-- C31: in particular `-Mu` and the negated commitment. -/
theorem C31_negated {E : Ext} (hE : E.Ok) {proof : BPProof} {n : Nat} (hn : 1 ≤ n) {G Hh : Nat → Secp}
    {H V A S T1 T2 C : Secp} (hgen : Generators proof.Params n G Hh H) (hpts : ProofPoints proof V A S T1 T2 C)
    (hy : n = 1 ∨ ¬ ORDER ∣ (hashBP E proof.A proof.S).1) :
    bpVerify E { proof with Mu := -proof.Mu, Commit := P256.neg E proof.Commit proof.Commit } = bpVerify E proof := by
  refine C31_sign_blind hE hn hgen hpts hy ?_ (neg_in_place hE hpts.Commit)
  rw [zmod_smul_intCast, neg_smul, neg_add_cancel]

/-! ### Forgery -/

/-- The proof with `V` multiplied by `G^d` and `Tprime` adjusted. -/
def shiftProof (E : Ext) (proof : BPProof) (d : Int) : BPProof :=
  let z := (hashBP E proof.A proof.S).2
  { proof with V := proof.V.multiply E (P256.scalarBaseMult E d), Tprime := (proof.Tprime + z * z * d) % ORDER }

/-- C28: malleability.  Any accepted proof for a commitment `V` can be turned, without any secret,
into a proof for `V·G^d` for every integer `d`. -/
theorem C28_shift {E : Ext} (hE : E.Ok) {proof : BPProof} {n : Nat} (hn : 1 ≤ n) {G Hh : Nat → Secp}
    {H V A S T1 T2 C : Secp} (hgen : Generators proof.Params n G Hh H) (hpts : ProofPoints proof V A S T1 T2 C)
    (hy : n = 1 ∨ ¬ ORDER ∣ (hashBP E proof.A proof.S).1) {P' : P256} (hv : bpVerify E proof = .ok (true, P'))
    (d : Int) (k1 : AddOk ((proof.Tprime : Fn) • secpG) ((proof.Taux : Fn) • H))
    (k2 : AddOk (((shiftProof E proof d).Tprime : Fn) • secpG) ((proof.Taux : Fn) • H)) :
    bpVerify E (shiftProof E proof d) = .ok (true, P') ∧ Rep (shiftProof E proof d).V (V + (d : Fn) • secpG) := by
  have hV' : Rep (shiftProof E proof d).V (V + (d : Fn) • secpG) :=
    multiply_rep hE hpts.V (scalarBaseMult_fn hE d)
  obtain ⟨c, c1, c2⟩ := bpVerify_exact hE hn hgen.N hgen.Gg hgen.Hh hgen.H hpts.V hpts.A hpts.S hpts.T1 hpts.T2
    hpts.Commit (x := (hashBP E proof.T1 proof.T2).1) (y := (hashBP E proof.A proof.S).1)
    (z := (hashBP E proof.A proof.S).2) rfl rfl hy
  obtain ⟨e, e1, e2⟩ := bpVerify_exact hE (proof := shiftProof E proof d) hn hgen.N hgen.Gg hgen.Hh hgen.H hV' hpts.A
    hpts.S hpts.T1 hpts.T2 hpts.Commit (x := (hashBP E proof.T1 proof.T2).1) (y := (hashBP E proof.A proof.S).1)
    (z := (hashBP E proof.A proof.S).2) rfl rfl hy
  refine ⟨?_, hV'⟩
  have hce : c = e := by
    rw [Bool.eq_iff_iff, c2, e2]
    refine and_congr ?_ Iff.rfl
    rw [addOf_eq k1, show (shiftProof E proof d).Taux = proof.Taux from rfl, addOf_eq k2]
    have : ((shiftProof E proof d).Tprime : Fn) = proof.Tprime + ((hashBP E proof.A proof.S).2 : Fn) ^ 2 * d := by
      simp only [shiftProof, fn_emod]; push_cast; ring
    rw [this, ← sub_eq_zero, ← sub_eq_zero (a := ((proof.Tprime : Fn) + _) • secpG + _)]
    refine Eq.congr ?_ rfl
    module
  rw [e1, ← hce, show (shiftProof E proof d).IP = proof.IP from rfl, ← c1, hv]

/-- A forged proof for the commitment `V = G^v·H^γ`: `A` and `S` are any points, `T1` and `T2` are
infinity, `Commit` is the point `lP` that `Verify` computes, and `IP` is any inner-product
proof. -/
noncomputable def forge (E : Ext) (params : BPParams) (n : Nat) (G Hh : Nat → Secp) (v gamma : Int) (A S : P256)
    (Q R : Secp) (ip : IPProof) (ipp : IPParams) : BPProof :=
  let z := (hashBP E A S).2
  let x := (hashBP E P256.infinity P256.infinity).1
  { V := commitG1 E v gamma params.H, A := A, S := S, T1 := P256.infinity, T2 := P256.infinity,
    Taux := z * z * gamma,
    Mu := 0, Tprime := z * z * v + (z - z * z) * (∑ i ∈ range n, z ^ i) - z * z * z * (2 ^ n - 1), IP := ip,
    Commit := canonP (lPOf n Q R G Hh x z z), Params := params, ParamsIP := ipp }

/-- C28: for every integer `v` and every blinding factor the forged proof is accepted; nothing in
its construction depends on `v` being in the range.  (The two conditions on `Add` say that the
commitment and the left side of (65) are computed correctly.) -/
theorem C28_forgery {E : Ext} (hE : E.Ok) {params : BPParams} {n : Nat} (hn : 1 ≤ n) {G Hh : Nat → Secp} {H : Secp}
    (hgen : Generators params n G Hh H) {A S : P256} {Q R : Secp} (hA : Rep A Q) (hS : Rep S R)
    (hy : n = 1 ∨ ¬ ORDER ∣ (hashBP E A S).1) {ip : IPProof} {P' : P256} (hip : ipVerify E ip = .ok (true, P'))
    (ipp : IPParams) (v gamma : Int)
    (k1 : AddOk ((v : Fn) • secpG) ((gamma : Fn) • H))
    (k2 : AddOk (((forge E params n G Hh v gamma A S Q R ip ipp).Tprime : Fn) • secpG)
      (((forge E params n G Hh v gamma A S Q R ip ipp).Taux : Fn) • H)) :
    let proof := forge E params n G Hh v gamma A S Q R ip ipp
    bpVerify E proof = .ok (true, P') ∧ proof.V = commitG1 E v gamma params.H ∧
      Rep proof.V ((v : Fn) • secpG + (gamma : Fn) • H) ∧ proof.Params = params := by
  intro proof
  have hV : Rep proof.V ((v : Fn) • secpG + (gamma : Fn) • H) := by
    have := commitG1_addOf hE v gamma hgen.H
    rw [addOf_eq k1] at this
    exact this
  refine ⟨?_, rfl, hV, rfl⟩
  obtain ⟨w, w1, w2⟩ := C31_verdict hE (proof := proof) hn hgen
    ⟨hV, hA, hS, rep_infinity, rep_infinity, rep_canonP _⟩ rfl rfl hy hip
  rw [w1, w2.2]
  refine ⟨?_, ?_, rfl⟩
  · have e1 : (proof.Tprime : Fn) = ((hashBP E A S).2 : Fn) ^ 2 * v +
        Spec.delta n (((hashBP E A S).2 : Int) : Fn) (((hashBP E A S).2 : Int) : Fn) := by
      simp only [proof, forge, Spec.delta]; push_cast; ring
    have e2 : (proof.Taux : Fn) = ((hashBP E A S).2 : Fn) ^ 2 * gamma := by
      simp only [proof, forge]; push_cast; ring
    rw [addOf_eq k2, e1, e2, zmod_smul_zero, zmod_smul_zero, add_zero, add_zero]
    show _ = ((hashBP E A S).2 : Fn) ^ 2 • _ + Spec.delta n (((hashBP E A S).2 : Int) : Fn) (((hashBP E A S).2 : Int) : Fn) • secpG
    module
  · right; left
    show (((0 : Int) : Fn)) • H + _ = _
    rw [Int.cast_zero, zmod_zero_smul, zero_add]
    rfl

/-! ### Instances for C23, C28, C31 and C59 -/

/-- The accepted honest proof of the instance, with all its points, and a finite `P` in its
inner-product proof. -/
theorem exBP_accepted : ∃ (proof : BPProof) (P' : P256) (V A S T1 T2 C : Secp),
    bpVerify (idealExt hashOne) proof = .ok (true, P') ∧ proof.Params = exBP ∧
    ProofPoints proof V A S T1 T2 C ∧ proof.IP.WellFormed ∧
    (∃ Q, ipVerify (idealExt hashOne) proof.IP = .ok (true, Q)) ∧ (proof.Tprime : Fn) = 1 ∧ (proof.Taux : Fn) = 3 := by
  have hE := idealExt_ok hashOne (fun _ => rfl)
  obtain ⟨p1, h1, a1⟩ := exBP_honest 1 1 (Or.inr rfl) rfl
  have hz : ¬ ORDER ∣ (hashBP (idealExt hashOne) p1.A p1.S).2 := by rw [hashBP_hashOne]; decide
  have hV : AddOk (((1 : Int) : Fn) • secpG) (((exRand 1).gamma : Fn) • (1000 : Fn) • secpG) := by
    rw [smul_smul]
    refine addOk_smul ?_
    simp only [exRand]; decide +kernel
  obtain ⟨P1, v1⟩ := C24_in_range hE (k := 1) rfl exBP_generators rfl rfl h1 hz hV a1 (by decide) (by decide)
  obtain ⟨x, y, z, h⟩ := prove_spec hE (n := 2) (k := 1) rfl exBP_generators.N exBP_generators.Gg exBP_generators.Hh
    exBP_generators.H (castL_eq_vec (exRand 1).sL rfl) (castL_eq_vec (exRand 1).sR rfl) h1
  have hx := h.hx
  have hyz := h.hyz
  rw [hashBP_hashOne] at hx hyz
  injection hyz with hy hz
  refine ⟨p1, P1, _, _, _, _, _, _, v1, h.params_eq, ⟨h.V, h.A, h.S, h.T1, h.T2, h.Commit⟩, h.ip_wf, h.ip, ?_, ?_⟩
  · rw [h.Tprime, hx, hy, hz]
    simp only [Spec.l0, Spec.r0, sum_range_succ, sum_range_zero, exRand]
    decide +kernel
  · rw [h.Taux, hx, hz]
    simp only [exRand]
    decide +kernel

/-- C31 and C28 apply to the instance: negating the right-hand point of (67) keeps it accepted, and
it becomes an accepted proof for the commitment shifted by a million, far outside `[0,4)`. -/
example : ∃ (E : Ext) (proof : BPProof) (P' : P256) (V : Secp), E.Ok ∧ Rep proof.V V ∧ proof.Params.N = 2 ∧
    bpVerify E proof = .ok (true, P') ∧
    bpVerify E { proof with Mu := -proof.Mu, Commit := P256.neg E proof.Commit proof.Commit } = .ok (true, P') ∧
    bpVerify E (shiftProof E proof 1000000) = .ok (true, P') ∧
    Rep (shiftProof E proof 1000000).V (V + ((1000000 : Int) : Fn) • secpG) := by
  have hE := idealExt_ok hashOne (fun _ => rfl)
  obtain ⟨proof, P', V, A, S, T1, T2, C, hv, hpar, hpts, _, _, hT, hX⟩ := exBP_accepted
  have hg : Generators proof.Params 2 exGg exHh ((1000 : Fn) • secpG) := by rw [hpar]; exact exBP_generators
  have hy : 2 = 1 ∨ ¬ ORDER ∣ (hashBP (idealExt hashOne) proof.A proof.S).1 := by
    right; rw [hashBP_hashOne]; decide
  have hT' : ((shiftProof (idealExt hashOne) proof 1000000).Tprime : Fn) = 1000001 := by
    simp only [shiftProof, hashBP_hashOne, fn_emod, Int.cast_add, hT]; decide +kernel
  have hs := C28_shift hE (by decide) hg hpts hy hv 1000000
    (by rw [hT, hX, smul_smul]; exact addOk_smul (by decide +kernel))
    (by rw [hT', hX, smul_smul]; exact addOk_smul (by decide +kernel))
  refine ⟨_, proof, P', V, hE, hpts.V, by rw [hpar]; rfl, hv, ?_, hs⟩
  rw [C31_negated hE (by decide) hg hpts hy, hv]

/-- C28: a forged proof for `v = 10^6` with two bits. -/
example : ∃ (E : Ext) (proof : BPProof) (P' : P256), E.Ok ∧ proof.Params.N = 2 ∧
    bpVerify E proof = .ok (true, P') ∧ proof.V = commitG1 E 1000000 7 proof.Params.H := by
  have hE := idealExt_ok hashOne (fun _ => rfl)
  obtain ⟨p, _, _, _, _, _, _, _, _, _, _, _, ⟨Q, hip⟩, _⟩ := exBP_accepted
  have hy : 2 = 1 ∨ ¬ ORDER ∣ (hashBP (idealExt hashOne) (mulG 4) (mulG 5)).1 := by
    right; rw [hashBP_hashOne]; decide
  have hf := C28_forgery hE (by decide) exBP_generators (rep_canonP ((4 : Fn) • secpG)) (rep_canonP ((5 : Fn) • secpG))
    hy hip (exParams 0) 1000000 7 (by rw [smul_smul]; exact addOk_smul (by decide +kernel))
    (by
      rw [smul_smul]
      refine addOk_smul ?_
      simp only [forge, hashBP_hashOne, sum_range_succ, sum_range_zero]
      decide +kernel)
  exact ⟨_, _, Q, hE, rfl, hf.1, hf.2.1⟩

/-- Randomness for which `Tprime` is a multiple of `ORDER`. -/
def exRand' : BPRand :=
  { gamma := 1, alpha := 1, sL := [1, 1], sR := [-2, 0], rho := 2, tau1 := 1, tau2 := 1 }

/-- An accepted range proof with a finite `P` in its inner-product proof. -/
theorem exBP_finite : ∃ (proof : BPProof) (P' : P256), proof.IP.WellFormed ∧
    proof.IP.Params.P.isZero = false ∧ bpVerify (idealExt hashOne) proof = .ok (true, P') ∧
    prove (idealExt hashOne) exRand' 1 exBP = .ok (some proof) := by
  have hE := idealExt_ok hashOne (fun _ => rfl)
  obtain ⟨proof, hp⟩ := C24_returns hE (rnd := exRand') (secret := 1) (n := 2) (k := 1) rfl exBP_generators rfl rfl
    hashOne_order (mapToGroup_hashOne _)
  obtain ⟨x, y, z, h⟩ := prove_spec hE (n := 2) (k := 1) rfl exBP_generators.N exBP_generators.Gg exBP_generators.Hh
    exBP_generators.H (castL_eq_vec exRand'.sL rfl) (castL_eq_vec exRand'.sR rfl) hp
  have hx := h.hx
  have hyz := h.hyz
  rw [hashBP_hashOne] at hx hyz
  injection hyz with hy hz
  have b0 : Spec.bit 1 0 = 1 := rfl
  have b1 : Spec.bit 1 1 = 0 := rfl
  have hTp : (proof.Tprime : Fn) = 0 := by
    rw [h.Tprime, hx, hy, hz]
    simp only [Spec.l0, Spec.r0, sum_range_succ, sum_range_zero, exRand']
    decide +kernel
  have hadd : NoExceptionalAdd (idealExt hashOne) exRand' 1 proof 2 exGg exHh ((1000 : Fn) • secpG) := by
    refine ⟨?_, ?_, ?_, ?_⟩
    · intro y z ey ez
      rw [hashBP_hashOne] at ey ez
      rw [ey, ez, smul_smul]
      refine addOk_smul ?_
      simp only [Spec.t1, Spec.l0, Spec.r0, sum_range_succ, sum_range_zero, b0, b1, exRand']
      decide +kernel
    · intro y ey
      rw [hashBP_hashOne] at ey
      rw [ey, smul_smul]
      refine addOk_smul ?_
      simp only [Spec.t2, sum_range_succ, sum_range_zero, exRand']
      decide +kernel
    · rw [hTp, smul_smul]
      exact addOk_smul (Or.inl rfl)
    · intro A S x y z hA hS ex ey ez
      rw [hashBP_hashOne] at ex ey ez
      rw [Rep.unique hA h.A, Rep.unique hS h.S, ex, ey, ez]
      simp only [sum_range_succ, sum_range_zero, b0, b1, exRand', exGg, exHh, smul_smul, ← add_smul, ← smul_add,
        ← neg_smul, zero_add]
      refine ⟨addOk_smul ?_, addOk_smul ?_, addOk_smul ?_⟩ <;> decide +kernel
  have hz' : ¬ ORDER ∣ (hashBP (idealExt hashOne) proof.A proof.S).2 := by rw [hashBP_hashOne]; decide
  have hV : AddOk (((1 : Int) : Fn) • secpG) ((exRand'.gamma : Fn) • (1000 : Fn) • secpG) := by
    rw [smul_smul]
    refine addOk_smul ?_
    simp only [exRand']; decide +kernel
  obtain ⟨P', v⟩ := C24_in_range hE (k := 1) rfl exBP_generators rfl rfl hp hz' hV hadd (by decide) (by decide)
  obtain ⟨w, U, hP⟩ := h.ip_P
  have hP := hP _ h.Commit
  rw [hTp, mul_zero, zmod_zero_smul, add_zero, hx, hy, hz] at hP
  simp only [Spec.l0, Spec.r0, sum_range_succ, sum_range_zero, b0, b1, exRand', exGg, exHh, smul_smul, ← add_smul,
    zero_add] at hP
  refine ⟨proof, P', h.ip_wf, ?_, v, hp⟩
  rw [← Bool.not_eq_true, hP.isZero_iff, smul_eq_zero, or_iff_left secpG_ne_zero]
  decide +kernel

/-- Five verifications of one range proof, and of a generic proof made of two. -/
example : ∃ (E : Ext) (proof : BPProof), E.Ok ∧
    bpVerifyMany E 5 proof = .ok [true, false, true, false, true] ∧
    bprpVerifyMany E 5 ⟨proof, proof⟩ = .ok [true, false, false, false, true] := by
  have hE := idealExt_ok hashOne (fun _ => rfl)
  obtain ⟨proof, P', hw, hf, hv, _⟩ := exBP_finite
  obtain ⟨p', hc⟩ := C27_conjunction hv hv
  exact ⟨_, proof, hE, C23_bulletproof_alternates hE hw hf hv 5,
    C59_generic_period (proof := ⟨proof, proof⟩) hE hw hw hf hf hc 5⟩

/-! ### Setup -/

/-- The seeds of `Setup` and `setupInnerProduct`. -/
inductive Seed where
  | H | U | g (i : Nat) | h (i : Nat)

/-- The seed string. -/
def Seed.bytes : Seed → List UInt8
  | .H => SEEDH
  | .U => SEEDU
  | .g i => SEEDH ++ ascii "g" ++ runeString i
  | .h i => SEEDH ++ ascii "h" ++ runeString i

theorem setupLoop_spec {E : Ext} (hE : E.Ok) (fuel i : Nat) : ∃ r, setupLoop E fuel i = .ok r ∧
    r.1.length = fuel ∧ r.2.length = fuel ∧ ∀ j < fuel,
      (∃ o, r.1[j]? = some o ∧ mapToGroup E (Seed.bytes (.g (i + j))) = .ok o) ∧
      (∃ o, r.2[j]? = some o ∧ mapToGroup E (Seed.bytes (.h (i + j))) = .ok o) := by
  induction fuel generalizing i with
  | zero => exact ⟨_, rfl, rfl, rfl, fun j h => by omega⟩
  | succ fuel ih =>
    obtain ⟨r, h1, h2, h3, h4⟩ := ih (i + 1)
    obtain ⟨g, hg⟩ := mapToGroup_ok hE (Seed.bytes (.g i))
    obtain ⟨h, hh⟩ := mapToGroup_ok hE (Seed.bytes (.h i))
    have hg' := hg
    have hh' := hh
    simp only [Seed.bytes] at hg' hh'
    refine ⟨(g :: r.1, h :: r.2), by rw [setupLoop, hg', hh', h1]; rfl, by simp [h2], by simp [h3], ?_⟩
    rintro (_ | j) hj
    · exact ⟨⟨g, rfl, hg⟩, ⟨h, rfl, hh⟩⟩
    · have := h4 j (by omega)
      rw [show i + 1 + j = i + (j + 1) by omega] at this
      exact this

theorem log2Int64_pow (nan : Int) {b : BitVec 64} {k : Nat} (hk : k < 63) (hb : b.toInt = 2 ^ k) :
    log2Int64 nan b = k := by
  have h0 : (0 : Int) < 2 ^ k := by positivity
  rw [log2Int64, if_neg (by omega)]
  have : b.toNat = 2 ^ k := by
    rw [BitVec.toInt_eq_toNat_cond] at hb
    split at hb
    · exact_mod_cast hb
    · have := b.isLt; omega
  rw [this, Nat.log2_two_pow]

theorem exponents : ∀ k < 63, (isPowerOfTwo (BitVec.ofInt 64 ((k : Nat) : Int)) = true ∧ ¬ ((k : Nat) : Int) > 32) ↔
    k = 1 ∨ k = 2 ∨ k = 4 ∨ k = 8 ∨ k = 16 ∨ k = 32 := by decide +kernel

theorem setup_pow {E : Ext} (hE : E.Ok) (nan : Int) {b : BitVec 64} {k : Nat} (hk : k < 63) (hb : b.toInt = 2 ^ k) :
    (setup E nan b = .ok none ∧ ¬ (k = 1 ∨ k = 2 ∨ k = 4 ∨ k = 8 ∨ k = 16 ∨ k = 32)) ∨
    ((k = 1 ∨ k = 2 ∨ k = 4 ∨ k = 8 ∨ k = 16 ∨ k = 32) ∧ ∃ (r : _ × _) (H : Option P256),
      setupLoop E k 0 = .ok r ∧ mapToGroup E SEEDH = .ok H ∧
      setup E nan b = .ok (some { N := k, G := P256.scalarBaseMult E 1, H := H, Gg := r.1, Hh := r.2 })) := by
  have hp : isPowerOfTwo b = true := (C09_isPowerOfTwo b).2 (Or.inl ⟨k, hk, hb⟩)
  obtain ⟨H, hH⟩ := mapToGroup_ok hE SEEDH
  obtain ⟨r, hr, _⟩ := setupLoop_spec hE k 0
  rw [← exponents k hk]
  simp only [setup, hp, Bool.not_true, Bool.false_eq_true, if_false, hH, Res.ok_bind, log2Int64_pow nan hk hb]
  by_cases h1 : isPowerOfTwo (BitVec.ofInt 64 (k : Int)) = true
  · by_cases h2 : (k : Int) > 32
    · left
      rw [h1, if_neg (by decide), if_pos h2]
      exact ⟨rfl, fun h => h.2 h2⟩
    · right
      refine ⟨⟨h1, h2⟩, r, H, hr, rfl, ?_⟩
      rw [h1, if_neg (by decide), if_neg h2, if_neg (by omega), Int.toNat_natCast, hr]
      rfl
  · left
    rw [Bool.not_eq_true] at h1
    rw [h1, if_pos (by decide)]
    exact ⟨rfl, fun h => by cases h.1⟩

/-- C10: the accepted range ends. -/
theorem C10_accepts_iff {E : Ext} (hE : E.Ok) (nan : Int) (b : BitVec 64) (hb : b.toInt ≠ -2 ^ 63) :
    (∃ s, setup E nan b = .ok (some s)) ↔ b.toInt ∈ [2, 4, 16, 256, 65536, 2 ^ 32] := by
  by_cases hp : isPowerOfTwo b = true
  · obtain ⟨k, hk, hbk⟩ := ((C09_isPowerOfTwo b).1 hp).resolve_right hb
    have hlist : b.toInt ∈ [2, 4, 16, 256, 65536, 2 ^ 32] ↔ (k = 1 ∨ k = 2 ∨ k = 4 ∨ k = 8 ∨ k = 16 ∨ k = 32) := by
      rw [hbk]
      clear hbk hp hb
      revert k
      decide +kernel
    rw [hlist]
    rcases setup_pow hE nan hk hbk with ⟨h1, h2⟩ | ⟨h1, r, H, _, _, h2⟩
    · rw [h1]; simp [h2]
    · exact ⟨fun _ => h1, fun _ => ⟨_, h2⟩⟩
  · have h1 : setup E nan b = .ok none := by simp [setup, hp]
    rw [h1]
    constructor
    · rintro ⟨s, hs⟩; cases hs
    · intro hm
      exfalso
      apply hp
      rw [C09_isPowerOfTwo]
      left
      simp only [List.mem_cons, List.not_mem_nil, or_false] at hm
      rcases hm with h | h | h | h | h | h
      · exact ⟨1, by norm_num, by rw [h]; norm_num⟩
      · exact ⟨2, by norm_num, by rw [h]; norm_num⟩
      · exact ⟨4, by norm_num, by rw [h]; norm_num⟩
      · exact ⟨8, by norm_num, by rw [h]; norm_num⟩
      · exact ⟨16, by norm_num, by rw [h]; norm_num⟩
      · exact ⟨32, by norm_num, by rw [h]⟩

example := C10_accepts_iff (idealExt_ok hashOne (fun _ => rfl)) 0 (BitVec.ofInt 64 (2 ^ 32)) (by decide)

/-- C10: for other range ends than the minimal int64 there is no panic. -/
theorem C10_no_panic {E : Ext} (hE : E.Ok) (nan : Int) (b : BitVec 64) (hb : b.toInt ≠ -2 ^ 63) :
    setup E nan b ≠ .panic := by
  by_cases hp : isPowerOfTwo b = true
  · obtain ⟨k, hk, hbk⟩ := ((C09_isPowerOfTwo b).1 hp).resolve_right hb
    rcases setup_pow hE nan hk hbk with ⟨h1, _⟩ | ⟨_, r, H, _, _, h2⟩
    · rw [h1]; simp
    · rw [h2]; simp
  · simp [setup, hp]

example := C10_no_panic (idealExt_ok hashOne (fun _ => rfl)) 0 (BitVec.ofInt 64 100) (by decide)

/-- C10: the parameters returned. -/
theorem C10_result {E : Ext} (hE : E.Ok) (nan : Int) (b : BitVec 64) (hb : b.toInt ≠ -2 ^ 63) {s : BPSetup}
    (hs : setup E nan b = .ok (some s)) :
    ∃ k : Nat, s.N = 2 ^ k ∧ b.toInt = 2 ^ (2 ^ k) ∧ s.Gg.length = 2 ^ k ∧ s.Hh.length = 2 ^ k ∧
      s.G = ⟨some secpGx, some secpGy⟩ := by
  have hp : isPowerOfTwo b = true := by
    by_contra h
    rw [setup, if_pos (by simp [h])] at hs
    cases hs
  obtain ⟨k, hk, hbk⟩ := ((C09_isPowerOfTwo b).1 hp).resolve_right hb
  rcases setup_pow hE nan hk hbk with ⟨h1, _⟩ | ⟨h1, r, H, h3, _, h2⟩
  · rw [h1] at hs; cases hs
  · obtain ⟨r', e, l1, l2, _⟩ := setupLoop_spec hE k 0
    rw [h3] at e
    injection e with e
    subst e
    rw [h2] at hs
    injection hs with hs
    injection hs with hs
    subst hs
    have hG : P256.scalarBaseMult E 1 = ⟨some secpGx, some secpGy⟩ := by
      have := scalarBaseMult_rep hE 1
      rw [one_smul] at this
      exact (this.fin secpG_ne_zero).eq repFin_base
    obtain ⟨j, hj⟩ : ∃ j, k = 2 ^ j := by
      rcases h1 with rfl | rfl | rfl | rfl | rfl | rfl
      · exact ⟨0, rfl⟩
      · exact ⟨1, rfl⟩
      · exact ⟨2, rfl⟩
      · exact ⟨3, rfl⟩
      · exact ⟨4, rfl⟩
      · exact ⟨5, rfl⟩
    refine ⟨j, ?_, by rw [hbk, hj], l1.trans hj, l2.trans hj, hG⟩
    show ((k : Nat) : Int) = _
    rw [hj]; push_cast; rfl

/-- The range end `2^32`. -/
example : ∃ s, setup (idealExt hashOne) 0 (BitVec.ofInt 64 (2 ^ 32)) = .ok (some s) ∧ ∃ k : Nat, s.N = 2 ^ k ∧ s.Gg.length = 2 ^ k := by
  have hE := idealExt_ok hashOne (fun _ => rfl)
  obtain ⟨s, hs⟩ := (C10_accepts_iff hE 0 (BitVec.ofInt 64 (2 ^ 32)) (by decide)).2 (by decide)
  obtain ⟨k, h1, _, h3, _⟩ := C10_result hE 0 _ (by decide) hs
  exact ⟨s, hs, k, h1, h3⟩

/-- C10: the minimal int64 panics where NaN converts to the minimal int64 (amd64), and gives the
error where it converts to 0 (arm64). -/
theorem C10_minInt64 {E : Ext} (hE : E.Ok) (b : BitVec 64) (hb : b.toInt = -2 ^ 63) :
    setup E (-2 ^ 63) b = .panic ∧ setup E 0 b = .ok none := by
  have hp : isPowerOfTwo b = true := (C09_isPowerOfTwo b).2 (Or.inr hb)
  obtain ⟨H, hH⟩ := mapToGroup_ok hE SEEDH
  have h1 : isPowerOfTwo (BitVec.ofInt 64 (-2 ^ 63)) = true := by decide
  have h2 : isPowerOfTwo (BitVec.ofInt 64 0) = false := by decide
  constructor
  · rw [setup, if_neg (by simp [hp]), hH]
    simp only [Res.ok_bind]
    have hl : log2Int64 (-2 ^ 63) b = -2 ^ 63 := by rw [log2Int64, hb, if_pos (by decide)]
    rw [hl, h1, if_neg (by decide), if_neg (by decide), if_pos (by decide)]
  · rw [setup, if_neg (by simp [hp]), hH]
    simp only [Res.ok_bind]
    have hl : log2Int64 0 b = 0 := by rw [log2Int64, hb, if_pos (by decide)]
    rw [hl, h2, if_pos (by decide)]

example : (BitVec.ofInt 64 (-2 ^ 63)).toInt = -2 ^ 63 ∧ (BitVec.ofInt 64 (2 ^ 32)).toInt = 2 ^ 32 := by decide

/-- C25: `SetupGeneric` never fails and ignores the order of the bounds: for all `a`, `b` (also
`a ≥ b` and widths above `2^32`) it returns `a`, `b` and twice the parameters of a 32-bit setup. -/
theorem C25_setup {E : Ext} (hE : E.Ok) (nan a b : Int) :
    ∃ s, setupGeneric E nan a b = .ok (some (a, b, s, s)) ∧
      setup E nan (BitVec.ofInt 64 (2 ^ 32)) = .ok (some s) ∧ s.N = 32 ∧ s.Gg.length = 32 ∧ s.Hh.length = 32 := by
  have hb : (BitVec.ofInt 64 (2 ^ 32)).toInt = 2 ^ 32 := by decide
  obtain ⟨s, hs⟩ := (C10_accepts_iff hE nan (BitVec.ofInt 64 (2 ^ 32)) (by rw [hb]; decide)).2
    (by rw [hb]; decide)
  obtain ⟨k, h1, h2, h3, h4, _⟩ := C10_result hE nan _ (by rw [hb]; decide) hs
  have hk : 2 ^ k = 32 := by
    rw [hb] at h2
    have h2' : (2 : Nat) ^ (2 ^ k) = 2 ^ 32 := by exact_mod_cast h2.symm
    exact Nat.pow_right_injective (le_refl 2) h2'
  refine ⟨s, ?_, hs, by rw [h1]; exact_mod_cast hk, by rw [h3, hk], by rw [h4, hk]⟩
  have hM : BitVec.ofInt 64 MAX_RANGE_END = BitVec.ofInt 64 (2 ^ 32) := by decide
  simp only [setupGeneric, hM, hs, Res.ok_bind]

/-- The bounds in the wrong order. -/
example := C25_setup (idealExt_ok hashOne (fun _ => rfl)) 0 100 10

/-- C56: the generator table: `H`, `gᵢ` and `hᵢ` are the results of `MapToGroup` on their seeds,
whatever the range end. -/
theorem C56_table {E : Ext} (hE : E.Ok) (nan : Int) (b : BitVec 64) (hb : b.toInt ≠ -2 ^ 63) {s : BPSetup}
    (hs : setup E nan b = .ok (some s)) :
    mapToGroup E (Seed.bytes .H) = .ok s.H ∧ ∀ i : Nat, (i : Int) < s.N →
      (∃ o, s.Gg[i]? = some o ∧ mapToGroup E (Seed.bytes (.g i)) = .ok o) ∧
      (∃ o, s.Hh[i]? = some o ∧ mapToGroup E (Seed.bytes (.h i)) = .ok o) := by
  have hp : isPowerOfTwo b = true := by
    by_contra h
    rw [setup, if_pos (by simp [h])] at hs
    cases hs
  obtain ⟨k, hk, hbk⟩ := ((C09_isPowerOfTwo b).1 hp).resolve_right hb
  rcases setup_pow hE nan hk hbk with ⟨h1, _⟩ | ⟨h1, r, H, h3, h4, h2⟩
  · rw [h1] at hs; cases hs
  · obtain ⟨r', e, l1, l2, l3⟩ := setupLoop_spec hE k 0
    rw [h3] at e
    injection e with e
    subst e
    rw [h2] at hs
    injection hs with hs
    injection hs with hs
    subst hs
    refine ⟨h4, fun i hi => ?_⟩
    have := l3 i (by simpa using hi)
    rwa [Nat.zero_add] at this

/-- The table for 32 bits. -/
example : ∃ s, setup (idealExt hashOne) 0 (BitVec.ofInt 64 (2 ^ 32)) = .ok (some s) ∧ s.N = 32 ∧
    mapToGroup (idealExt hashOne) (Seed.bytes .H) = .ok s.H := by
  have hE := idealExt_ok hashOne (fun _ => rfl)
  obtain ⟨s, _, hs, h1, _⟩ := C25_setup hE 0 0 0
  exact ⟨s, hs, h1, (C56_table hE 0 _ (by decide) hs).1⟩

/-- C56: the table of a smaller range is a prefix of that of a larger one. -/
theorem C56_prefix {E : Ext} (hE : E.Ok) (nan : Int) (b b' : BitVec 64) (hb : b.toInt ≠ -2 ^ 63)
    (hb' : b'.toInt ≠ -2 ^ 63) {s s' : BPSetup} (hs : setup E nan b = .ok (some s))
    (hs' : setup E nan b' = .ok (some s')) (hle : s.N ≤ s'.N) :
    s.H = s'.H ∧ s.G = s'.G ∧ s.Gg <+: s'.Gg ∧ s.Hh <+: s'.Hh := by
  obtain ⟨h1, h2⟩ := C56_table hE nan b hb hs
  obtain ⟨h1', h2'⟩ := C56_table hE nan b' hb' hs'
  obtain ⟨k, n1, _, n2, n3, n4⟩ := C10_result hE nan b hb hs
  obtain ⟨k', n1', _, n2', n3', n4'⟩ := C10_result hE nan b' hb' hs'
  have hle' : 2 ^ k ≤ 2 ^ k' := by rw [n1, n1'] at hle; exact_mod_cast hle
  rw [h1] at h1'
  refine ⟨by injection h1', by rw [n4, n4'], ?_, ?_⟩
  · rw [List.prefix_iff_eq_take]
    refine List.ext_getElem? fun i => ?_
    rw [List.getElem?_take]
    split
    · rename_i h
      rw [n2] at h
      obtain ⟨⟨o, e1, e2⟩, _⟩ := h2 i (by rw [n1]; exact_mod_cast h)
      obtain ⟨⟨o', e1', e2'⟩, _⟩ := h2' i (by rw [n1']; exact_mod_cast (lt_of_lt_of_le h hle'))
      rw [e2] at e2'
      injection e2' with e2'
      rw [e1, e1', e2']
    · rename_i h
      exact List.getElem?_eq_none (by omega)
  · rw [List.prefix_iff_eq_take]
    refine List.ext_getElem? fun i => ?_
    rw [List.getElem?_take]
    split
    · rename_i h
      rw [n3] at h
      obtain ⟨_, o, e1, e2⟩ := h2 i (by rw [n1]; exact_mod_cast h)
      obtain ⟨_, o', e1', e2'⟩ := h2' i (by rw [n1']; exact_mod_cast (lt_of_lt_of_le h hle'))
      rw [e2] at e2'
      injection e2' with e2'
      rw [e1, e1', e2']
    · rename_i h
      exact List.getElem?_eq_none (by omega)

/-- The generators for 4 and for 32 bits. -/
example : ∃ s s', setup (idealExt hashOne) 0 (BitVec.ofInt 64 16) = .ok (some s) ∧
    setup (idealExt hashOne) 0 (BitVec.ofInt 64 (2 ^ 32)) = .ok (some s') ∧ s.Gg.length = 4 ∧ s'.Gg.length = 32 ∧ s.Gg <+: s'.Gg := by
  have hE := idealExt_ok hashOne (fun _ => rfl)
  obtain ⟨s', _, hs', h1', h2', _⟩ := C25_setup hE 0 0 0
  obtain ⟨s, hs⟩ := (C10_accepts_iff hE 0 (BitVec.ofInt 64 16) (by decide)).2 (by decide)
  obtain ⟨k, h1, h2, h3, _⟩ := C10_result hE 0 _ (by decide) hs
  have hk : 2 ^ k = 4 := by
    have h2' : (2 : Nat) ^ (2 ^ k) = 2 ^ 4 := by
      have : (BitVec.ofInt 64 16).toInt = 2 ^ 4 := by decide
      rw [this] at h2
      exact_mod_cast h2.symm
    exact Nat.pow_right_injective (le_refl 2) h2'
  have hN : s.N = 4 := by rw [h1]; exact_mod_cast hk
  exact ⟨s, s', hs, hs', by rw [h3, hk], h2', (C56_prefix hE 0 _ _ (by decide) (by decide) hs hs' (by omega)).2.2.1⟩

/-- The seed with an index in the range used by `Setup`. -/
def Seed.Valid : Seed → Prop
  | .g i => i < 32
  | .h i => i < 32
  | _ => True

/-- C56: the seeds are pairwise distinct. -/
theorem C56_seeds_distinct {s t : Seed} (hs : s.Valid) (ht : t.Valid) (h : s.bytes = t.bytes) : s = t := by
  have hrune : ∀ i < 32, ∀ j < 32, runeString i = runeString j → i = j := by decide +kernel
  have hl1 : ∀ i, (Seed.bytes (.g i)).length = 38 := fun i => rfl
  have hl2 : ∀ i, (Seed.bytes (.h i)).length = 38 := fun i => rfl
  cases s <;> cases t <;> simp only [Seed.Valid] at hs ht
  case H.H => rfl
  case U.U => rfl
  case H.U => exact absurd h (by decide +kernel)
  case U.H => exact absurd h (by decide +kernel)
  case g.g i j =>
    simp only [Seed.bytes, List.append_cancel_left_eq] at h
    rw [hrune _ hs _ ht h]
  case h.h i j =>
    simp only [Seed.bytes, List.append_cancel_left_eq] at h
    rw [hrune _ hs _ ht h]
  case g.h i j =>
    simp only [Seed.bytes, List.append_assoc, List.append_cancel_left_eq] at h
    exact absurd (List.append_inj_left h rfl) (by decide)
  case h.g i j =>
    simp only [Seed.bytes, List.append_assoc, List.append_cancel_left_eq] at h
    exact absurd (List.append_inj_left h rfl) (by decide)
  all_goals
    have := congrArg List.length h
    simp only [hl1, hl2] at this
    exact absurd this (by decide)

example : (Seed.g 20).Valid ∧ (Seed.h 20).Valid ∧ (Seed.g 20).bytes ≠ (Seed.h 20).bytes :=
  ⟨by simp [Seed.Valid], by simp [Seed.Valid], fun h => by cases C56_seeds_distinct (by simp [Seed.Valid]) (by simp [Seed.Valid]) h⟩

end Verif

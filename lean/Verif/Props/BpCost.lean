import Verif.Lemmas.BpCostLog

/-!
# C101: the curve calls of `Prove` tell the secret
-/

namespace Verif

open Cost

/-- C101: the log is a log of `Prove`: the results are those of `prove` (and of the functions below it) and of `bpVerify`. -/
theorem C101_results (E : Ext) : (∀ rnd secret params, (proveC E rnd secret params).res = prove E rnd secret params) ∧
    ∀ proof, (bpVerifyC E proof).res = bpVerify E proof :=
  ⟨proveC_res E, bpVerifyC_res E⟩

/-- C101: the first scalars with which `Prove` calls the curve are `gamma`, `alpha`, and then one for each bit of the secret: `1` (one byte) for
a bit 1, `ORDER - 1` (32 bytes) for a bit 0. For every hash function, every behaviour of the curve library, all randomness. -/
theorem C101_lengths (E : Ext) (rnd : BPRand) (secret : Int) (params : BPParams) (n : Nat) (hN : params.N = n)
    (hH : params.H.isZero = false) (hG : ∀ i, i < n → ∃ p, params.Gg[i]? = some p ∧ p.isZero = false)
    (hHh : ∀ i, i < n → ∃ p, params.Hh[i]? = some p ∧ p.isZero = false) (hg : rnd.gamma ≠ 0) (ha : rnd.alpha ≠ 0) :
    ∃ rest, scalarLengths (proveC E rnd secret params).log =
      byteLen (rnd.gamma % ORDER).toNat :: byteLen (rnd.alpha % ORDER).toNat :: (bitLengths secret n ++ rest) := by
  have hdec : decompose secret 2 params.N = .ok (vec n (fun i => Spec.bit secret i)) := by
    rw [hN, decompose, if_neg (by omega), Int.toNat_natCast, decomposeLoop_two]
  have har : computeAR (vec n (fun i => Spec.bit secret i)) = some (vec n (fun i => Spec.bit secret i - 1)) := by
    rw [computeAR_bits, vec, vec, List.map_map]
    · rfl
    · intro v hv
      rw [vec, List.mem_map] at hv
      obtain ⟨i, _, rfl⟩ := hv
      exact bit_zero_or_one _ _
  have har' : (computeARC (vec n (fun i => Spec.bit secret i))).res = .ok (vec n (fun i => Spec.bit secret i - 1)) := by
    rw [computeARC_res, har, Option.getD_some]
  have get : ∀ (f : Nat → Int) j, j < n → (vec n f)[0 + j]? = some (f j) := by
    intro f j hj
    simp [vec, hj]
  have hc := commitVectorLoopC_lens (E := E) (aL := vec n (fun i => Spec.bit secret i)) (aR := vec n (fun i => Spec.bit secret i - 1))
    (g := params.Gg) (h := params.Hh) n 0 secret (params.H.scalarMult E rnd.alpha) fun j hj => by
      obtain ⟨p, h1, h2⟩ := hG j hj
      obtain ⟨q, h3, h4⟩ := hHh j hj
      exact ⟨get _ j hj, get _ j hj, p, q, by rwa [Nat.zero_add], by rwa [Nat.zero_add], h2, h4⟩
  rw [proveC, log_bind_ok (commitG1C_res ..), log_bind_ok ((decomposeC_res ..).trans hdec),
    log_bind_ok har', scalarLengths_append, scalarLengths_append, scalarLengths_append]
  obtain ⟨rest, hr⟩ := log_bind_prefix (commitVectorC E (vec n (fun i => Spec.bit secret i)) (vec n (fun i => Spec.bit secret i - 1))
    rnd.alpha params.H params.Gg params.Hh params.N) _
  refine ⟨scalarLengths rest, ?_⟩
  rw [← hr, scalarLengths_append, commitVectorC, log_bind_ok (P256.scalarMultC_res ..), scalarLengths_append, hN, Int.toNat_natCast, hc,
    scalarMultC_log hH ha, commitG1C, log_bind_ok (P256.scalarBaseMultC_res ..), log_bind_ok (P256.scalarMultC_res ..),
    scalarLengths_append, scalarLengths_append, scalarBaseMultC_lens, scalarMultC_log hH hg, addC_lens, decomposeC, computeARC,
    log_bind_ok (a := ()) (by rw [res_make, if_neg (by omega)]), log_bind_ok (a := ()) (res_make_nat _), log_make (by omega),
    log_make (by omega)]
  rfl

/-- C101: somebody who sees the lengths of the scalars in the calls of the curve (or the time of these calls, where it depends on the length)
knows the secret: calls of `Prove` with different secrets in the range are told apart, whatever their randomness and hash functions. -/
theorem C101_secret (E E' : Ext) (rnd rnd' : BPRand) (secret secret' : Int) (params params' : BPParams) (n : Nat)
    (hN : params.N = n) (hN' : params'.N = n) (hH : params.H.isZero = false) (hH' : params'.H.isZero = false)
    (hG : ∀ i, i < n → ∃ p, params.Gg[i]? = some p ∧ p.isZero = false)
    (hG' : ∀ i, i < n → ∃ p, params'.Gg[i]? = some p ∧ p.isZero = false)
    (hHh : ∀ i, i < n → ∃ p, params.Hh[i]? = some p ∧ p.isZero = false)
    (hHh' : ∀ i, i < n → ∃ p, params'.Hh[i]? = some p ∧ p.isZero = false)
    (hg : rnd.gamma ≠ 0) (ha : rnd.alpha ≠ 0) (hg' : rnd'.gamma ≠ 0) (ha' : rnd'.alpha ≠ 0)
    (h0 : 0 ≤ secret) (h1 : secret < 2 ^ n) (h0' : 0 ≤ secret') (h1' : secret' < 2 ^ n)
    (h : scalarLengths (proveC E rnd secret params).log = scalarLengths (proveC E' rnd' secret' params').log) : secret = secret' := by
  obtain ⟨r, e⟩ := C101_lengths E rnd secret params n hN hH hG hHh hg ha
  obtain ⟨r', e'⟩ := C101_lengths E' rnd' secret' params' n hN' hH' hG' hHh' hg' ha'
  rw [e, e'] at h
  injection h with _ h
  injection h with _ h
  exact bitLengths_inj h0 h1 h0' h1'
    (List.append_inj h (by rw [bitLengths_length, bitLengths_length])).1

/-- C101: the number of these calls does not depend on the secret. -/
theorem C101_count (s t : Int) (n : Nat) : (bitLengths s n).length = (bitLengths t n).length := by
  rw [bitLengths_length, bitLengths_length]

/-- C101: the first event of `Prove` is a multiplication of the base point by the secret, with the secret's length in bytes, unless the secret is
0. -/
theorem C101_zero (E : Ext) (rnd : BPRand) (secret : Int) (params : BPParams) (hg : params.H.isZero = false) (h0 : rnd.gamma ≠ 0) :
    (proveC E rnd secret params).log.head? =
      some (if secret = 0 then .mult (byteLen (rnd.gamma % ORDER).toNat) else .base (byteLen (secret % ORDER).toNat)) := by
  rw [proveC, log_bind_ok (commitG1C_res ..), commitG1C, log_bind_ok (P256.scalarBaseMultC_res ..), log_bind_ok (P256.scalarMultC_res ..),
    scalarMultC_log hg h0, P256.scalarBaseMultC]
  split <;> rfl

/-- C101: the same for proofs of generic ranges. -/
theorem C101_generic_results (E : Ext) :
    (∀ r1 r2 secret params, (proveGenericC E r1 r2 secret params).res = proveGeneric E r1 r2 secret params) ∧
    ∀ proof, (bprpVerifyC E proof).res = bprpVerify E proof := by
  refine ⟨fun r1 r2 secret params => ?_, fun proof => ?_⟩
  · rw [proveGenericC, proveGeneric]
    refine res_step (proveC_res ..) fun a => ?_
    cases a with
    | none => rfl
    | some a =>
      refine res_step (proveC_res ..) fun b => ?_
      cases b <;> rfl
  · rw [bprpVerifyC, bprpVerify]
    refine res_step (bpVerifyC_res ..) fun a => ?_
    obtain ⟨_ | _, P⟩ := a
    · rfl
    · exact res_step (bpVerifyC_res ..) fun b => rfl

/-- C101: so the calls of `ProveGeneric` start with the bits of `secret - B + 2^32`, and for one `B` different secrets of the range give
different calls. -/
theorem C101_generic {E E' : Ext} {r1 r2 r1' r2' : BPRand} {secret secret' : Int} {params params' : BPRP}
    (hB : params.B = params'.B) (hN : params.BP1.N = (32 : Nat)) (hN' : params'.BP1.N = (32 : Nat))
    (hH : params.BP1.H.isZero = false) (hH' : params'.BP1.H.isZero = false)
    (hG : ∀ i, i < 32 → ∃ p, params.BP1.Gg[i]? = some p ∧ p.isZero = false)
    (hG' : ∀ i, i < 32 → ∃ p, params'.BP1.Gg[i]? = some p ∧ p.isZero = false)
    (hHh : ∀ i, i < 32 → ∃ p, params.BP1.Hh[i]? = some p ∧ p.isZero = false)
    (hHh' : ∀ i, i < 32 → ∃ p, params'.BP1.Hh[i]? = some p ∧ p.isZero = false)
    (hg : r1.gamma ≠ 0) (ha : r1.alpha ≠ 0) (hg' : r1'.gamma ≠ 0) (ha' : r1'.alpha ≠ 0)
    (h0 : params.B - 2 ^ 32 ≤ secret) (h1 : secret < params.B) (h0' : params.B - 2 ^ 32 ≤ secret') (h1' : secret' < params.B)
    (h : scalarLengths (proveGenericC E r1 r2 secret params).log = scalarLengths (proveGenericC E' r1' r2' secret' params').log) :
    secret = secret' := by
  have key : ∀ {E : Ext} {r1 r2 : BPRand} {secret : Int} {params : BPRP}, params.BP1.N = (32 : Nat) → params.BP1.H.isZero = false →
      (∀ i, i < 32 → ∃ p, params.BP1.Gg[i]? = some p ∧ p.isZero = false) →
      (∀ i, i < 32 → ∃ p, params.BP1.Hh[i]? = some p ∧ p.isZero = false) → r1.gamma ≠ 0 → r1.alpha ≠ 0 →
      ∃ a b rest, scalarLengths (proveGenericC E r1 r2 secret params).log =
        a :: b :: (bitLengths (secret - params.B + 2 ^ 32) 32 ++ rest) := by
    intro E r1 r2 secret params hN hH hG hHh hg ha
    obtain ⟨r, e⟩ := C101_lengths E r1 (secret - params.B + 2 ^ 32) params.BP1 32 hN hH hG hHh hg ha
    rw [proveGenericC]
    refine (fun (f : Option BPProof → Cost (Option BPRPProof)) => ?_ : ∀ f : Option BPProof → Cost (Option BPRPProof), ∃ a b rest,
      scalarLengths (proveC E r1 (secret - params.B + 2 ^ 32) params.BP1 >>= f).log =
        a :: b :: (bitLengths (secret - params.B + 2 ^ 32) 32 ++ rest)) _
    obtain ⟨t, ht⟩ := log_bind_prefix (proveC E r1 (secret - params.B + 2 ^ 32) params.BP1) f
    rw [← ht, scalarLengths_append, e, List.cons_append, List.cons_append, List.append_assoc]
    exact ⟨_, _, _, rfl⟩
  obtain ⟨a, b, r, e⟩ := key (E := E) (r1 := r1) (r2 := r2) (secret := secret) hN hH hG hHh hg ha
  obtain ⟨a', b', r', e'⟩ := key (E := E') (r1 := r1') (r2 := r2') (secret := secret') hN' hH' hG' hHh' hg' ha'
  rw [e, e'] at h
  injection h with _ h
  injection h with _ h
  have := bitLengths_inj (by omega) (by omega) (by omega) (by omega) (List.append_inj h (by rw [bitLengths_length, bitLengths_length])).1
  omega

/-- Parameters for two bits: all generators the base point. -/
example : let p : P256 := ⟨some secpGx, some secpGy⟩
    let params : BPParams := ⟨2, p, p, [p, p], [p, p]⟩
    params.H.isZero = false ∧ (∀ i, i < 2 → ∃ p, params.Gg[i]? = some p ∧ p.isZero = false) ∧
      (∀ i, i < 2 → ∃ p, params.Hh[i]? = some p ∧ p.isZero = false) := by
  refine ⟨by decide +kernel, ?_, ?_⟩ <;> (intro i hi; interval_cases i <;> exact ⟨_, rfl, by decide +kernel⟩)

/-- Parameters of a generic range `[18, 200)` of the same kind. -/
example : let p : P256 := ⟨some secpGx, some secpGy⟩
    let bp : BPParams := ⟨32, p, p, List.replicate 32 p, List.replicate 32 p⟩
    let params : BPRP := ⟨18, 200, bp, bp⟩
    params.BP1.N = (32 : Nat) ∧ params.BP1.H.isZero = false ∧ (∀ i, i < 32 → ∃ p, params.BP1.Gg[i]? = some p ∧ p.isZero = false) ∧
      params.B - 2 ^ 32 ≤ 18 ∧ (199 : Int) < params.B :=
  ⟨rfl, by decide +kernel, fun _ h => ⟨_, by rw [List.getElem?_replicate, if_pos h], by decide +kernel⟩, by decide, by decide⟩

/-- A first call with a scalar of two bytes, and one with the blinding factor, for the secret 0. -/
example (E : Ext) : let p : P256 := ⟨some secpGx, some secpGy⟩
    let params : BPParams := ⟨2, p, p, [p, p], [p, p]⟩
    let rnd : BPRand := { gamma := 3, alpha := 4, rho := 5, sL := [6, 7], sR := [8, 9], tau1 := 10, tau2 := 11 }
    (proveC E rnd 1000 params).log.head? = some (.base 2) ∧ (proveC E rnd 0 params).log.head? = some (.mult 1) := by
  intro p params rnd
  have h : params.H.isZero = false := by decide +kernel
  rw [C101_zero E rnd 1000 params h (by decide), C101_zero E rnd 0 params h (by decide)]
  decide +kernel

/-- The lengths for the secrets 1 and 2, two bits. -/
example : bitLengths 1 2 = [1, 32] ∧ bitLengths 2 2 = [32, 1] := by decide

end Verif

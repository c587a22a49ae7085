import Verif.Props.Readme
/-!
# Accepted texts for all numbers, with SHA-256 and the parameters of SetupGeneric (C112)
-/
namespace Verif

open Finset

/-- The inner-product proof without rounds and with all points at infinity. -/
def emptyIP : IPProof :=
  { N := 1, Ls := [], Rs := [], U := P256.infinity, P := P256.infinity, Gg := P256.infinity, Hh := P256.infinity, A := 0, B := 0,
    Params := { N := 1, Cc := 0, Uu := P256.infinity, H := P256.infinity, Gg := [P256.infinity], Hh := [P256.infinity],
                P := P256.infinity } }

/-- It is accepted, whatever the hash function, and not changed by `Verify`. -/
theorem emptyIP_accepted (E : Ext) : ipVerify E emptyIP = .ok (true, P256.infinity) := rfl

theorem sha_nil : ¬ ORDER ∣ ((setBytes (Sha256.sha256 (decimal none ++ decimal none ++ decimal none ++ decimal none)) : Nat) : Int) := by
  decide +kernel

/-- One of the blinding factors 1, 2, 3 avoids the exceptional cases of both additions. -/
theorem exists_gamma {H P Q : Secp} (hH : H ≠ 0) {c : Fn} (hc : c ≠ 0) :
    ∃ g : Int, g ∈ [1, 2, 3] ∧ AddOk P ((g : Fn) • H) ∧ AddOk Q ((c * (g : Fn)) • H) := by
  have inj : ∀ {s t : Fn}, s • H = t • H → s = t := by
    intro s t h
    rw [← sub_eq_zero, ← sub_smul, smul_eq_zero] at h
    exact sub_eq_zero.1 (h.resolve_right hH)
  have h12 : ((1 : Int) : Fn) ≠ ((2 : Int) : Fn) := by decide +kernel
  have h13 : ((1 : Int) : Fn) ≠ ((3 : Int) : Fn) := by decide +kernel
  have h23 : ((2 : Int) : Fn) ≠ ((3 : Int) : Fn) := by decide +kernel
  have h1 : ((1 : Int) : Fn) ≠ 0 := by decide +kernel
  have h2 : ((2 : Int) : Fn) ≠ 0 := by decide +kernel
  have h3 : ((3 : Int) : Fn) ≠ 0 := by decide +kernel
  have ok : ∀ g : Int, (g : Fn) ≠ 0 → P ≠ (g : Fn) • H → Q ≠ (c * (g : Fn)) • H →
      AddOk P ((g : Fn) • H) ∧ AddOk Q ((c * (g : Fn)) • H) := by
    intro g hg hP hQ
    exact ⟨.inr ⟨smul_ne_zero hg hH, hP⟩, .inr ⟨smul_ne_zero (mul_ne_zero hc hg) hH, hQ⟩⟩
  have uP : ∀ {g g' : Int}, P = (g : Fn) • H → P = (g' : Fn) • H → (g : Fn) = g' := fun e e' => inj (e.symm.trans e')
  have uQ : ∀ {g g' : Int}, Q = (c * (g : Fn)) • H → Q = (c * (g' : Fn)) • H → (g : Fn) = g' :=
    fun e e' => mul_left_cancel₀ hc (inj (e.symm.trans e'))
  by_cases p1 : P = ((1 : Int) : Fn) • H ∨ Q = (c * ((1 : Int) : Fn)) • H
  · by_cases p2 : P = ((2 : Int) : Fn) • H ∨ Q = (c * ((2 : Int) : Fn)) • H
    · refine ⟨3, by decide, ok 3 h3 (fun e => ?_) (fun e => ?_)⟩
      · rcases p1 with k | k
        · exact h13 (uP k e)
        · rcases p2 with l | l
          · exact h23 (uP l e)
          · exact h12 (uQ k l)
      · rcases p1 with k | k
        · rcases p2 with l | l
          · exact h12 (uP k l)
          · exact h23 (uQ l e)
        · exact h13 (uQ k e)
    · rw [not_or] at p2
      exact ⟨2, by decide, ok 2 h2 p2.1 p2.2⟩
  · rw [not_or] at p1
    exact ⟨1, by decide, ok 1 h1 p1.1 p1.2⟩

/-- C112: with SHA-256 and any generators there is, for every integer `v`, an accepted proof whose `V` is a commitment
to `v`; no condition is left. -/
theorem C112_half {E : Ext} (hE : E.Ok) (hs : E.sha256 = Sha256.sha256) {params : BPParams} {n : Nat} (hn : 1 ≤ n)
    (hn' : (n : Int) < 2 ^ 63) {G Hh : Nat → Secp} {H : Secp} (hgen : Generators params n G Hh H) (hH : H ≠ 0) (v : Int) :
    ∃ (proof : BPProof) (gamma : Int), bpVerify E proof = .ok (true, P256.infinity) ∧
      proof.afterVerify P256.infinity = proof ∧ proof.Params = params ∧
      gamma ∈ [1, 2, 3] ∧ proof.V = commitG1 E v gamma params.H ∧
      Rep proof.V ((v : Fn) • secpG + (gamma : Fn) • H) ∧ proof.Int64 := by
  have hz : ¬ ORDER ∣ (hashBP E P256.infinity P256.infinity).1 := by
    rw [hashBP_value, hs]; exact sha_nil
  have hc : ((hashBP E P256.infinity P256.infinity).2 : Fn) ^ 2 ≠ 0 := by
    refine pow_ne_zero 2 ?_
    rw [Ne, fn_eq_zero]
    exact hz
  have hip := emptyIP_accepted E
  obtain ⟨g, hg, k1, k2⟩ := exists_gamma (P := (v : Fn) • secpG)
    (Q := ((forge E params n G Hh v 0 P256.infinity P256.infinity 0 0 emptyIP emptyIP.Params).Tprime : Fn) • secpG) hH hc
  have h := C28_forgery hE hn hgen rep_infinity rep_infinity (.inr hz) hip emptyIP.Params v g k1 (by
    have e : ((forge E params n G Hh v g P256.infinity P256.infinity 0 0 emptyIP emptyIP.Params).Taux : Fn) =
        ((hashBP E P256.infinity P256.infinity).2 : Fn) ^ 2 * g := by
      simp only [forge]; push_cast; ring
    rw [e]
    exact k2)
  refine ⟨_, g, h.1, rfl, h.2.2.2, hg, h.2.1, h.2.2.1, ?_⟩
  simp only [BPProof.Int64, List.forall_mem_cons, List.not_mem_nil, false_implies, implies_true, and_true]
  have one : -2 ^ 63 ≤ (1 : Int) ∧ (1 : Int) < 2 ^ 63 := by decide
  exact ⟨one, one, by rw [h.2.2.2, hgen.N]; omega, one⟩

/-- C112: with the parameters of `Setup` for any of the six accepted range ends and for every integer `v`, there is a
`BulletProof` whose commitment opens to `v`, whose text is accepted, and which is not changed by `Verify`. -/
theorem C112_setup {E : Ext} (hE : E.Ok) (hs : E.sha256 = Sha256.sha256) (nan : Int) (b : BitVec 64)
    (hb : b.toInt ∈ [2, 4, 16, 256, 65536, 2 ^ 32]) :
    ∃ (s : BPSetup) (params : BPParams), setup E nan b = .ok (some s) ∧ s.deref = .ok params ∧
      ∀ v : Int, ∃ (proof : BPProof) (gamma : Int), proof.Params = params ∧ gamma ∈ [1, 2, 3] ∧
        proof.V = commitG1 E v gamma params.H ∧ bpVerify E proof = .ok (true, P256.infinity) ∧
        proof.afterVerify P256.infinity = proof ∧
        (unmarshalBP (marshalBP proof.toGo)).map (goVerify E) = some (.ok (true, P256.infinity)) := by
  obtain ⟨s, params, k, G, Hh, H, k1, k2, k3, k4, k5, _⟩ := C68_setup hE hs nan b hb
  have hk : (2 : Nat) ^ k ≤ 32 := by
    have : (2 : Int) ^ 2 ^ k ≤ 2 ^ 32 := by
      rw [← k3]
      simp only [List.mem_cons, List.not_mem_nil, or_false] at hb
      rcases hb with h | h | h | h | h | h <;> rw [h] <;> norm_num
    exact (Nat.pow_le_pow_iff_right (a := 2) (by norm_num)).1 (by exact_mod_cast this)
  refine ⟨s, params, k1, k2, fun v => ?_⟩
  obtain ⟨p, g, f, a, e, m, hv, -, i⟩ := C112_half hE hs (n := 2 ^ k) Nat.one_le_two_pow (by omega) k4 k5 v
  refine ⟨p, g, e, m, hv, f, a, ?_⟩
  rw [C70_transport i (fun h => nomatch f.symm.trans h), f]

/-- A proof that 1000 is in `[0, 16)`. -/
example : ∃ (E : Ext) (proof : BPProof) (gamma : Int), E.Ok ∧ proof.Params.N = 4 ∧
    proof.V = commitG1 E 1000 gamma proof.Params.H ∧ bpVerify E proof = .ok (true, P256.infinity) := by
  have hE := idealExt_ok _ Sha256.sha256_length
  obtain ⟨s, params, k, G, Hh, H, -, -, k3, k4, k5, _⟩ := C68_setup hE rfl 0 (BitVec.ofInt 64 16) (by decide)
  have hk : (2 : Nat) ^ k = 4 := by
    have : (2 : Nat) ^ 2 ^ k = 2 ^ 4 := by
      have h16 : (BitVec.ofInt 64 16).toInt = 2 ^ 4 := by decide
      rw [h16] at k3; exact_mod_cast k3.symm
    exact Nat.pow_right_injective (le_refl 2) this
  rw [hk] at k4
  obtain ⟨p, g, f, -, e, -, hv, -, -⟩ := C112_half hE rfl (n := 4) (by norm_num) (by norm_num) k4 k5 1000
  exact ⟨_, p, g, hE, by rw [e, k4.N]; rfl, by rw [e]; exact hv, f⟩

/-- C112: the verifier of the README prints its message for every number.  For all bounds and every integer `x` there is
a text which decodes to a proof with the parameters of `SetupGeneric` in both halves and with commitments to
`x - b + 2^32` and to `x - a`, as an honest proof for `x` has, and for which the message is printed; the
blinding factors are 1, 2 or 3.  `Verify` does not change the proof. -/
theorem C112_text {E : Ext} (hE : E.Ok) (hs : E.sha256 = Sha256.sha256) (nan a b : Int) :
    ∃ (s : BPSetup) (params : BPParams), setupGeneric E nan a b = .ok (some (a, b, s, s)) ∧ s.deref = .ok params ∧
      ∀ x : Int, ∃ (proof : BPRPProof) (g1 g2 : Int), g1 ∈ [1, 2, 3] ∧ g2 ∈ [1, 2, 3] ∧
        proof.P1.Params = params ∧ proof.P2.Params = params ∧
        proof.P1.V = commitG1 E (x - b + 2 ^ 32) g1 params.H ∧ proof.P2.V = commitG1 E (x - a) g2 params.H ∧
        bprpVerify E proof = .ok (true, proof) ∧ unmarshalBPRP (marshalBPRP proof.toGo) = some proof.toGo ∧
        readmeVerifier E (marshalBPRP proof.toGo) = some (.ok true) := by
  have hB : (BitVec.ofInt 64 (2 ^ 32)).toInt = 2 ^ 32 := by decide
  obtain ⟨s, h1, h2, _⟩ := C25_setup hE nan a b
  obtain ⟨s', params, k, G, Hh, H, k1, k2, k3, k4, k5, _⟩ := C68_setup hE hs nan (BitVec.ofInt 64 (2 ^ 32)) (by rw [hB]; decide)
  rw [h2] at k1
  injection k1 with k1
  injection k1 with k1
  subst k1
  have hk : 2 ^ k = 32 := by
    rw [hB] at k3
    have h2' : (2 : Nat) ^ (2 ^ k) = 2 ^ 32 := by exact_mod_cast k3.symm
    exact Nat.pow_right_injective (le_refl 2) h2'
  rw [hk] at k4
  refine ⟨s, params, h1, k2, fun x => ?_⟩
  obtain ⟨p1, g1, f1, a1, e1, m1, v1, -, i1⟩ := C112_half hE hs (n := 32) (by norm_num) (by norm_num) k4 k5 (x - b + 2 ^ 32)
  obtain ⟨p2, g2, f2, a2, e2, m2, v2, -, i2⟩ := C112_half hE hs (n := 32) (by norm_num) (by norm_num) k4 k5 (x - a)
  have f : bprpVerify E ⟨p1, p2⟩ = .ok (true, ⟨p1, p2⟩) := by
    simp only [bprpVerify, f1, f2, Res.ok_bind, a1, a2]
    rfl
  refine ⟨⟨p1, p2⟩, g1, g2, m1, m2, e1, e2, v1, v2, f, C57_generic i1.toGo i2.toGo, ?_⟩
  exact C70_generic_transport (p := ⟨p1, p2⟩) i1 i2 f

/-- C112: such a proof object is accepted by every one of `k` successive calls of `Verify`, while an honest one is
accepted by every fourth call only (C59). -/
theorem C112_repeat {E : Ext} {proof : BPRPProof} (h : bprpVerify E proof = .ok (true, proof)) :
    ∀ k, bprpVerifyMany E k proof = .ok (List.replicate k true)
  | 0 => rfl
  | k + 1 => by simp only [bprpVerifyMany, h, Res.ok_bind, C112_repeat h k, List.replicate_succ]

/-- A text for the age 12 and `[18, 200)`, with SHA-256. -/
example : ∃ (E : Ext) (text : List UInt8), E.Ok ∧ E.sha256 = Sha256.sha256 ∧ readmeVerifier E text = some (.ok true) := by
  have hE := idealExt_ok _ Sha256.sha256_length
  obtain ⟨s, params, -, -, h⟩ := C112_text hE rfl 0 18 200
  obtain ⟨proof, _, _, _, _, _, _, _, _, _, _, hv⟩ := h 12
  exact ⟨_, _, hE, rfl, hv⟩

example : ∃ (E : Ext) (proof : BPRPProof), E.Ok ∧ bprpVerifyMany E 4 proof = .ok [true, true, true, true] := by
  have hE := idealExt_ok _ Sha256.sha256_length
  obtain ⟨s, params, -, -, h⟩ := C112_text hE rfl 0 18 200
  obtain ⟨proof, _, _, _, _, _, _, _, _, hv, _⟩ := h (-7)
  exact ⟨_, _, hE, C112_repeat hv 4⟩

end Verif

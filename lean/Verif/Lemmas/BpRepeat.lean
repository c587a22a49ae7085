import Verif.Lemmas.BpHonest

/-! # Repeated verification of range proofs -/

namespace Verif

/-- The checks of `Verify` before the inner-product proof: they do not depend on it. -/
theorem bpVerify_head (E : Ext) (proof : BPProof) : ∃ r : Res Bool, ∀ ip : IPProof,
    bpVerify E { proof with IP := ip } = (r >>= fun c => ipVerify E ip >>= fun q => .ok (c && q.1, q.2)) := by
  unfold bpVerify
  simp only
  rcases hashBP E proof.A proof.S with ⟨y, z⟩
  simp only
  cases updateGenerators E proof.Params.Hh y proof.Params.N with
  | panic => exact ⟨.panic, fun _ => rfl⟩
  | ok h' =>
  cases delta proof.Params.N y z with
  | panic => exact ⟨.panic, fun _ => rfl⟩
  | ok d =>
  cases vectorCopy (ORDER - z) proof.Params.N with
  | panic => exact ⟨.panic, fun _ => rfl⟩
  | ok vmz =>
  simp only [Res.ok_bind]
  cases Res.ofOption (vectorExp E proof.Params.Gg vmz) with
  | panic => exact ⟨.panic, fun _ => rfl⟩
  | ok gp =>
  simp only [Res.ok_bind]
  cases vectorCopy z proof.Params.N with
  | panic => exact ⟨.panic, fun _ => rfl⟩
  | ok vz =>
  cases powerOf y proof.Params.N with
  | panic => exact ⟨.panic, fun _ => rfl⟩
  | ok vy =>
  cases powerOf 2 proof.Params.N with
  | panic => exact ⟨.panic, fun _ => rfl⟩
  | ok p2 =>
  simp only [Res.ok_bind]
  cases Res.ofOption (vectorExp E h'
    ((vectorAdd ((vectorMul vy vz).getD []) (vectorScalarMul p2 (z * z))).getD [])) with
  | panic => exact ⟨.panic, fun _ => rfl⟩
  | ok hp => exact ⟨.ok _, fun _ => rfl⟩

/-- For every proof object with points in its inner-product proof whose first verification
returns: there are a target `T` and a flag `c` such that with `P` stored in the inner-product proof
the verdict is `c ∧ P = T`, and `T - P` is stored afterwards. -/
theorem bpVerify_target {E : Ext} (hE : E.Ok) (proof : BPProof) (hp : proof.IP.WellFormed)
    {v : Bool} {P' : P256} (hv : bpVerify E proof = .ok (v, P')) :
    ∃ (c : Bool) (T : Secp), ∀ P Q, Rep P Q → ∃ w P'', bpVerify E (proof.afterVerify P) = .ok (c && w, P'') ∧
      (w = true ↔ Q = T) ∧ Rep P'' (T - Q) := by
  obtain ⟨r, hr⟩ := bpVerify_head E proof
  have hself := hr proof.IP
  rw [show ({ proof with IP := proof.IP } : BPProof) = proof from rfl, hv] at hself
  cases r with
  | panic => cases hself
  | ok c =>
    simp only [Res.ok_bind] at hself
    rcases ipVerify_target hE proof.IP hp with h | ⟨T, hT⟩
    · have := h _ hp.P
      rw [show proof.IP.afterVerify proof.IP.Params.P = proof.IP from rfl] at this
      rw [this] at hself; cases hself
    · refine ⟨c, T, fun P Q hP => ?_⟩
      obtain ⟨w, P'', h1, h2, h3⟩ := hT P Q hP
      refine ⟨w, P'', ?_, h2, h3⟩
      have := hr (proof.IP.afterVerify P)
      rw [h1] at this
      exact this

/-- A range-proof object in the accepting (`s = true`) or in the consumed (`s = false`) state. -/
def ProofState (E : Ext) (proof : BPProof) (s : Bool) : Prop :=
  ∃ T : Secp, T ≠ 0 ∧ (∀ P Q, Rep P Q → ∃ w P'', bpVerify E (proof.afterVerify P) = .ok (w, P'') ∧
      (w = true ↔ Q = T) ∧ Rep P'' (T - Q)) ∧ Rep proof.IP.Params.P (if s then T else 0)

theorem ProofState.step {E : Ext} {proof : BPProof} {s : Bool} (h : ProofState E proof s) :
    ∃ P', bpVerify E proof = .ok (s, P') ∧ ProofState E (proof.afterVerify P') (!s) := by
  obtain ⟨T, hT0, hT, hs⟩ := h
  obtain ⟨w, P', h1, h2, h3⟩ := hT _ _ hs
  rw [show proof.afterVerify proof.IP.Params.P = proof from rfl] at h1
  have hw : w = s := by
    rw [Bool.eq_iff_iff, h2]
    cases s
    · simp [hT0.symm]
    · simp
  subst hw
  refine ⟨P', h1, T, hT0, hT, ?_⟩
  show Rep P' _
  cases w <;> simpa using h3

theorem proofState_of_accepted {E : Ext} (hE : E.Ok) {proof : BPProof} (hp : proof.IP.WellFormed)
    (hfin : proof.IP.Params.P.isZero = false) {P' : P256} (hv : bpVerify E proof = .ok (true, P')) :
    ProofState E proof true := by
  obtain ⟨c, T, hT⟩ := bpVerify_target hE proof hp hv
  obtain ⟨Q, hQ⟩ := hp.P
  obtain ⟨w, P'', h1, h2, h3⟩ := hT _ _ hQ
  rw [show proof.afterVerify proof.IP.Params.P = proof from rfl, hv] at h1
  injection h1 with h1
  injection h1 with h1 _
  have hcw := Bool.and_eq_true_iff.1 h1.symm
  have hQT := h2.1 hcw.2
  subst hQT
  refine ⟨Q, fun h => ?_, fun P R hR => ?_, hQ⟩
  · rw [(hQ.isZero_iff).2 h] at hfin; cases hfin
  · obtain ⟨w', P1, e1, e2, e3⟩ := hT P R hR
    refine ⟨w', P1, ?_, e2, e3⟩
    rw [e1, hcw.1, Bool.true_and]

theorem bpVerifyMany_state {E : Ext} (k : Nat) : ∀ (proof : BPProof) (s : Bool), ProofState E proof s →
    bpVerifyMany E k proof = .ok ((List.range k).map (fun i => s == decide (i % 2 = 0))) := by
  induction k with
  | zero => intro _ _ _; rfl
  | succ k ih =>
    intro proof s h
    obtain ⟨P', h1, h2⟩ := h.step
    rw [bpVerifyMany, h1]
    simp only [Res.ok_bind, ih _ _ h2]
    rw [List.range_succ_eq_map, List.map_cons, List.map_map]
    congr 2
    · cases s <;> rfl
    · apply List.map_congr_left
      intro i _
      simp only [Function.comp, Nat.succ_eq_add_one]
      rcases Nat.mod_two_eq_zero_or_one i with h' | h'
      · have : (i + 1) % 2 = 1 := by omega
        cases s <;> simp [h', this]
      · have : (i + 1) % 2 = 0 := by omega
        cases s <;> simp [h', this]

/-- The number of verifications until the next acceptance of a generic proof, by the states of
its halves. -/
def phase : Bool → Bool → Nat
  | true, true => 0
  | false, false => 1
  | true, false => 2
  | false, true => 3

theorem bprpVerifyMany_state {E : Ext} (k : Nat) : ∀ (proof : BPRPProof) (s1 s2 : Bool),
    ProofState E proof.P1 s1 → ProofState E proof.P2 s2 →
    bprpVerifyMany E k proof = .ok ((List.range k).map (fun i => decide ((i + phase s1 s2) % 4 = 0))) := by
  induction k with
  | zero => intro _ _ _ _ _; rfl
  | succ k ih =>
    intro proof s1 s2 h1 h2
    obtain ⟨P1, e1, f1⟩ := h1.step
    obtain ⟨P2, e2, f2⟩ := h2.step
    rw [List.range_succ_eq_map, List.map_cons, List.map_map]
    cases s1
    · have hv : bprpVerify E proof = .ok (false, ⟨proof.P1.afterVerify P1, proof.P2⟩) := by
        rw [bprpVerify, e1]; rfl
      rw [bprpVerifyMany, hv]
      simp only [Res.ok_bind]
      rw [ih ⟨proof.P1.afterVerify P1, proof.P2⟩ _ _ f1 h2]
      simp only [Res.ok_bind]
      congr 2
      · cases s2 <;> rfl
      · apply List.map_congr_left
        intro i _
        simp only [Function.comp, Nat.succ_eq_add_one, decide_eq_decide]
        cases s2 <;> simp only [phase, Bool.not_false] <;> omega
    · have hv : bprpVerify E proof = .ok (s2, ⟨proof.P1.afterVerify P1, proof.P2.afterVerify P2⟩) := by
        rw [bprpVerify, e1]
        simp only [Res.ok_bind, Bool.not_true, e2]
        rfl
      rw [bprpVerifyMany, hv]
      simp only [Res.ok_bind]
      rw [ih ⟨proof.P1.afterVerify P1, proof.P2.afterVerify P2⟩ _ _ f1 f2]
      simp only [Res.ok_bind]
      congr 2
      · cases s2 <;> rfl
      · apply List.map_congr_left
        intro i _
        simp only [Function.comp, Nat.succ_eq_add_one, decide_eq_decide]
        cases s2 <;> simp only [phase, Bool.not_true, Bool.not_false] <;> omega

end Verif

import Verif.Lemmas.Bp
import Mathlib.Tactic.Module

/-! # Honest range proofs -/

namespace Verif
open Finset

theorem mapToGroup_isPoint {E : Ext} (hE : E.Ok) {m : List UInt8} {p : P256}
    (h : mapToGroup E m = .ok (some p)) : ∃ Q, RepFin p Q := by
  rcases mapToGroupLoop_spec hE m 256 0 _ (fun _ => rfl) with ⟨h1, _⟩ | ⟨j, p', _, _, h1, _, h2, _⟩
  · rw [mapToGroup, h1] at h; cases h
  · rw [mapToGroup, h1] at h
    injection h with h
    injection h with h
    rw [← h]; exact h2

theorem mapToGroup_ok {E : Ext} (hE : E.Ok) (m : List UInt8) : ∃ o, mapToGroup E m = .ok o := by
  rcases mapToGroupLoop_spec hE m 256 0 _ (fun _ => rfl) with ⟨h1, _⟩ | ⟨j, p', _, _, h1, _, h2, _⟩
  · exact ⟨_, h1⟩
  · exact ⟨_, h1⟩

/-- What an honest proof object contains. -/
structure HonestProof (E : Ext) (rnd : BPRand) (secret : Int) (params : BPParams) (proof : BPProof)
    (n : Nat) (G Hh : Nat → Secp) (H : Secp) (sL sR : Nat → Fn) (x y z : Int) : Prop where
  params_eq : proof.Params = params
  hx : x = (hashBP E proof.T1 proof.T2).1
  hyz : (y, z) = hashBP E proof.A proof.S
  hy : n = 1 ∨ ¬ ORDER ∣ y
  V : Rep proof.V (addOf ((secret : Fn) • secpG) ((rnd.gamma : Fn) • H))
  T1 : Rep proof.T1 (addOf (Spec.t1 n secret (y : Fn) (z : Fn) sL sR • secpG) ((rnd.tau1 : Fn) • H))
  T2 : Rep proof.T2 (addOf (Spec.t2 n (y : Fn) sL sR • secpG) ((rnd.tau2 : Fn) • H))
  A : Rep proof.A ((rnd.alpha : Fn) • H +
        ∑ i ∈ range n, ((Spec.bit secret i : Fn) • G i + ((Spec.bit secret i : Fn) - 1) • Hh i))
  S : Rep proof.S ((rnd.rho : Fn) • H + ∑ i ∈ range n, (sL i • G i + sR i • Hh i))
  Commit : Rep proof.Commit (∑ i ∈ range n, (Spec.l0 secret (z : Fn) i + sL i * x) • G i +
    ∑ i ∈ range n, (Spec.r0 secret (y : Fn) z i + (y : Fn) ^ i * sR i * x) • ((y : Fn)⁻¹ ^ i • Hh i))
  Tprime : (proof.Tprime : Fn) = ∑ i ∈ range n, (Spec.l0 secret (z : Fn) i + sL i * x) *
        (Spec.r0 secret (y : Fn) z i + (y : Fn) ^ i * sR i * x)
  Taux : (proof.Taux : Fn) = (rnd.tau2 : Fn) * (x : Fn) ^ 2 + rnd.tau1 * x + (z : Fn) ^ 2 * rnd.gamma
  Mu : (proof.Mu : Fn) = (rnd.rho : Fn) * x + rnd.alpha
  ip : ∃ P', ipVerify E proof.IP = .ok (true, P')
  ip_wf : proof.IP.WellFormed
  ip_P : ∃ (w : Fn) (U : Secp), ∀ C, Rep proof.Commit C → Rep proof.IP.Params.P (C + (w * (proof.Tprime : Fn)) • U)

theorem prove_spec {E : Ext} (hE : E.Ok) {rnd : BPRand} {secret : Int} {params : BPParams} {n k : Nat}
    (hk : n = 2 ^ k) (hN : params.N = n) {G Hh : Nat → Secp} {H : Secp}
    (hG : Reps params.Gg (vec n G)) (hHh : Reps params.Hh (vec n Hh)) (hH : Rep params.H H)
    {sL sR : Nat → Fn} (hsL : castL rnd.sL = vec n sL) (hsR : castL rnd.sR = vec n sR)
    {proof : BPProof} (hp : prove E rnd secret params = .ok (some proof)) :
    ∃ x y z, HonestProof E rnd secret params proof n G Hh H sL sR x y z := by
  obtain ⟨V, A, S, T1, T2, x, y, z, bl, br, tp, t1, t2, e, hx, hyz, hV, hT1, hT2, ht1, ht2, hA, hS, hbl, hbr,
    htp, hsp, -, -⟩ := prove_head hE (rnd := rnd) (secret := secret) hN hG hHh hH hsL hsR
  have hn : 1 ≤ n := by rw [hk]; exact Nat.one_le_two_pow
  rw [e] at hp
  simp only [proveTail, Res.bind_eq_ok] at hp
  obtain ⟨h', u1, oipp, s1, hp⟩ := hp
  rw [hN] at u1 s1
  have hy : n = 1 ∨ ¬ ORDER ∣ y := by
    by_contra hc
    push Not at hc
    rw [updateGenerators_panic (by omega) hc.2] at u1
    cases u1
  obtain ⟨h'', u1', u2⟩ := updateGenerators_rep hE hn hHh hy
  rw [u1] at u1'
  injection u1' with u1'
  subst u1'
  simp only [setupInnerProduct, if_neg (show ¬ ((n : Int) ≤ 0) by omega), Res.bind_eq_ok, res_ofOption_ok,
    Res.ok.injEq] at s1
  obtain ⟨ou, m1, u, rfl, rfl⟩ := s1
  simp only [Res.bind_eq_ok, res_ofOption_ok, Res.ok.injEq, Option.some.injEq] at hp
  obtain ⟨commit, c1, oip, i1, ip, rfl, rfl⟩ := hp
  obtain ⟨U, hU⟩ := mapToGroup_isPoint hE m1
  have hc := commitInnerProduct_spec hE hG u2 c1
  have lbl := castL_inj_length hbl
  have lbr := castL_inj_length hbr
  have lg : params.Gg.length = n := by rw [hG.length_eq, vec_length]
  have lh : h'.length = n := by rw [u2.length_eq, vec_length]
  obtain ⟨x', v, P', _, _, _, _, _, hPP, hw, hv, hvi⟩ := proveInnerProduct_spec hE (k := k) (lbl.trans hk) (lbr.trans hk)
    (lg.trans hk) (lh.trans hk) hG u2 (Or.inr hU) hc i1
  have hv1 : v = true := by
    rw [hvi]
    simp only [scalarProduct_cast hsp]
  refine ⟨x, y, z, rfl, hx, hyz, hy, ?_, ?_, ?_, hA, hS, ?_, htp, ?_, ?_, ⟨P', by rw [hv, hv1]⟩, hw,
    (x' : Fn), U, fun C hC => by rw [Rep.unique hC hc]; exact hPP⟩
  · show Rep V _
    rw [hV]; exact commitG1_addOf hE _ _ hH
  · show Rep T1 _
    rw [hT1, ← ht1]; exact commitG1_addOf hE _ _ hH
  · show Rep T2 _
    rw [hT2, ← ht2]; exact commitG1_addOf hE _ _ hH
  · show Rep commit _
    rw [hbl, hbr, msm_vec, msm_vec] at hc
    exact hc
  · show (((rnd.tau2 * (x * x) + rnd.tau1 * x + z * z * rnd.gamma) % ORDER : Int) : Fn) = _
    rw [fn_emod]; push_cast; ring
  · show (((rnd.rho * x + rnd.alpha) % ORDER : Int) : Fn) = _
    rw [fn_emod]; push_cast; ring

/-- The prover returns a proof when no hash value is a multiple of `ORDER` and `MapToGroup(SEEDU)`
succeeds. -/
theorem prove_returns {E : Ext} (hE : E.Ok) {rnd : BPRand} {secret : Int} {params : BPParams} {n k : Nat}
    (hk : n = 2 ^ k) (hN : params.N = n) {G Hh : Nat → Secp} {H : Secp}
    (hG : Reps params.Gg (vec n G)) (hHh : Reps params.Hh (vec n Hh)) (hH : Rep params.H H)
    {sL sR : Nat → Fn} (hsL : castL rnd.sL = vec n sL) (hsR : castL rnd.sR = vec n sR)
    (hinv : ∀ s, ¬ ORDER ∣ ((setBytes (E.sha256 s) : Nat) : Int))
    {u : P256} (hu : mapToGroup E SEEDU = .ok (some u)) :
    ∃ proof, prove E rnd secret params = .ok (some proof) := by
  obtain ⟨V, A, S, T1, T2, x, y, z, bl, br, tp, t1, t2, e, hx, hyz, hV, hT1, hT2, ht1, ht2, hA, hS, hbl, hbr,
    htp, hsp, -, -⟩ := prove_head hE (rnd := rnd) (secret := secret) hN hG hHh hH hsL hsR
  have hn : 1 ≤ n := by rw [hk]; exact Nat.one_le_two_pow
  have hy : ¬ ORDER ∣ y := by
    rw [show y = (hashBP E A S).1 by rw [← hyz], hashBP_value]; exact hinv _
  obtain ⟨h', u1, u2⟩ := updateGenerators_rep hE hn hHh (Or.inr hy)
  have lbl := castL_inj_length hbl
  have lbr := castL_inj_length hbr
  have lg : params.Gg.length = n := by rw [hG.length_eq, vec_length]
  have lh : h'.length = n := by rw [u2.length_eq, vec_length]
  obtain ⟨ga, c1⟩ := vectorExp_some (E := E) (a := params.Gg) (b := bl) (by omega)
  obtain ⟨hb, c2⟩ := vectorExp_some (E := E) (a := h') (b := br) (by omega)
  have hci : commitInnerProduct E params.Gg h' bl br = .ok (ga.multiply E hb) := by
    rw [commitInnerProduct, c1, c2]; rfl
  let ipp : IPParams := { N := n, Cc := tp, Uu := u, H := params.H, Gg := params.Gg, Hh := h', P := P256.infinity }
  have hset : setupInnerProduct E params.H params.Gg h' tp n = .ok (some ipp) := by
    rw [setupInnerProduct, if_neg (by omega), hu]; rfl
  obtain ⟨xh, hxh⟩ := hashIP_returns hE params.Gg h' (ga.multiply E hb) tp n (by omega) (by omega)
  let PP := (ga.multiply E hb).multiply E ((u.scalarMult E xh).scalarMult E tp)
  obtain ⟨ip, hip⟩ := computeBip_returns (E := E) hinv { ipp with P := PP } k (2 ^ k) bl br
      params.Gg h' (u.scalarMult E xh) PP [] [] le_rfl (by omega) (by omega) (by omega) (by omega)
  have hprove : proveInnerProduct E bl br (ga.multiply E hb) ipp = .ok (some ip) := by
    rw [proveInnerProduct, if_neg (by omega)]
    simp only [ipp, hxh, Res.ok_bind, Res.ofOption_some]
    rw [show bl.length = 2 ^ k by omega]
    simp only [PP, ipp] at hip
    rw [hip]; rfl
  rw [e]
  simp only [proveTail, hN, u1, hset, hci, hprove, Res.ok_bind, Res.ofOption_some]
  exact ⟨_, rfl⟩

/-! ### The identities behind the two checks -/

theorem sum_bits (v : Int) (n : Nat) : ∑ i ∈ range n, Spec.bit v i * 2 ^ i = v % 2 ^ n := by
  induction n with
  | zero => simp
  | succ n ih =>
    rw [sum_range_succ, ih, Spec.bit]
    have h1 := Int.emod_add_mul_ediv v (2 ^ n)
    have h2 := Int.emod_add_mul_ediv (v / 2 ^ n) 2
    have h3 := Int.emod_add_mul_ediv v (2 ^ (n + 1))
    rw [pow_succ] at h3 ⊢
    rw [← Int.ediv_ediv_of_nonneg (by positivity)] at h3
    linear_combination h1 + 2 ^ n * h2 - h3

theorem t_expand (n : Nat) (v : Int) (x y z : Fn) (sL sR : Nat → Fn) :
    ∑ i ∈ range n, (Spec.l0 v z i + sL i * x) * (Spec.r0 v y z i + y ^ i * sR i * x) =
      Spec.t0 n v y z + Spec.t1 n v y z sL sR * x + Spec.t2 n y sL sR * x ^ 2 := by
  rw [Spec.t0, Spec.t1, Spec.t2, sum_mul, sum_mul, ← sum_add_distrib, ← sum_add_distrib]
  refine sum_congr rfl fun i _ => ?_
  ring

theorem geom_two (n : Nat) : ∑ i ∈ range n, (2 : Fn) ^ i = 2 ^ n - 1 := by
  induction n with
  | zero => simp
  | succ n ih => rw [sum_range_succ, ih, pow_succ]; ring

theorem t0_eq (n : Nat) (v : Int) (y z : Fn) :
    Spec.t0 n v y z = z ^ 2 * ((v % 2 ^ n : Int) : Fn) + Spec.delta n y z := by
  rw [← sum_bits, Spec.delta, ← geom_two, Spec.t0, Int.cast_sum, mul_sum, mul_sum, mul_sum, ← sum_sub_distrib,
    ← sum_add_distrib]
  refine sum_congr rfl fun i _ => ?_
  rw [Spec.l0, Spec.r0]
  have h : ((Spec.bit v i : Int) : Fn) * ((Spec.bit v i : Fn) - 1) = 0 := by
    rcases bit_zero_or_one v i with h | h <;> rw [h] <;> simp
  push_cast
  linear_combination y ^ i * h

theorem smul_inv_pow {y : Fn} (hy : y ≠ 0) (i : Nat) (P : Secp) : y ^ i • (y⁻¹ ^ i • P) = P := by
  rw [smul_smul, ← mul_pow, mul_inv_cancel₀ hy, one_pow, one_smul]

theorem commit_identity (n : Nat) (v : Int) (x y z alpha rho : Fn) (hy : n = 1 ∨ y ≠ 0) (sL sR : Nat → Fn)
    (G Hh : Nat → Secp) (H : Secp) :
    (rho * x + alpha) • H + (∑ i ∈ range n, (Spec.l0 v z i + sL i * x) • G i +
      ∑ i ∈ range n, (Spec.r0 v y z i + y ^ i * sR i * x) • (y⁻¹ ^ i • Hh i)) =
    (alpha • H + ∑ i ∈ range n, ((Spec.bit v i : Fn) • G i + ((Spec.bit v i : Fn) - 1) • Hh i)) +
    x • (rho • H + ∑ i ∈ range n, (sL i • G i + sR i • Hh i)) + -(z • ∑ i ∈ range n, G i) +
    ∑ i ∈ range n, (y ^ i * z + 2 ^ i * z ^ 2) • (y⁻¹ ^ i • Hh i) := by
  have key : ∀ i ∈ range n, (Spec.l0 v z i + sL i * x) • G i +
      (Spec.r0 v y z i + y ^ i * sR i * x) • (y⁻¹ ^ i • Hh i) =
      ((Spec.bit v i : Fn) • G i + ((Spec.bit v i : Fn) - 1) • Hh i) + x • (sL i • G i + sR i • Hh i)
      + (-z) • G i + (y ^ i * z + 2 ^ i * z ^ 2) • (y⁻¹ ^ i • Hh i) := by
    intro i hi
    have h1 : y ^ i • (y⁻¹ ^ i • Hh i) = Hh i := by
      rcases hy with h | h
      · have : i = 0 := by rw [h] at hi; simpa using hi
        rw [this]; simp
      · exact smul_inv_pow h i _
    rw [Spec.l0, Spec.r0]
    generalize y⁻¹ ^ i • Hh i = Q at h1
    rw [← h1]
    module
  rw [← sum_add_distrib, sum_congr rfl key, sum_add_distrib, sum_add_distrib, sum_add_distrib, ← smul_sum,
    ← smul_sum]
  module

/-- Verdict on an honest proof, in terms of the point `V` it carries. -/
theorem honest_verdict {E : Ext} (hE : E.Ok) {rnd : BPRand} {secret : Int} {params : BPParams} {n : Nat}
    (hn : 1 ≤ n) (hN : params.N = n) {G Hh : Nat → Secp} {H : Secp}
    (hG : Reps params.Gg (vec n G)) (hHh : Reps params.Hh (vec n Hh)) (hH : Rep params.H H)
    {sL sR : Nat → Fn} {proof : BPProof} {x y z : Int}
    (h : HonestProof E rnd secret params proof n G Hh H sL sR x y z)
    {A S V : Secp} (hA : Rep proof.A A) (hS : Rep proof.S S) (hV : Rep proof.V V)
    (k1 : AddOk (Spec.t1 n secret (y : Fn) (z : Fn) sL sR • secpG) ((rnd.tau1 : Fn) • H))
    (k2 : AddOk (Spec.t2 n (y : Fn) sL sR • secpG) ((rnd.tau2 : Fn) • H))
    (k3 : AddOk ((proof.Tprime : Fn) • secpG) ((proof.Taux : Fn) • H))
    (k4 : AddOk A ((x : Fn) • S))
    (k5 : AddOk (A + (x : Fn) • S) (-((z : Fn) • ∑ i ∈ range n, G i)))
    (k6 : AddOk (A + (x : Fn) • S + -((z : Fn) • ∑ i ∈ range n, G i))
      (∑ i ∈ range n, ((y : Fn) ^ i * z + 2 ^ i * (z : Fn) ^ 2) • ((y : Fn)⁻¹ ^ i • Hh i))) :
    ∃ v P', bpVerify E proof = .ok (v, P') ∧
      (v = true ↔ (z : Fn) ^ 2 • V =
        (z : Fn) ^ 2 • (((secret % 2 ^ n : Int) : Fn) • secpG + (rnd.gamma : Fn) • H)) := by
  have hT1 := h.T1
  have hT2 := h.T2
  rw [addOf_eq k1] at hT1
  rw [addOf_eq k2] at hT2
  have hpar := h.params_eq
  obtain ⟨c, c1, c2⟩ := bpVerify_exact hE hn (proof := proof) (by rw [hpar]; exact hN) (by rw [hpar]; exact hG)
    (by rw [hpar]; exact hHh) (by rw [hpar]; exact hH) hV hA hS hT1 hT2 h.Commit h.hx h.hyz h.hy
  obtain ⟨P', hip⟩ := h.ip
  refine ⟨c && true, P', by rw [c1, hip]; rfl, ?_⟩
  rw [Bool.and_true, c2, lPOf, addOf_eq k3, addOf_eq k4, addOf_eq k5, addOf_eq k6]
  have h67 : addOf ((proof.Mu : Fn) • H + (∑ i ∈ range n, (Spec.l0 secret (z : Fn) i + sL i * x) • G i +
      ∑ i ∈ range n, (Spec.r0 secret (y : Fn) z i + (y : Fn) ^ i * sR i * x) • ((y : Fn)⁻¹ ^ i • Hh i)))
      (-(A + (x : Fn) • S + -((z : Fn) • ∑ i ∈ range n, G i) +
      (∑ i ∈ range n, ((y : Fn) ^ i * z + 2 ^ i * (z : Fn) ^ 2) • ((y : Fn)⁻¹ ^ i • Hh i)))) = 0 := by
    rw [addOf_neg_eq_zero]
    right; left
    rw [h.Mu, commit_identity n secret x y z _ _ (h.hy.imp_right (fun hc => by rwa [Ne, fn_eq_zero])) sL sR G Hh H,
      Rep.unique hA h.A, Rep.unique hS h.S]
  rw [and_iff_left h67, h.Tprime, t_expand, t0_eq, h.Taux, ← sub_eq_zero,
    ← sub_eq_zero (a := (z : Fn) ^ 2 • V), ← neg_eq_zero]
  refine Eq.congr ?_ rfl
  module

end Verif

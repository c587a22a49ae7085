import Verif.Spec.BpFixed
import Verif.Lemmas.BpExtract
import Verif.Lemmas.IpFork
import Verif.Lemmas.Bp

/-! # The repaired verifier decides the equations of the paper -/

namespace Verif
open Spec Finset

/-- The inner-product proof which the repaired verifier looks at. -/
def fixedIP (E : Ext) (params : BPParams) (h' : List P256) (u : P256) (e : Int) (proof : BPProof) : IPProof :=
  { proof.IP with
    U := u.scalarMult E e
    Params := { proof.IP.Params with
      Gg := params.Gg, Hh := h', P := proof.Commit.multiply E ((u.scalarMult E e).scalarMult E proof.Tprime) } }

theorem verifyFixed_exact {E : Ext} (hE : E.Ok) {params : BPParams} {u : P256} {ch : Challenges} {proof : BPProof}
    {n : Nat} (hn : 1 ≤ n) (hN : params.N = n) {G Hh : Nat → Secp} {H V A S T1 T2 C : Secp}
    (hG : Reps params.Gg (vec n G)) (hHh : Reps params.Hh (vec n Hh)) (hH : Rep params.H H)
    (hV : Rep proof.V V) (hA : Rep proof.A A) (hS : Rep proof.S S)
    (hT1 : Rep proof.T1 T1) (hT2 : Rep proof.T2 T2) (hC : Rep proof.Commit C) (hy : n = 1 ∨ ¬ ORDER ∣ ch.y) :
    ∃ (c : Bool) (h' : List P256), updateGenerators E params.Hh ch.y n = .ok h' ∧
      Reps h' (vec n fun i => (ch.y : Fn)⁻¹ ^ i • Hh i) ∧
      verifyFixed E params u ch proof = (ipVerify E (fixedIP E params h' u ch.e proof) >>= fun r => .ok (c && r.1)) ∧
      (c = true ↔
        (proof.Tprime : Fn) • secpG + (proof.Taux : Fn) • H =
          (ch.z : Fn) ^ 2 • V + Spec.delta n (ch.y : Fn) (ch.z : Fn) • secpG + (ch.x : Fn) • T1 + (ch.x : Fn) ^ 2 • T2 ∧
        A + (ch.x : Fn) • S + -((ch.z : Fn) • ∑ i ∈ range n, G i) +
          ∑ i ∈ range n, ((ch.y : Fn) ^ i * (ch.z : Fn) + 2 ^ i * (ch.z : Fn) ^ 2) • ((ch.y : Fn)⁻¹ ^ i • Hh i) =
          (proof.Mu : Fn) • H + C) := by
  obtain ⟨h', u1, u2⟩ := updateGenerators_rep hE hn hHh hy
  obtain ⟨d, d1, d2⟩ := delta_fn n ch.y ch.z
  have lg : params.Gg.length = n := by rw [hG.length_eq, vec_length]
  have lh : h'.length = n := by rw [u2.length_eq, vec_length]
  obtain ⟨gp, g1⟩ := vectorExp_some (E := E) (a := params.Gg) (b := List.replicate n (ORDER - ch.z)) (by simp [lg])
  have g2 := vectorExp_fn hE hG g1
  rw [castL_replicate, msm_vec] at g2
  have cz : castL (List.replicate n ch.z) = vec n (fun _ => (ch.z : Fn)) := castL_replicate ch.z n
  have cw := castL_vectorAdd (castL_vectorMul (castL_powerOf ch.y n) cz)
    (castL_vectorScalarMul (castL_powerOf 2 n) (ch.z * ch.z))
  obtain ⟨hp, p1⟩ := vectorExp_some (E := E) (a := h') (b := _) (lh.trans (castL_inj_length cw).symm)
  have p2 := vectorExp_fn hE u2 p1
  rw [cw, msm_vec] at p2
  have r65 := multiply_rep hE (multiply_rep hE (multiply_rep hE (multiply_rep hE
    (scalarMult_fn hE hV (ch.z * ch.z % ORDER)) (scalarBaseMult_fn hE d)) (scalarMult_fn hE hT1 ch.x))
    (scalarMult_fn hE hT2 (ch.x * ch.x % ORDER)))
    (neg_in_place hE (multiply_rep hE (scalarBaseMult_fn hE proof.Tprime) (scalarMult_fn hE hH proof.Taux)))
  have rl := multiply_rep hE (multiply_rep hE (multiply_rep hE hA (scalarMult_fn hE hS ch.x)) g2) p2
  have r67 := multiply_rep hE (multiply_rep hE (scalarMult_fn hE hH proof.Mu) hC) (neg_in_place hE rl)
  have hc := (Bool.and_eq_true_iff).trans (and_congr r65.isZero_iff r67.isZero_iff)
  refine ⟨_, h', u1, u2, ?_, hc.trans ?_⟩
  rotate_left
  · rw [← sub_eq_add_neg, sub_eq_zero, eq_comm, ← sub_eq_add_neg, sub_eq_zero, eq_comm (a := (proof.Mu : Fn) • H + C)]
    have e1 : ((ch.z * ch.z % ORDER : Int) : Fn) = (ch.z : Fn) ^ 2 := by rw [fn_emod, Int.cast_mul, sq]
    have e2 : ((ch.x * ch.x % ORDER : Int) : Fn) = (ch.x : Fn) ^ 2 := by rw [fn_emod, Int.cast_mul, sq]
    rw [e1, e2, d2]
    have e3 : ∑ i ∈ range n, ((ORDER - ch.z : Int) : Fn) • G i = -((ch.z : Fn) • ∑ i ∈ range n, G i) := by
      rw [smul_sum, ← sum_neg_distrib]
      refine sum_congr rfl fun i _ => ?_
      have : ((ORDER - ch.z : Int) : Fn) = -(ch.z : Fn) := by
        rw [Int.cast_sub, (fn_eq_zero ORDER).2 (dvd_refl _), zero_sub]
      rw [this, neg_smul]
    have e4 : ∑ i ∈ range n, ((ch.y : Fn) ^ i * (ch.z : Fn) + ((2 : Int) : Fn) ^ i * ((ch.z * ch.z : Int) : Fn)) •
        ((ch.y : Fn)⁻¹ ^ i • Hh i) =
        ∑ i ∈ range n, ((ch.y : Fn) ^ i * (ch.z : Fn) + 2 ^ i * (ch.z : Fn) ^ 2) • ((ch.y : Fn)⁻¹ ^ i • Hh i) := by
      refine sum_congr rfl fun i _ => ?_
      push_cast
      rw [sq]
    rw [e3, e4]
  · rw [verifyFixed]
    simp only [hN, u1, d1, Res.ok_bind, vectorCopy_eq, powerOf_eq, g1, Res.ofOption_some, p1]
    rfl

end Verif

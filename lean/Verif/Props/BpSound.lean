import Verif.Lemmas.BpBits
import Verif.Props.Bp

/-!
# C67: soundness of the range proof fails also for a verifier that ties the proof together

C28 uses that `Verify` does not compare the inner-product proof with the rest of the proof object.  Here these
comparisons are added (`Tied`), and false statements are still accepted.
-/

namespace Verif
open Finset

/-- The comparisons which `Verify` omits: the parameters are the verifier's, and the inner-product proof is
for the generators `g`, `h'`, the commitment `Commit` and the product `Tprime`, with `U` and `P` computed from
them as in `proveInnerProduct`, bulletproofs/bip.go:119-130. -/
structure Tied (E : Ext) (params : BPParams) (proof : BPProof) : Prop where
  params_eq : proof.Params = params
  ip : ∃ (h' : List P256) (ipp : IPParams) (e : Int),
    updateGenerators E params.Hh (hashBP E proof.A proof.S).1 params.N = .ok h' ∧
    setupInnerProduct E params.H params.Gg h' proof.Tprime params.N = .ok (some ipp) ∧
    hashIP E params.Gg h' proof.Commit proof.Tprime params.N = .ok (some e) ∧
    proof.ParamsIP = ipp ∧ proof.IP.U = ipp.Uu.scalarMult E e ∧
    proof.IP.Params = { ipp with P := proof.Commit.multiply E (proof.IP.U.scalarMult E proof.Tprime) }

theorem computeBip_U {E : Ext} {params : IPParams} : ∀ {fuel : Nat} {a b : List Int} {g h : List P256}
    {u P : P256} {n : Nat} {Ls Rs : List P256} {proof : IPProof},
    computeBip E params fuel a b g h u P n Ls Rs = .ok proof → proof.U = u ∧ proof.Params = params
  | 0, _, _, _, _, _, _, _, _, _, _, hc => by simp [computeBip] at hc
  | fuel + 1, a, b, g, h, u, P, n, Ls, Rs, proof, hc => by
    rw [computeBip] at hc
    split at hc
    · simp only [Res.bind_eq_ok, Res.ok.injEq] at hc
      obtain ⟨_, _, _, _, _, _, _, _, rfl⟩ := hc
      exact ⟨rfl, rfl⟩
    · simp only [Res.bind_eq_ok, Res.ok.injEq] at hc
      obtain ⟨_, _, _, _, _, _, _, _, _, _, _, _, _, _, _, _, _, _, _, _, _, _, _, _, _, _, _, _, _, _, _, _, pr, hr, rfl⟩ := hc
      exact ⟨(computeBip_U hr).1, (computeBip_U hr).2⟩

/-- C67: whatever vectors `Prove` is run with, its output passes the additional comparisons. -/
theorem C67_tied {E : Ext} {rnd : BPRand} {w : Int} {aL aR : List Int} {params : BPParams} {proof : BPProof}
    (hp : proveBits E rnd w aL aR params = .ok (some proof)) : Tied E params proof := by
  simp only [proveBits, Res.bind_eq_ok] at hp
  obtain ⟨A, _, S, _, _, _, _, _, _, _, _, _, _, _, _, _, _, _, _, _, tp, _, h', hu, oipp, hs, hp⟩ := hp
  cases oipp with
  | none => cases hp
  | some ipp =>
    simp only [Res.bind_eq_ok, res_ofOption_ok, Res.ok.injEq, Option.some.injEq] at hp
    obtain ⟨commit, _, oip, hi, ip, rfl, rfl⟩ := hp
    have hs' := hs
    rw [setupInnerProduct] at hs'
    split at hs'
    · cases hs'
    simp only [Res.bind_eq_ok, res_ofOption_ok, Res.ok.injEq, Option.some.injEq] at hs'
    obtain ⟨_, _, u, _, rfl⟩ := hs'
    rw [proveInnerProduct] at hi
    split at hi
    · cases hi
    simp only [Res.bind_eq_ok, res_ofOption_ok, Res.ok.injEq, Option.some.injEq] at hi
    obtain ⟨_, he, e, rfl, _, hb, rfl⟩ := hi
    obtain ⟨k1, k2⟩ := computeBip_U hb
    exact ⟨rfl, h', _, e, hu, hs, he, rfl, k1, by rw [k1, k2]⟩

theorem proveBits_V {E : Ext} {rnd : BPRand} {w : Int} {aL aR : List Int} {params : BPParams} {proof : BPProof}
    (hp : proveBits E rnd w aL aR params = .ok (some proof)) : proof.V = commitG1 E w rnd.gamma params.H := by
  simp only [proveBits, Res.bind_eq_ok] at hp
  obtain ⟨A, _, S, _, _, _, _, _, _, _, _, _, _, _, _, _, _, _, _, _, tp, _, h', hu, oipp, hs, hp⟩ := hp
  cases oipp with
  | none => cases hp
  | some ipp =>
    simp only [Res.bind_eq_ok, res_ofOption_ok, Res.ok.injEq, Option.some.injEq] at hp
    obtain ⟨commit, _, oip, hi, ip, rfl, rfl⟩ := hp
    rfl

/-- C67: honest proofs pass the additional comparisons. -/
theorem C67_honest_tied {E : Ext} {rnd : BPRand} {secret : Int} {params : BPParams} {proof : BPProof}
    (hp : prove E rnd secret params = .ok (some proof)) : Tied E params proof := by
  rw [prove_eq_proveBits, Res.bind_eq_ok] at hp
  obtain ⟨aL, _, hp⟩ := hp
  exact C67_tied hp

/-- No call of `P256.Add` with operands outside the pairs on which it is the group law, for a proof made
with vectors `a`, `b` (compare `NoExceptionalAdd`). -/
structure NoExceptionalBits (E : Ext) (rnd : BPRand) (a b : Nat → Fn) (proof : BPProof) (n : Nat)
    (G Hh : Nat → Secp) (H : Secp) : Prop where
  T1 : ∀ y z : Fn, y = (hashBP E proof.A proof.S).1 → z = (hashBP E proof.A proof.S).2 →
    AddOk (Spec.bt1 n a b y z (fun i => (rnd.sL.getD i 0 : Fn)) (fun i => (rnd.sR.getD i 0 : Fn)) • secpG)
      ((rnd.tau1 : Fn) • H)
  T2 : ∀ y : Fn, y = (hashBP E proof.A proof.S).1 →
    AddOk (Spec.t2 n y (fun i => (rnd.sL.getD i 0 : Fn)) (fun i => (rnd.sR.getD i 0 : Fn)) • secpG)
      ((rnd.tau2 : Fn) • H)
  lhs : AddOk ((proof.Tprime : Fn) • secpG) ((proof.Taux : Fn) • H)
  lP : ∀ (A S : Secp) (x y z : Fn), Rep proof.A A → Rep proof.S S → x = (hashBP E proof.T1 proof.T2).1 →
    y = (hashBP E proof.A proof.S).1 → z = (hashBP E proof.A proof.S).2 →
    AddOk A (x • S) ∧ AddOk (A + x • S) (-(z • ∑ i ∈ range n, G i)) ∧
    AddOk (A + x • S + -(z • ∑ i ∈ range n, G i))
      (∑ i ∈ range n, (y ^ i * z + 2 ^ i * z ^ 2) • (y⁻¹ ^ i • Hh i))

/-- C67: exact verdict on a proof made with arbitrary vectors `aL`, `aR`, in which `V` is a commitment to
`w` (chosen before or after the rest of the proof): it is accepted exactly when `z²·w = t₀ - δ(y,z)`. -/
theorem C67_verdict {E : Ext} (hE : E.Ok) {rnd : BPRand} {w0 w : Int} {aL aR : List Int} {params : BPParams}
    {n k : Nat} (hk : n = 2 ^ k) {G Hh : Nat → Secp} {H : Secp} (hgen : Generators params n G Hh H)
    (laL : aL.length = n) (laR : aR.length = n) (lsL : rnd.sL.length = n) (lsR : rnd.sR.length = n)
    {proof : BPProof} (hp : proveBits E rnd w0 aL aR params = .ok (some proof))
    (hV : AddOk ((w : Fn) • secpG) ((rnd.gamma : Fn) • H))
    (hadd : NoExceptionalBits E rnd (fun i => (aL.getD i 0 : Fn)) (fun i => (aR.getD i 0 : Fn)) proof n G Hh H)
    {y z : Fn} (hy : y = (hashBP E proof.A proof.S).1) (hz : z = (hashBP E proof.A proof.S).2) :
    ∃ v P', bpVerify E { proof with V := commitG1 E w rnd.gamma params.H } = .ok (v, P') ∧
      (v = true ↔ z ^ 2 * (w : Fn) =
        Spec.bt0 n (fun i => (aL.getD i 0 : Fn)) (fun i => (aR.getD i 0 : Fn)) y z - Spec.delta n y z) := by
  obtain ⟨x', y', z', h⟩ := proveBits_spec hE hk hgen.N hgen.Gg hgen.Hh hgen.H (castL_eq_vec _ laL) (castL_eq_vec _ laR)
    (castL_eq_vec _ lsL) (castL_eq_vec _ lsR) hp
  have ex := h.hx
  have ey : y' = (hashBP E proof.A proof.S).1 := by rw [← h.hyz]
  have ez : z' = (hashBP E proof.A proof.S).2 := by rw [← h.hyz]
  obtain ⟨k4, k5, k6⟩ := hadd.lP _ _ x' y' z' h.A h.S (by rw [ex]) (by rw [ey]) (by rw [ez])
  have hVr := commitG1_addOf hE w rnd.gamma hgen.H
  rw [addOf_eq hV] at hVr
  obtain ⟨v, P', h1, h2⟩ := bits_verdict hE (by rw [hk]; exact Nat.one_le_two_pow) hgen.N hgen.Gg hgen.Hh hgen.H h
    h.A h.S hVr (hadd.T1 _ _ (by rw [ey]) (by rw [ez])) (hadd.T2 _ (by rw [ey])) hadd.lhs k4 k5 k6
  refine ⟨v, P', h1, h2.trans ?_⟩
  rw [hy, hz, ← ey, ← ez, smul_add, smul_smul, smul_smul, add_left_inj, ← sub_eq_zero, ← sub_smul, smul_eq_zero,
    or_iff_left secpG_ne_zero, sub_eq_zero]

/-- The vector `aR` of the attack: `-1` everywhere except for `-1-v` in position 1. -/
def cheatR (n : Nat) (v : Int) : List Int := (List.range n).map (fun i => if i = 1 then -1 - v else -1)

/-- With equal challenges the vectors `0` and `cheatR n v` satisfy the polynomial identity of the value `v`. -/
theorem cheat_identity {n : Nat} (hn : 2 ≤ n) (v : Int) (z : Fn) :
    Spec.bt0 n (fun i => ((List.replicate n (0 : Int)).getD i 0 : Fn)) (fun i => ((cheatR n v).getD i 0 : Fn)) z z -
      Spec.delta n z z = z ^ 2 * (v : Fn) := by
  have hb : ∀ i ∈ range n, Spec.bl0 (fun i => (((List.replicate n (0 : Int)).getD i 0 : Int) : Fn)) z i *
      Spec.br0 (fun i => (((cheatR n v).getD i 0 : Int) : Fn)) z z i =
      (z - z ^ 2) * z ^ i - z ^ 3 * 2 ^ i + (if i = 1 then z ^ 2 * (v : Fn) else 0) := by
    intro i hi
    have hi' : i < n := by simpa using hi
    have h1 : (List.replicate n (0 : Int)).getD i 0 = 0 := by
      simp [List.getD_eq_getElem?_getD, hi']
    have h2 : (cheatR n v).getD i 0 = if i = 1 then -1 - v else -1 := by
      simp [cheatR, List.getD_eq_getElem?_getD, hi']
    simp only [Spec.bl0, Spec.br0, h1, h2]
    split
    · rename_i h; subst h; push_cast; ring
    · push_cast; ring
  rw [Spec.bt0, sum_congr rfl hb, sum_add_distrib, sum_sub_distrib, ← mul_sum, ← mul_sum, geom_two, Spec.delta,
    sum_ite_eq' (range n) 1, if_pos (mem_range.2 hn)]
  ring

/-- C67: the challenges `y` and `z` coincide, so a prover who runs `Prove` with `aL = 0` and `aR = cheatR n v`
in place of the bits is accepted for every value `v`, in or out of the range, by `Verify` and by the
additional comparisons, for `N ≥ 2`. -/
theorem C67_equal_challenges {E : Ext} (hE : E.Ok) {rnd : BPRand} {v : Int} {params : BPParams} {n k : Nat}
    (hk : n = 2 ^ k) (hn : 2 ≤ n) {G Hh : Nat → Secp} {H : Secp} (hgen : Generators params n G Hh H)
    (lsL : rnd.sL.length = n) (lsR : rnd.sR.length = n) {proof : BPProof}
    (hp : proveBits E rnd v (List.replicate n 0) (cheatR n v) params = .ok (some proof))
    (hV : AddOk ((v : Fn) • secpG) ((rnd.gamma : Fn) • H))
    (hadd : NoExceptionalBits E rnd (fun i => ((List.replicate n (0 : Int)).getD i 0 : Fn))
      (fun i => ((cheatR n v).getD i 0 : Fn)) proof n G Hh H) :
    (∃ P', bpVerify E proof = .ok (true, P')) ∧ Tied E params proof ∧
      proof.V = commitG1 E v rnd.gamma params.H ∧ Rep proof.V ((v : Fn) • secpG + (rnd.gamma : Fn) • H) := by
  have hpV : proof.V = commitG1 E v rnd.gamma params.H := proveBits_V hp
  have hVr := commitG1_addOf hE v rnd.gamma hgen.H
  rw [addOf_eq hV] at hVr
  refine ⟨?_, C67_tied hp, hpV, hpV ▸ hVr⟩
  obtain ⟨w, P', h1, h2⟩ := C67_verdict hE (w := v) hk hgen (by simp) (by simp [cheatR]) lsL lsR hp hV hadd rfl rfl
  rw [← hpV] at h1
  refine ⟨P', ?_⟩
  have : w = true := by
    rw [h2, C29_challenges_equal]
    exact (cheat_identity hn v _).symm
  rw [← this, ← h1]

/-- C67: such a prover is not stopped by an error or panic either. -/
theorem C67_returns {E : Ext} (hE : E.Ok) {rnd : BPRand} {w : Int} {aL aR : List Int} {params : BPParams} {n k : Nat}
    (hk : n = 2 ^ k) {G Hh : Nat → Secp} {H : Secp} (hgen : Generators params n G Hh H)
    (laL : aL.length = n) (laR : aR.length = n) (lsL : rnd.sL.length = n) (lsR : rnd.sR.length = n)
    (hinv : ∀ s, ¬ ORDER ∣ ((setBytes (E.sha256 s) : Nat) : Int))
    (hu : ∃ u, mapToGroup E SEEDU = .ok (some u)) :
    ∃ proof, proveBits E rnd w aL aR params = .ok (some proof) := by
  obtain ⟨u, hu⟩ := hu
  exact proveBits_returns hE hk hgen.N hgen.Gg hgen.Hh hgen.H (castL_eq_vec _ laL) (castL_eq_vec _ laR)
    (castL_eq_vec _ lsL) (castL_eq_vec _ lsR) hinv hu

/-- C67: `V` is in no transcript.  Whatever vectors are used and for a non-zero `z`, there is, modulo `ORDER`,
exactly one value for which the finished proof is accepted when a commitment to it is put into `V`. -/
theorem C67_weak_fiat_shamir {E : Ext} (hE : E.Ok) {rnd : BPRand} {w0 : Int} {aL aR : List Int} {params : BPParams}
    {n k : Nat} (hk : n = 2 ^ k) {G Hh : Nat → Secp} {H : Secp} (hgen : Generators params n G Hh H)
    (laL : aL.length = n) (laR : aR.length = n) (lsL : rnd.sL.length = n) (lsR : rnd.sR.length = n)
    {proof : BPProof} (hp : proveBits E rnd w0 aL aR params = .ok (some proof))
    (hadd : NoExceptionalBits E rnd (fun i => (aL.getD i 0 : Fn)) (fun i => (aR.getD i 0 : Fn)) proof n G Hh H)
    {y z : Fn} (hy : y = (hashBP E proof.A proof.S).1) (hz : z = (hashBP E proof.A proof.S).2) (hz0 : z ≠ 0) :
    ∃ u : Fn, u = (Spec.bt0 n (fun i => (aL.getD i 0 : Fn)) (fun i => (aR.getD i 0 : Fn)) y z - Spec.delta n y z) / z ^ 2 ∧
      ∀ w : Int, AddOk ((w : Fn) • secpG) ((rnd.gamma : Fn) • H) →
        Tied E params { proof with V := commitG1 E w rnd.gamma params.H } ∧
        ∃ v P', bpVerify E { proof with V := commitG1 E w rnd.gamma params.H } = .ok (v, P') ∧
          (v = true ↔ (w : Fn) = u) := by
  refine ⟨_, rfl, fun w hV => ⟨?_, ?_⟩⟩
  · obtain ⟨t1, h', ipp, e, t2⟩ := C67_tied hp
    exact ⟨t1, h', ipp, e, t2⟩
  · obtain ⟨v, P', h1, h2⟩ := C67_verdict hE hk hgen laL laR lsL lsR hp hV hadd hy hz
    refine ⟨v, P', h1, h2.trans ?_⟩
    rw [eq_div_iff (pow_ne_zero 2 hz0), mul_comm]

/-- The attack on the two-bit instance: an accepted proof, passing the additional comparisons, for a
commitment to a million. -/
example : ∃ (E : Ext) (proof : BPProof) (P' : P256), E.Ok ∧ exBP.N = 2 ∧ Tied E exBP proof ∧
    bpVerify E proof = .ok (true, P') ∧ proof.V = commitG1 E 1000000 1 exBP.H := by
  have hE := idealExt_ok hashOne (fun _ => rfl)
  obtain ⟨proof, hp⟩ := C67_returns hE (rnd := exRand 1) (w := 1000000) (aL := List.replicate 2 0)
    (aR := cheatR 2 1000000) (n := 2) (k := 1) rfl exBP_generators rfl rfl rfl rfl hashOne_order (mapToGroup_hashOne _)
  obtain ⟨x, y, z, h⟩ := proveBits_spec hE (n := 2) (k := 1) rfl exBP_generators.N exBP_generators.Gg exBP_generators.Hh
    exBP_generators.H (castL_eq_vec (List.replicate 2 0) rfl) (castL_eq_vec (cheatR 2 1000000) rfl)
    (castL_eq_vec (exRand 1).sL rfl) (castL_eq_vec (exRand 1).sR rfl) hp
  have hx := h.hx
  have hyz := h.hyz
  rw [hashBP_hashOne] at hx hyz
  injection hyz with hy hz
  have hadd : NoExceptionalBits (idealExt hashOne) (exRand 1) (fun i => ((List.replicate 2 (0 : Int)).getD i 0 : Fn))
      (fun i => ((cheatR 2 1000000).getD i 0 : Fn)) proof 2 exGg exHh ((1000 : Fn) • secpG) := by
    refine ⟨?_, ?_, ?_, ?_⟩
    · intro y z ey ez
      rw [hashBP_hashOne] at ey ez
      rw [ey, ez, smul_smul]
      refine addOk_smul ?_
      simp only [Spec.bt1, Spec.bl0, Spec.br0, sum_range_succ, sum_range_zero, exRand]
      decide +kernel
    · intro y ey
      rw [hashBP_hashOne] at ey
      rw [ey, smul_smul]
      refine addOk_smul ?_
      simp only [Spec.t2, sum_range_succ, sum_range_zero, exRand]
      decide +kernel
    · rw [h.Tprime, h.Taux, hx, hy, hz, smul_smul]
      refine addOk_smul ?_
      simp only [Spec.bl0, Spec.br0, sum_range_succ, sum_range_zero, exRand]
      decide +kernel
    · intro A S x y z hA hS ex ey ez
      rw [hashBP_hashOne] at ex ey ez
      rw [Rep.unique hA h.A, Rep.unique hS h.S, ex, ey, ez]
      simp only [sum_range_succ, sum_range_zero, exRand, exGg, exHh, smul_smul, ← add_smul, ← smul_add,
        ← neg_smul, zero_add]
      refine ⟨addOk_smul ?_, addOk_smul ?_, addOk_smul ?_⟩ <;> decide +kernel
  obtain ⟨⟨P', h1⟩, h2, h3, _⟩ := C67_equal_challenges hE (k := 1) rfl (by decide) exBP_generators rfl rfl hp
    (by rw [smul_smul]; refine addOk_smul ?_; simp only [exRand]; decide +kernel) hadd
  exact ⟨_, proof, P', hE, rfl, h2, h1, h3⟩

end Verif

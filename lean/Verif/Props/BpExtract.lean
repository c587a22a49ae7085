import Verif.Lemmas.BpFixed
import Verif.Lemmas.HeapIp
import Verif.Props.BpSound
import Verif.Props.IpSound

/-!
# C76: the range proof is sound after four repairs

C28, C29 and C67 show that single proofs accepted by `Verify` say nothing about `V`.  Here the repaired verifier of
`Spec/BpFixed.lean` is shown to be sound in the sense of the paper: from a tree of accepted runs the bits of the
committed number are computed.
-/

namespace Verif
open Spec Finset

/-- The repaired verifier accepts, for some hash function, a proof with the given points and numbers, the rounds
`(L, R, x)` of `r` in the inner-product proof (where `x` is the hash of `L` and `R`) and its last numbers `a`, `b`. -/
def RangeRun (params : BPParams) (u V A S T1 T2 C : P256) (y z x taux mu tprime e : Fn)
    (r : List (P256 × P256 × Fn)) (a b : Fn) : Prop :=
  ∃ (E : Ext) (ch : Challenges) (proof : BPProof), E.Ok ∧
    (ch.y : Fn) = y ∧ (ch.z : Fn) = z ∧ (ch.x : Fn) = x ∧ (ch.e : Fn) = e ∧
    proof.V = V ∧ proof.A = A ∧ proof.S = S ∧ proof.T1 = T1 ∧ proof.T2 = T2 ∧ proof.Commit = C ∧
    (proof.Taux : Fn) = taux ∧ (proof.Mu : Fn) = mu ∧ (proof.Tprime : Fn) = tprime ∧
    proof.IP.Ls = r.map (·.1) ∧ proof.IP.Rs = r.map (·.2.1) ∧
    (∀ q ∈ r, ((hashBP E q.1 q.2.1).1 : Fn) = q.2.2) ∧ (proof.IP.A : Fn) = a ∧ (proof.IP.B : Fn) = b ∧
    verifyFixed E params u ch proof = .ok true

/-- The tree is the result of running a prover again and again, with all runs accepted: `A` and `S` are sent before `y`
and `z` are chosen, `T1` and `T2` before `x`, `Commit`, `taux`, `mu` and `tprime` before `e`, and the points of a round
of the inner-product argument before its challenge. -/
def _root_.Verif.Spec.RTree.Accepted {k : Nat} (T : RTree Fn k) (params : BPParams) (u V : P256) : Prop :=
  (∀ i, (T i).y ≠ 0) ∧ (∀ i i', (T i).y = (T i').y → i = i') ∧ ∃ A S : P256, IsPoint A ∧ IsPoint S ∧ ∀ i,
    (∀ j, ((T i).zs j).z ≠ 0) ∧ (∀ j j', ((T i).zs j).z = ((T i).zs j').z → j = j') ∧
    ∀ j, ∃ T1 T2 : P256, IsPoint T1 ∧ IsPoint T2 ∧
      (∀ l l', (((T i).zs j).xs l).x = (((T i).zs j).xs l').x → l = l') ∧
      ∀ l, let nd := ((T i).zs j).xs l
        ∃ C : P256, IsPoint C ∧ nd.e 0 ≠ nd.e 1 ∧ ∀ c, (nd.t c).Forked IsPoint
          (RangeRun params u V A S T1 T2 C (T i).y ((T i).zs j).z nd.x nd.taux nd.mu nd.tprime (nd.e c))

theorem valsOf_vec {l : List P256} {n : Nat} {f : Nat → Secp} (h : Reps l (vec n f)) : ∀ i < n, valsOf l i = f i := by
  intro i hi
  have hi' : i < l.length := by rw [h.length_eq, vec_length]; exact hi
  rw [valsOf, List.getD_eq_getElem?_getD, List.getElem?_eq_getElem hi', Option.getD_some]
  have := (List.forall₂_iff_get.1 h).2 i hi' (by rw [vec_length]; exact hi)
  exact (valOf_eq this).trans (by simp [vec])

/-- What an accepted run says. -/
theorem rangeRun_spec {params : BPParams} {k : Nat} {G Hh : Nat → Secp} {H u₀ : Secp} {u V A S T1 T2 C : P256}
    (hgen : Generators params (2 ^ k) G Hh H) (hu : Rep u u₀) (hV : IsPoint V) (hA : IsPoint A) (hS : IsPoint S)
    (hT1 : IsPoint T1) (hT2 : IsPoint T2) (hC : IsPoint C) {y z x taux mu tprime e a b : Fn} (hy : y ≠ 0)
    {r : List (P256 × P256 × Fn)} (hl : r.length = k) (hpt : ∀ q ∈ r, IsPoint q.1 ∧ IsPoint q.2.1)
    (hr : RangeRun params u V A S T1 T2 C y z x taux mu tprime e r a b) :
    (tprime • secpG + taux • H =
      z ^ 2 • valOf V + Spec.delta (2 ^ k) y z • secpG + x • valOf T1 + x ^ 2 • valOf T2 ∧
    valOf A + x • valOf S + -(z • ∑ i ∈ range (2 ^ k), G i) +
      ∑ i ∈ range (2 ^ k), (y ^ i * z + 2 ^ i * z ^ 2) • (y⁻¹ ^ i • Hh i) = mu • H + valOf C) ∧
    Accepts (r.map fun q => (valOf q.1, valOf q.2.1, q.2.2)) G (fun i => y⁻¹ ^ i • Hh i) (e • u₀)
      (valOf C + (e * tprime) • u₀) a b := by
  obtain ⟨E, ch, proof, hE, rfl, rfl, rfl, rfl, rfl, rfl, rfl, rfl, rfl, rfl, rfl, rfl, rfl, hL, hR, hch, rfl, rfl, hv⟩ := hr
  obtain ⟨c, h', _, u2, e1, e2⟩ := verifyFixed_exact hE (u := u) (ch := ch) (proof := proof) Nat.one_le_two_pow hgen.N
    hgen.Gg hgen.Hh hgen.H (rep_valOf hV) (rep_valOf hA) (rep_valOf hS) (rep_valOf hT1) (rep_valOf hT2) (rep_valOf hC)
    (Or.inr fun hd => hy ((fn_eq_zero _).2 hd))
  rw [e1, Res.bind_eq_ok] at hv
  obtain ⟨⟨ok, P'⟩, hip, hv⟩ := hv
  obtain ⟨hc, hok⟩ := Bool.and_eq_true_iff.1 (Res.ok.inj hv)
  simp only at hok
  subst hok
  refine ⟨e2.1 hc, ?_⟩
  have rU := scalarMult_fn hE hu ch.e
  have rP := multiply_rep hE (rep_valOf hC) (scalarMult_fn hE rU proof.Tprime)
  have hw : (fixedIP E params h' u ch.e proof).WellFormed := by
    refine ⟨?_, ?_, ⟨_, rU⟩, hgen.Gg.arePoints, u2.arePoints, ⟨_, rP⟩⟩
    · intro p hp
      obtain ⟨q, hq, rfl⟩ := List.mem_map.1 (hL ▸ hp : p ∈ r.map (·.1))
      exact (hpt q hq).1
    · intro p hp
      obtain ⟨q, hq, rfl⟩ := List.mem_map.1 (hR ▸ hp : p ∈ r.map (·.2.1))
      exact (hpt q hq).2
  have acc := ((ipVerify_accepts hE (k := k) hw hL hR hch hl
    (by change params.Gg.length = _; rw [hgen.Gg.length_eq, vec_length])
    (by change h'.length = _; rw [u2.length_eq, vec_length])).1 ⟨P', hip⟩).2
  rw [Accepts.congr (g' := G) (h' := fun i => (ch.y : Fn)⁻¹ ^ i • Hh i) _
    (by rw [List.length_map, hl]; exact valsOf_vec hgen.Gg) (by rw [List.length_map, hl]; exact valsOf_vec u2)] at acc
  have eU : valOf (fixedIP E params h' u ch.e proof).U = (ch.e : Fn) • u₀ := valOf_eq rU
  have eP : valOf (fixedIP E params h' u ch.e proof).Params.P =
      valOf proof.Commit + ((ch.e : Fn) * (proof.Tprime : Fn)) • u₀ := by
    rw [mul_comm, mul_smul]; exact valOf_eq rP
  rw [eU, eP] at acc
  exact acc

/-- An accepted tree is valid. -/
theorem accepted_valid {params : BPParams} {k : Nat} {G Hh : Nat → Secp} {H u₀ V₀ : Secp} {u V : P256}
    (hgen : Generators params (2 ^ k) G Hh H) (hu : Rep u u₀) (hV : Rep V V₀) {T : RTree Fn k}
    (hT : T.Accepted params u V) : T.Valid secpG H u₀ G Hh V₀ := by
  obtain ⟨hy0, hyd, A, S, hA, hS, hT⟩ := hT
  refine ⟨hy0, hyd, valOf A, valOf S, fun i => ?_⟩
  obtain ⟨hz0, hzd, hT⟩ := hT i
  refine ⟨hz0, hzd, fun j => ?_⟩
  obtain ⟨T1, T2, hT1, hT2, hxd, hT⟩ := hT j
  refine ⟨valOf T1, valOf T2, hxd, fun l => ?_⟩
  obtain ⟨C, hC, he, hf⟩ := hT l
  obtain ⟨r, a, b, hr, hl, hpt⟩ := Tree.Forked.exists_leaf _ (Tree.Forked.with_length _ (hf 0))
  obtain ⟨⟨h1, h2⟩, -⟩ := rangeRun_spec hgen hu ⟨V₀, hV⟩ hA hS hT1 hT2 hC (hy0 i) hl hpt hr
  rw [valOf_eq hV] at h1
  exact ⟨valOf C, h1, h2, he, fun c => Tree.Forked.valid (val := valOf) _
    (fun r a b hl hpt hr => (rangeRun_spec hgen hu ⟨V₀, hV⟩ hA hS hT1 hT2 hC (hy0 i) hl hpt hr).2) (hf c)⟩

/-- Bits in the scalar field are the bits of a number. -/
theorem bits_number {n : Nat} (a : Nat → Fn) (ha : ∀ i < n, a i = 0 ∨ a i = 1) :
    ∃ w : Nat, w < 2 ^ n ∧ ∑ i ∈ range n, a i * 2 ^ i = (w : Fn) := by
  induction n with
  | zero => exact ⟨0, by simp⟩
  | succ n ih =>
    obtain ⟨w, h1, h2⟩ := ih fun i hi => ha i (by omega)
    rw [sum_range_succ, h2]
    rcases ha n (by omega) with h | h
    · exact ⟨w, by rw [pow_succ]; omega, by rw [h]; simp⟩
    · exact ⟨w + 2 ^ n, by rw [pow_succ]; omega, by rw [h]; simp⟩

/-- C76: suppose a prover, for the verifier's parameters with `n = 2^k` generators and the point `V`, was run with `n`
different `y ≠ 0`, for each of them three `z ≠ 0`, for each of these three `x`, for each of these two `e`, and four
challenges with different squares in each round of the inner-product argument, and the repaired verifier accepts all
these runs.  Then `RTree.extract` computes from the challenges and the numbers in the proofs either a number
`w` of `n` bits and `gamma` with `V = G^w·H^gamma`, or a non-trivial relation between the generators.  The extractor never
sees the group. -/
theorem C76_extract {params : BPParams} {k : Nat} {G Hh : Nat → Secp} {H u₀ V₀ : Secp} {u V : P256}
    (hgen : Generators params (2 ^ k) G Hh H) (hu : Rep u u₀) (hV : Rep V V₀) {T : RTree Fn k}
    (hT : T.Accepted params u V) :
    match T.extract with
    | .opening a gamma => (∀ i < 2 ^ k, a i = 0 ∨ a i = 1) ∧ ∃ w : Nat, w < 2 ^ 2 ^ k ∧
        (∑ i ∈ range (2 ^ k), a i * 2 ^ i = (w : Fn)) ∧ V₀ = w • secpG + gamma • H
    | .relation (cG, cH, cu, cg, ch) =>
        (cG ≠ 0 ∨ cH ≠ 0 ∨ cu ≠ 0 ∨ ∃ i < 2 ^ k, cg i ≠ 0 ∨ ch i ≠ 0) ∧
        cG • secpG + cH • H + cu • u₀ + ∑ i ∈ range (2 ^ k), cg i • G i + ∑ i ∈ range (2 ^ k), ch i • Hh i = 0 := by
  have h := RTree.extract_valid T (accepted_valid hgen hu hV hT)
  cases he : T.extract with
  | opening a gamma =>
    rw [he] at h
    obtain ⟨h1, h2⟩ := h
    obtain ⟨w, hw, e⟩ := bits_number a h1
    refine ⟨h1, w, hw, e, ?_⟩
    rw [h2, e, Nat.cast_smul_eq_nsmul]
  | relation c =>
    rw [he] at h
    exact h

/-- The inner-product proof of a tied proof is the one which the repaired verifier looks at. -/
theorem tied_fixedIP {E : Ext} {params : BPParams} {proof : BPProof} (ht : Tied E params proof) :
    ∃ (u : P256) (h' : List P256) (e : Int), mapToGroup E SEEDU = .ok (some u) ∧
      updateGenerators E params.Hh (hashBP E proof.A proof.S).1 params.N = .ok h' ∧
      hashIP E params.Gg h' proof.Commit proof.Tprime params.N = .ok (some e) ∧
      fixedIP E params h' u e proof = proof.IP := by
  obtain ⟨tp, h', ipp, e, t1, t2, t3, t4, t5, t6⟩ := ht
  rw [setupInnerProduct] at t2
  split at t2
  · cases t2
  simp only [Res.bind_eq_ok, res_ofOption_ok, Res.ok.injEq, Option.some.injEq] at t2
  obtain ⟨_, hu, u, rfl, rfl⟩ := t2
  refine ⟨u, h', e, hu, t1, t3, ?_⟩
  have hU : u.scalarMult E e = proof.IP.U := t5.symm
  rw [fixedIP, hU]
  generalize proof.IP = ip at t6 ⊢
  obtain ⟨_, _, _, _, _, _, _, _, _, ipParams⟩ := ip
  simp only at t6
  subst t6
  rfl

/-- C76: the repairs are the only differences.  On a proof object that passes the comparisons of `Tied`, with the
challenges of the code and where no call of `Add` has exceptional operands, the repaired verifier returns what `Verify`
returns. -/
theorem C76_same {E : Ext} (hE : E.Ok) {params : BPParams} {proof : BPProof} {n : Nat} (hn : 1 ≤ n) {G Hh : Nat → Secp}
    {H V A S T1 T2 C : Secp} (hgen : Generators params n G Hh H) (hpts : ProofPoints proof V A S T1 T2 C)
    (ht : Tied E params proof) {x y z : Int} (hx : x = (hashBP E proof.T1 proof.T2).1)
    (hyz : (y, z) = hashBP E proof.A proof.S) (hy : n = 1 ∨ ¬ ORDER ∣ y)
    (k1 : AddOk ((proof.Tprime : Fn) • secpG) ((proof.Taux : Fn) • H)) (k2 : AddOk A ((x : Fn) • S))
    (k3 : AddOk (A + (x : Fn) • S) (-((z : Fn) • ∑ i ∈ range n, G i)))
    (k4 : AddOk (A + (x : Fn) • S + -((z : Fn) • ∑ i ∈ range n, G i))
      (∑ i ∈ range n, ((y : Fn) ^ i * (z : Fn) + 2 ^ i * (z : Fn) ^ 2) • ((y : Fn)⁻¹ ^ i • Hh i)))
    (k5 : AddOk ((proof.Mu : Fn) • H + C) (-(A + (x : Fn) • S + -((z : Fn) • ∑ i ∈ range n, G i) +
      ∑ i ∈ range n, ((y : Fn) ^ i * (z : Fn) + 2 ^ i * (z : Fn) ^ 2) • ((y : Fn)⁻¹ ^ i • Hh i)))) :
    ∃ (u : P256) (h' : List P256) (e : Int), mapToGroup E SEEDU = .ok (some u) ∧
      updateGenerators E params.Hh y params.N = .ok h' ∧
      hashIP E params.Gg h' proof.Commit proof.Tprime params.N = .ok (some e) ∧
      verifyFixed E params u ⟨x, y, z, e⟩ proof = (bpVerify E proof >>= fun r => .ok r.1) := by
  have tp := ht.params_eq
  obtain ⟨u, h', e, hu, t1, t3, hip⟩ := tied_fixedIP ht
  rw [← hyz] at t1
  refine ⟨u, h', e, hu, t1, t3, ?_⟩
  obtain ⟨c, h'', u1, u2, e1, e2⟩ := verifyFixed_exact hE (u := u) (ch := ⟨x, y, z, e⟩) (proof := proof) hn hgen.N
    hgen.Gg hgen.Hh hgen.H hpts.V hpts.A hpts.S hpts.T1 hpts.T2 hpts.Commit hy
  obtain ⟨c', e3, e4⟩ := bpVerify_exact hE (proof := proof) hn (by rw [tp]; exact hgen.N)
    (by rw [tp]; exact hgen.Gg) (by rw [tp]; exact hgen.Hh) (by rw [tp]; exact hgen.H) hpts.V hpts.A hpts.S hpts.T1
    hpts.T2 hpts.Commit hx hyz hy
  rw [hgen.N, u1] at t1
  obtain rfl := Res.ok.inj t1
  have hc : c = c' := by
    rw [Bool.eq_iff_iff, e2, e4, addOf_eq k1, lPOf, addOf_eq k2, addOf_eq k3, addOf_eq k4, addOf_eq k5,
      ← sub_eq_add_neg _ (_ + _ + _ + _), sub_eq_zero, eq_comm (a := (proof.Mu : Fn) • H + C)]
  rw [e1, e3, hip, hc, Res.bind_assoc]
  simp only [Res.ok_bind]

/-- C76: the repaired verifier accepts what `Prove` returns for secrets in `[0, 2^n)`, with the challenges of the code,
if the operands of `Add` in `Prove` are not exceptional (in the repaired verifier there is no `Add`). -/
theorem C76_complete {E : Ext} (hE : E.Ok) {rnd : BPRand} {secret : Int} {params : BPParams} {n k : Nat}
    (hk : n = 2 ^ k) {G Hh : Nat → Secp} {H : Secp} (hgen : Generators params n G Hh H)
    (lsL : rnd.sL.length = n) (lsR : rnd.sR.length = n)
    {proof : BPProof} (hp : prove E rnd secret params = .ok (some proof)) (h0 : 0 ≤ secret) (h1 : secret < 2 ^ n)
    {x y z : Int} (hx : x = (hashBP E proof.T1 proof.T2).1) (hyz : (y, z) = hashBP E proof.A proof.S)
    (k0 : AddOk ((secret : Fn) • secpG) ((rnd.gamma : Fn) • H))
    (k1 : AddOk (Spec.t1 n secret (y : Fn) (z : Fn) (fun i => (rnd.sL.getD i 0 : Fn)) (fun i => (rnd.sR.getD i 0 : Fn)) • secpG)
      ((rnd.tau1 : Fn) • H))
    (k2 : AddOk (Spec.t2 n (y : Fn) (fun i => (rnd.sL.getD i 0 : Fn)) (fun i => (rnd.sR.getD i 0 : Fn)) • secpG)
      ((rnd.tau2 : Fn) • H)) :
    ∃ (u : P256) (h' : List P256) (e : Int), mapToGroup E SEEDU = .ok (some u) ∧
      updateGenerators E params.Hh y params.N = .ok h' ∧
      hashIP E params.Gg h' proof.Commit proof.Tprime params.N = .ok (some e) ∧
      verifyFixed E params u ⟨x, y, z, e⟩ proof = .ok true := by
  obtain ⟨x', y', z', h⟩ := prove_spec hE hk hgen.N hgen.Gg hgen.Hh hgen.H (castL_eq_vec _ lsL) (castL_eq_vec _ lsR) hp
  obtain rfl : x' = x := h.hx.trans hx.symm
  obtain ⟨rfl, rfl⟩ := Prod.mk.inj (h.hyz.trans hyz.symm)
  obtain ⟨u, h', e, hu, t1, t3, hip⟩ := tied_fixedIP (C67_honest_tied hp)
  rw [← hyz] at t1
  refine ⟨u, h', e, hu, t1, t3, ?_⟩
  have hV := h.V
  have hT1 := h.T1
  have hT2 := h.T2
  rw [addOf_eq k0] at hV
  rw [addOf_eq k1] at hT1
  rw [addOf_eq k2] at hT2
  obtain ⟨c, h'', u1, u2, e1, e2⟩ := verifyFixed_exact hE (u := u) (ch := ⟨x', y', z', e⟩) (proof := proof)
    (by rw [hk]; exact Nat.one_le_two_pow) hgen.N hgen.Gg hgen.Hh hgen.H hV h.A h.S hT1 hT2 h.Commit h.hy
  rw [hgen.N, u1] at t1
  obtain rfl := Res.ok.inj t1
  obtain ⟨P', hv⟩ := h.ip
  have hc : c = true := by
    refine e2.2 ⟨?_, ?_⟩
    · rw [h.Tprime, t_expand, t0_eq, h.Taux, Int.emod_eq_of_lt h0 h1]
      module
    · rw [h.Mu, commit_identity n secret _ _ _ _ _ (h.hy.imp_right (fun hc => by rwa [Ne, fn_eq_zero]))]
  rw [e1, hip, hv, hc]
  rfl

theorem ok_unique {α : Type} {r : Res α} {a b : α} (h : r = .ok a) (h' : r = .ok b) : a = b :=
  Res.ok.inj (h.symm.trans h')

theorem ok_some_unique {α : Type} {r : Res (Option α)} {a b : α} (h : r = .ok (some a)) (h' : r = .ok (some b)) : a = b :=
  Option.some.inj (ok_unique h h')

/-- The hypotheses of C76_complete and C76_same hold for the honest proof of the two-bit instance. -/
example : ∃ (E : Ext) (proof : BPProof) (u : P256) (e : Int), E.Ok ∧ prove E (exRand 1) 1 exBP = .ok (some proof) ∧
    verifyFixed E exBP u ⟨1, 1, 1, e⟩ proof = .ok true ∧
    (bpVerify E proof >>= fun r => .ok r.1) = .ok true := by
  have hE := idealExt_ok hashOne (fun _ => rfl)
  obtain ⟨proof, hp, hadd⟩ := exBP_honest 1 1 (Or.inr rfl) rfl
  have e1 := hashBP_hashOne proof.T1 proof.T2
  have e2 := hashBP_hashOne proof.A proof.S
  have e1' : (1 : Int) = (hashBP (idealExt hashOne) proof.T1 proof.T2).1 := by rw [e1]
  have a1 := hadd.T1 1 1 (by rw [e2]; simp) (by rw [e2]; simp)
  have a2 := hadd.T2 1 (by rw [e2]; simp)
  have hV : AddOk (((1 : Int) : Fn) • secpG) (((exRand 1).gamma : Fn) • (1000 : Fn) • secpG) := by
    rw [smul_smul]
    refine addOk_smul ?_
    simp only [exRand]; decide +kernel
  obtain ⟨u, h', e, hu, hh, hi, hv⟩ := C76_complete hE (k := 1) (x := 1) (y := 1) (z := 1) rfl exBP_generators rfl rfl hp
    (by decide) (by decide) e1' e2.symm hV (by simpa using a1) (by simpa using a2)
  refine ⟨_, proof, u, e, hE, hp, hv, ?_⟩
  obtain ⟨x, y, z, h⟩ := prove_spec hE (n := 2) (k := 1) rfl exBP_generators.N exBP_generators.Gg exBP_generators.Hh
    exBP_generators.H (castL_eq_vec (exRand 1).sL rfl) (castL_eq_vec (exRand 1).sR rfl) hp
  have hx := h.hx
  have hyz := h.hyz
  rw [e1] at hx
  rw [e2] at hyz
  obtain ⟨hy, hz⟩ := Prod.mk.inj hyz
  obtain ⟨k2, k3, k4⟩ := hadd.lP _ _ 1 1 1 h.A h.S (by rw [e1]; simp) (by rw [e2]; simp) (by rw [e2]; simp)
  obtain ⟨u', h'', e', hu', hh', hi', hs⟩ := C76_same hE (x := 1) (y := 1) (z := 1) (by decide) exBP_generators
    ⟨h.V, h.A, h.S, h.T1, h.T2, h.Commit⟩ (C67_honest_tied hp) e1' e2.symm (Or.inr (by decide)) hadd.lhs
    (by simpa using k2) (by simpa using k3) (by simpa using k4) (by
      rw [h.Mu, hx, hy, hz]
      have b0 : Spec.bit 1 0 = 1 := by simp [Spec.bit]
      have b1 : Spec.bit 1 1 = 0 := by simp [Spec.bit]
      simp only [Spec.l0, Spec.r0, sum_range_succ, sum_range_zero, b0, b1, exRand, exGg, exHh, smul_smul, ← add_smul, ← neg_smul,
        zero_add]
      refine addOk_smul ?_
      decide +kernel)
  have i1 : u = u' := ok_some_unique hu hu'
  have i2 : h' = h'' := ok_unique hh hh'
  have i3 : e = e' := ok_some_unique hi (i2 ▸ hi')
  rw [← hs, ← i1, ← i3, hv]

/-! ### Instance: one bit -/

section

/-- Parameters with one generator of each kind. -/
noncomputable def oneBit (g h H : Secp) : BPParams := ⟨1, canonP secpG, canonP H, [canonP g], [canonP h]⟩

theorem oneBit_generators (g h H : Secp) : Generators (oneBit g h H) (2 ^ 0) (fun _ => g) (fun _ => h) H :=
  ⟨rfl, .cons (rep_canonP _) .nil, .cons (rep_canonP _) .nil, rep_canonP _⟩

/-- The vectors of an honest prover with the bit 1: `aL = sL = sR = 1`, `aR = 0`. -/
def exL (x z : Fn) : Fn := 1 - z + x

/-- See `exL`. -/
def exR (x z : Fn) : Fn := z + x + z ^ 2

/-- The answers of an honest prover with the bit 1, `gamma = 5`, `alpha = 6`, `rho = 7`, `tau1 = 8`, `tau2 = 9`. -/
def exX (z x : Fn) : XNode Fn 0 :=
  ⟨x, 9 * x ^ 2 + 8 * x + z ^ 2 * 5, 6 + 7 * x, exL x z * exR x z, ![1, 2], fun _ => .leaf (exL x z) (exR x z)⟩

/-- Three challenges `z` and three challenges `x`. -/
def exRange : RTree Fn 0 := fun _ => ⟨1, fun j => ⟨![1, 2, 3] j, fun l => exX (![1, 2, 3] j) (![1, 2, 3] l)⟩⟩

theorem exRun (g h H u : Secp) (z x e : Fn) : RangeRun (oneBit g h H) (canonP u) (canonP (secpG + (5 : Fn) • H))
    (canonP (g + (6 : Fn) • H)) (canonP (g + h + (7 : Fn) • H))
    (canonP ((exL 0 z + exR 0 z) • secpG + (8 : Fn) • H)) (canonP (secpG + (9 : Fn) • H))
    (canonP (exL x z • g + exR x z • h)) 1 z x (exX z x).taux (exX z x).mu (exX z x).tprime e [] (exL x z) (exR x z) := by
  have cst : ∀ y : Fn, (((y.val : Nat) : Int) : Fn) = y := by intro y; rw [Int.cast_natCast, ZMod.natCast_zmod_val]
  have hE := idealExt_ok hashOne (fun _ => rfl)
  have pt : ∀ Q : Secp, IsPoint (canonP Q) := fun Q => ⟨Q, rep_canonP Q⟩
  let proof : BPProof := ⟨canonP (secpG + (5 : Fn) • H), canonP (g + (6 : Fn) • H), canonP (g + h + (7 : Fn) • H),
    canonP ((exL 0 z + exR 0 z) • secpG + (8 : Fn) • H), canonP (secpG + (9 : Fn) • H), ((exX z x).taux.val : Nat),
    ((exX z x).mu.val : Nat), ((exX z x).tprime.val : Nat),
    ⟨1, [], [], canonP u, canonP u, canonP u, canonP u, ((exL x z).val : Nat), ((exR x z).val : Nat), exParams 11⟩,
    canonP (exL x z • g + exR x z • h), oneBit g h H, exParams 11⟩
  let ch : Challenges := ⟨((x.val : Nat) : Int), 1, ((z.val : Nat) : Int), ((e.val : Nat) : Int)⟩
  refine ⟨idealExt hashOne, ch, proof, hE, by simp [ch], cst z, cst x, cst e, rfl, rfl, rfl, rfl, rfl, rfl, cst _, cst _,
    cst _, rfl, rfl, by simp, cst _, cst _, ?_⟩
  obtain ⟨c, h', u1, u2, e1, e2⟩ := verifyFixed_exact hE (u := canonP u) (ch := ch) (proof := proof) (n := 2 ^ 0) le_rfl
    (oneBit_generators g h H).N (oneBit_generators g h H).Gg (oneBit_generators g h H).Hh (oneBit_generators g h H).H
    (rep_canonP _) (rep_canonP _) (rep_canonP _) (rep_canonP _) (rep_canonP _) (rep_canonP _) (Or.inl rfl)
  have hc : c = true := by
    refine e2.2 ?_
    simp only [pow_zero, sum_range_one, Spec.delta, proof, ch, cst, exX, exL, exR]
    constructor
    · simp
      module
    · simp
      module
  have rU := scalarMult_fn hE (rep_canonP u) ch.e
  have rP := multiply_rep hE (rep_canonP (exL x z • g + exR x z • h)) (scalarMult_fn hE rU proof.Tprime)
  have hw : (fixedIP (idealExt hashOne) (oneBit g h H) h' (canonP u) ch.e proof).WellFormed :=
    ⟨(fun _ hp => by cases hp), (fun _ hp => by cases hp), ⟨_, rU⟩, (oneBit_generators g h H).Gg.arePoints, u2.arePoints, ⟨_, rP⟩⟩
  obtain ⟨P', hip⟩ := (ipVerify_accepts hE (k := 0) (r := []) hw rfl rfl (by simp) rfl rfl
    (by change h'.length = _; rw [u2.length_eq, vec_length])).2 (by
    refine ⟨fun h => absurd h (by decide), ?_⟩
    change valOf _ = _
    have a1 : valsOf (fixedIP (idealExt hashOne) (oneBit g h H) h' (canonP u) ch.e proof).Params.Gg 0 = g :=
      valsOf_vec (oneBit_generators g h H).Gg 0 (by decide)
    have a2 : valsOf (fixedIP (idealExt hashOne) (oneBit g h H) h' (canonP u) ch.e proof).Params.Hh 0 = h :=
      (valsOf_vec u2 0 (by decide)).trans (by simp)
    have a3 : valOf (fixedIP (idealExt hashOne) (oneBit g h H) h' (canonP u) ch.e proof).U = e • u := by
      rw [← cst e]; exact valOf_eq rU
    have a4 : valOf (fixedIP (idealExt hashOne) (oneBit g h H) h' (canonP u) ch.e proof).Params.P =
        exL x z • g + exR x z • h + (exX z x).tprime • (e • u) := by
      rw [← cst e, ← cst (exX z x).tprime]; exact valOf_eq rP
    have a5 : ((fixedIP (idealExt hashOne) (oneBit g h H) h' (canonP u) ch.e proof).A : Fn) = exL x z := cst _
    have a6 : ((fixedIP (idealExt hashOne) (oneBit g h H) h' (canonP u) ch.e proof).B : Fn) = exR x z := cst _
    rw [a1, a2, a3, a4, a5, a6]
    rfl)
  rw [e1, hip, hc]
  rfl

/-- The hypotheses of C76_extract, for any generators. -/
theorem exRange_accepted (g h H u : Secp) :
    exRange.Accepted (oneBit g h H) (canonP u) (canonP (secpG + (5 : Fn) • H)) := by
  have pt : ∀ Q : Secp, IsPoint (canonP Q) := fun Q => ⟨Q, rep_canonP Q⟩
  refine ⟨fun _ => by change (1 : Fn) ≠ 0; exact one_ne_zero, fun i i' _ => Subsingleton.elim (α := Fin 1) i i', _, _,
    pt _, pt _, fun i => ⟨?_, ?_, fun j => ⟨_, _, pt _, pt _, ?_, fun l => ⟨_, pt _, ?_, fun c => exRun g h H u _ _ _⟩⟩⟩⟩
  · change ∀ j, (![1, 2, 3] : Fin 3 → Fn) j ≠ 0; decide +kernel
  · change ∀ j j', (![1, 2, 3] : Fin 3 → Fn) j = (![1, 2, 3] : Fin 3 → Fn) j' → j = j'; decide +kernel
  · change ∀ j j', (![1, 2, 3] : Fin 3 → Fn) j = (![1, 2, 3] : Fin 3 → Fn) j' → j = j'; decide +kernel
  · change (1 : Fn) ≠ 2; decide +kernel

/-- From this tree the extractor computes the bit and the blinding factor. -/
example : (match exRange.extract with
    | .opening a gamma => a 0 == 1 && gamma == 5
    | .relation _ => false) = true := by decide +kernel

end

end Verif

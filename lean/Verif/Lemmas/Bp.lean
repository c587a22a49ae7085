import Verif.Lemmas.Vec
import Verif.Model.Bp
import Verif.Spec.Bulletproof

/-! # The range proof -/

namespace Verif
open Finset

theorem addOf_rep {a b : P256} {Q R : Secp} (ha : Rep a Q) (hb : Rep b R) : Rep (a.add b) (addOf Q R) :=
  add_rep ha hb

theorem addOf_eq {P Q : Secp} (h : AddOk P Q) : addOf P Q = P + Q := by
  rw [addOf]
  rcases h with h | ⟨h1, h2⟩
  · rw [if_pos h, h, zero_add]
  · rw [if_neg h1, if_neg h2]
    split
    · rename_i h; rw [h, zero_add]
    · rfl

theorem two_smul_ne_zero {P : Secp} (h : P ≠ 0) : P + P ≠ 0 := by
  rw [← two_nsmul, ← zmod_smul_natCast, Ne, smul_eq_zero]
  push Not
  exact ⟨by decide +kernel, h⟩

theorem addOk_iff {P Q : Secp} : AddOk P Q ↔ addOf P Q = P + Q := by
  refine ⟨addOf_eq, fun h => ?_⟩
  by_cases h0 : P = 0
  · exact Or.inl h0
  · rw [addOf, if_neg h0] at h
    split at h
    · rename_i h1; rw [h1, add_zero] at h; exact absurd h.symm h0
    · rename_i h1
      split at h
      · rename_i h2; rw [← h2] at h; exact absurd h.symm (two_smul_ne_zero h0)
      · rename_i h2; exact Or.inr ⟨h1, h2⟩

/-- When `Add` of `R` and `-L` reports infinity. -/
theorem addOf_neg_eq_zero {R L : Secp} : addOf R (-L) = 0 ↔ L = 0 ∨ R = L ∨ R = -L := by
  rw [addOf]
  split
  · rename_i h; subst h; rw [neg_eq_zero]
    constructor
    · exact Or.inl
    · rintro (h | h | h)
      · exact h
      · exact h.symm
      · rw [eq_comm, neg_eq_zero] at h; exact h
  · rename_i h
    split
    · rename_i h1; rw [neg_eq_zero] at h1; simp [h1]
    · rename_i h1
      rw [neg_eq_zero] at h1
      split
      · rename_i h2; simp [h2]
      · rename_i h2
        rw [← sub_eq_add_neg, sub_eq_zero]
        simp [h1, h2]

theorem commitG1_addOf {E : Ext} (hE : E.Ok) (x r : Int) {h : P256} {H : Secp} (hh : Rep h H) :
    Rep (commitG1 E x r h) (addOf ((x : Fn) • secpG) ((r : Fn) • H)) := by
  rw [zmod_smul_intCast, zmod_smul_intCast]
  exact commitG1_rep hE x r hh

theorem scalarBaseMult_fn {E : Ext} (hE : E.Ok) (n : Int) :
    Rep (P256.scalarBaseMult E n) ((n : Fn) • secpG) := by
  rw [zmod_smul_intCast]; exact scalarBaseMult_rep hE n

theorem idx_castL {a : List Int} {n : Nat} {f : Nat → Fn} (h : castL a = vec n f) {i : Nat} (hi : i < n) :
    ∃ v, idx a i = .ok v ∧ (v : Fn) = f i := by
  have l := castL_inj_length h
  refine ⟨a[i]'(by omega), by rw [idx, List.getElem?_eq_getElem (by omega)]; rfl, ?_⟩
  have := congrArg (fun l => l[i]?) h
  simp only [castL, vec, List.getElem?_map, List.getElem?_range hi,
    List.getElem?_eq_getElem (show i < a.length by omega), Option.map_some, Option.some.injEq] at this
  exact this

theorem idx_reps {a : List P256} {n : Nat} {P : Nat → Secp} (h : Reps a (vec n P)) {i : Nat} (hi : i < n) :
    ∃ p, idx a i = .ok p ∧ Rep p (P i) := by
  have l : a.length = n := by rw [h.length_eq, vec_length]
  refine ⟨a[i]'(by omega), by rw [idx, List.getElem?_eq_getElem (by omega)]; rfl, ?_⟩
  have := List.Forall₂.get h (i := i) (by omega) (by rw [vec_length]; exact hi)
  simpa [vec] using this

theorem commitVectorLoop_rep {E : Ext} (hE : E.Ok) {n : Nat} {aL aR : List Int} {g h : List P256}
    {f e : Nat → Fn} {G H : Nat → Secp} (ha : castL aL = vec n f) (hb : castL aR = vec n e)
    (hg : Reps g (vec n G)) (hh : Reps h (vec n H)) (fuel i : Nat) (hi : i + fuel ≤ n) (R : P256) (Q : Secp)
    (hR : Rep R Q) : ∃ R', commitVectorLoop E aL aR g h fuel i R = .ok R' ∧
      Rep R' (Q + ∑ j ∈ range fuel, (f (i + j) • G (i + j) + e (i + j) • H (i + j))) := by
  induction fuel generalizing i R Q with
  | zero => exact ⟨R, rfl, by simpa using hR⟩
  | succ fuel ih =>
    obtain ⟨gi, g1, g2⟩ := idx_reps hg (show i < n by omega)
    obtain ⟨hi', h1, h2⟩ := idx_reps hh (show i < n by omega)
    obtain ⟨ai, a1, a2⟩ := idx_castL ha (show i < n by omega)
    obtain ⟨bi, b1, b2⟩ := idx_castL hb (show i < n by omega)
    have r1 := multiply_rep hE (multiply_rep hE hR (scalarMult_fn hE g2 ai)) (scalarMult_fn hE h2 bi)
    obtain ⟨R', e1, e2⟩ := ih (i + 1) (by omega) _ _ r1
    refine ⟨R', ?_, ?_⟩
    · rw [commitVectorLoop, g1, h1, a1, b1]
      simpa only [Res.ok_bind] using e1
    · convert e2 using 1
      rw [sum_range_succ', a2, b2]
      simp only [add_zero, Nat.add_assoc, Nat.add_comm 1]
      abel

theorem commitVector_rep {E : Ext} (hE : E.Ok) {n : Nat} {aL aR : List Int} {g h : List P256}
    {f e : Nat → Fn} {G H : Nat → Secp} (ha : castL aL = vec n f) (hb : castL aR = vec n e)
    (hg : Reps g (vec n G)) (hh : Reps h (vec n H)) (alpha : Int) {p : P256} {Q : Secp} (hp : Rep p Q) :
    ∃ R', commitVector E aL aR alpha p g h n = .ok R' ∧
      Rep R' ((alpha : Fn) • Q + ∑ j ∈ range n, (f j • G j + e j • H j)) := by
  obtain ⟨R', h1, h2⟩ := commitVectorLoop_rep hE ha hb hg hh n 0 (by omega) _ _ (scalarMult_fn hE hp alpha)
  refine ⟨R', by rw [commitVector, Int.toNat_natCast]; exact h1, ?_⟩
  simpa using h2

theorem updateGeneratorsLoop_rep {E : Ext} (hE : E.Ok) {n : Nat} {h : List P256} {H : Nat → Secp}
    (hh : Reps h (vec n H)) (yinv : Int) (fuel i : Nat) (hi : i + fuel = n) (e : Int)
    (he : (e : Fn) = (yinv : Fn) ^ i) : ∃ r, updateGeneratorsLoop E h yinv fuel i e = .ok r ∧
      Reps r (vec fuel (fun j => (yinv : Fn) ^ (i + j) • H (i + j))) := by
  induction fuel generalizing i e with
  | zero => exact ⟨[], rfl, .nil⟩
  | succ fuel ih =>
    obtain ⟨p, p1, p2⟩ := idx_reps hh (show i < n by omega)
    obtain ⟨r, r1, r2⟩ := ih (i + 1) (by omega) (e * yinv) (by rw [Int.cast_mul, he, pow_succ])
    refine ⟨_, by rw [updateGeneratorsLoop, p1, Res.ok_bind, r1, Res.ok_bind], ?_⟩
    have hv : vec (fuel + 1) (fun j => (yinv : Fn) ^ (i + j) • H (i + j)) =
        (yinv : Fn) ^ i • H i :: vec fuel (fun j => (yinv : Fn) ^ (i + 1 + j) • H (i + 1 + j)) := by
      rw [vec, List.range_succ_eq_map, List.map_cons, List.map_map]
      simp only [add_zero, vec]
      congr 1
      apply List.map_congr_left
      intro j _
      simp only [Function.comp, Nat.succ_eq_add_one, Nat.add_assoc, Nat.add_comm 1]
    rw [hv]
    refine .cons ?_ r2
    rw [← he]; exact scalarMult_fn hE p2 e

theorem modInverse_inv {y yi : Int} (h : modInverse y ORDER = some yi) : (yi : Fn) = (y : Fn)⁻¹ :=
  eq_inv_of_mul_eq_one_right (modInverse_order h)

theorem updateGenerators_rep {E : Ext} (hE : E.Ok) {n : Nat} (hn : 1 ≤ n) {h : List P256} {H : Nat → Secp}
    (hh : Reps h (vec n H)) {y : Int} (hy : n = 1 ∨ ¬ ORDER ∣ y) :
    ∃ r, updateGenerators E h y n = .ok r ∧ Reps r (vec n (fun j => ((y : Fn)⁻¹) ^ j • H j)) := by
  obtain ⟨p, p1, p2⟩ := idx_reps hh (show 0 < n by omega)
  rw [updateGenerators, if_neg (by omega), p1]
  simp only [Res.ok_bind]
  by_cases h1 : n = 1
  · subst h1
    exact ⟨[p], rfl, .cons (by simpa using p2) .nil⟩
  · rw [if_neg (by omega)]
    have hy := hy.resolve_left h1
    obtain ⟨yi, hyi⟩ := modInverse_order_exists hy
    rw [hyi, Res.ofOption_some, Res.ok_bind]
    obtain ⟨m, rfl⟩ : ∃ m, n = m + 1 := ⟨n - 1, by omega⟩
    obtain ⟨r, r1, r2⟩ := updateGeneratorsLoop_rep hE hh yi m 1 (by omega) yi (by rw [pow_one])
    rw [Int.toNat_natCast, Nat.add_sub_cancel, r1]
    refine ⟨_, rfl, ?_⟩
    rw [vec, List.range_succ_eq_map, List.map_cons, List.map_map]
    refine .cons (by simpa using p2) ?_
    convert r2 using 1
    rw [vec]
    apply List.map_congr_left
    intro j _
    simp only [Function.comp, Nat.succ_eq_add_one, Nat.add_comm 1, modInverse_inv hyi]

theorem updateGenerators_panic {E : Ext} {n : Nat} {h : List P256} {y : Int}
    (hn : 2 ≤ n) (hy : ORDER ∣ y) : updateGenerators E h y n = .panic := by
  rw [updateGenerators, if_neg (by omega), modInverse_order_none.2 hy]
  cases idx h 0 with
  | panic => rfl
  | ok p => simp only [Res.ok_bind]; rw [if_neg (by omega)]; rfl

theorem delta_fn (n : Nat) (y z : Int) : ∃ d, delta n y z = .ok d ∧ (d : Fn) = Spec.delta n (y : Fn) (z : Fn) := by
  refine ⟨_, delta_eq n y z, ?_⟩
  rw [fn_emod, Spec.delta]
  push_cast
  rfl

/-- The point `lP` of `Verify`, with the additions as the code performs them. -/
noncomputable def lPOf (n : Nat) (A S : Secp) (G H : Nat → Secp) (x y z : Fn) : Secp :=
  addOf (addOf (addOf A (x • S)) (-(z • ∑ i ∈ range n, G i)))
    (∑ i ∈ range n, (y ^ i * z + 2 ^ i * z ^ 2) • (y⁻¹ ^ i • H i))

/-- Exact behaviour of `BulletProof.Verify` on every proof object whose lists have length `N` and
whose points are points. -/
theorem bpVerify_exact {E : Ext} (hE : E.Ok) {proof : BPProof} {n : Nat} (hn : 1 ≤ n)
    (hN : proof.Params.N = n) {G Hh : Nat → Secp} {H V A S T1 T2 C : Secp}
    (hG : Reps proof.Params.Gg (vec n G)) (hHh : Reps proof.Params.Hh (vec n Hh))
    (hH : Rep proof.Params.H H) (hV : Rep proof.V V) (hA : Rep proof.A A) (hS : Rep proof.S S)
    (hT1 : Rep proof.T1 T1) (hT2 : Rep proof.T2 T2) (hC : Rep proof.Commit C) {x y z : Int}
    (hx : x = (hashBP E proof.T1 proof.T2).1) (hyz : (y, z) = hashBP E proof.A proof.S)
    (hy : n = 1 ∨ ¬ ORDER ∣ y) :
    ∃ c : Bool, bpVerify E proof = (ipVerify E proof.IP >>= fun r => .ok (c && r.1, r.2)) ∧
      (c = true ↔
        addOf ((proof.Tprime : Fn) • secpG) ((proof.Taux : Fn) • H) =
          (z : Fn) ^ 2 • V + Spec.delta n (y : Fn) (z : Fn) • secpG + (x : Fn) • T1 + (x : Fn) ^ 2 • T2 ∧
        addOf ((proof.Mu : Fn) • H + C) (-lPOf n A S G Hh x y z) = 0) := by
  obtain ⟨h', u1, u2⟩ := updateGenerators_rep hE hn hHh hy
  obtain ⟨d, d1, d2⟩ := delta_fn n y z
  have lg : proof.Params.Gg.length = n := by rw [hG.length_eq, vec_length]
  have lh : h'.length = n := by rw [u2.length_eq, vec_length]
  obtain ⟨gp, g1⟩ := vectorExp_some (E := E) (a := proof.Params.Gg) (b := List.replicate n (ORDER - z)) (by simp [lg])
  have g2 := vectorExp_fn hE hG g1
  rw [castL_replicate, msm_vec] at g2
  have cz : castL (List.replicate n z) = vec n (fun _ => (z : Fn)) := castL_replicate z n
  have cw := castL_vectorAdd (castL_vectorMul (castL_powerOf y n) cz)
    (castL_vectorScalarMul (castL_powerOf 2 n) (z * z))
  obtain ⟨hp, p1⟩ := vectorExp_some (E := E) (a := h') (b := _) (lh.trans (castL_inj_length cw).symm)
  have p2 := vectorExp_fn hE u2 p1
  rw [cw, msm_vec] at p2
  have r65 := multiply_rep hE (multiply_rep hE (multiply_rep hE (multiply_rep hE
    (scalarMult_fn hE hV (z * z % ORDER)) (scalarBaseMult_fn hE d)) (scalarMult_fn hE hT1 x))
    (scalarMult_fn hE hT2 (x * x % ORDER))) (neg_in_place hE (commitG1_addOf hE proof.Tprime proof.Taux hH))
  have rl := addOf_rep (addOf_rep (addOf_rep hA (scalarMult_fn hE hS x)) g2) p2
  have r67 := addOf_rep (multiply_rep hE (scalarMult_fn hE hH proof.Mu) hC) (neg_in_place hE rl)
  have hc := (Bool.and_eq_true_iff).trans (and_congr r65.isZero_iff r67.isZero_iff)
  refine ⟨_, ?_, hc.trans ?_⟩
  rotate_left
  · rw [← sub_eq_add_neg, sub_eq_zero, eq_comm]
    have e1 : ((z * z % ORDER : Int) : Fn) = (z : Fn) ^ 2 := by rw [fn_emod, Int.cast_mul, sq]
    have e2 : ((x * x % ORDER : Int) : Fn) = (x : Fn) ^ 2 := by rw [fn_emod, Int.cast_mul, sq]
    rw [e1, e2, d2]
    have e3 : ∑ i ∈ range n, ((ORDER - z : Int) : Fn) • G i = -((z : Fn) • ∑ i ∈ range n, G i) := by
      rw [smul_sum, ← sum_neg_distrib]
      refine sum_congr rfl fun i _ => ?_
      have : ((ORDER - z : Int) : Fn) = -(z : Fn) := by
        rw [Int.cast_sub, (fn_eq_zero ORDER).2 (dvd_refl _), zero_sub]
      rw [this, neg_smul]
    have e4 : ∑ i ∈ range n, ((y : Fn) ^ i * (z : Fn) + ((2 : Int) : Fn) ^ i * ((z * z : Int) : Fn)) •
        ((y : Fn)⁻¹ ^ i • Hh i) =
        ∑ i ∈ range n, ((y : Fn) ^ i * (z : Fn) + 2 ^ i * (z : Fn) ^ 2) • ((y : Fn)⁻¹ ^ i • Hh i) := by
      refine sum_congr rfl fun i _ => ?_
      push_cast
      rw [sq]
    rw [e3, e4]
    exact Iff.rfl
  · rw [bpVerify, ← hyz, ← hx]
    simp only [hN, u1, d1, Res.ok_bind, vectorCopy_eq, powerOf_eq, g1, Res.ofOption_some, p1]

theorem bpVerify_panic {E : Ext} {proof : BPProof} {n : Nat} (hn : 2 ≤ n) (hN : proof.Params.N = n)
    (hy : ORDER ∣ (hashBP E proof.A proof.S).1) : bpVerify E proof = .panic := by
  rcases h : hashBP E proof.A proof.S with ⟨y, z⟩
  rw [h] at hy
  rw [bpVerify, hN, h]
  simp only [updateGenerators_panic hn hy, Res.panic_bind]

/-! ### The prover -/

theorem decomposeLoop_two (n : Nat) (x : Int) :
    decomposeLoop 2 n x = .ok (vec n (fun i => Spec.bit x i)) := by
  induction n generalizing x with
  | zero => rfl
  | succ n ih =>
    have hv : vec (n + 1) (fun i => Spec.bit x i) = Spec.bit x 0 :: vec n (fun i => Spec.bit x (i + 1)) := by
      rw [vec, List.range_succ_eq_map, List.map_cons, List.map_map]; rfl
    rw [decomposeLoop, if_neg (by decide), ih, Res.ok_bind, hv]
    congr 2
    · simp [Spec.bit]
    · apply List.map_congr_left
      intro i _
      simp only [Spec.bit]
      rw [pow_succ, mul_comm, Int.ediv_ediv_of_nonneg (by decide)]

theorem bit_zero_or_one (v : Int) (i : Nat) : Spec.bit v i = 0 ∨ Spec.bit v i = 1 := by
  unfold Spec.bit; omega

theorem computeAR_bits (l : List Int) (h : ∀ v ∈ l, v = 0 ∨ v = 1) :
    computeAR l = some (l.map (· - 1)) := by
  induction l with
  | nil => rfl
  | cons v l ih =>
    have := ih (fun w hw => h w (List.mem_cons_of_mem _ hw))
    rw [computeAR] at this ⊢
    rw [List.mapM_cons, this]
    rcases h v List.mem_cons_self with rfl | rfl <;> rfl

theorem vectorAdd_range (a b : List Int) : ∀ c ∈ (vectorAdd a b).getD [], 0 ≤ c ∧ c < ORDER := by
  intro c hc
  rw [vectorAdd] at hc
  split at hc
  · simp at hc
  · rw [Option.getD_some, List.mem_iff_get] at hc
    obtain ⟨i, rfl⟩ := hc
    rw [List.get_eq_getElem, List.getElem_zipWith]
    exact ⟨Int.emod_nonneg _ (by decide), Int.emod_lt_of_pos _ (by decide)⟩

/-- The last part of `Prove`: from `updateGenerators` on. -/
def proveTail (E : Ext) (rnd : BPRand) (params : BPParams) (V A S T1 T2 : P256) (x y z : Int)
    (bl br : List Int) (tprime : Int) : Res (Option BPProof) := do
  let taux := (rnd.tau2 * (x * x) + rnd.tau1 * x + z * z * rnd.gamma) % ORDER
  let mu := (rnd.rho * x + rnd.alpha) % ORDER
  let hprime ← updateGenerators E params.Hh y params.N
  let ipp ← setupInnerProduct E params.H params.Gg hprime tprime params.N
  match ipp with
  | none => .ok none
  | some ipp => do
    let commit ← commitInnerProduct E params.Gg hprime bl br
    let proofip ← proveInnerProduct E bl br commit ipp
    let proofip ← Res.ofOption proofip
    .ok (some { V := V, A := A, S := S, T1 := T1, T2 := T2, Taux := taux, Mu := mu,
                Tprime := tprime, IP := proofip, Commit := commit, Params := params,
                ParamsIP := ipp })

/-- `Prove` up to the inner-product argument. -/
theorem prove_head {E : Ext} (hE : E.Ok) {rnd : BPRand} {secret : Int} {params : BPParams} {n : Nat}
    (hN : params.N = n) {G Hh : Nat → Secp} {H : Secp}
    (hG : Reps params.Gg (vec n G)) (hHh : Reps params.Hh (vec n Hh)) (hH : Rep params.H H)
    {sL sR : Nat → Fn} (hsL : castL rnd.sL = vec n sL) (hsR : castL rnd.sR = vec n sR) :
    ∃ (V A S T1 T2 : P256) (x y z : Int) (bl br : List Int) (tprime t1 t2 : Int),
      prove E rnd secret params = proveTail E rnd params V A S T1 T2 x y z bl br tprime ∧
      x = (hashBP E T1 T2).1 ∧ (y, z) = hashBP E A S ∧
      V = commitG1 E secret rnd.gamma params.H ∧
      T1 = commitG1 E t1 rnd.tau1 params.H ∧ T2 = commitG1 E t2 rnd.tau2 params.H ∧
      (t1 : Fn) = Spec.t1 n secret (y : Fn) (z : Fn) sL sR ∧ (t2 : Fn) = Spec.t2 n (y : Fn) sL sR ∧
      Rep A ((rnd.alpha : Fn) • H +
        ∑ i ∈ range n, ((Spec.bit secret i : Fn) • G i + ((Spec.bit secret i : Fn) - 1) • Hh i)) ∧
      Rep S ((rnd.rho : Fn) • H + ∑ i ∈ range n, (sL i • G i + sR i • Hh i)) ∧
      castL bl = vec n (fun i => Spec.l0 secret (z : Fn) i + sL i * x) ∧
      castL br = vec n (fun i => Spec.r0 secret (y : Fn) z i + (y : Fn) ^ i * sR i * x) ∧
      (tprime : Fn) = ∑ i ∈ range n, (Spec.l0 secret (z : Fn) i + sL i * x) *
        (Spec.r0 secret (y : Fn) z i + (y : Fn) ^ i * sR i * x) ∧
      scalarProduct bl br = some tprime ∧ (∀ c ∈ bl, 0 ≤ c ∧ c < ORDER) ∧ ∀ c ∈ br, 0 ≤ c ∧ c < ORDER := by
  have hdec : decompose secret 2 (n : Int) = .ok (vec n (fun i => Spec.bit secret i)) := by
    rw [decompose, if_neg (by omega), Int.toNat_natCast, decomposeLoop_two]
  have har : computeAR (vec n (fun i => Spec.bit secret i)) = some (vec n (fun i => Spec.bit secret i - 1)) := by
    rw [computeAR_bits, vec, vec, List.map_map]
    · rfl
    · intro v hv
      rw [vec, List.mem_map] at hv
      obtain ⟨i, _, rfl⟩ := hv
      exact bit_zero_or_one _ _
  have caL : castL (vec n (fun i => Spec.bit secret i)) = vec n (fun i => (Spec.bit secret i : Fn)) := by
    rw [castL, vec, List.map_map]; rfl
  have caR : castL (vec n (fun i => Spec.bit secret i - 1)) = vec n (fun i => (Spec.bit secret i : Fn) - 1) := by
    rw [castL, vec, List.map_map]
    apply vec_congr
    intro i _
    simp only [Function.comp, Int.cast_sub, Int.cast_one]
  obtain ⟨A, hA1, hA2⟩ := commitVector_rep hE caL caR hG hHh rnd.alpha hH
  obtain ⟨S, hS1, hS2⟩ := commitVector_rep hE hsL hsR hG hHh rnd.rho hH
  rcases hyz : hashBP E A S with ⟨y, z⟩
  have cz : castL (List.replicate n z) = vec n (fun _ => (z : Fn)) := castL_replicate z n
  have cy := castL_powerOf y n
  have c1 := castL_vectorSub caL cz
  have c2 := castL_vectorMul cy hsR
  obtain ⟨sp1, q1, q1'⟩ := scalarProduct_vec c1 c2
  have c3 := castL_vectorAdd caR cz
  have c4 := castL_vectorScalarMul (castL_powerOf 2 n) (z * z)
  have c5 := castL_vectorAdd (castL_vectorMul cy c3) c4
  obtain ⟨sp2, q2, q2'⟩ := scalarProduct_vec hsL c5
  obtain ⟨t2, q3, q3'⟩ := scalarProduct_vec hsL c2
  set T1 := commitG1 E ((sp1 + sp2) % ORDER) rnd.tau1 params.H with hT1
  set T2 := commitG1 E (t2 % ORDER) rnd.tau2 params.H with hT2
  set x := (hashBP E T1 T2).1 with hx
  have c6 := castL_vectorAdd c1 (castL_vectorScalarMul hsL x)
  have c7 := castL_vectorAdd (castL_vectorMul cy (castL_vectorAdd c3 (castL_vectorScalarMul hsR x))) c4
  obtain ⟨tp, q4, q4'⟩ := scalarProduct_vec c6 c7
  have er : ∀ i, (y : Fn) ^ i * ((Spec.bit secret i : Fn) - 1 + (z : Fn) + sR i * (x : Fn)) +
      ((2 : Int) : Fn) ^ i * ((z * z : Int) : Fn) =
      Spec.r0 secret (y : Fn) z i + (y : Fn) ^ i * sR i * x := by
    intro i
    rw [Spec.r0]; push_cast; ring
  refine ⟨_, A, S, T1, T2, x, y, z, _, _, tp, (sp1 + sp2) % ORDER, t2 % ORDER, ?_, hx, hyz.symm, rfl, hT1,
    hT2, ?_, ?_, hA2, hS2, c6, c7.trans (vec_congr fun i _ => er i), ?_, q4, vectorAdd_range _ _,
    vectorAdd_range _ _⟩
  · rw [prove, hN, hdec, Res.ok_bind, har]
    simp only [Option.getD_some, hA1, hS1, hyz, Res.ok_bind, vectorCopy_eq, powerOf_eq,
      vectorConvertToBig_eq _ n (vec_length n _), q1, q2, q3, q4, Res.ofOption_some,
      ← hT1, ← hT2, ← hx, proveTail, hN]
    rfl
  · rw [fn_emod, Int.cast_add, q1', q2', ← sum_add_distrib]
    refine sum_congr rfl fun i _ => ?_
    rw [Spec.l0, Spec.r0]; push_cast; ring
  · rw [fn_emod, q3']; rfl
  · rw [q4']
    refine sum_congr rfl fun i _ => ?_
    rw [er]; rfl

end Verif

import Verif.Lemmas.BpHonest

/-!
# `Prove` with arbitrary vectors in place of the bits

`Prove` decomposes the secret into bits `aL`, sets `aR = aL - 1` and never looks at the secret
again (except to compute `V`).  Here the rest of `Prove` is run with arbitrary `aL`, `aR` and an arbitrary
committed value, as a dishonest prover may do.
-/

namespace Verif
open Finset

/-- `Prove` (bulletproofs/bp.go:104-239) after the computation of `aL` and `aR`, with `w` the value
committed to in `V`. -/
def proveBits (E : Ext) (rnd : BPRand) (w : Int) (aL aR : List Int) (params : BPParams) : Res (Option BPProof) := do
  let V := commitG1 E w rnd.gamma params.H
  let A ← commitVector E aL aR rnd.alpha params.H params.Gg params.Hh params.N
  let S ← commitVector E rnd.sL rnd.sR rnd.rho params.H params.Gg params.Hh params.N
  let (y, z) := hashBP E A S
  let vz ← vectorCopy z params.N
  let vy ← powerOf y params.N
  let naL ← vectorConvertToBig aL params.N
  let aLmvz := (vectorSub naL vz).getD []
  let ynsR := (vectorMul vy rnd.sR).getD []
  let sp1 ← Res.ofOption (scalarProduct aLmvz ynsR)
  let naR ← vectorConvertToBig aR params.N
  let aRzn := (vectorAdd naR vz).getD []
  let ynaRzn := (vectorMul vy aRzn).getD []
  let p2n ← powerOf 2 params.N
  let zsquared := z * z
  let z22n := vectorScalarMul p2n zsquared
  let ynaRzn := (vectorAdd ynaRzn z22n).getD []
  let sp2 ← Res.ofOption (scalarProduct rnd.sL ynaRzn)
  let t1 := (sp1 + sp2) % ORDER
  let t2 ← Res.ofOption (scalarProduct rnd.sL ynsR)
  let t2 := t2 % ORDER
  let T1 := commitG1 E t1 rnd.tau1 params.H
  let T2 := commitG1 E t2 rnd.tau2 params.H
  let x := (hashBP E T1 T2).1
  let sLx := vectorScalarMul rnd.sL x
  let bl := (vectorAdd aLmvz sLx).getD []
  let sRx := vectorScalarMul rnd.sR x
  let aRzn := (vectorAdd aRzn sRx).getD []
  let ynaRzn := (vectorMul vy aRzn).getD []
  let br := (vectorAdd ynaRzn z22n).getD []
  let tprime ← Res.ofOption (scalarProduct bl br)
  let taux := rnd.tau2 * (x * x)
  let taux := taux + rnd.tau1 * x
  let taux := taux + z * z * rnd.gamma
  let taux := taux % ORDER
  let mu := rnd.rho * x
  let mu := mu + rnd.alpha
  let mu := mu % ORDER
  let hprime ← updateGenerators E params.Hh y params.N
  let ipp ← setupInnerProduct E params.H params.Gg hprime tprime params.N
  match ipp with
  | none => .ok none
  | some ipp => do
    let commit ← commitInnerProduct E params.Gg hprime bl br
    let proofip ← proveInnerProduct E bl br commit ipp
    let proofip ← Res.ofOption proofip
    .ok (some { V := V, A := A, S := S, T1 := T1, T2 := T2, Taux := taux, Mu := mu,
                Tprime := tprime, IP := proofip, Commit := commit, Params := params,
                ParamsIP := ipp })

/-- `Prove` is `proveBits` on the bits of the secret. -/
theorem prove_eq_proveBits (E : Ext) (rnd : BPRand) (secret : Int) (params : BPParams) :
    prove E rnd secret params = (decompose secret 2 params.N >>= fun aL =>
      proveBits E rnd secret aL ((computeAR aL).getD []) params) := rfl

namespace Spec
variable {F : Type} [Field F]

/-- Constant coefficient of `lᵢ` for arbitrary `aL`. -/
def bl0 (a : Nat → F) (z : F) (i : Nat) : F := a i - z

/-- Constant coefficient of `rᵢ` for arbitrary `aR`. -/
def br0 (b : Nat → F) (y z : F) (i : Nat) : F := y ^ i * (b i + z) + z ^ 2 * 2 ^ i

/-- Constant coefficient of `t`. -/
def bt0 (n : Nat) (a b : Nat → F) (y z : F) : F := ∑ i ∈ range n, bl0 a z i * br0 b y z i

/-- Linear coefficient of `t`. -/
def bt1 (n : Nat) (a b : Nat → F) (y z : F) (sL sR : Nat → F) : F :=
  ∑ i ∈ range n, (bl0 a z i * (y ^ i * sR i) + sL i * br0 b y z i)

end Spec

/-- `proveBits` up to the inner-product argument. -/
theorem proveBits_head {E : Ext} (hE : E.Ok) {rnd : BPRand} {w : Int} {aL aR : List Int} {params : BPParams} {n : Nat}
    {a b : Nat → Fn} (caL : castL aL = vec n a) (caR : castL aR = vec n b)
    (hN : params.N = n) {G Hh : Nat → Secp} {H : Secp}
    (hG : Reps params.Gg (vec n G)) (hHh : Reps params.Hh (vec n Hh)) (hH : Rep params.H H)
    {sL sR : Nat → Fn} (hsL : castL rnd.sL = vec n sL) (hsR : castL rnd.sR = vec n sR) :
    ∃ (V A S T1 T2 : P256) (x y z : Int) (bl br : List Int) (tprime t1 t2 : Int),
      proveBits E rnd w aL aR params = proveTail E rnd params V A S T1 T2 x y z bl br tprime ∧
      x = (hashBP E T1 T2).1 ∧ (y, z) = hashBP E A S ∧
      V = commitG1 E w rnd.gamma params.H ∧
      T1 = commitG1 E t1 rnd.tau1 params.H ∧ T2 = commitG1 E t2 rnd.tau2 params.H ∧
      (t1 : Fn) = Spec.bt1 n a b (y : Fn) (z : Fn) sL sR ∧ (t2 : Fn) = Spec.t2 n (y : Fn) sL sR ∧
      Rep A ((rnd.alpha : Fn) • H +
        ∑ i ∈ range n, (a i • G i + b i • Hh i)) ∧
      Rep S ((rnd.rho : Fn) • H + ∑ i ∈ range n, (sL i • G i + sR i • Hh i)) ∧
      castL bl = vec n (fun i => Spec.bl0 a (z : Fn) i + sL i * x) ∧
      castL br = vec n (fun i => Spec.br0 b (y : Fn) z i + (y : Fn) ^ i * sR i * x) ∧
      (tprime : Fn) = ∑ i ∈ range n, (Spec.bl0 a (z : Fn) i + sL i * x) *
        (Spec.br0 b (y : Fn) z i + (y : Fn) ^ i * sR i * x) ∧
      scalarProduct bl br = some tprime := by
  obtain ⟨A, hA1, hA2⟩ := commitVector_rep hE caL caR hG hHh rnd.alpha hH
  obtain ⟨S, hS1, hS2⟩ := commitVector_rep hE hsL hsR hG hHh rnd.rho hH
  rcases hyz : hashBP E A S with ⟨y, z⟩
  have cz : castL (List.replicate n z) = vec n (fun _ => (z : Fn)) := castL_replicate z n
  have cy := castL_powerOf y n
  have c1 := castL_vectorSub caL cz
  have c2 := castL_vectorMul cy hsR
  obtain ⟨sp1, q1, q1'⟩ := scalarProduct_vec c1 c2
  have c3 := castL_vectorAdd caR cz
  have c4 := castL_vectorScalarMul (castL_powerOf 2 n) (z * z)
  have c5 := castL_vectorAdd (castL_vectorMul cy c3) c4
  obtain ⟨sp2, q2, q2'⟩ := scalarProduct_vec hsL c5
  obtain ⟨t2, q3, q3'⟩ := scalarProduct_vec hsL c2
  set T1 := commitG1 E ((sp1 + sp2) % ORDER) rnd.tau1 params.H with hT1
  set T2 := commitG1 E (t2 % ORDER) rnd.tau2 params.H with hT2
  set x := (hashBP E T1 T2).1 with hx
  have c6 := castL_vectorAdd c1 (castL_vectorScalarMul hsL x)
  have c7 := castL_vectorAdd (castL_vectorMul cy (castL_vectorAdd c3 (castL_vectorScalarMul hsR x))) c4
  obtain ⟨tp, q4, q4'⟩ := scalarProduct_vec c6 c7
  have er : ∀ i, (y : Fn) ^ i * (b i + (z : Fn) + sR i * (x : Fn)) +
      ((2 : Int) : Fn) ^ i * ((z * z : Int) : Fn) =
      Spec.br0 b (y : Fn) z i + (y : Fn) ^ i * sR i * x := by
    intro i
    rw [Spec.br0]; push_cast; ring
  refine ⟨_, A, S, T1, T2, x, y, z, _, _, tp, (sp1 + sp2) % ORDER, t2 % ORDER, ?_, hx, hyz.symm, rfl, hT1,
    hT2, ?_, ?_, hA2, hS2, c6, c7.trans (vec_congr fun i _ => er i), ?_, q4⟩
  · rw [proveBits, hN]
    simp only [hA1, hS1, hyz, Res.ok_bind, vectorCopy_eq, powerOf_eq,
      vectorConvertToBig_eq _ n (castL_inj_length caL), vectorConvertToBig_eq _ n (castL_inj_length caR), q1, q2, q3, q4, Res.ofOption_some,
      ← hT1, ← hT2, ← hx, proveTail, hN]
    rfl
  · rw [fn_emod, Int.cast_add, q1', q2', ← sum_add_distrib]
    refine sum_congr rfl fun i _ => ?_
    rw [Spec.bl0, Spec.br0]; push_cast; ring
  · rw [fn_emod, q3']; rfl
  · rw [q4']
    refine sum_congr rfl fun i _ => ?_
    rw [er]; rfl

/-- What the proof object contains. -/
structure BitsProof (E : Ext) (rnd : BPRand) (w : Int) (a b : Nat → Fn) (params : BPParams) (proof : BPProof)
    (n : Nat) (G Hh : Nat → Secp) (H : Secp) (sL sR : Nat → Fn) (x y z : Int) : Prop where
  params_eq : proof.Params = params
  hx : x = (hashBP E proof.T1 proof.T2).1
  hyz : (y, z) = hashBP E proof.A proof.S
  hy : n = 1 ∨ ¬ ORDER ∣ y
  V : Rep proof.V (addOf ((w : Fn) • secpG) ((rnd.gamma : Fn) • H))
  T1 : Rep proof.T1 (addOf (Spec.bt1 n a b (y : Fn) (z : Fn) sL sR • secpG) ((rnd.tau1 : Fn) • H))
  T2 : Rep proof.T2 (addOf (Spec.t2 n (y : Fn) sL sR • secpG) ((rnd.tau2 : Fn) • H))
  A : Rep proof.A ((rnd.alpha : Fn) • H +
        ∑ i ∈ range n, (a i • G i + b i • Hh i))
  S : Rep proof.S ((rnd.rho : Fn) • H + ∑ i ∈ range n, (sL i • G i + sR i • Hh i))
  Commit : Rep proof.Commit (∑ i ∈ range n, (Spec.bl0 a (z : Fn) i + sL i * x) • G i +
    ∑ i ∈ range n, (Spec.br0 b (y : Fn) z i + (y : Fn) ^ i * sR i * x) • ((y : Fn)⁻¹ ^ i • Hh i))
  Tprime : (proof.Tprime : Fn) = ∑ i ∈ range n, (Spec.bl0 a (z : Fn) i + sL i * x) *
        (Spec.br0 b (y : Fn) z i + (y : Fn) ^ i * sR i * x)
  Taux : (proof.Taux : Fn) = (rnd.tau2 : Fn) * (x : Fn) ^ 2 + rnd.tau1 * x + (z : Fn) ^ 2 * rnd.gamma
  Mu : (proof.Mu : Fn) = (rnd.rho : Fn) * x + rnd.alpha
  ip : ∃ P', ipVerify E proof.IP = .ok (true, P')
  ip_wf : proof.IP.WellFormed
  ip_P : ∃ (w : Fn) (U : Secp), ∀ C, Rep proof.Commit C → Rep proof.IP.Params.P (C + (w * (proof.Tprime : Fn)) • U)

theorem proveBits_spec {E : Ext} (hE : E.Ok) {rnd : BPRand} {w : Int} {aL aR : List Int} {a b : Nat → Fn} {params : BPParams} {n k : Nat}
    (hk : n = 2 ^ k) (hN : params.N = n) {G Hh : Nat → Secp} {H : Secp}
    (hG : Reps params.Gg (vec n G)) (hHh : Reps params.Hh (vec n Hh)) (hH : Rep params.H H)
    (caL : castL aL = vec n a) (caR : castL aR = vec n b)
    {sL sR : Nat → Fn} (hsL : castL rnd.sL = vec n sL) (hsR : castL rnd.sR = vec n sR)
    {proof : BPProof} (hp : proveBits E rnd w aL aR params = .ok (some proof)) :
    ∃ x y z, BitsProof E rnd w a b params proof n G Hh H sL sR x y z := by
  obtain ⟨V, A, S, T1, T2, x, y, z, bl, br, tp, t1, t2, e, hx, hyz, hV, hT1, hT2, ht1, ht2, hA, hS, hbl, hbr,
    htp, hsp⟩ := proveBits_head hE (rnd := rnd) (w := w) caL caR hN hG hHh hH hsL hsR
  have hn : 1 ≤ n := by rw [hk]; exact Nat.one_le_two_pow
  rw [e] at hp
  simp only [proveTail, Res.bind_eq_ok] at hp
  obtain ⟨h', u1, oipp, s1, hp⟩ := hp
  rw [hN] at u1 s1
  have hy : n = 1 ∨ ¬ ORDER ∣ y := by
    by_contra hc
    push Not at hc
    rw [updateGenerators_panic (by omega) hc.2] at u1
    cases u1
  obtain ⟨h'', u1', u2⟩ := updateGenerators_rep hE hn hHh hy
  rw [u1] at u1'
  injection u1' with u1'
  subst u1'
  simp only [setupInnerProduct, if_neg (show ¬ ((n : Int) ≤ 0) by omega), Res.bind_eq_ok, res_ofOption_ok,
    Res.ok.injEq] at s1
  obtain ⟨ou, m1, u, rfl, rfl⟩ := s1
  simp only [Res.bind_eq_ok, res_ofOption_ok, Res.ok.injEq, Option.some.injEq] at hp
  obtain ⟨commit, c1, oip, i1, ip, rfl, rfl⟩ := hp
  obtain ⟨U, hU⟩ := mapToGroup_isPoint hE m1
  have hc := commitInnerProduct_spec hE hG u2 c1
  have lbl := castL_inj_length hbl
  have lbr := castL_inj_length hbr
  have lg : params.Gg.length = n := by rw [hG.length_eq, vec_length]
  have lh : h'.length = n := by rw [u2.length_eq, vec_length]
  obtain ⟨x', v, P', _, _, _, _, _, hPP, hw, hv, hvi⟩ := proveInnerProduct_spec hE (k := k) (lbl.trans hk) (lbr.trans hk)
    (lg.trans hk) (lh.trans hk) hG u2 (Or.inr hU) hc i1
  have hv1 : v = true := by
    rw [hvi]
    simp only [scalarProduct_cast hsp]
  refine ⟨x, y, z, rfl, hx, hyz, hy, ?_, ?_, ?_, hA, hS, ?_, htp, ?_, ?_, ⟨P', by rw [hv, hv1]⟩, hw,
    (x' : Fn), U, fun C hC => by rw [Rep.unique hC hc]; exact hPP⟩
  · show Rep V _
    rw [hV]; exact commitG1_addOf hE _ _ hH
  · show Rep T1 _
    rw [hT1, ← ht1]; exact commitG1_addOf hE _ _ hH
  · show Rep T2 _
    rw [hT2, ← ht2]; exact commitG1_addOf hE _ _ hH
  · show Rep commit _
    rw [hbl, hbr, msm_vec, msm_vec] at hc
    exact hc
  · show (((rnd.tau2 * (x * x) + rnd.tau1 * x + z * z * rnd.gamma) % ORDER : Int) : Fn) = _
    rw [fn_emod]; push_cast; ring
  · show (((rnd.rho * x + rnd.alpha) % ORDER : Int) : Fn) = _
    rw [fn_emod]; push_cast; ring

/-- The prover returns a proof when no hash value is a multiple of `ORDER` and `MapToGroup(SEEDU)`
succeeds. -/
theorem proveBits_returns {E : Ext} (hE : E.Ok) {rnd : BPRand} {w : Int} {aL aR : List Int} {a b : Nat → Fn} {params : BPParams} {n k : Nat}
    (hk : n = 2 ^ k) (hN : params.N = n) {G Hh : Nat → Secp} {H : Secp}
    (hG : Reps params.Gg (vec n G)) (hHh : Reps params.Hh (vec n Hh)) (hH : Rep params.H H)
    (caL : castL aL = vec n a) (caR : castL aR = vec n b)
    {sL sR : Nat → Fn} (hsL : castL rnd.sL = vec n sL) (hsR : castL rnd.sR = vec n sR)
    (hinv : ∀ s, ¬ ORDER ∣ ((setBytes (E.sha256 s) : Nat) : Int))
    {u : P256} (hu : mapToGroup E SEEDU = .ok (some u)) :
    ∃ proof, proveBits E rnd w aL aR params = .ok (some proof) := by
  obtain ⟨V, A, S, T1, T2, x, y, z, bl, br, tp, t1, t2, e, hx, hyz, hV, hT1, hT2, ht1, ht2, hA, hS, hbl, hbr,
    htp, hsp⟩ := proveBits_head hE (rnd := rnd) (w := w) caL caR hN hG hHh hH hsL hsR
  have hn : 1 ≤ n := by rw [hk]; exact Nat.one_le_two_pow
  have hy : ¬ ORDER ∣ y := by
    rw [show y = (hashBP E A S).1 by rw [← hyz], hashBP_value]; exact hinv _
  obtain ⟨h', u1, u2⟩ := updateGenerators_rep hE hn hHh (Or.inr hy)
  have lbl := castL_inj_length hbl
  have lbr := castL_inj_length hbr
  have lg : params.Gg.length = n := by rw [hG.length_eq, vec_length]
  have lh : h'.length = n := by rw [u2.length_eq, vec_length]
  obtain ⟨ga, c1⟩ := vectorExp_some (E := E) (a := params.Gg) (b := bl) (by omega)
  obtain ⟨hb, c2⟩ := vectorExp_some (E := E) (a := h') (b := br) (by omega)
  have hci : commitInnerProduct E params.Gg h' bl br = .ok (ga.multiply E hb) := by
    rw [commitInnerProduct, c1, c2]; rfl
  let ipp : IPParams := { N := n, Cc := tp, Uu := u, H := params.H, Gg := params.Gg, Hh := h', P := P256.infinity }
  have hset : setupInnerProduct E params.H params.Gg h' tp n = .ok (some ipp) := by
    rw [setupInnerProduct, if_neg (by omega), hu]; rfl
  obtain ⟨xh, hxh⟩ := hashIP_returns hE params.Gg h' (ga.multiply E hb) tp n (by omega) (by omega)
  let PP := (ga.multiply E hb).multiply E ((u.scalarMult E xh).scalarMult E tp)
  obtain ⟨ip, hip⟩ := computeBip_returns (E := E) hinv { ipp with P := PP } k (2 ^ k) bl br
      params.Gg h' (u.scalarMult E xh) PP [] [] le_rfl (by omega) (by omega) (by omega) (by omega)
  have hprove : proveInnerProduct E bl br (ga.multiply E hb) ipp = .ok (some ip) := by
    rw [proveInnerProduct, if_neg (by omega)]
    simp only [ipp, hxh, Res.ok_bind, Res.ofOption_some]
    rw [show bl.length = 2 ^ k by omega]
    simp only [PP, ipp] at hip
    rw [hip]; rfl
  rw [e]
  simp only [proveTail, hN, u1, hset, hci, hprove, Res.ok_bind, Res.ofOption_some]
  exact ⟨_, rfl⟩

/-! ### The verdict -/

theorem bt_expand (n : Nat) (a b : Nat → Fn) (x y z : Fn) (sL sR : Nat → Fn) :
    ∑ i ∈ range n, (Spec.bl0 a z i + sL i * x) * (Spec.br0 b y z i + y ^ i * sR i * x) =
      Spec.bt0 n a b y z + Spec.bt1 n a b y z sL sR * x + Spec.t2 n y sL sR * x ^ 2 := by
  rw [Spec.bt0, Spec.bt1, Spec.t2, sum_mul, sum_mul, ← sum_add_distrib, ← sum_add_distrib]
  refine sum_congr rfl fun i _ => ?_
  ring

theorem bits_commit_identity (n : Nat) (a b : Nat → Fn) (x y z alpha rho : Fn) (hy : n = 1 ∨ y ≠ 0) (sL sR : Nat → Fn)
    (G Hh : Nat → Secp) (H : Secp) :
    (rho * x + alpha) • H + (∑ i ∈ range n, (Spec.bl0 a z i + sL i * x) • G i +
      ∑ i ∈ range n, (Spec.br0 b y z i + y ^ i * sR i * x) • (y⁻¹ ^ i • Hh i)) =
    (alpha • H + ∑ i ∈ range n, (a i • G i + b i • Hh i)) +
    x • (rho • H + ∑ i ∈ range n, (sL i • G i + sR i • Hh i)) + -(z • ∑ i ∈ range n, G i) +
    ∑ i ∈ range n, (y ^ i * z + 2 ^ i * z ^ 2) • (y⁻¹ ^ i • Hh i) := by
  have key : ∀ i ∈ range n, (Spec.bl0 a z i + sL i * x) • G i +
      (Spec.br0 b y z i + y ^ i * sR i * x) • (y⁻¹ ^ i • Hh i) =
      (a i • G i + b i • Hh i) + x • (sL i • G i + sR i • Hh i)
      + (-z) • G i + (y ^ i * z + 2 ^ i * z ^ 2) • (y⁻¹ ^ i • Hh i) := by
    intro i hi
    have h1 : y ^ i • (y⁻¹ ^ i • Hh i) = Hh i := by
      rcases hy with h | h
      · have : i = 0 := by rw [h] at hi; simpa using hi
        rw [this]; simp
      · exact smul_inv_pow h i _
    rw [Spec.bl0, Spec.br0]
    generalize y⁻¹ ^ i • Hh i = Q at h1
    rw [← h1]
    module
  rw [← sum_add_distrib, sum_congr rfl key, sum_add_distrib, sum_add_distrib, sum_add_distrib, ← smul_sum,
    ← smul_sum]
  module

/-- Verdict on the proof, in terms of the point `V` put into it (`Verify` hashes `V` nowhere, so the other
fields stay as they are). -/
theorem bits_verdict {E : Ext} (hE : E.Ok) {rnd : BPRand} {w : Int} {a b : Nat → Fn} {params : BPParams} {n : Nat}
    (hn : 1 ≤ n) (hN : params.N = n) {G Hh : Nat → Secp} {H : Secp}
    (hG : Reps params.Gg (vec n G)) (hHh : Reps params.Hh (vec n Hh)) (hH : Rep params.H H)
    {sL sR : Nat → Fn} {proof : BPProof} {x y z : Int}
    (h : BitsProof E rnd w a b params proof n G Hh H sL sR x y z)
    {A S V : Secp} (hA : Rep proof.A A) (hS : Rep proof.S S) {pV : P256} (hV : Rep pV V)
    (k1 : AddOk (Spec.bt1 n a b (y : Fn) (z : Fn) sL sR • secpG) ((rnd.tau1 : Fn) • H))
    (k2 : AddOk (Spec.t2 n (y : Fn) sL sR • secpG) ((rnd.tau2 : Fn) • H))
    (k3 : AddOk ((proof.Tprime : Fn) • secpG) ((proof.Taux : Fn) • H))
    (k4 : AddOk A ((x : Fn) • S))
    (k5 : AddOk (A + (x : Fn) • S) (-((z : Fn) • ∑ i ∈ range n, G i)))
    (k6 : AddOk (A + (x : Fn) • S + -((z : Fn) • ∑ i ∈ range n, G i))
      (∑ i ∈ range n, ((y : Fn) ^ i * z + 2 ^ i * (z : Fn) ^ 2) • ((y : Fn)⁻¹ ^ i • Hh i))) :
    ∃ v P', bpVerify E { proof with V := pV } = .ok (v, P') ∧
      (v = true ↔ (z : Fn) ^ 2 • V =
        (Spec.bt0 n a b (y : Fn) z - Spec.delta n (y : Fn) z) • secpG + ((z : Fn) ^ 2 * (rnd.gamma : Fn)) • H) := by
  have hT1 := h.T1
  have hT2 := h.T2
  rw [addOf_eq k1] at hT1
  rw [addOf_eq k2] at hT2
  have hpar := h.params_eq
  obtain ⟨c, c1, c2⟩ := bpVerify_exact hE hn (proof := { proof with V := pV }) (by simp only [hpar]; exact hN)
    (by simp only [hpar]; exact hG)
    (by simp only [hpar]; exact hHh) (by simp only [hpar]; exact hH) hV hA hS hT1 hT2 h.Commit h.hx h.hyz h.hy
  obtain ⟨P', hip⟩ := h.ip
  refine ⟨c && true, P', by rw [c1]; simp only [hip]; rfl, ?_⟩
  rw [Bool.and_true, c2, lPOf, addOf_eq k3, addOf_eq k4, addOf_eq k5, addOf_eq k6]
  have h67 : addOf ((proof.Mu : Fn) • H + (∑ i ∈ range n, (Spec.bl0 a (z : Fn) i + sL i * x) • G i +
      ∑ i ∈ range n, (Spec.br0 b (y : Fn) z i + (y : Fn) ^ i * sR i * x) • ((y : Fn)⁻¹ ^ i • Hh i)))
      (-(A + (x : Fn) • S + -((z : Fn) • ∑ i ∈ range n, G i) +
      (∑ i ∈ range n, ((y : Fn) ^ i * z + 2 ^ i * (z : Fn) ^ 2) • ((y : Fn)⁻¹ ^ i • Hh i)))) = 0 := by
    rw [addOf_neg_eq_zero]
    right; left
    rw [h.Mu, bits_commit_identity n a b x y z _ _ (h.hy.imp_right (fun hc => by rwa [Ne, fn_eq_zero])) sL sR G Hh H,
      Rep.unique hA h.A, Rep.unique hS h.S]
  rw [and_iff_left h67]
  simp only [h.Tprime, bt_expand, h.Taux]
  rw [← sub_eq_zero, ← sub_eq_zero (a := (z : Fn) ^ 2 • V), ← neg_eq_zero]
  refine Eq.congr ?_ rfl
  module

end Verif

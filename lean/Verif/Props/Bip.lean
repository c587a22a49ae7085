import Verif.Lemmas.BipPanic
import Verif.Lemmas.Transcript

/-!
# Properties of the inner-product argument

C21 honest proofs, C22 proof size, C23 repeated verification, C30 transcripts, C32 panics.
-/

namespace Verif
open Spec

/-- `Σ aᵢ·Gᵢ`. -/
noncomputable def multiExp (a : List Int) (G : List Secp) : Secp :=
  (List.zipWith (fun (n : Int) Q => n • Q) a G).sum

/-- A hash function whose value is always the integer 1. -/
def hashOne : List UInt8 → List UInt8 := fun _ => List.replicate 31 0 ++ [1]

theorem hashOne_order (s : List UInt8) : ¬ ORDER ∣ ((setBytes (hashOne s) : Nat) : Int) := by
  unfold hashOne; decide +kernel

/-- Parameters used in the examples: all generators are the base point. -/
def exParams (c : Int) : IPParams :=
  { N := 2, Cc := c, Uu := ⟨some secpGx, some secpGy⟩, H := ⟨some secpGx, some secpGy⟩,
    Gg := [⟨some secpGx, some secpGy⟩, ⟨some secpGx, some secpGy⟩],
    Hh := [⟨some secpGx, some secpGy⟩, ⟨some secpGx, some secpGy⟩], P := P256.infinity }

theorem isPoint_base : IsPoint ⟨some secpGx, some secpGy⟩ := ⟨secpG, Or.inr repFin_base⟩

theorem exParams_points (c : Int) : ArePoints (exParams c).Gg ∧ ArePoints (exParams c).Hh := by
  constructor <;> intro p hp <;> simp only [exParams, List.mem_cons, List.not_mem_nil, or_false,
    or_self] at hp <;> subst hp <;> exact isPoint_base

/-- C21: the prover returns a proof whenever no hash value is a multiple of the order; different
lengths give the error. -/
theorem C21_returns {E : Ext} (hE : E.Ok) (a b : List Int) (P : P256) (params : IPParams) :
    (a.length ≠ b.length → proveInnerProduct E a b P params = .ok none) ∧
    (∀ k, a.length = 2 ^ k → b.length = 2 ^ k → params.Gg.length = 2 ^ k →
      params.Hh.length = 2 ^ k → params.N ≤ (2 ^ k : Nat) →
      (∀ s, ¬ ORDER ∣ ((setBytes (E.sha256 s) : Nat) : Int)) →
      ∃ proof, proveInnerProduct E a b P params = .ok (some proof)) := by
  constructor
  · intro h; rw [proveInnerProduct, if_pos h]
  · intro k la lb lg lh hn hinv
    rw [proveInnerProduct, if_neg (by rw [la, lb]; simp)]
    obtain ⟨x, hx⟩ := hashIP_returns hE params.Gg params.Hh P params.Cc params.N (by omega) (by omega)
    obtain ⟨proof, hpr⟩ := computeBip_returns (E := E) hinv
      { params with P := P.multiply E ((params.Uu.scalarMult E x).scalarMult E params.Cc) } k (2 ^ k) a b
      params.Gg params.Hh (params.Uu.scalarMult E x)
      (P.multiply E ((params.Uu.scalarMult E x).scalarMult E params.Cc)) [] [] le_rfl la lb lg lh
    refine ⟨proof, ?_⟩
    rw [hx]
    simp only [Res.ok_bind, Res.ofOption_some]
    rw [la, hpr]
    rfl

/-- Vectors of different lengths; two vectors of length 2. -/
example : proveInnerProduct (idealExt hashOne) [1, 2] [3] P256.infinity (exParams 3) = .ok none ∧
    ∃ proof, proveInnerProduct (idealExt hashOne) [1, 2] [3, 4] P256.infinity (exParams 3) = .ok (some proof) :=
  have hE := idealExt_ok hashOne (fun _ => rfl)
  ⟨(C21_returns hE _ _ _ _).1 (by decide), (C21_returns hE _ _ _ _).2 1 rfl rfl rfl rfl (by simp [exParams]) hashOne_order⟩

/-- External functions, and an honest run on vectors of length 2, for the examples: with the right product (`c = 11`) and with wrong ones. -/
theorem exBpRun (c : Int) : ∃ (P : P256) (proof : IPProof),
    commitInnerProduct (idealExt hashOne) (exParams c).Gg (exParams c).Hh [1, 2] [3, 4] = .ok P ∧
    proveInnerProduct (idealExt hashOne) [1, 2] [3, 4] P (exParams c) = .ok (some proof) := by
  have hE := idealExt_ok hashOne (fun _ => rfl)
  obtain ⟨ga, h1⟩ := vectorExp_some (E := idealExt hashOne) (a := (exParams c).Gg) (b := [1, 2]) rfl
  obtain ⟨hb, h2⟩ := vectorExp_some (E := idealExt hashOne) (a := (exParams c).Hh) (b := [3, 4]) rfl
  obtain ⟨proof, hp⟩ := (C21_returns hE [1, 2] [3, 4] (ga.multiply (idealExt hashOne) hb) (exParams c)).2 1
    rfl rfl rfl rfl (by simp [exParams]) hashOne_order
  refine ⟨_, proof, ?_, hp⟩
  rw [commitInnerProduct, h1, h2]; rfl

/-- C21, for any point `P` in place of the commitment: the verdict on the prover's output says
whether `P·ux^c = g^a·h^b·ux^<a,b>`, where `x` is the transcript hash. -/
theorem C21_verdict {E : Ext} (hE : E.Ok) {k : Nat} {a b : List Int} {P : P256} {params : IPParams}
    {proof : IPProof} {G H : List Secp} {U Q : Secp}
    (la : a.length = 2 ^ k) (lb : b.length = 2 ^ k) (lg : params.Gg.length = 2 ^ k)
    (lh : params.Hh.length = 2 ^ k) (hG : Reps params.Gg G) (hH : Reps params.Hh H)
    (hU : Rep params.Uu U) (hP : Rep P Q)
    (hp : proveInnerProduct E a b P params = .ok (some proof)) :
    ∃ x v P', hashIP E params.Gg params.Hh P params.Cc params.N = .ok (some x) ∧
      ipVerify E proof = .ok (v, P') ∧
      (v = true ↔ Q + (x * params.Cc) • U = multiExp a G + multiExp b H + (x * dot a b) • U) := by
  obtain ⟨x, v, P', h1, _, _, _, _, _, _, h2, h3⟩ := proveInnerProduct_spec hE la lb lg lh hG hH hU hP hp
  refine ⟨x, v, P', h1, h2, h3.trans ?_⟩
  rw [msm_castL_zsmul, msm_castL_zsmul, msm_castL_dot, ← Int.cast_mul, ← Int.cast_mul,
    zmod_smul_intCast, zmod_smul_intCast]
  rfl

/-- A run with infinity in place of the commitment. -/
example : ∃ proof v P', proveInnerProduct (idealExt hashOne) [1, 2] [3, 4] P256.infinity (exParams 3) = .ok (some proof) ∧
    ipVerify (idealExt hashOne) proof = .ok (v, P') := by
  have hE := idealExt_ok hashOne (fun _ => rfl)
  obtain ⟨proof, hp⟩ := (C21_returns hE [1, 2] [3, 4] P256.infinity (exParams 3)).2 1 rfl rfl rfl rfl (by simp [exParams]) hashOne_order
  have hl : Reps (exParams 3).Gg [secpG, secpG] := .cons (Or.inr repFin_base) (.cons (Or.inr repFin_base) .nil)
  obtain ⟨x, v, P', -, h, -⟩ := C21_verdict hE (k := 1) rfl rfl rfl rfl hl hl (U := secpG) (Or.inr repFin_base) rep_infinity hp
  exact ⟨proof, v, P', hp, h⟩

/-- C21: for the commitment `g^a·h^b` the proof verifies exactly when `x·(c - <a,b>)·Uu` is
infinity. -/
theorem C21_honest {E : Ext} (hE : E.Ok) {k : Nat} {a b : List Int} {P : P256} {params : IPParams}
    {proof : IPProof} {U : Secp}
    (la : a.length = 2 ^ k) (lb : b.length = 2 ^ k) (lg : params.Gg.length = 2 ^ k)
    (lh : params.Hh.length = 2 ^ k) (hG : ArePoints params.Gg) (hH : ArePoints params.Hh)
    (hU : Rep params.Uu U) (hP : commitInnerProduct E params.Gg params.Hh a b = .ok P)
    (hp : proveInnerProduct E a b P params = .ok (some proof)) :
    ∃ x v P', hashIP E params.Gg params.Hh P params.Cc params.N = .ok (some x) ∧
      ipVerify E proof = .ok (v, P') ∧ (v = true ↔ (x * (params.Cc - dot a b)) • U = 0) := by
  obtain ⟨G, hG⟩ := hG.reps
  obtain ⟨H, hH⟩ := hH.reps
  have hQ := commitInnerProduct_spec hE hG hH hP
  obtain ⟨x, v, P', h1, h2, h3⟩ := C21_verdict hE la lb lg lh hG hH hU hQ hp
  refine ⟨x, v, P', h1, h2, h3.trans ?_⟩
  rw [msm_castL_zsmul, msm_castL_zsmul, mul_sub, sub_zsmul, ← sub_eq_add_neg, sub_eq_zero]
  exact add_right_inj _

example (c : Int) : ∃ P proof x v P', proveInnerProduct (idealExt hashOne) [1, 2] [3, 4] P (exParams c) = .ok (some proof) ∧
    ipVerify (idealExt hashOne) proof = .ok (v, P') ∧ (v = true ↔ (x * (c - 11)) • secpG = 0) := by
  obtain ⟨P, proof, h1, h2⟩ := exBpRun c
  obtain ⟨x, v, P', -, h3, h4⟩ := C21_honest (idealExt_ok hashOne (fun _ => rfl)) (k := 1) rfl rfl rfl rfl
    (exParams_points c).1 (exParams_points c).2 (U := secpG) (Or.inr repFin_base) h1 h2
  exact ⟨P, proof, x, v, P', h2, h3, h4⟩

/-- C21: honest proofs of a true statement are accepted. -/
theorem C21_complete {E : Ext} (hE : E.Ok) {k : Nat} {a b : List Int} {P : P256} {params : IPParams}
    {proof : IPProof}
    (la : a.length = 2 ^ k) (lb : b.length = 2 ^ k) (lg : params.Gg.length = 2 ^ k)
    (lh : params.Hh.length = 2 ^ k) (hG : ArePoints params.Gg) (hH : ArePoints params.Hh)
    (hU : IsPoint params.Uu) (hc : params.Cc ≡ dot a b [ZMOD ORDER])
    (hP : commitInnerProduct E params.Gg params.Hh a b = .ok P)
    (hp : proveInnerProduct E a b P params = .ok (some proof)) :
    ∃ P', ipVerify E proof = .ok (true, P') := by
  obtain ⟨U, hU⟩ := hU
  obtain ⟨x, v, P', _, h2, h3⟩ := C21_honest hE la lb lg lh hG hH hU hP hp
  refine ⟨P', ?_⟩
  rw [h2, h3.2]
  rw [← zmod_smul_intCast, (fn_eq_zero _).2, zmod_zero_smul]
  exact Dvd.dvd.mul_left hc.symm.dvd _

/-- `1·3 + 2·4 = 11` is accepted. -/
example : ∃ P proof P', proveInnerProduct (idealExt hashOne) [1, 2] [3, 4] P (exParams 11) = .ok (some proof) ∧
    ipVerify (idealExt hashOne) proof = .ok (true, P') := by
  obtain ⟨P, proof, h1, h2⟩ := exBpRun 11
  obtain ⟨P', h3⟩ := C21_complete (idealExt_ok hashOne (fun _ => rfl)) (k := 1) rfl rfl rfl rfl
    (exParams_points 11).1 (exParams_points 11).2 isPoint_base (Int.ModEq.refl _) h1 h2
  exact ⟨P, proof, P', h2, h3⟩

/-- C21: a wrong product is rejected, unless the transcript hash is a multiple of the order or
`Uu` is infinity. -/
theorem C21_wrong_product {E : Ext} (hE : E.Ok) {k : Nat} {a b : List Int} {P : P256} {params : IPParams}
    {proof : IPProof}
    (la : a.length = 2 ^ k) (lb : b.length = 2 ^ k) (lg : params.Gg.length = 2 ^ k)
    (lh : params.Hh.length = 2 ^ k) (hG : ArePoints params.Gg) (hH : ArePoints params.Hh)
    (hU : IsPoint params.Uu) (hU0 : params.Uu.isZero = false) (hc : ¬ params.Cc ≡ dot a b [ZMOD ORDER])
    (hP : commitInnerProduct E params.Gg params.Hh a b = .ok P)
    (hp : proveInnerProduct E a b P params = .ok (some proof)) :
    ∃ x P', hashIP E params.Gg params.Hh P params.Cc params.N = .ok (some x) ∧
      ipVerify E proof = .ok (decide (ORDER ∣ x), P') := by
  obtain ⟨U, hU⟩ := hU
  have hUne : U ≠ 0 := fun h => by rw [(hU.isZero_iff).2 h] at hU0; cases hU0
  obtain ⟨x, v, P', h1, h2, h3⟩ := C21_honest hE la lb lg lh hG hH hU hP hp
  refine ⟨x, P', h1, ?_⟩
  rw [h2]
  congr 2
  rw [Bool.eq_iff_iff, h3, decide_eq_true_iff, ← zmod_smul_intCast, smul_eq_zero, or_iff_left hUne,
    Int.cast_mul, mul_eq_zero, fn_eq_zero, fn_eq_zero]
  constructor
  · rintro (h | h)
    · exact h
    · exact absurd (Int.ModEq.symm ((Int.modEq_iff_dvd).2 h)) hc
  · exact Or.inl

theorem exHash {P : P256} {c x : Int} (h : hashIP (idealExt hashOne) (exParams c).Gg (exParams c).Hh P (exParams c).Cc (exParams c).N =
    .ok (some x)) : x = 1 := by
  simp only [hashIP, Res.bind_eq_ok] at h
  obtain ⟨s, -, hs⟩ := h
  have hs : ((setBytes (hashOne s) : Nat) : Int) = x := Option.some.inj (Res.ok.inj hs)
  rw [← hs]
  unfold hashOne
  decide +kernel

/-- `1·3 + 2·4 = 12` is rejected (the hash is 1). -/
theorem exWrong : ∃ P proof P', commitInnerProduct (idealExt hashOne) (exParams 12).Gg (exParams 12).Hh [1, 2] [3, 4] = .ok P ∧
    proveInnerProduct (idealExt hashOne) [1, 2] [3, 4] P (exParams 12) = .ok (some proof) ∧
    ipVerify (idealExt hashOne) proof = .ok (false, P') := by
  obtain ⟨P, proof, h1, h2⟩ := exBpRun 12
  obtain ⟨x, P', h3, h4⟩ := C21_wrong_product (idealExt_ok hashOne (fun _ => rfl)) (k := 1) rfl rfl rfl rfl
    (exParams_points 12).1 (exParams_points 12).2 isPoint_base rfl (by decide) h1 h2
  rw [exHash h3] at h4
  exact ⟨P, proof, P', h1, h2, h4⟩

example : ∃ proof P', ipVerify (idealExt hashOne) proof = .ok (false, P') :=
  let ⟨_, proof, P', _, _, h⟩ := exWrong
  ⟨proof, P', h⟩

/-- C22: proof size. -/
theorem C22_size {E : Ext} (hE : E.Ok) {k : Nat} {a b : List Int} {P : P256} {params : IPParams}
    {proof : IPProof}
    (la : a.length = 2 ^ k) (lb : b.length = 2 ^ k) (lg : params.Gg.length = 2 ^ k)
    (lh : params.Hh.length = 2 ^ k) (hG : ArePoints params.Gg) (hH : ArePoints params.Hh)
    (hU : IsPoint params.Uu) (hP : IsPoint P)
    (hp : proveInnerProduct E a b P params = .ok (some proof)) :
    proof.Ls.length = k ∧ proof.Rs.length = k ∧ proof.N = 2 ^ k := by
  obtain ⟨G, hG⟩ := hG.reps
  obtain ⟨H, hH⟩ := hH.reps
  obtain ⟨U, hU⟩ := hU
  obtain ⟨Q, hP⟩ := hP
  obtain ⟨x, v, P', _, h1, h2, h3, _⟩ := proveInnerProduct_spec hE la lb lg lh hG hH hU hP hp
  exact ⟨h1, h2, by rw [h3]; push_cast; rfl⟩

example : ∃ P proof, proveInnerProduct (idealExt hashOne) [1, 2] [3, 4] P (exParams 11) = .ok (some proof) ∧
    proof.Ls.length = 1 ∧ proof.Rs.length = 1 ∧ proof.N = 2 := by
  have hE := idealExt_ok hashOne (fun _ => rfl)
  obtain ⟨proof, hp⟩ := (C21_returns hE [1, 2] [3, 4] P256.infinity (exParams 11)).2 1 rfl rfl rfl rfl (by simp [exParams]) hashOne_order
  exact ⟨_, proof, hp, C22_size hE (k := 1) rfl rfl rfl rfl (exParams_points 11).1 (exParams_points 11).2 isPoint_base ⟨0, rep_infinity⟩ hp⟩

/-- An accepted proof object with finite `P`. -/
theorem exAccepted : ∃ (E : Ext) (proof : IPProof) (P' : P256), E.Ok ∧ proof.WellFormed ∧
    proof.Params.P.isZero = false ∧ ipVerify E proof = .ok (true, P') ∧ proof.Ls.length = 1 := by
  have hE := idealExt_ok hashOne (fun _ => rfl)
  have hGG : Reps (exParams 0).Gg [secpG, secpG] :=
    .cons (Or.inr repFin_base) (.cons (Or.inr repFin_base) .nil)
  have hHH : Reps (exParams 0).Hh [secpG, secpG] :=
    .cons (Or.inr repFin_base) (.cons (Or.inr repFin_base) .nil)
  obtain ⟨ga, h1⟩ := vectorExp_some (E := idealExt hashOne) (a := (exParams 0).Gg) (b := [1, 0]) rfl
  obtain ⟨hb, h2⟩ := vectorExp_some (E := idealExt hashOne) (a := (exParams 0).Hh) (b := [0, 0]) rfl
  have hc : commitInnerProduct (idealExt hashOne) (exParams 0).Gg (exParams 0).Hh [1, 0] [0, 0] =
      .ok (ga.multiply (idealExt hashOne) hb) := by rw [commitInnerProduct, h1, h2]; rfl
  obtain ⟨proof, hp⟩ := (C21_returns hE [1, 0] [0, 0] (ga.multiply (idealExt hashOne) hb) (exParams 0)).2 1
    rfl rfl rfl rfl (by simp [exParams]) hashOne_order
  obtain ⟨P', hv⟩ := C21_complete hE (k := 1) rfl rfl rfl rfl (exParams_points 0).1 (exParams_points 0).2
    isPoint_base (Int.ModEq.refl _) hc hp
  obtain ⟨x, v, P'', _, hl, _, _, _, hP, hw, _⟩ := proveInnerProduct_spec hE (k := 1) (U := secpG) rfl rfl rfl rfl
    hGG hHH (Or.inr repFin_base) (commitInnerProduct_spec hE hGG hHH hc) hp
  refine ⟨_, proof, P', hE, hw, ?_, hv, hl⟩
  cases hz : proof.Params.P.isZero with
  | false => rfl
  | true =>
    have := (hP.isZero_iff).1 hz
    simp [castL, exParams] at this
    exact absurd this secpG_ne_zero

/-- C23: on an accepted proof object with finite stored `P`, successive calls of `Verify` return
true, false, true, false, … -/
theorem C23_alternates {E : Ext} (hE : E.Ok) {proof : IPProof} (hp : proof.WellFormed)
    (hfin : proof.Params.P.isZero = false) {P' : P256} (hv : ipVerify E proof = .ok (true, P')) (k : Nat) :
    ipVerifyMany E k proof = .ok ((List.range k).map (fun i => decide (i % 2 = 0))) := by
  obtain ⟨Q, hQ⟩ := hp.P
  have hself : proof.afterVerify proof.Params.P = proof := rfl
  have hQ0 : Q ≠ 0 := fun h => by rw [(hQ.isZero_iff).2 h] at hfin; cases hfin
  rcases ipVerify_target hE proof hp with h | ⟨T, hT⟩
  · have := h _ hp.P; rw [hself, hv] at this; cases this
  · have hQT : Q = T := by
      obtain ⟨v, P1, h1, h2, _⟩ := hT _ _ hQ
      rw [hself, hv] at h1
      injection h1 with h1
      injection h1 with h1 _
      exact h2.1 h1.symm
    obtain ⟨vs, h1, h2, h3⟩ := ipVerifyMany_target hT k _ _ hQ
    rw [hself] at h1
    rw [h1]
    congr 1
    refine List.ext_getElem (by simp [h2]) fun i hi hi' => ?_
    rw [Bool.eq_iff_iff, h3 i hi]
    simp only [List.getElem_map, List.getElem_range, decide_eq_true_iff]
    split
    · rename_i h; simp [h, hQT]
    · rename_i h; simp [h, hQ0]

/-- Three calls: true, false, true. -/
example : ∃ (E : Ext) (proof : IPProof), ipVerifyMany E 3 proof = .ok [true, false, true] := by
  obtain ⟨E, proof, P', hE, hw, hf, hv, -⟩ := exAccepted
  exact ⟨E, proof, C23_alternates hE hw hf hv 3⟩

/-- C23: a rejected proof object with finite stored `P` stays rejected. -/
theorem C23_rejected {E : Ext} (hE : E.Ok) {proof : IPProof} (hp : proof.WellFormed)
    (hfin : proof.Params.P.isZero = false) {P' : P256} (hv : ipVerify E proof = .ok (false, P')) (k : Nat) :
    ipVerifyMany E k proof = .ok (List.replicate k false) := by
  obtain ⟨Q, hQ⟩ := hp.P
  have hself : proof.afterVerify proof.Params.P = proof := rfl
  have hQ0 : Q ≠ 0 := fun h => by rw [(hQ.isZero_iff).2 h] at hfin; cases hfin
  rcases ipVerify_target hE proof hp with h | ⟨T, hT⟩
  · have := h _ hp.P; rw [hself, hv] at this; cases this
  · have hQT : Q ≠ T := by
      obtain ⟨v, P1, h1, h2, _⟩ := hT _ _ hQ
      rw [hself, hv] at h1
      injection h1 with h1
      injection h1 with h1 _
      intro h
      rw [h2.2 h] at h1; cases h1
    obtain ⟨vs, h1, h2, h3⟩ := ipVerifyMany_target hT k _ _ hQ
    rw [hself] at h1
    rw [h1]
    congr 1
    refine List.eq_replicate_iff.2 ⟨h2, fun v hv => ?_⟩
    obtain ⟨i, hi, rfl⟩ := List.getElem_of_mem hv
    have := h3 i hi
    cases hvi : vs[i] with
    | false => rfl
    | true =>
      rw [hvi] at this
      have := this.1 rfl
      split at this
      · exact absurd this hQT
      · exact absurd this hQ0

/-- A wrong product is rejected every time. -/
example : ∃ (E : Ext) (proof : IPProof), ipVerifyMany E 3 proof = .ok [false, false, false] := by
  have hE := idealExt_ok hashOne (fun _ => rfl)
  have hl : Reps (exParams 12).Gg [secpG, secpG] := .cons (Or.inr repFin_base) (.cons (Or.inr repFin_base) .nil)
  have hl' : Reps (exParams 12).Hh [secpG, secpG] := .cons (Or.inr repFin_base) (.cons (Or.inr repFin_base) .nil)
  obtain ⟨P, proof, P', h1, h2, h3⟩ := exWrong
  obtain ⟨x, v, P'', hx, -, -, -, -, hP, hw, -⟩ := proveInnerProduct_spec hE (k := 1) (U := secpG) rfl rfl rfl rfl
    hl hl' (Or.inr repFin_base) (commitInnerProduct_spec hE hl hl' h1) h2
  refine ⟨_, proof, C23_rejected hE hw ?_ h3 3⟩
  cases hz : proof.Params.P.isZero with
  | false => rfl
  | true =>
    have h0 := (hP.isZero_iff).1 hz
    rw [exHash hx] at h0
    have hc : ((22 : Int) : Fn) • secpG = 0 := by
      rw [← h0]
      simp only [castL, exParams, List.map_cons, List.map_nil, msm_cons, msm_nil_left, ← add_smul, add_zero]
      congr 1
    rw [smul_eq_zero, fn_eq_zero] at hc
    exact absurd (hc.resolve_right secpG_ne_zero) (by decide)

/-- C30: for a fixed number `n` of generators, the byte string hashed by `hashIP` determines `P`,
the first `n` generators of both kinds, and `c`. -/
theorem C30_hashIP_injective {g h g' h' : List P256} {P P' : P256} {c c' n : Int} {s : List UInt8}
    (e : hashIPInput g h P c n = .ok s) (e' : hashIPInput g' h' P' c' n = .ok s) :
    P = P' ∧ c = c' ∧ g.take n.toNat = g'.take n.toNat ∧ h.take n.toNat = h'.take n.toNat := by
  simp only [hashIPInput, Res.bind_eq_ok, Res.ok.injEq] at e e'
  obtain ⟨r, hr, rfl⟩ := e
  obtain ⟨r', hr', he⟩ := e'
  simp only [List.append_assoc] at he
  obtain ⟨e1, e2⟩ := string_prefix he
  obtain ⟨e3, e4⟩ := hashIPLoop_injective hr' hr e2
  refine ⟨e1.symm, ?_, ?_, ?_⟩
  · have := decimal_injective e3
    injection this with this
    exact this.symm
  · refine List.ext_getElem? fun i => ?_
    rw [List.getElem?_take, List.getElem?_take]
    split
    · exact (e4 i (Nat.zero_le _) (by omega)).1.symm
    · rfl
  · refine List.ext_getElem? fun i => ?_
    rw [List.getElem?_take, List.getElem?_take]
    split
    · exact (e4 i (Nat.zero_le _) (by omega)).2.symm
    · rfl

example : ∃ s, hashIPInput (exParams 0).Gg (exParams 0).Hh P256.infinity (-5) 2 = .ok s := by
  obtain ⟨s, hs⟩ := hashIPLoop_returns (exParams 0).Gg (exParams 0).Hh 2 0 (by decide) (by decide)
  exact ⟨_, by rw [hashIPInput, show Int.toNat 2 = 2 from rfl, hs, Res.ok_bind]⟩

/-- C30: without separators, `HashBP` does not determine its points: for every hash function
distinct pairs have the same challenges. -/
theorem C30_hashBP_collision (E : Ext) :
    hashBP E ⟨some 1, some 23⟩ ⟨some 4, some 5⟩ = hashBP E ⟨some 12, some 3⟩ ⟨some 4, some 5⟩ ∧
    hashBP E ⟨some 1, some 2⟩ ⟨some 34, some 5⟩ = hashBP E ⟨some 1, some 23⟩ ⟨some 4, some 5⟩ := by
  constructor <;> rfl

/-- C30: what `HashBP` does determine: decimal numbers of known lengths. -/
theorem C30_hashBP_lengths {a s a' s' : P256}
    (h : decimal a.X ++ decimal a.Y ++ decimal s.X ++ decimal s.Y =
      decimal a'.X ++ decimal a'.Y ++ decimal s'.X ++ decimal s'.Y)
    (h1 : (decimal a.X).length = (decimal a'.X).length) (h2 : (decimal a.Y).length = (decimal a'.Y).length)
    (h3 : (decimal s.X).length = (decimal s'.X).length) : a = a' ∧ s = s' := by
  simp only [List.append_assoc] at h
  obtain ⟨e1, h⟩ := List.append_inj h h1
  obtain ⟨e2, h⟩ := List.append_inj h h2
  obtain ⟨e3, h⟩ := List.append_inj h h3
  have := decimal_injective e1
  have := decimal_injective e2
  have := decimal_injective e3
  have := decimal_injective h
  cases a; cases a'; cases s; cases s'
  simp_all

example : decimal (some 12) ++ decimal (some 3) ++ decimal (some 4) ++ decimal none =
    [49, 50, 51, 52, 60, 110, 105, 108, 62] := by decide +kernel

/-- C32: exactly when `Verify` of an inner-product proof does not panic, for every proof object
(no assumption on the points).  Every `L` needs an `R` and an invertible challenge; without
rounds the generator lists must not be empty; with `r ≥ 1` rounds both lists must have length
`2^r·m` for some `m ≥ 1`, and half of the recorded `N` must be `2^(r-1)·m`. -/
theorem C32_panics_iff {E : Ext} (proof : IPProof) :
    ipVerify E proof ≠ .panic ↔
      proof.Ls.length ≤ proof.Rs.length ∧
      (∀ (i : Nat) (L R : P256), proof.Ls[i]? = some L → proof.Rs[i]? = some R →
        ¬ ORDER ∣ (hashBP E L R).1) ∧
      (proof.Ls.length = 0 → proof.Params.Gg ≠ [] ∧ proof.Params.Hh ≠ []) ∧
      (proof.Ls.length ≠ 0 → ∃ m : Nat, 1 ≤ m ∧ proof.Params.Gg.length = 2 ^ proof.Ls.length * m ∧
        proof.Params.Hh.length = 2 ^ proof.Ls.length * m ∧
        proof.N.tdiv 2 = ((2 ^ (proof.Ls.length - 1) * m : Nat) : Int)) := by
  rw [ipVerify_ok_iff]
  refine and_congr_right fun _ => and_congr_right fun _ => ?_
  rw [SizesOk]
  split
  · rename_i h
    simp only [h, forall_const, ne_eq, not_true_eq_false, false_implies, and_true]
    rw [Nat.one_le_iff_ne_zero, Nat.one_le_iff_ne_zero, Ne, Ne, List.length_eq_zero_iff, List.length_eq_zero_iff]
  · rename_i h
    simp [h]

/-- C32: well-sized proofs never panic. -/
theorem C32_well_sized {E : Ext} (proof : IPProof) (k : Nat) (hL : proof.Ls.length = k)
    (hR : proof.Rs.length = k) (hg : proof.Params.Gg.length = 2 ^ k) (hh : proof.Params.Hh.length = 2 ^ k)
    (hn : proof.N = 2 ^ k)
    (hinv : ∀ (i : Nat) (L R : P256), proof.Ls[i]? = some L → proof.Rs[i]? = some R →
        ¬ ORDER ∣ (hashBP E L R).1) : ipVerify E proof ≠ .panic := by
  rw [C32_panics_iff]
  refine ⟨by omega, hinv, fun h => ?_, fun h => ⟨1, le_rfl, by rw [hg, hL, mul_one], by rw [hh, hL, mul_one], ?_⟩⟩
  · constructor <;> intro hc
    · rw [hc] at hg; have := Nat.two_pow_pos k; simp only [List.length_nil] at hg; omega
    · rw [hc] at hh; have := Nat.two_pow_pos k; simp only [List.length_nil] at hh; omega
  · obtain ⟨r, rfl⟩ := Nat.exists_eq_add_one_of_ne_zero (hL ▸ h)
    rw [hn, hL, Nat.add_sub_cancel, mul_one, ← tdiv_two]
    push_cast
    rw [pow_succ, mul_comm]

/-- Both outcomes occur: empty generator lists panic for every choice of the rest. -/
example (E : Ext) (proof : IPProof) (h : proof.Params.Gg = []) : ipVerify E proof = .panic := by
  by_contra hc
  obtain ⟨_, _, h1, h2⟩ := (C32_panics_iff proof).1 hc
  by_cases h0 : proof.Ls.length = 0
  · exact (h1 h0).1 h
  · obtain ⟨m, hm, e, _⟩ := h2 h0
    rw [h] at e
    have := Nat.mul_pos (Nat.two_pow_pos proof.Ls.length) hm
    simp only [List.length_nil] at e
    omega

end Verif

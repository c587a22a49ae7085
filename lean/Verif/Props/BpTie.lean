import Verif.Props.BpHide
import Verif.Props.BpExtract
import Verif.Spec.BpTie

/-!
# C113: the halves of a generic proof cannot be tied together by the verifier alone
-/

namespace Verif
open Spec Finset

/-- C113: whatever a verifier looks at in a proof (any set `D` of results, for example those accepted by a changed
`Verify`), the honest proofs for `v` pass at most as often as the proofs put together for `x1` and `x2`, which need not be
equal nor lie in `[A, B)`; up to `44` out of every `ORDER` pairs of draws and the pairs for which an honest half fails or
has challenge zero. -/
theorem C113_no_test {E : Ext} (hE : E.Ok) {gp : BPRP} {n : Nat} {G1 Hh1 G2 Hh2 : Nat → Secp} {H1 H2 : Secp}
    (hg1 : Generators gp.BP1 n G1 Hh1 H1) (hH1 : H1 ≠ 0) (hg2 : Generators gp.BP2 n G2 Hh2 H2) (hH2 : H2 ≠ 0)
    (hn : (2 : Int) ^ n = 2 ^ 32) {v x1 x2 : Int}
    (hv : max gp.A (gp.B - 2 ^ 32) ≤ v ∧ v < min gp.B (gp.A + 2 ^ 32))
    (hx1 : gp.B - 2 ^ 32 ≤ x1 ∧ x1 < gp.B) (hx2 : gp.A ≤ x2 ∧ x2 < gp.A + 2 ^ 32) (D : Set (Res (Option BPRPProof))) :
    {w : Rnd n × Rnd n | proveGeneric E w.1.toBP w.2.toBP v gp ∈ D}.ncard ≤
      {w : Rnd n × Rnd n | proveMixed E w.1.toBP w.2.toBP x1 x2 gp ∈ D}.ncard +
      secpNn ^ (2 * n + 5) * (44 * secpNn ^ (2 * n + 4) +
        {w : Rnd n | ¬ Usable E (prove E w.toBP (v - gp.B + 2 ^ 32) gp.BP1)}.ncard +
        {w : Rnd n | ¬ Usable E (prove E w.toBP (v - gp.A) gp.BP2)}.ncard) := by
  have : Fintype (Rnd n) := Fintype.ofFinite _
  have hcard : Fintype.card (Rnd n) = secpNn ^ (2 * n + 5) := by
    rw [← Nat.card_eq_fintype_card]; exact C69_total n
  have hj : ∀ w : Rnd n × Rnd n, proveGeneric E w.1.toBP w.2.toBP v gp =
      joinHalves (prove E w.1.toBP (v - gp.B + 2 ^ 32) gp.BP1) (prove E w.2.toBP (v - gp.A) gp.BP2) := fun w => rfl
  have hm : ∀ w : Rnd n × Rnd n, proveMixed E w.1.toBP w.2.toBP x1 x2 gp =
      joinHalves (prove E w.1.toBP (x1 - gp.B + 2 ^ 32) gp.BP1) (prove E w.2.toBP (x2 - gp.A) gp.BP2) := fun w => rfl
  simp only [hj, hm]
  set B1 := 22 * secpNn ^ (2 * n + 4) + {w : Rnd n | ¬ Usable E (prove E w.toBP (v - gp.B + 2 ^ 32) gp.BP1)}.ncard
    with hB1
  set B2 := 22 * secpNn ^ (2 * n + 4) + {w : Rnd n | ¬ Usable E (prove E w.toBP (v - gp.A) gp.BP2)}.ncard with hB2
  have r1 : 0 ≤ v - gp.B + 2 ^ 32 ∧ v - gp.B + 2 ^ 32 < 2 ^ n := by omega
  have r1' : 0 ≤ x1 - gp.B + 2 ^ 32 ∧ x1 - gp.B + 2 ^ 32 < 2 ^ n := by omega
  have r2 : 0 ≤ v - gp.A ∧ v - gp.A < 2 ^ n := by omega
  have r2' : 0 ≤ x2 - gp.A ∧ x2 - gp.A < 2 ^ n := by omega
  have s1 : {w : Rnd n × Rnd n | joinHalves (prove E w.1.toBP (v - gp.B + 2 ^ 32) gp.BP1)
        (prove E w.2.toBP (v - gp.A) gp.BP2) ∈ D}.ncard ≤
      {w : Rnd n × Rnd n | joinHalves (prove E w.1.toBP (x1 - gp.B + 2 ^ 32) gp.BP1)
        (prove E w.2.toBP (v - gp.A) gp.BP2) ∈ D}.ncard + secpNn ^ (2 * n + 5) * B1 := by
    rw [ncard_pairs (fun a b : Rnd n => joinHalves (prove E a.toBP (v - gp.B + 2 ^ 32) gp.BP1)
        (prove E b.toBP (v - gp.A) gp.BP2) ∈ D),
      ncard_pairs (fun a b : Rnd n => joinHalves (prove E a.toBP (x1 - gp.B + 2 ^ 32) gp.BP1)
        (prove E b.toBP (v - gp.A) gp.BP2) ∈ D), ← hcard, ← smul_eq_mul, ← card_univ, ← sum_const, ← sum_add_distrib]
    exact sum_le_sum fun b _ => C69_hiding hE hg1 hH1 r1 r1' {p | joinHalves p (prove E b.toBP (v - gp.A) gp.BP2) ∈ D}
  have s2 : {w : Rnd n × Rnd n | joinHalves (prove E w.1.toBP (x1 - gp.B + 2 ^ 32) gp.BP1)
        (prove E w.2.toBP (v - gp.A) gp.BP2) ∈ D}.ncard ≤
      {w : Rnd n × Rnd n | joinHalves (prove E w.1.toBP (x1 - gp.B + 2 ^ 32) gp.BP1)
        (prove E w.2.toBP (x2 - gp.A) gp.BP2) ∈ D}.ncard + secpNn ^ (2 * n + 5) * B2 := by
    rw [ncard_pairs' (fun a b : Rnd n => joinHalves (prove E a.toBP (x1 - gp.B + 2 ^ 32) gp.BP1)
        (prove E b.toBP (v - gp.A) gp.BP2) ∈ D),
      ncard_pairs' (fun a b : Rnd n => joinHalves (prove E a.toBP (x1 - gp.B + 2 ^ 32) gp.BP1)
        (prove E b.toBP (x2 - gp.A) gp.BP2) ∈ D), ← hcard, ← smul_eq_mul, ← card_univ, ← sum_const, ← sum_add_distrib]
    exact sum_le_sum fun a _ => C69_hiding hE hg2 hH2 r2 r2'
      {p | joinHalves (prove E a.toBP (x1 - gp.B + 2 ^ 32) gp.BP1) p ∈ D}
  refine s1.trans ((Nat.add_le_add_right s2 _).trans (le_of_eq ?_))
  rw [hB1, hB2]
  ring

theorem exBP32_H_ne : (1000000000 : Fn) • secpG ≠ 0 := smul_ne_zero (by decide +kernel) secpG_ne_zero

/-- For `[18, 200)` and any verifier `test`: proofs for the age 40 pass at most as often as the proofs put together for
the ages 3 and 300. -/
example {E : Ext} (hE : E.Ok) (test : BPRPProof → Bool) :=
  C113_no_test hE (gp := ⟨18, 200, exBP32, exBP32⟩) exBP32_generators exBP32_H_ne exBP32_generators exBP32_H_ne rfl
    (v := 40) (x1 := 3) (x2 := 300) (by decide) (by decide) (by decide) {r | ∃ p, r = .ok (some p) ∧ test p = true}

/-- What the comparison finds out. -/
theorem checkTied_iff {E : Ext} (hE : E.Ok) (A B : Int) {V1 V2 : P256} {Q1 Q2 : Secp} (h1 : Rep V1 Q1) (h2 : Rep V2 Q2) :
    checkTied E A B V1 V2 = true ↔ Q1 = Q2 + ((A - B + 2 ^ 32 : Int) : Fn) • secpG := by
  have r := multiply_rep hE h2 (scalarBaseMult_fn hE (A - B + 2 ^ 32))
  generalize Q2 + ((A - B + 2 ^ 32 : Int) : Fn) • secpG = Q at r ⊢
  simp only [checkTied]
  generalize V2.multiply E (P256.scalarBaseMult E (A - B + 2 ^ 32)) = V at r ⊢
  by_cases hQ : Q = 0
  · rw [if_pos (r.isZero_iff.2 hQ), hQ, h1.isZero_iff]
  · rw [if_neg (fun h => hQ (r.isZero_iff.1 h)), decide_eq_true_iff]
    constructor
    · rintro rfl
      rw [← valOf_eq h1, valOf_eq r]
    · rintro rfl
      rw [r.canon hQ, h1.canon hQ]

/-- The commitment in a proof. -/
theorem prove_V {E : Ext} {rnd : BPRand} {secret : Int} {params : BPParams} {proof : BPProof}
    (hp : prove E rnd secret params = .ok (some proof)) : proof.V = commitG1 E secret rnd.gamma params.H := by
  rw [prove_eq_proveBits, Res.bind_eq_ok] at hp
  obtain ⟨aL, _, hp⟩ := hp
  exact proveBits_V hp

/-- C113: the proofs of `ProveGeneric` pass the comparison exactly if the two `gamma` are equal; with the change of
`proveTied` they always pass. -/
theorem C113_complete {E : Ext} (hE : E.Ok) {r1 r2 : BPRand} {secret : Int} {params : BPRP} {proof : BPRPProof} {H : Secp}
    (hH1 : Rep params.BP1.H H) (hH2 : Rep params.BP2.H H) (hH : H ≠ 0)
    (hp : proveGeneric E r1 r2 secret params = .ok (some proof))
    (k1 : AddOk (((secret - params.B + 2 ^ 32 : Int) : Fn) • secpG) ((r1.gamma : Fn) • H))
    (k2 : AddOk (((secret - params.A : Int) : Fn) • secpG) ((r2.gamma : Fn) • H)) :
    checkTied E params.A params.B proof.P1.V proof.P2.V = true ↔ (r1.gamma : Fn) = r2.gamma := by
  obtain ⟨e1, e2⟩ := proveGeneric_halves hp
  have v1 := commitG1_addOf hE (secret - params.B + 2 ^ 32) r1.gamma hH1
  have v2 := commitG1_addOf hE (secret - params.A) r2.gamma hH2
  rw [addOf_eq k1] at v1
  rw [addOf_eq k2] at v2
  rw [prove_V e1, prove_V e2, checkTied_iff hE _ _ v1 v2]
  push_cast
  have : ((secret : Fn) - params.A) • secpG + (r2.gamma : Fn) • H + ((params.A : Fn) - params.B + 4294967296) • secpG =
      ((secret : Fn) - params.B + 4294967296) • secpG + (r2.gamma : Fn) • H := by module
  rw [this, add_right_inj, ← sub_eq_zero, ← sub_smul, smul_eq_zero, sub_eq_zero]
  exact or_iff_left hH

theorem C113_tied {E : Ext} (hE : E.Ok) {r1 r2 : BPRand} {secret : Int} {params : BPRP} {proof : BPRPProof} {H : Secp}
    (hH1 : Rep params.BP1.H H) (hH2 : Rep params.BP2.H H) (hH : H ≠ 0)
    (hp : proveTied E r1 r2 secret params = .ok (some proof))
    (k1 : AddOk (((secret - params.B + 2 ^ 32 : Int) : Fn) • secpG) ((r1.gamma : Fn) • H))
    (k2 : AddOk (((secret - params.A : Int) : Fn) • secpG) ((r1.gamma : Fn) • H)) :
    checkTied E params.A params.B proof.P1.V proof.P2.V = true :=
  (C113_complete hE hH1 hH2 hH hp k1 k2).2 rfl

/-- For instance the encoded proof of the README instance, made with the same `gamma` for both halves; another `gamma` in the
second half would be noticed. -/
example : ∃ proof, proveTied (idealExt hashOne) exRand32 exRand32 50 ⟨10, 100, exBP32, exBP32⟩ = .ok (some proof) ∧
    checkTied (idealExt hashOne) 10 100 proof.P1.V proof.P2.V = true := by
  have hE := idealExt_ok hashOne (fun _ => rfl)
  obtain ⟨p1, h1, k1⟩ := exBP32_honest ex32_a
  obtain ⟨p2, h2, k2⟩ := exBP32_honest ex32_b
  have hp : proveTied (idealExt hashOne) exRand32 exRand32 50 ⟨10, 100, exBP32, exBP32⟩ = .ok (some ⟨p1, p2⟩) := by
    have h1' : prove (idealExt hashOne) exRand32 (50 - 100 + MAX_RANGE_END) exBP32 = .ok (some p1) := h1
    have h2' : prove (idealExt hashOne) { exRand32 with gamma := exRand32.gamma } (50 - 10) exBP32 = .ok (some p2) := h2
    simp only [proveTied, proveGeneric, h1', h2', Res.ok_bind]
  refine ⟨_, hp, C113_tied hE exBP32_generators.H exBP32_generators.H exBP32_H_ne hp ?_ ?_⟩
  · rw [smul_smul]
    exact addOk_smul ex32_a.V
  · rw [smul_smul]
    exact addOk_smul ex32_b.V

/-- C113: suppose the commitments of the halves pass the comparison, and the repaired verifier of C76 accepts a tree of
runs for each half (with `2^k ≤ 32` bits), from which openings are computed.  If both have the same `gamma`, then they are the
openings of one number `x`, shifted by the ends of the interval as in `ProveGeneric` and, with 32 bits, in the interval of
C25; otherwise they give a relation between `G` and `H`. -/
theorem C113_sound {E : Ext} (hE : E.Ok) {k : Nat} (hk : k ≤ 5) {params1 params2 : BPParams} {G1 Hh1 G2 Hh2 : Nat → Secp}
    {H u₀ : Secp} {u V1 V2 : P256} (hg1 : Generators params1 (2 ^ k) G1 Hh1 H) (hg2 : Generators params2 (2 ^ k) G2 Hh2 H)
    (hu : Rep u u₀) (hV1 : IsPoint V1) (hV2 : IsPoint V2) {A B : Int} (hA : |A| < 2 ^ 64) (hB : |B| < 2 ^ 64)
    (hc : checkTied E A B V1 V2 = true) {T1 T2 : RTree Fn k} (a1 : T1.Accepted params1 u V1)
    (a2 : T2.Accepted params2 u V2) {b1 b2 : Nat → Fn} {γ1 γ2 : Fn} (e1 : T1.extract = .opening b1 γ1)
    (e2 : T2.extract = .opening b2 γ2) :
    (γ1 = γ2 → ∃ x : Int, (0 ≤ x - B + 2 ^ 32 ∧ x - B + 2 ^ 32 < 2 ^ 2 ^ k) ∧ (0 ≤ x - A ∧ x - A < 2 ^ 2 ^ k) ∧
      (k = 5 → max A (B - 2 ^ 32) ≤ x ∧ x < min B (A + 2 ^ 32)) ∧ ∑ i ∈ range (2 ^ k), b1 i * 2 ^ i = ((x - B + 2 ^ 32 : Int) : Fn) ∧
      ∑ i ∈ range (2 ^ k), b2 i * 2 ^ i = ((x - A : Int) : Fn) ∧
      Rep V1 (((x - B + 2 ^ 32 : Int) : Fn) • secpG + γ1 • H) ∧ Rep V2 (((x - A : Int) : Fn) • secpG + γ2 • H)) ∧
    (γ1 ≠ γ2 → ((∑ i ∈ range (2 ^ k), b1 i * 2 ^ i) - (∑ i ∈ range (2 ^ k), b2 i * 2 ^ i) -
      ((A - B + 2 ^ 32 : Int) : Fn)) • secpG + (γ1 - γ2) • H = 0) := by
  have k1 := C76_extract hg1 hu (rep_valOf hV1) a1
  have k2 := C76_extract hg2 hu (rep_valOf hV2) a2
  rw [e1] at k1
  rw [e2] at k2
  obtain ⟨-, w1, l1, s1, f1⟩ := k1
  obtain ⟨-, w2, l2, s2, f2⟩ := k2
  have t := (checkTied_iff hE A B (rep_valOf hV1) (rep_valOf hV2)).1 hc
  rw [← Nat.cast_smul_eq_nsmul Fn] at f1 f2
  have rel : ((w1 : Fn) - w2 - ((A - B + 2 ^ 32 : Int) : Fn)) • secpG + (γ1 - γ2) • H = 0 := by
    have : ((w1 : Fn) - w2 - ((A - B + 2 ^ 32 : Int) : Fn)) • secpG + (γ1 - γ2) • H =
        ((w1 : Fn) • secpG + γ1 • H) - ((w2 : Fn) • secpG + γ2 • H + ((A - B + 2 ^ 32 : Int) : Fn) • secpG) := by module
    rw [this, ← f1, ← f2, t, sub_self]
  rw [s1, s2]
  refine ⟨fun hγ => ?_, fun _ => rel⟩
  rw [hγ, sub_self, zero_smul, add_zero, smul_eq_zero] at rel
  have z : (((w1 : Int) - w2 - (A - B + 2 ^ 32) : Int) : Fn) = 0 := by
    have := rel.resolve_right secpG_ne_zero
    push_cast at this ⊢
    exact this
  rw [fn_eq_zero] at z
  rw [abs_lt] at hA hB
  have o : (2 : Int) ^ 70 < ORDER := by decide +kernel
  have small : 2 ^ 2 ^ k ≤ 2 ^ 32 := Nat.pow_le_pow_right (by decide) (Nat.pow_le_pow_right (by decide) hk : 2 ^ k ≤ 2 ^ 5)
  have m1 : (w1 : Int) < 2 ^ 2 ^ k := by exact_mod_cast l1
  have m2 : (w2 : Int) < 2 ^ 2 ^ k := by exact_mod_cast l2
  have := Int.eq_zero_of_abs_lt_dvd z (by rw [abs_lt]; constructor <;> omega)
  have c1 : ((w1 : Nat) : Fn) = (((w2 + A) - B + 2 ^ 32 : Int) : Fn) := by
    rw [← Int.cast_natCast]; congr 1; omega
  have c2 : ((w2 : Nat) : Fn) = (((w2 + A) - A : Int) : Fn) := by
    rw [← Int.cast_natCast]; congr 1; omega
  refine ⟨w2 + A, ⟨by omega, by omega⟩, ⟨by omega, by omega⟩, fun _ => ⟨by omega, by omega⟩, c1, c2, ?_, ?_⟩
  · rw [← c1, ← f1]; exact rep_valOf hV1
  · rw [← c2, ← f2]; exact rep_valOf hV2

/-- The hypotheses of `C113_sound` with one bit, for any generators: the tree of C76, twice, for the interval `[0, 2^32)`. -/
example (g h H u : Secp) : ∃ b : Nat → Fn, exRange.extract = .opening b 5 ∧ ∃ x : Int,
    (0 ≤ x - 2 ^ 32 + 2 ^ 32 ∧ x - 2 ^ 32 + 2 ^ 32 < 2 ^ 2 ^ 0) := by
  have hE := idealExt_ok hashOne (fun _ => rfl)
  have key : (match exRange.extract with
    | .opening a gamma => gamma == 5
    | .relation _ => false) = true := by decide +kernel
  have hV : IsPoint (canonP (secpG + (5 : Fn) • H)) := ⟨_, rep_canonP _⟩
  have hc : checkTied (idealExt hashOne) 0 (2 ^ 32) (canonP (secpG + (5 : Fn) • H)) (canonP (secpG + (5 : Fn) • H)) = true :=
    (checkTied_iff hE _ _ (rep_canonP _) (rep_canonP _)).2 (by simp)
  cases he : exRange.extract with
  | relation c => rw [he] at key; cases key
  | opening b γ =>
    rw [he] at key
    have hγ : γ = 5 := by simpa using key
    subst hγ
    obtain ⟨x, h1, -⟩ := (C113_sound hE (k := 0) (by decide) (oneBit_generators g h H) (oneBit_generators g h H) (rep_canonP u)
      hV hV (by decide) (by decide) hc (exRange_accepted g h H u) (exRange_accepted g h H u) he he).1 rfl
    exact ⟨b, rfl, x, h1⟩

/-- The draws with another `gamma`. -/
def Rnd.withGamma {n : Nat} (w : Rnd n) (g : Fn) : Rnd n := { w with gamma := g }

/-- A condition on the second half of tied draws holds as rarely as the condition on draws of its own. -/
theorem ncard_tied {n : Nat} (P : Rnd n → Prop) :
    {w : Rnd n × Rnd n | P (w.2.withGamma w.1.gamma)}.ncard ≤ secpNn ^ (2 * n + 5) * {w | P w}.ncard := by
  have : Fintype (Rnd n) := Fintype.ofFinite _
  let f : Rnd n × Rnd n → Rnd n × Rnd n := fun w => (w.1.withGamma w.2.gamma, w.2.withGamma w.1.gamma)
  have hf : Function.Injective f := fun a b h => by
    have := congrArg f h
    exact this
  have h1 : f '' {w | P (w.2.withGamma w.1.gamma)} ⊆ {w | P w.2} := by
    rintro _ ⟨w, hw, rfl⟩
    exact hw
  rw [← Set.ncard_image_of_injective _ hf]
  refine (Set.ncard_le_ncard h1 (Set.toFinite _)).trans (le_of_eq ?_)
  rw [ncard_pairs' (fun _ b : Rnd n => P b), sum_const, card_univ, ← Nat.card_eq_fintype_card, C69_total, smul_eq_mul]

theorem ncard_first {n : Nat} (P : Rnd n → Prop) :
    {w : Rnd n × Rnd n | P w.1}.ncard ≤ secpNn ^ (2 * n + 5) * {w | P w}.ncard := by
  have : Fintype (Rnd n) := Fintype.ofFinite _
  rw [ncard_pairs (fun a _ : Rnd n => P a), sum_const, card_univ, ← Nat.card_eq_fintype_card, C69_total, smul_eq_mul]

/-- The ideal prover with a usable challenge. -/
theorem usable_x {n : Nat} {c : HideCtx n} (hc : c.Ok) {v : Int} {w : Rnd n} (hr : c.Regular v w)
    (hu : Usable c.E (prove c.E w.toBP v c.params)) : (c.x v w : Fn) ≠ 0 := by
  obtain ⟨proof, e, hx⟩ := hu
  rw [HideCtx.prove_eq_ideal hc hr] at e
  obtain ⟨e1, e2⟩ := proveCore_T e
  rw [e1, e2] at hx
  rw [Ne, ZMod.intCast_zmod_eq_zero_iff_dvd, ← ORDER_eq]
  exact hx

/-- C113: with one `gamma` for both halves the proofs reveal the secret as little as before: the bound is that of
`C69_generic`.  (The `gamma` of the second half is drawn and not used.) -/
theorem C113_hiding {E : Ext} (hE : E.Ok) {gp : BPRP} {n : Nat} {G1 Hh1 G2 Hh2 : Nat → Secp} {H : Secp}
    (hg1 : Generators gp.BP1 n G1 Hh1 H) (hg2 : Generators gp.BP2 n G2 Hh2 H) (hH : H ≠ 0)
    (hn : (2 : Int) ^ n = 2 ^ 32) {v v' : Int}
    (hv : max gp.A (gp.B - 2 ^ 32) ≤ v ∧ v < min gp.B (gp.A + 2 ^ 32))
    (hv' : max gp.A (gp.B - 2 ^ 32) ≤ v' ∧ v' < min gp.B (gp.A + 2 ^ 32)) (D : Set (Res (Option BPRPProof))) :
    {w : Rnd n × Rnd n | proveTied E w.1.toBP w.2.toBP v gp ∈ D}.ncard ≤
      {w : Rnd n × Rnd n | proveTied E w.1.toBP w.2.toBP v' gp ∈ D}.ncard +
      secpNn ^ (2 * n + 5) * (44 * secpNn ^ (2 * n + 4) +
        {w : Rnd n | ¬ Usable E (prove E w.toBP (v - gp.B + 2 ^ 32) gp.BP1)}.ncard +
        {w : Rnd n | ¬ Usable E (prove E w.toBP (v - gp.A) gp.BP2)}.ncard) := by
  obtain ⟨A, B, BP1, BP2⟩ := gp
  simp only at hg1 hg2 hv hv' ⊢
  obtain ⟨c, hc, rfl, rfl⟩ := hideCtx_exists hE hg1 hH
  obtain ⟨c', hc', hcE, rfl⟩ := hideCtx_exists hE hg2 hH
  have hd : c.d = c'.d := by
    have i1 : c.H = H := (valOf_eq hc.H).symm.trans (valOf_eq hg1.H)
    have i2 : c'.H = H := (valOf_eq hc'.H).symm.trans (valOf_eq hg2.H)
    have := hc.d.trans hc'.d.symm
    rw [i1, i2, ← sub_eq_zero, ← sub_smul, smul_eq_zero, sub_eq_zero] at this
    exact this.resolve_right hH
  have hj : ∀ (u : Int) (w : Rnd n × Rnd n), proveTied c.E w.1.toBP w.2.toBP u ⟨A, B, c.params, c'.params⟩ =
      joinHalves (prove c.E w.1.toBP (u - B + 2 ^ 32) c.params)
        (prove c.E (w.2.withGamma w.1.gamma).toBP (u - A) c'.params) := fun u w => rfl
  simp only [hj]
  have q2 : ∀ {u : Int} {w : Rnd n}, c'.Regular u w → prove c.E w.toBP u c'.params = c'.ideal u w := by
    intro u w h
    rw [← hcE]; exact HideCtx.prove_eq_ideal hc' h
  have x2 : ∀ {u : Int} {w : Rnd n}, c'.Regular u w → Usable c.E (prove c.E w.toBP u c'.params) → (c'.x u w : Fn) ≠ 0 := by
    intro u w h hu
    rw [← hcE] at hu; exact usable_x hc' h hu
  let T : Rnd n × Rnd n → Rnd n := fun w => w.2.withGamma w.1.gamma
  let F : Int → Int → Rnd n × Rnd n → Rnd n × Rnd n := fun a b w =>
    (c.swap (a - B + 2 ^ 32) (b - B + 2 ^ 32) w.1, (c'.swap (a - A) (b - A) (T w)).withGamma w.2.gamma)
  have hT : ∀ a b w, T (F a b w) = c'.swap (a - A) (b - A) (T w) := by
    intro a b w
    have hg : (c.swap (a - B + 2 ^ 32) (b - B + 2 ^ 32) w.1).gamma = (c'.swap (a - A) (b - A) (T w)).gamma := by
      show w.1.gamma + _ * c.d = w.1.gamma + _ * c'.d
      rw [hd]
      push_cast
      ring
    show Rnd.withGamma (Rnd.withGamma _ _) (c.swap (a - B + 2 ^ 32) (b - B + 2 ^ 32) w.1).gamma = _
    rw [hg]
    rfl
  have hFF : ∀ w, F v' v (F v v' w) = w := by
    intro w
    show (c.swap _ _ (c.swap _ _ w.1), (c'.swap _ _ (T (F v v' w))).withGamma w.2.gamma) = w
    rw [hT, HideCtx.swap_swap, HideCtx.swap_swap]
    rfl
  let I : Set (Rnd n × Rnd n) := {w | joinHalves (c.ideal (v - B + 2 ^ 32) w.1) (c'.ideal (v - A) (T w)) ∈ D ∧
    (c.x (v - B + 2 ^ 32) w.1 : Fn) ≠ 0 ∧ (c'.x (v - A) (T w) : Fn) ≠ 0}
  let N1 : Set (Rnd n × Rnd n) := {w | ¬ c.Regular (v - B + 2 ^ 32) w.1}
  let N2 : Set (Rnd n × Rnd n) := {w | ¬ c'.Regular (v - A) (T w)}
  let U1 : Set (Rnd n × Rnd n) := {w | ¬ Usable c.E (prove c.E w.1.toBP (v - B + 2 ^ 32) c.params)}
  let U2 : Set (Rnd n × Rnd n) := {w | ¬ Usable c.E (prove c.E (T w).toBP (v - A) c'.params)}
  let N1' : Set (Rnd n × Rnd n) := {w | ¬ c.Regular (v' - B + 2 ^ 32) w.1}
  let N2' : Set (Rnd n × Rnd n) := {w | ¬ c'.Regular (v' - A) (T w)}
  have h1 : {w : Rnd n × Rnd n | joinHalves (prove c.E w.1.toBP (v - B + 2 ^ 32) c.params)
      (prove c.E (T w).toBP (v - A) c'.params) ∈ D} ⊆ I ∪ (N1 ∪ (N2 ∪ (U1 ∪ U2))) := by
    intro w hw
    by_cases r1 : c.Regular (v - B + 2 ^ 32) w.1
    swap
    · exact Or.inr (Or.inl r1)
    by_cases r2 : c'.Regular (v - A) (T w)
    swap
    · exact Or.inr (Or.inr (Or.inl r2))
    by_cases u1 : Usable c.E (prove c.E w.1.toBP (v - B + 2 ^ 32) c.params)
    swap
    · exact Or.inr (Or.inr (Or.inr (Or.inl u1)))
    by_cases u2 : Usable c.E (prove c.E (T w).toBP (v - A) c'.params)
    swap
    · exact Or.inr (Or.inr (Or.inr (Or.inr u2)))
    refine Or.inl ⟨?_, usable_x hc r1 u1, x2 r2 u2⟩
    rw [← HideCtx.prove_eq_ideal hc r1, ← q2 r2]
    exact hw
  have h2 : F v v' '' I ⊆ {w : Rnd n × Rnd n | joinHalves (prove c.E w.1.toBP (v' - B + 2 ^ 32) c.params)
      (prove c.E (T w).toBP (v' - A) c'.params) ∈ D} ∪ (N1' ∪ N2') := by
    rintro _ ⟨w, ⟨hw, hx1, hx2⟩, rfl⟩
    by_cases r1 : c.Regular (v' - B + 2 ^ 32) (F v v' w).1
    swap
    · exact Or.inr (Or.inl r1)
    by_cases r2 : c'.Regular (v' - A) (T (F v v' w))
    swap
    · exact Or.inr (Or.inr r2)
    refine Or.inl ?_
    show joinHalves (prove c.E (F v v' w).1.toBP _ _) (prove c.E (T (F v v' w)).toBP _ _) ∈ D
    rw [HideCtx.prove_eq_ideal hc r1, q2 r2, hT, HideCtx.swap_ideal (by omega) (by omega) hx2]
    show joinHalves (c.ideal _ (c.swap _ _ w.1)) _ ∈ D
    rw [HideCtx.swap_ideal (by omega) (by omega) hx1]
    exact hw
  have h3 : (F v v' '' I).ncard = I.ncard :=
    Set.ncard_image_of_injective _ fun a b h => by rw [← hFF a, h, hFF]
  have k1 := (Set.ncard_le_ncard h1 (Set.toFinite _)).trans (Set.ncard_union_le _ _)
  have k2 := Set.ncard_union_le N1 (N2 ∪ (U1 ∪ U2))
  have k3 := Set.ncard_union_le N2 (U1 ∪ U2)
  have k4 := Set.ncard_union_le U1 U2
  have k5 := (Set.ncard_le_ncard h2 (Set.toFinite _)).trans (Set.ncard_union_le _ _)
  have k6 := Set.ncard_union_le N1' N2'
  have i1 : N1.ncard ≤ _ := ncard_first fun w => ¬ c.Regular (v - B + 2 ^ 32) w
  have i2 : N2.ncard ≤ _ := ncard_tied fun w => ¬ c'.Regular (v - A) w
  have i3 : U1.ncard ≤ _ := ncard_first fun w => ¬ Usable c.E (prove c.E w.toBP (v - B + 2 ^ 32) c.params)
  have i4 : U2.ncard ≤ _ := ncard_tied fun w => ¬ Usable c.E (prove c.E w.toBP (v - A) c'.params)
  have i5 : N1'.ncard ≤ _ := ncard_first fun w => ¬ c.Regular (v' - B + 2 ^ 32) w
  have i6 : N2'.ncard ≤ _ := ncard_tied fun w => ¬ c'.Regular (v' - A) w
  have j1 := Nat.mul_le_mul_left (secpNn ^ (2 * n + 5)) (HideCtx.irregular_card c (v - B + 2 ^ 32))
  have j2 := Nat.mul_le_mul_left (secpNn ^ (2 * n + 5)) (HideCtx.irregular_card c' (v - A))
  have j5 := Nat.mul_le_mul_left (secpNn ^ (2 * n + 5)) (HideCtx.irregular_card c (v' - B + 2 ^ 32))
  have j6 := Nat.mul_le_mul_left (secpNn ^ (2 * n + 5)) (HideCtx.irregular_card c' (v' - A))
  rw [mul_add, mul_add, show secpNn ^ (2 * n + 5) * (44 * secpNn ^ (2 * n + 4)) =
    4 * (secpNn ^ (2 * n + 5) * (11 * secpNn ^ (2 * n + 4))) by ring]
  generalize secpNn ^ (2 * n + 5) * (11 * secpNn ^ (2 * n + 4)) = q at *
  show {w : Rnd n × Rnd n | joinHalves (prove c.E w.1.toBP (v - B + 2 ^ 32) c.params)
      (prove c.E (T w).toBP (v - A) c'.params) ∈ D}.ncard ≤ {w : Rnd n × Rnd n | joinHalves (prove c.E w.1.toBP (v' - B + 2 ^ 32) c.params)
      (prove c.E (T w).toBP (v' - A) c'.params) ∈ D}.ncard + _
  omega

example {E : Ext} (hE : E.Ok) (D : Set (Res (Option BPRPProof))) :=
  C113_hiding hE (gp := ⟨18, 200, exBP32, exBP32⟩) exBP32_generators exBP32_generators exBP32_H_ne rfl
    (v := 40) (v' := 41) (by decide) (by decide) D

end Verif

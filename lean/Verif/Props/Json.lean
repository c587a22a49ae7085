import Verif.Lemmas.Json
import Verif.Props.Bp

/-! # C57: JSON transport of proofs -/

namespace Verif
open Finset

/-- C57: a `BulletProof` is read back from its JSON text with identical fields, whatever pointers
and slices are nil, and whatever the integers are. -/
theorem C57_bulletproof {p : GoBPProof} (hp : p.Int64) : unmarshalBP (marshalBP p) = some p := by
  rw [unmarshalBP, marshalBP, parseJson_print (encBPProof_wf p)]
  exact decBPProof_enc hp _

/-- C57: the same for a `ProofBPRP`. -/
theorem C57_generic {p : GoBPRPProof} (h1 : p.P1.Int64) (h2 : p.P2.Int64) :
    unmarshalBPRP (marshalBPRP p) = some p := by
  rw [unmarshalBPRP, marshalBPRP, parseJson_print (encBPRPProof_wf p)]
  exact decBPRPProof_enc h1 h2 _

example := C57_generic (p := ⟨{ GoBPProof.zero with V := some ⟨some (-12), none⟩ }, .zero⟩)
  ⟨⟨by decide, by decide, by decide⟩, by decide, by decide, by decide⟩ ⟨⟨by decide, by decide, by decide⟩, by decide, by decide, by decide⟩

/-- C57: different proofs have different texts. -/
theorem C57_injective {p q : GoBPProof} (hp : p.Int64) (hq : q.Int64) (h : marshalBP p = marshalBP q) : p = q := by
  have h1 := C57_bulletproof hp
  rw [h, C57_bulletproof hq] at h1
  exact (Option.some.inj h1).symm

/-- The zero value and a value with coordinates of all kinds. -/
example : GoBPProof.zero.Int64 ∧
    unmarshalBP (marshalBP { GoBPProof.zero with V := some ⟨some (-12), none⟩, Mu := some 100 }) =
      some { GoBPProof.zero with V := some ⟨some (-12), none⟩, Mu := some 100 } := by
  have h : GoBPProof.zero.Int64 := ⟨⟨by decide, by decide, by decide⟩, by decide, by decide, by decide⟩
  exact ⟨h, C57_bulletproof (p := { GoBPProof.zero with V := some ⟨some (-12), none⟩, Mu := some 100 }) h⟩

/-- The text of a point. -/
example : (encP256 ⟨some (-12), none⟩).print = ascii "{\"X\":-12,\"Y\":null}" := by decide +kernel

/-! ### Verification after transport -/

/-- The int64 fields of a proof are in range. -/
def BPProof.Int64 (p : BPProof) : Prop :=
  ∀ n ∈ [p.IP.N, p.IP.Params.N, p.Params.N, p.ParamsIP.N], (-2 ^ 63 : Int) ≤ n ∧ n < 2 ^ 63

theorem BPProof.Int64.toGo {p : BPProof} (h : p.Int64) : p.toGo.Int64 :=
  ⟨⟨h p.IP.N (by simp), h p.IP.Params.N (by simp)⟩, h p.Params.N (by simp), h p.ParamsIP.N (by simp)⟩

/-- C57: for every proof `p` without nil pointers, what the receiver decodes dereferences to `p`, so
that its first verification is `bpVerify E p`. -/
theorem C57_verdict {p : BPProof} (hp : p.Int64) :
    ∃ q, unmarshalBP (marshalBP p.toGo) = some q ∧ q = p.toGo ∧ q.deref = some p ∧
      ∀ E : Ext, q.deref.map (bpVerify E) = some (bpVerify E p) :=
  ⟨p.toGo, C57_bulletproof hp.toGo, rfl, p.deref_toGo, fun E => by rw [p.deref_toGo]; rfl⟩

/-- C57: the same for generic proofs. -/
theorem C57_generic_verdict {p : BPRPProof} (h1 : p.P1.Int64) (h2 : p.P2.Int64) :
    ∃ q, unmarshalBPRP (marshalBPRP p.toGo) = some q ∧ q = p.toGo ∧ q.deref = some p ∧
      ∀ E : Ext, q.deref.map (bprpVerify E) = some (bprpVerify E p) :=
  ⟨p.toGo, C57_generic h1.toGo h2.toGo, rfl, p.deref_toGo, fun E => by rw [p.deref_toGo]; rfl⟩

theorem computeBip_fields {E : Ext} {params : IPParams} : ∀ {fuel : Nat} {a b : List Int} {g h : List P256}
    {u P : P256} {n : Nat} {Ls Rs : List P256} {proof : IPProof},
    computeBip E params fuel a b g h u P n Ls Rs = .ok proof → proof.N = n ∧ proof.Params = params
  | 0, _, _, _, _, _, _, _, _, _, _, hc => by simp [computeBip] at hc
  | fuel + 1, a, b, g, h, u, P, n, Ls, Rs, proof, hc => by
    rw [computeBip] at hc
    split at hc
    · simp only [Res.bind_eq_ok, Res.ok.injEq] at hc
      obtain ⟨_, _, _, _, _, _, _, _, rfl⟩ := hc
      exact ⟨rfl, rfl⟩
    · simp only [Res.bind_eq_ok, Res.ok.injEq] at hc
      obtain ⟨_, _, _, _, _, _, _, _, _, _, _, _, _, _, _, _, _, _, _, _, _, _, _, _, _, _, _, _, _, _, _, _, pr, hr, rfl⟩ := hc
      exact ⟨rfl, (computeBip_fields hr).2⟩

/-- The int64 fields of an honest proof. -/
theorem prove_int64 {E : Ext} (hE : E.Ok) {rnd : BPRand} {secret : Int} {params : BPParams} {n : Nat}
    (hn : (n : Int) < 2 ^ 63) {G Hh : Nat → Secp} {H : Secp} (hgen : Generators params n G Hh H)
    (lsL : rnd.sL.length = n) (lsR : rnd.sR.length = n)
    {proof : BPProof} (hp : prove E rnd secret params = .ok (some proof)) : proof.Int64 := by
  obtain ⟨V, A, S, T1, T2, x, y, z, bl, br, tp, t1, t2, e, hx, hyz, hV, hT1, hT2, ht1, ht2, hA, hS, hbl, hbr,
    htp, hsp, -, -⟩ := prove_head hE (rnd := rnd) (secret := secret) hgen.N hgen.Gg hgen.Hh hgen.H (castL_eq_vec _ lsL)
      (castL_eq_vec _ lsR)
  rw [e] at hp
  simp only [proveTail, Res.bind_eq_ok] at hp
  obtain ⟨h', u1, oipp, s1, hp⟩ := hp
  cases oipp with
  | none => simp at hp
  | some ipp =>
    have hN := hgen.N
    rw [setupInnerProduct] at s1
    split at s1
    · cases s1
    · simp only [Res.bind_eq_ok, Res.ok.injEq, Option.some.injEq] at s1
      obtain ⟨_, _, _, _, rfl⟩ := s1
      simp only [Res.bind_eq_ok, res_ofOption_ok, Res.ok.injEq, Option.some.injEq] at hp
      obtain ⟨commit, c1, oip, i1, ip, rfl, rfl⟩ := hp
      rw [proveInnerProduct] at i1
      split at i1
      · cases i1
      · simp only [Res.bind_eq_ok, res_ofOption_ok, Res.ok.injEq, Option.some.injEq] at i1
        obtain ⟨_, _, _, _, pr, i2, rfl⟩ := i1
        obtain ⟨f1, f2⟩ := computeBip_fields i2
        have lbl := castL_inj_length hbl
        intro m hm
        simp only [f1, f2, lbl, hN, List.mem_cons, List.not_mem_nil, or_false, or_self] at hm
        subst hm
        omega

/-- C57: transport of an honest proof: the receiver accepts exactly the secrets of the range
(C24). -/
theorem C57_honest {E : Ext} (hE : E.Ok) {rnd : BPRand} {secret : Int} {params : BPParams} {n k : Nat}
    (hk : n = 2 ^ k) (hn : (n : Int) < 2 ^ 63) {G Hh : Nat → Secp} {H : Secp} (hgen : Generators params n G Hh H)
    (lsL : rnd.sL.length = n) (lsR : rnd.sR.length = n)
    {proof : BPProof} (hp : prove E rnd secret params = .ok (some proof))
    (hz : ¬ ORDER ∣ (hashBP E proof.A proof.S).2)
    (hV : AddOk ((secret : Fn) • secpG) ((rnd.gamma : Fn) • H))
    (hadd : NoExceptionalAdd E rnd secret proof n G Hh H) :
    ∃ (p : BPProof) (v : Bool) (P' : P256), (unmarshalBP (marshalBP proof.toGo)).bind GoBPProof.deref = some p ∧
      bpVerify E p = .ok (v, P') ∧ (v = true ↔ ORDER ∣ secret / 2 ^ n) := by
  obtain ⟨v, P', h1, h2⟩ := C24_verdict hE hk hgen lsL lsR hp hz hV hadd
  refine ⟨proof, v, P', ?_, h1, h2⟩
  rw [C57_bulletproof (prove_int64 hE hn hgen lsL lsR hp).toGo]
  exact proof.deref_toGo

/-- C57: a proof which was accepted locally before it is encoded is rejected by the receiver (the
call of `Verify` has overwritten `Params.P`, C23). -/
theorem C57_after_verify {E : Ext} (hE : E.Ok) {proof : BPProof} (hi : proof.Int64) (hp : proof.IP.WellFormed)
    (hfin : proof.IP.Params.P.isZero = false) {P' : P256} (hv : bpVerify E proof = .ok (true, P')) :
    ∃ (p : BPProof) (P'' : P256),
      (unmarshalBP (marshalBP (proof.afterVerify P').toGo)).bind GoBPProof.deref = some p ∧
      bpVerify E p = .ok (false, P'') := by
  have h := C23_bulletproof_alternates hE hp hfin hv 2
  have hi' : (proof.afterVerify P').Int64 := hi
  rw [bpVerifyMany, hv] at h
  simp only [Res.ok_bind, bpVerifyMany, Res.bind_eq_ok] at h
  obtain ⟨vs, ⟨⟨v, P''⟩, h1, h2⟩, h3⟩ := h
  refine ⟨proof.afterVerify P', P'', ?_, ?_⟩
  · rw [C57_bulletproof hi'.toGo]
    exact BPProof.deref_toGo _
  · rw [h1]
    simp only [Res.ok.injEq] at h2 h3
    simp only [List.range_succ, List.range_zero, List.nil_append, List.cons_append, List.map_cons, List.map_nil] at h3
    have : v = false := by
      simp_all
    rw [this]

/-- The hypotheses are met by the honest proof of the example in `Props/Bp.lean`: it is accepted after
transport. -/
example : ∃ (E : Ext) (proof p : BPProof) (P' : P256), prove E (exRand 1) 1 exBP = .ok (some proof) ∧
    (unmarshalBP (marshalBP proof.toGo)).bind GoBPProof.deref = some p ∧ bpVerify E p = .ok (true, P') := by
  have hE := idealExt_ok hashOne (fun _ => rfl)
  obtain ⟨p1, h1, a1⟩ := exBP_honest 1 1 (Or.inr rfl) rfl
  obtain ⟨p, v, P', e1, e2, e3⟩ := C57_honest hE (k := 1) rfl (by norm_num) exBP_generators rfl rfl h1
    (by rw [hashBP_hashOne]; decide) (by rw [smul_smul]; refine addOk_smul ?_; simp only [exRand]; decide +kernel) a1
  have : v = true := e3.2 (by norm_num)
  exact ⟨_, p1, p, P', h1, e1, by rw [e2, this]⟩

/-- The proof accepted in the example of C23 is rejected when it is sent after a local verification. -/
example : ∃ (E : Ext) (proof p : BPProof) (P' P'' : P256), bpVerify E proof = .ok (true, P') ∧
    (unmarshalBP (marshalBP (proof.afterVerify P').toGo)).bind GoBPProof.deref = some p ∧
    bpVerify E p = .ok (false, P'') := by
  have hE := idealExt_ok hashOne (fun _ => rfl)
  obtain ⟨proof, P', hw, hf, hv, hp⟩ := exBP_finite
  obtain ⟨p, P'', h1, h2⟩ := C57_after_verify hE (prove_int64 hE (n := 2) (by norm_num) exBP_generators rfl rfl hp) hw hf hv
  exact ⟨_, proof, p, P', P'', hv, h1, h2⟩

/-! ### What is accepted beside the texts of proofs -/

/-- C57: members with unknown names are ignored. -/
theorem C57_unknown_member {fs : JsonMembers} {key : List UInt8} {v : Json}
    (hk : ∀ name ∈ ["V", "A", "S", "T1", "T2", "Taux", "Mu", "Tprime", "InnerProductProof", "Commit", "Params"],
      foldKey (ascii name) ≠ foldKey (unquote key)) (old : GoBPProof) :
    decBPProof (.obj (.cons key v fs)) old = decBPProof (.obj fs) old := by
  have hk' : ∀ name ∈ ["V", "A", "S", "T1", "T2", "Taux", "Mu", "Tprime", "InnerProductProof", "Commit", "Params"],
      ascii name ≠ unquote key := fun n hn h => hk n hn (by rw [h])
  simp only [List.forall_mem_cons, List.not_mem_nil, false_implies, implies_true, and_true] at hk hk'
  simp only [decBPProof, decStruct]
  rw [decFields]
  simp [findField, hk, hk']

/-- A member `"W"`. -/
example (v : Json) (fs : JsonMembers) := C57_unknown_member (fs := fs) (key := ascii "W") (v := v) (by decide +kernel) .zero

/-- The parameters of the inner-product argument with all numbers 0 and all pointers and slices nil. -/
def nilIPParams : GoIPParams :=
  { N := 0, Cc := none, Uu := none, H := none, Gg := none, Hh := none, P := none }

/-- The proof with all numbers 0 and all pointers and slices nil. -/
def nilProof : GoBPProof :=
  { V := none, A := none, S := none, T1 := none, T2 := none, Taux := none, Mu := none, Tprime := none
    InnerProductProof :=
      { N := 0, Ls := none, Rs := none, U := none, P := none, Gg := none, Hh := none, A := none, B := none
        Params := nilIPParams }
    Commit := none
    Params := { N := 0, G := none, H := none, Gg := none, Hh := none, InnerProductParams := nilIPParams } }

/-- C57: texts without any proof are decoded without an error, to a proof with nil pointers. -/
theorem C57_empty : unmarshalBP (ascii "{}") = some nilProof ∧ unmarshalBP (ascii "null") = some nilProof ∧
    nilProof.deref = none := by decide +kernel

/-- C57: an int64 out of range is an error. -/
theorem C57_overflow {p : GoIPParams} (hp : ¬ (-2 ^ 63 ≤ p.N ∧ p.N < 2 ^ 63)) (old : GoIPParams) :
    decIPParams (encIPParams p) old = none := by
  simp only [decIPParams, encIPParams, decStruct, encObj]
  rw [decFields_cons rfl]
  simp only [fieldOf, decInt64_range hp, Option.bind_eq_bind, Option.bind_none]

/-- Names in lower case, other order, white space, a repeated and an unknown member: accepted. -/
example : (parseJson (ascii " { \"y\" : 7, \"x\":1, \"X\" : 5 , \"z\":[{}] }\n")).bind (fun j => decP256 j ⟨none, none⟩) =
    some ⟨some 5, some 7⟩ := by decide +kernel

/-- The key `ſ` is taken for `S`. -/
example : findField [(ascii "A", 1), (ascii "S", 2)] [197, 191] = some 2 ∧
    findField [(ascii "A", 1), (ascii "S", 2)] (ascii "AS") = none := by decide +kernel

/-- Fractions, leading zeros and strings are rejected. -/
example : ∀ s ∈ ["{\"X\":1.0}", "{\"X\":01}", "{\"X\":\"1\"}", "{\"X\":1e2}", "{\"X\":true}", "[]", "{\"X\":1}}"],
    (parseJson (ascii s)).bind (fun j => decP256 j ⟨none, none⟩) = none := by decide +kernel

end Verif

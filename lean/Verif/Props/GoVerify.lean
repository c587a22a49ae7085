import Verif.Lemmas.GoVerify
import Verif.Props.Json

/-!
# Verification of proof objects with nil pointers

C32 panics of `BulletProof.Verify` and `ProofBPRP.Verify`, C70 nil pointers.
-/

namespace Verif
open Spec

/-! ### Panics on proofs without nil pointers -/

/-- C32: exactly when `Verify` of a range proof without nil pointers does not panic.  The recorded `N` must be at least
1, there must be exactly `N` generators `Gg` and at least `N` generators `Hh`, the challenge `y` must be invertible
unless `N = 1`, and the inner-product proof must not panic (`C32_panics_iff`). -/
theorem C32_bulletproof {E : Ext} (p : BPProof) :
    bpVerify E p ≠ .panic ↔
      1 ≤ p.Params.N ∧ p.Params.N ≤ p.Params.Hh.length ∧ (p.Params.N = 1 ∨ ¬ ORDER ∣ (hashBP E p.A p.S).1) ∧
      (p.Params.Gg.length : Int) = p.Params.N ∧ ipVerify E p.IP ≠ .panic :=
  bpVerify_ok_iff p

/-- C32: exactly when `Verify` of a generic range proof without nil pointers does not panic: the second proof matters
only if the first one is accepted. -/
theorem C32_generic {E : Ext} (p : BPRPProof) :
    bprpVerify E p ≠ .panic ↔
      bpVerify E p.P1 ≠ .panic ∧ ((∃ P, bpVerify E p.P1 = .ok (true, P)) → bpVerify E p.P2 ≠ .panic) :=
  bprpVerify_ok_iff p

/-- A proof with one generator too few, but otherwise as the honest one, panics. -/
example (E : Ext) (p : BPProof) (h : (p.Params.Gg.length : Int) + 1 = p.Params.N) : bpVerify E p = .panic := by
  by_contra hc
  obtain ⟨_, _, _, h4, _⟩ := (C32_bulletproof p).1 hc
  omega

/-- Honest proofs do not panic. -/
example : ∃ (E : Ext) (proof : BPProof), prove E exRand' 1 exBP = .ok (some proof) ∧ bpVerify E proof ≠ .panic := by
  obtain ⟨proof, P', _, _, hv, hp⟩ := exBP_finite
  exact ⟨_, proof, hp, fun h => nomatch hv.symm.trans h⟩

/-! ### Nil pointers -/

/-- C70: on a proof without nil pointers, whose challenges in the inner-product argument are invertible, `Verify` does
what the model without pointers does. -/
theorem C70_agrees {E : Ext} (p : BPProof)
    (hi : ∀ (i : Nat) (L R : P256), p.IP.Ls[i]? = some L → p.IP.Rs[i]? = some R → ¬ ORDER ∣ (hashBP E L R).1) :
    goVerify E p.toGo = bpVerify E p :=
  goVerify_toGo E p hi

/-- An honest proof: all its challenges are 1. -/
example : ∃ (p : BPProof) (P' : P256), prove (idealExt hashOne) exRand' 1 exBP = .ok (some p) ∧ goVerify (idealExt hashOne) p.toGo = .ok (true, P') := by
  obtain ⟨p, P', _, _, hv, hp⟩ := exBP_finite
  refine ⟨p, P', hp, ?_⟩
  rw [C70_agrees p fun i L R _ _ => by rw [hashBP_hashOne]; decide, hv]

/-- C70: so it does if the model without pointers does not panic. -/
theorem C70_agrees_ok {E : Ext} (p : BPProof) (h : bpVerify E p ≠ .panic) : goVerify E p.toGo = bpVerify E p := by
  refine goVerify_toGo E p ?_
  obtain ⟨_, _, _, _, h5⟩ := (bpVerify_ok_iff p).1 h
  exact ((ipVerify_ok_iff p.IP).1 h5).2.1

/-- C70: a proof which is sent as JSON text gets the verdict of the original. -/
theorem C70_transport {E : Ext} {p : BPProof} (hp : p.Int64) (h : bpVerify E p ≠ .panic) :
    (unmarshalBP (marshalBP p.toGo)).map (goVerify E) = some (bpVerify E p) := by
  rw [C57_bulletproof hp.toGo, Option.map_some, C70_agrees_ok p h]

/-- An honest proof is accepted after transport. -/
example : ∃ (p : BPProof) (P' : P256), prove (idealExt hashOne) exRand' 1 exBP = .ok (some p) ∧
    (unmarshalBP (marshalBP p.toGo)).map (goVerify (idealExt hashOne)) = some (.ok (true, P')) := by
  have hE := idealExt_ok hashOne (fun _ => rfl)
  obtain ⟨p, P', _, _, hv, hp⟩ := exBP_finite
  refine ⟨p, P', hp, ?_⟩
  rw [C70_transport (prove_int64 hE (n := 2) (by norm_num) exBP_generators rfl rfl hp) (fun h => nomatch hv.symm.trans h), hv]

/-- C70: the verdict does not depend on `Params.G`, on `Params.InnerProductParams`, on `P`, `Gg` and `Hh` of the
inner-product proof, and on `N`, `Cc`, `Uu` and `H` of its parameters; they may be nil. -/
theorem C70_ignored {E : Ext} (p : GoBPProof) (G : Option P256) (ipp : GoIPParams) (P Gg Hh : Option P256) (N : Int)
    (Cc : Option Int) (Uu H : Option P256) :
    goVerify E { p with
      Params := { p.Params with G := G, InnerProductParams := ipp },
      InnerProductProof := { p.InnerProductProof with
        P := P, Gg := Gg, Hh := Hh,
        Params := { p.InnerProductProof.Params with N := N, Cc := Cc, Uu := Uu, H := H } } } = goVerify E p :=
  rfl

/-- An honest proof is accepted with all these pointers nil. -/
example : ∃ (E : Ext) (p : GoBPProof) (P' : P256), goVerify E p = .ok (true, P') ∧ p.Params.G = none ∧
    p.InnerProductProof.P = none ∧ p.InnerProductProof.Gg = none ∧ p.InnerProductProof.Hh = none ∧
    p.InnerProductProof.Params.Cc = none ∧ p.InnerProductProof.Params.Uu = none ∧ p.InnerProductProof.Params.H = none := by
  obtain ⟨proof, P', _, _, hv, hp⟩ := exBP_finite
  refine ⟨idealExt hashOne, _, P', (C70_ignored proof.toGo none GoIPParams.zero none none none 0 none none none).trans ?_,
    rfl, rfl, rfl, rfl, rfl, rfl, rfl⟩
  rw [C70_agrees_ok proof (fun h => nomatch hv.symm.trans h), hv]

/-- C70: if `Verify` does not panic, the following pointers of the range proof are not nil. -/
theorem C70_required {E : Ext} {p : GoBPProof} (h : goVerify E p ≠ .panic) :
    p.V ≠ none ∧ p.A ≠ none ∧ p.S ≠ none ∧ p.T1 ≠ none ∧ p.T2 ≠ none ∧ p.Tprime ≠ none ∧ p.Commit ≠ none ∧
    (∃ H, p.Params.H = some H ∧ (H.isZero = false → p.Taux ≠ none ∧ p.Mu ≠ none)) ∧
    1 ≤ p.Params.N ∧ ((p.Params.Gg.getD []).length : Int) = p.Params.N ∧ (∀ o ∈ p.Params.Gg.getD [], o ≠ none) ∧
    (∀ j : Nat, (j : Int) < p.Params.N → ∃ q, (p.Params.Hh.getD [])[j]? = some (some q)) := by
  cases hv : goVerify E p with
  | panic => exact absurd hv h
  | ok r =>
    have hp := goVerify_present hv
    exact ⟨hp.V, hp.A, hp.S, hp.T1, hp.T2, hp.Tprime, hp.Commit, hp.H, hp.N, hp.Gg.1, hp.Gg.2, hp.Hh⟩

/-- C70: and these of the inner-product proof; there is an `R` for every `L`. -/
theorem C70_required_ip {E : Ext} {p : GoIPProof} (h : goIpVerify E p ≠ .panic) :
    p.U ≠ none ∧ p.A ≠ none ∧ p.B ≠ none ∧ p.Params.P ≠ none ∧ (p.Ls.getD []).length ≤ (p.Rs.getD []).length ∧
    (∀ o ∈ p.Ls.getD [], o ≠ none) ∧ (∀ o ∈ (p.Rs.getD []).take (p.Ls.getD []).length, o ≠ none) ∧
    (p.Ls.getD [] = [] → (∃ q l, p.Params.Gg.getD [] = some q :: l) ∧ ∃ q l, p.Params.Hh.getD [] = some q :: l) ∧
    (p.Ls.getD [] ≠ [] → (∀ o ∈ p.Params.Gg.getD [], o ≠ none) ∧ ∀ o ∈ p.Params.Hh.getD [], o ≠ none) := by
  cases hv : goIpVerify E p with
  | panic => exact absurd hv h
  | ok r =>
    have hp := goIpVerify_present hv
    exact ⟨hp.U, hp.A, hp.B, hp.P, hp.sizes, hp.Ls, hp.Rs, fun he => ⟨hp.g0 he, hp.h0 he⟩, fun he => ⟨hp.g he, hp.h he⟩⟩

/-- C70: a challenge which is not invertible (with a finite `R`) panics. -/
theorem C70_noninvertible {E : Ext} {p : GoIPProof} {i : Nat} {L R : P256} (hL : (p.Ls.getD [])[i]? = some (some L))
    (hR : (p.Rs.getD [])[i]? = some (some R)) (hd : ORDER ∣ (hashBP E L R).1) (hz : R.isZero = false) :
    goIpVerify E p = .panic := by
  rw [goIpVerify, goIpVerifyLoop_noninv hL hR hd hz]
  rfl

/-- C70: `Verify` of a range proof calls `Verify` of the inner-product proof, also if the other checks failed. -/
theorem C70_calls_ip {E : Ext} {p : GoBPProof} (h : goVerify E p ≠ .panic) : goIpVerify E p.InnerProductProof ≠ .panic := by
  intro hc
  apply h
  cases hv : goVerify E p with
  | panic => rfl
  | ok r =>
    simp only [goVerify, Res.bind_eq_ok] at hv
    obtain ⟨_, _, _, _, _, _, _, _, _, _, _, _, _, _, _, _, _, _, _, _, _, _, _, _, _, _, _, _, _, _, _, _, _, _, _, _,
      _, _, _, _, _, h1, _⟩ := hv
    rw [hc] at h1
    cases h1

/-- An honest proof does not panic, and its points are there; if its `T1` is taken away, `Verify` panics. -/
example : ∃ p : GoBPProof, goVerify (idealExt hashOne) p ≠ .panic ∧ p.T1 ≠ none ∧ goIpVerify (idealExt hashOne) p.InnerProductProof ≠ .panic ∧
    p.InnerProductProof.Params.P ≠ none ∧ goVerify (idealExt hashOne) { p with T1 := none } = .panic := by
  obtain ⟨p, P', _, _, hv, hp⟩ := exBP_finite
  have h : goVerify (idealExt hashOne) p.toGo ≠ .panic := by
    rw [C70_agrees_ok p (fun h => nomatch hv.symm.trans h), hv]
    exact nofun
  refine ⟨p.toGo, h, (C70_required h).2.2.2.1, C70_calls_ip h, (C70_required_ip (C70_calls_ip h)).2.2.2.1, ?_⟩
  by_contra hc
  exact (C70_required hc).2.2.2.1 rfl

/-- The hash `ORDER` as a challenge. -/
example (p : GoIPProof) (h : p.Ls = some [some (mulG 4)]) (h' : p.Rs = some [some (mulG 5)]) :
    goIpVerify (idealExt fun _ => List.replicate 32 0) p = .panic :=
  C70_noninvertible (i := 0) (L := mulG 4) (R := mulG 5) (by rw [h]; rfl) (by rw [h']; rfl) (by decide +kernel) (by decide +kernel)

/-- The hypothesis of `decFields_null` for the fields of a range proof. -/
macro "fields" : tactic => `(tactic|
  (repeat' refine List.forall_mem_cons.2 ⟨?_, ?_⟩
   all_goals first
     | exact List.forall_mem_nil _
     | (refine field_other (fun _ _ => rfl) ?_; decide +kernel)
     | exact field_null (fun _ _ => rfl) rfl))

/-- C70: a JSON object in which one of these members is missing, or null, is decoded (if the rest of it can be decoded)
to a proof on which `Verify` panics.  `valuesOf` are the values of the members of that name up to case. -/
theorem C70_missing {E : Ext} {m : JsonMembers} {name : String}
    (hn : name ∈ ["V", "A", "S", "T1", "T2", "Tprime", "InnerProductProof", "Commit", "Params"])
    (hm : ∀ v ∈ m.valuesOf (ascii name), v = .null) {p : GoBPProof} (hp : decBPProof (.obj m) GoBPProof.zero = some p) :
    goVerify E p = .panic := by
  by_contra hc
  obtain ⟨r1, r2, r3, r4, r5, r6, r7, -, r8, -, -, -⟩ := C70_required hc
  have r9 := C70_required_ip (C70_calls_ip hc)
  simp only [decBPProof, decStruct] at hp
  simp only [List.mem_cons, List.not_mem_nil, or_false] at hn
  rcases hn with rfl | rfl | rfl | rfl | rfl | rfl | rfl | rfl | rfl
  · exact r1 (decFields_null GoBPProof.V (by fields) hm hp rfl)
  · exact r2 (decFields_null GoBPProof.A (by fields) hm hp rfl)
  · exact r3 (decFields_null GoBPProof.S (by fields) hm hp rfl)
  · exact r4 (decFields_null GoBPProof.T1 (by fields) hm hp rfl)
  · exact r5 (decFields_null GoBPProof.T2 (by fields) hm hp rfl)
  · exact r6 (decFields_null GoBPProof.Tprime (by fields) hm hp rfl)
  · have h := decFields_null GoBPProof.InnerProductProof (by fields) hm hp rfl
    rw [h] at r9
    exact r9.1 rfl
  · exact r7 (decFields_null GoBPProof.Commit (by fields) hm hp rfl)
  · have h := decFields_null GoBPProof.Params (by fields) hm hp rfl
    rw [h] at r8
    exact absurd r8 (by decide)

/-- C70: in terms of the text. -/
theorem C70_missing_text {E : Ext} {text : List UInt8} {m : JsonMembers} (ht : parseJson text = some (.obj m))
    {name : String} (hn : name ∈ ["V", "A", "S", "T1", "T2", "Tprime", "InnerProductProof", "Commit", "Params"])
    (hm : ∀ v ∈ m.valuesOf (ascii name), v = .null) {p : GoBPProof} (hp : unmarshalBP text = some p) :
    goVerify E p = .panic := by
  rw [unmarshalBP, ht] at hp
  exact C70_missing hn hm hp

/-- The text `{"\u0076":null,"Commit":{"X":1,"Y":2}}` is decoded without an error; `Verify` panics. -/
example (E : Ext) : ∃ p, unmarshalBP (ascii "{\"\\u0076\":null,\"Commit\":{\"X\":1,\"Y\":2}}") = some p ∧
    goVerify E p = .panic := by
  refine ⟨{ GoBPProof.zero with Commit := some ⟨some 1, some 2⟩ }, by decide +kernel, ?_⟩
  refine C70_missing (m := .cons (ascii "\\u0076") .null (.cons (ascii "Commit")
    (.obj (.cons (ascii "X") (.num (ascii "1")) (.cons (ascii "Y") (.num (ascii "2")) .nil))) .nil)) (name := "V")
    (by simp) ?_ (by decide +kernel)
  have h1 : foldKey (unquote (ascii "\\u0076")) = foldKey (ascii "V") := by decide +kernel
  have h2 : foldKey (unquote (ascii "Commit")) ≠ foldKey (ascii "V") := by decide +kernel
  simp [JsonMembers.valuesOf, h1, h2]

/-! ### Generic range proofs -/

/-- C70: `ProofBPRP.Verify` evaluates the second half exactly if the first one is accepted. -/
theorem C70_generic {E : Ext} (p : GoBPRPProof) :
    (goVerifyGeneric E p = .panic ↔
      goVerify E p.P1 = .panic ∨ ((∃ P, goVerify E p.P1 = .ok (true, P)) ∧ goVerify E p.P2 = .panic)) ∧
    (goVerifyGeneric E p = .ok true ↔ (∃ P, goVerify E p.P1 = .ok (true, P)) ∧ ∃ P, goVerify E p.P2 = .ok (true, P)) ∧
    (goVerifyGeneric E p = .ok false ↔ (∃ P, goVerify E p.P1 = .ok (false, P)) ∨
      ((∃ P, goVerify E p.P1 = .ok (true, P)) ∧ ∃ P, goVerify E p.P2 = .ok (false, P))) := by
  rw [goVerifyGeneric]
  cases h1 : goVerify E p.P1 with
  | panic => simp
  | ok r =>
    obtain ⟨v, P⟩ := r
    cases v with
    | false => simp
    | true =>
      cases h2 : goVerify E p.P2 with
      | panic => simp
      | ok r' =>
        obtain ⟨v', P'⟩ := r'
        cases v' <;> simp

/-- C70: without nil pointers it does what the model without pointers does, if that does not panic. -/
theorem C70_generic_agrees {E : Ext} {p : BPRPProof} {v : Bool} {q : BPRPProof} (h : bprpVerify E p = .ok (v, q)) :
    goVerifyGeneric E p.toGo = .ok v := by
  obtain ⟨⟨v1, P1⟩, e1, h⟩ := Res.bind_eq_ok.1 h
  have e1' : goVerify E p.toGo.P1 = .ok (v1, P1) := (C70_agrees_ok p.P1 (fun e => nomatch e1.symm.trans e)).trans e1
  cases v1 with
  | false =>
    cases h
    exact (C70_generic p.toGo).2.2.2 (.inl ⟨P1, e1'⟩)
  | true =>
    simp only [Bool.not_true, Bool.false_eq_true, if_false] at h
    obtain ⟨⟨v2, P2⟩, e2, h⟩ := Res.bind_eq_ok.1 h
    have e2' : goVerify E p.toGo.P2 = .ok (v2, P2) := (C70_agrees_ok p.P2 (fun e => nomatch e2.symm.trans e)).trans e2
    cases h
    cases v2 with
    | false => exact (C70_generic p.toGo).2.2.2 (.inr ⟨⟨P1, e1'⟩, P2, e2'⟩)
    | true => exact (C70_generic p.toGo).2.1.2 ⟨⟨P1, e1'⟩, P2, e2'⟩

/-- C70: a generic proof which is sent as JSON text gets the verdict of the original. -/
theorem C70_generic_transport {E : Ext} {p : BPRPProof} (h1 : p.P1.Int64) (h2 : p.P2.Int64) {v : Bool} {q : BPRPProof}
    (h : bprpVerify E p = .ok (v, q)) : (unmarshalBPRP (marshalBPRP p.toGo)).map (goVerifyGeneric E) = some (.ok v) := by
  rw [C57_generic h1.toGo h2.toGo, Option.map_some, C70_generic_agrees h]

/-- C70: `Verify` panics on the range proof without contents. -/
theorem goVerify_zero (E : Ext) : goVerify E GoBPProof.zero = .panic := by
  by_contra hc
  exact (C70_required hc).1 rfl

/-- C70: a generic proof whose first half is missing, or null, panics; one whose second half is missing panics exactly if the
first one is accepted or panics, and is never accepted. -/
theorem C70_generic_missing {E : Ext} {m : JsonMembers} {p : GoBPRPProof} (hp : decBPRPProof (.obj m) GoBPRPProof.zero = some p) :
    ((∀ v ∈ m.valuesOf (ascii "P1"), v = .null) → goVerifyGeneric E p = .panic) ∧
    ((∀ v ∈ m.valuesOf (ascii "P2"), v = .null) → goVerifyGeneric E p ≠ .ok true ∧
      (goVerifyGeneric E p = .ok false ↔ ∃ P, goVerify E p.P1 = .ok (false, P))) := by
  simp only [decBPRPProof, decStruct] at hp
  refine ⟨fun hm => ?_, fun hm => ?_⟩
  · have h := decFields_null GoBPRPProof.P1 (by fields) hm hp rfl
    refine (C70_generic p).1.2 (.inl ?_)
    rw [h]; exact goVerify_zero E
  · have h : p.P2 = GoBPProof.zero := decFields_null GoBPRPProof.P2 (by fields) hm hp rfl
    have hz : goVerify E p.P2 = .panic := by rw [h]; exact goVerify_zero E
    refine ⟨fun e => ?_, (C70_generic p).2.2.trans ⟨fun e => ?_, .inl⟩⟩
    · obtain ⟨-, P, e'⟩ := (C70_generic p).2.1.1 e
      exact nomatch hz.symm.trans e'
    · rcases e with e | ⟨-, P, e'⟩
      · exact e
      · exact nomatch hz.symm.trans e'

/-- The text `{"P2":{}}` decodes to a generic proof on which `Verify` panics. -/
example (E : Ext) : ∃ p, unmarshalBPRP (ascii "{\"P2\":{}}") = some p ∧ goVerifyGeneric E p = .panic := by
  refine ⟨GoBPRPProof.zero, by decide +kernel, ?_⟩
  refine (C70_generic_missing (m := .cons (ascii "P2") (.obj .nil) .nil) (by decide +kernel)).1 ?_
  have h2 : foldKey (unquote (ascii "P2")) ≠ foldKey (ascii "P1") := by decide +kernel
  simp [JsonMembers.valuesOf, h2]

end Verif

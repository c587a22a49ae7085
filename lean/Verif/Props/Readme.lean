import Verif.Model.Readme
import Verif.Props.GoProve
import Verif.Props.GoVerify
import Verif.Props.Sha256
/-!
# The program of the README (C110)
-/
namespace Verif

open Spec

theorem readmeProver_eq {E : Ext} {nan a b : Int} {s : BPSetup} {params : BPParams}
    (h : setupGeneric E nan a b = .ok (some (a, b, s, s))) (hd : s.deref = .ok params) (rd : Draws) (x : Int) :
    readmeProver E nan rd a b x =
      goProveGeneric E rd x ⟨a, b, params, params⟩ >>= fun o => .ok (o.map fun p => marshalBPRP p.toGo) := by
  simp only [readmeProver, h, hd, Res.ok_bind, Res.ofOption]

/-- C110: the program with the bounds `a`, `b`.  The setup does not fail.  For every run of the prover which sends a
text, the text is the encoding of a proof made with the numbers drawn; and unless the challenges are zero or an
exceptional addition occurs, `Verify` returns on the decoded proof, and the message is printed exactly if
`max(a, b-2^32) ≤ x < min(b, a+2^32)`. -/
theorem C110_program {E : Ext} (hE : E.Ok) (hs : E.sha256 = Sha256.sha256) (nan a b : Int)
    (ha : |a| < 2 ^ 64) (hb : |b| < 2 ^ 64) :
    ∃ (params : BPParams) (G Hh : Nat → Secp) (H : Secp), Generators params 32 G Hh H ∧
      ∀ (rd : Draws) (x : Int) (text : List UInt8), |x| < 2 ^ 64 →
        readmeProver E nan rd a b x = .ok (some text) →
        ∃ (r1 r2 : BPRand) (proof : BPRPProof), BPDrawn rd 32 r1 ∧ BPDrawn (fun i => rd (69 + i)) 32 r2 ∧
          proveGeneric E r1 r2 x ⟨a, b, params, params⟩ = .ok (some proof) ∧ text = marshalBPRP proof.toGo ∧
          (HalfOk E r1 (x - b + 2 ^ 32) params proof.P1 → HalfOk E r2 (x - a) params proof.P2 →
            ∃ v, readmeVerifier E text = some (.ok v) ∧
              (v = true ↔ max a (b - 2 ^ 32) ≤ x ∧ x < min b (a + 2 ^ 32))) := by
  obtain ⟨s, params, G, Hh, H, h1, h2, hg, -⟩ := C68_generic_end_to_end hE hs nan a b ha hb
  refine ⟨params, G, Hh, H, hg, fun rd x text hx ht => ?_⟩
  rw [readmeProver_eq h1 h2, Res.bind_eq_ok] at ht
  obtain ⟨o, ho, ht⟩ := ht
  cases o with
  | none => simp at ht
  | some proof =>
    obtain ⟨r1, r2, d1, d2, hp⟩ := C75_generic.1 ho
    have hN : params.N.toNat = 32 := by rw [hg.N]; rfl
    simp only [hN] at d1 d2
    simp only [Option.map_some, Res.ok.injEq, Option.some.injEq] at ht
    refine ⟨r1, r2, proof, d1, d2, hp, ht.symm, fun k1 k2 => ?_⟩
    obtain ⟨v, p', e, hv⟩ := C25_generic_verdict hE hp hx ha hb k1 k2
    refine ⟨v, ?_, hv⟩
    obtain ⟨q1, q2⟩ := proveGeneric_halves hp
    rw [readmeVerifier, ← ht]
    exact C70_generic_transport (prove_int64 hE (n := 32) (by norm_num) hg d1.1 d1.2.1 q1)
      (prove_int64 hE (n := 32) (by norm_num) hg d2.1 d2.2.1 q2) e

/-- C110: the prover sends a text exactly if the 138 numbers could be drawn and both halves can be proved with them. -/
theorem C110_sent {E : Ext} (hE : E.Ok) (hs : E.sha256 = Sha256.sha256) (nan a b : Int)
    (ha : |a| < 2 ^ 64) (hb : |b| < 2 ^ 64) :
    ∃ (s : BPSetup) (params : BPParams), setupGeneric E nan a b = .ok (some (a, b, s, s)) ∧ s.deref = .ok params ∧
      ∀ (rd : Draws) (x : Int) (text : List UInt8),
        readmeProver E nan rd a b x = .ok (some text) ↔
        ∃ (r1 r2 : BPRand) (p1 p2 : BPProof), BPDrawn rd 32 r1 ∧ BPDrawn (fun i => rd (69 + i)) 32 r2 ∧
          prove E r1 (x - b + 2 ^ 32) params = .ok (some p1) ∧ prove E r2 (x - a) params = .ok (some p2) ∧
          text = marshalBPRP (BPRPProof.toGo ⟨p1, p2⟩) := by
  obtain ⟨s, params, G, Hh, H, h1, h2, hg, -⟩ := C68_generic_end_to_end hE hs nan a b ha hb
  refine ⟨s, params, h1, h2, fun rd x text => ?_⟩
  have hN : params.N.toNat = 32 := by rw [hg.N]; rfl
  have hc := fun o => C75_generic (E := E) (rd := rd) (secret := x) (params := ⟨a, b, params, params⟩) (o := o)
  simp only [hN] at hc
  rw [readmeProver_eq h1 h2, Res.bind_eq_ok]
  constructor
  · rintro ⟨o, ho, ht⟩
    cases o with
    | none => simp at ht
    | some proof =>
      obtain ⟨r1, r2, d1, d2, hp⟩ := (hc proof).1 ho
      obtain ⟨q1, q2⟩ := proveGeneric_halves hp
      simp only [Option.map_some, Res.ok.injEq, Option.some.injEq] at ht
      exact ⟨r1, r2, proof.P1, proof.P2, d1, d2, q1, q2, ht.symm⟩
  · rintro ⟨r1, r2, p1, p2, d1, d2, q1, q2, rfl⟩
    have q1' : prove E r1 (x - b + MAX_RANGE_END) params = .ok (some p1) := q1
    exact ⟨some ⟨p1, p2⟩, (hc _).2 ⟨r1, r2, d1, d2, by simp only [proveGeneric, q1', q2, Res.ok_bind]⟩, rfl⟩

example := C110_sent (idealExt_ok _ Sha256.sha256_length) rfl 0 18 200 (by decide) (by decide)

/-- C110: for the bounds of the README the message is printed exactly for the ages in `[18, 200)`. -/
theorem C110_ages (x : Int) : max (18 : Int) (200 - 2 ^ 32) ≤ x ∧ x < min 200 (18 + 2 ^ 32) ↔ 18 ≤ x ∧ x < 200 := by
  norm_num

example := C110_program (idealExt_ok _ Sha256.sha256_length) rfl 0 18 200 (by decide) (by decide)

/-- C110: the interval is not part of what is sent.  With both bounds shifted, the prover with the shifted secret sends
the same text from the same random numbers (or fails alike). -/
theorem C110_shift {E : Ext} (nan : Int) (rd : Draws) (a b x d : Int) :
    readmeProver E nan rd (a + d) (b + d) (x + d) = readmeProver E nan rd a b x := by
  have hset : setupGeneric E nan (a + d) (b + d) =
      setupGeneric E nan a b >>= fun o => .ok (o.map fun t => (a + d, b + d, t.2.2.1, t.2.2.2)) := by
    simp only [setupGeneric]
    cases setup E nan (BitVec.ofInt 64 MAX_RANGE_END) with
    | panic => rfl
    | ok o => cases o <;> rfl
  have hab : ∀ {t}, setupGeneric E nan a b = .ok (some t) → t.1 = a ∧ t.2.1 = b := by
    intro t h
    simp only [setupGeneric] at h
    cases hs : setup E nan (BitVec.ofInt 64 MAX_RANGE_END) with
    | panic => rw [hs] at h; nomatch h
    | ok o =>
      rw [hs] at h
      cases o with
      | none => nomatch h
      | some s =>
        simp only [Res.ok_bind, Res.ok.injEq, Option.some.injEq] at h
        rw [← h]; exact ⟨rfl, rfl⟩
  simp only [readmeProver, hset]
  cases h : setupGeneric E nan a b with
  | panic => rfl
  | ok o =>
    cases o with
    | none => rfl
    | some t =>
      obtain ⟨rfl, rfl⟩ := hab h
      simp only [Res.ok_bind, Option.map_some, Res.ofOption]
      refine congrArg _ (funext fun p1 => congrArg _ (funext fun p2 => ?_))
      congr 1
      simp only [goProveGeneric, show x + d - (t.2.1 + d) = x - t.2.1 by ring, show x + d - (t.1 + d) = x - t.1 by ring]

/-- C110: hence for every number `y` there are bounds of the same width for which a prover with the secret `y` sends the
text the verifier of the README accepts from a prover whose age is `x`. -/
theorem C110_any_age {E : Ext} {nan : Int} {rd : Draws} {a b x : Int} {text : List UInt8}
    (h : readmeProver E nan rd a b x = .ok (some text)) (hv : readmeVerifier E text = some (.ok true)) (y : Int) :
    ∃ a' b', b' - a' = b - a ∧ a' - y = a - x ∧ readmeProver E nan rd a' b' y = .ok (some text) ∧
      readmeVerifier E text = some (.ok true) :=
  ⟨a + (y - x), b + (y - x), by ring, by ring,
    by rw [← h, ← C110_shift nan rd a b x (y - x), show x + (y - x) = y by ring], hv⟩

/-- A child of 12 years with the bounds `[-10, 172)` sends what an adult of 40 years sends with `[18, 200)`. -/
example (E : Ext) (nan : Int) (rd : Draws) : readmeProver E nan rd (-10) 172 12 = readmeProver E nan rd 18 200 40 :=
  C110_shift nan rd 18 200 40 (-28)

/-- There is a text for which the message is printed: the encoded proof of `50 ∈ [10, 100)`. -/
theorem readme_example : ∃ (E : Ext) (proof : BPRPProof), E.Ok ∧ proof.P1.Int64 ∧ proof.P2.Int64 ∧
    proveGeneric E exRand32 exRand32 50 ⟨10, 100, exBP32, exBP32⟩ = .ok (some proof) ∧
    readmeVerifier E (marshalBPRP proof.toGo) = some (.ok true) := by
  have hE := idealExt_ok hashOne (fun _ => rfl)
  obtain ⟨p1, h1, k1⟩ := exBP32_honest ex32_a
  obtain ⟨p2, h2, k2⟩ := exBP32_honest ex32_b
  have hp : proveGeneric (idealExt hashOne) exRand32 exRand32 50 ⟨10, 100, exBP32, exBP32⟩ = .ok (some ⟨p1, p2⟩) := by
    have h1' : prove (idealExt hashOne) exRand32 (50 - 100 + MAX_RANGE_END) exBP32 = .ok (some p1) := h1
    simp only [proveGeneric, h1', h2, Res.ok_bind]
  obtain ⟨v, p', e1, e2⟩ := C25_generic_verdict hE hp (by decide) (by decide) (by decide) k1 k2
  rw [e2.2 (by decide)] at e1
  obtain ⟨G, Hh, H, hg, -⟩ := k1.ex
  have i1 := prove_int64 hE (n := 32) (by norm_num) hg rfl rfl h1
  have i2 := prove_int64 hE (n := 32) (by norm_num) hg rfl rfl h2
  exact ⟨_, _, hE, i1, i2, hp, C70_generic_transport i1 i2 e1⟩

/-- C110: the prover sends a text only if all 138 random numbers could be drawn. -/
theorem C110_draws {E : Ext} (hE : E.Ok) (hs : E.sha256 = Sha256.sha256) {nan a b : Int}
    (ha : |a| < 2 ^ 64) (hb : |b| < 2 ^ 64) {rd : Draws} {x : Int} {text : List UInt8} (hx : |x| < 2 ^ 64)
    (h : readmeProver E nan rd a b x = .ok (some text)) : ∀ i < 138, (rd i).isSome := by
  obtain ⟨_, _, _, _, _, k⟩ := C110_program hE hs nan a b ha hb
  obtain ⟨r1, r2, _, d1, d2, _⟩ := k rd x text hx h
  have len : ∀ {r : BPRand} {rd'}, BPDrawn rd' 32 r → ∀ i < 69, (rd' i).isSome := by
    intro r rd' d i hi
    rw [d.2.2 i (by omega), List.getElem?_eq_getElem (by simp [bpOrder, d.1, d.2.1]; omega)]
    rfl
  intro i hi
  rcases Nat.lt_or_ge i 69 with h | h
  · exact len d1 i h
  · have := len d2 (i - 69) (by omega)
    rwa [show 69 + (i - 69) = i by omega] at this

/-- C110: a text which decodes to a proof without contents, like `{}` and `null`, makes the verifier panic. -/
theorem C110_zero {E : Ext} {text : List UInt8} (h : unmarshalBPRP text = some GoBPRPProof.zero) :
    readmeVerifier E text = some .panic := by
  rw [readmeVerifier, h]
  simp only [Option.map_some, goVerifyGeneric]
  rw [show GoBPRPProof.zero.P1 = GoBPProof.zero from rfl, goVerify_zero]
  rfl

example (E : Ext) : readmeVerifier E (ascii "{}") = some .panic := C110_zero (by decide +kernel)
example (E : Ext) : readmeVerifier E (ascii "null") = some .panic := C110_zero (by decide +kernel)

end Verif

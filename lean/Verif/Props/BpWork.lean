import Verif.Lemmas.BpCostCount
import Verif.Props.JsonSize

/-!
# C102: the work of `Verify` grows with the text of the proof, its memory with a number in the text
-/

namespace Verif

open Cost

/-- C102: the number of calls of the curve in `Verify` is bounded by the number of points in the proof, whatever the proof contains. -/
theorem C102_calls (E : Ext) (p : BPProof) : curveCalls (bpVerifyC E p).log ≤
    3 * p.Params.Hh.length + 2 * p.Params.Gg.length + 3 * p.IP.Params.Gg.length + 3 * p.IP.Params.Hh.length + 4 * p.IP.Ls.length + 27 :=
  (bpVerifyC_within E p).1

/-- C102: … and so by the length of the text: at most four calls for eleven bytes. -/
theorem C102_calls_text (E : Ext) (p : BPProof) : 11 * curveCalls (bpVerifyC E p).log ≤ 4 * (marshalBP p.toGo).length := by
  have h1 := C98_bytes (s := marshalBP p.toGo) (j := encBPProof p.toGo) rfl
  have h2 := C102_calls E p
  rw [encBPProof_points] at h1
  omega

/-- C102: for a proof made by `Prove`: at most `11 n + 4 log n + 27` calls. -/
theorem C102_honest {E : Ext} (hE : E.Ok) {rnd : BPRand} {secret : Int} {params : BPParams} {n k : Nat}
    (hk : n = 2 ^ k) {G Hh : Nat → Secp} {H : Secp} (hgen : Generators params n G Hh H)
    (lsL : rnd.sL.length = n) (lsR : rnd.sR.length = n)
    {proof : BPProof} (hp : prove E rnd secret params = .ok (some proof)) :
    curveCalls (bpVerifyC E proof).log ≤ 11 * n + 4 * k + 27 := by
  obtain ⟨h1, h2, h3, h4, h5, h6, h7, h8⟩ := C98_repeated hE hk hgen lsL lsR hp
  have lg : params.Gg.length = n := by rw [hgen.Gg.length_eq, vec_length]
  have lh : params.Hh.length = n := by rw [hgen.Hh.length_eq, vec_length]
  have h := C102_calls E proof
  rw [h1, h3, h4, h6, h7, lg, lh] at h
  omega

/-- C102: the calls of the curve in `Prove`, and the slice elements it asks for. -/
theorem C102_prove (E : Ext) (rnd : BPRand) (secret : Int) (params : BPParams) (n : Nat) (hN : params.N = n)
    (hG : params.Gg.length = n) (hH : params.Hh.length = n) (h1 : rnd.sL.length = n) (h2 : rnd.sR.length = n) :
    curveCalls (proveC E rnd secret params).log ≤ 27 * n + 10 * Nat.log2 n + 15 ∧
      requested (proveC E rnd secret params).log ≤ 34 * n :=
  proveC_within E rnd secret params n hN hG hH h1 h2

/-- C102: the generic proof takes twice as much: `Verify` the sum of the bounds for both halves … -/
theorem C102_generic_calls (E : Ext) (p : BPRPProof) : curveCalls (bprpVerifyC E p).log ≤
    (3 * p.P1.Params.Hh.length + 2 * p.P1.Params.Gg.length + 3 * p.P1.IP.Params.Gg.length + 3 * p.P1.IP.Params.Hh.length +
      4 * p.P1.IP.Ls.length + 27) +
    (3 * p.P2.Params.Hh.length + 2 * p.P2.Params.Gg.length + 3 * p.P2.IP.Params.Gg.length + 3 * p.P2.IP.Params.Hh.length +
      4 * p.P2.IP.Ls.length + 27) := by
  have a1 := bpVerifyC_within E p.P1
  have a2 := bpVerifyC_within E p.P2
  generalize 3 * p.P1.Params.Hh.length + _ + _ + _ + _ + _ = c1 at a1 ⊢
  generalize 3 * p.P2.Params.Hh.length + _ + _ + _ + _ + _ = c2 at a2 ⊢
  generalize 11 * p.P1.Params.N.toNat + _ + _ = d1 at a1
  generalize 11 * p.P2.Params.N.toNat + _ + _ = d2 at a2
  have h : Cost.Within (bprpVerifyC E p) (c1 + c2) (d1 + d2) := by
    rw [bprpVerifyC]
    refine (Rest.bind a1 (fun a _ => ?_) fun _ => by omega).within
    obtain ⟨_ | _, P⟩ := a
    · exact .pure (by omega)
    · exact .bind a2 (fun b _ => .pure (by omega)) fun _ => by omega
  exact h.1

/-- C102: … and `ProveGeneric` at most `1858` calls of the curve. -/
theorem C102_generic_prove (E : Ext) (r1 r2 : BPRand) (secret : Int) (params : BPRP)
    (hN : params.BP1.N = (32 : Nat)) (hG : params.BP1.Gg.length = 32) (hH : params.BP1.Hh.length = 32)
    (h1 : r1.sL.length = 32) (h2 : r1.sR.length = 32)
    (hN' : params.BP2.N = (32 : Nat)) (hG' : params.BP2.Gg.length = 32) (hH' : params.BP2.Hh.length = 32)
    (h1' : r2.sL.length = 32) (h2' : r2.sR.length = 32) :
    curveCalls (proveGenericC E r1 r2 secret params).log ≤ 1858 ∧ requested (proveGenericC E r1 r2 secret params).log ≤ 2176 := by
  have l : Nat.log2 32 = 5 := by decide +kernel
  have a1 := proveC_within E r1 (secret - params.B + MAX_RANGE_END) params.BP1 32 hN hG hH h1 h2
  have a2 := proveC_within E r2 (secret - params.A) params.BP2 32 hN' hG' hH' h1' h2'
  rw [l] at a1 a2
  change Cost.Within (proveGenericC E r1 r2 secret params) 1858 2176
  rw [proveGenericC]
  refine (Rest.bind a1 (fun a _ => ?_) fun _ => by omega).within
  cases a with
  | none => exact .pure (by omega)
  | some a =>
    refine .bind a2 (fun b _ => ?_) fun _ => by omega
    cases b <;> exact .pure (by omega)

/-- A generic range with 32 generators of each kind. -/
example (E : Ext) (p : P256) (secret : Int) :=
  let bp : BPParams := ⟨32, p, p, List.replicate 32 p, List.replicate 32 p⟩
  let rnd : BPRand := { gamma := 1, alpha := 2, sL := List.replicate 32 3, sR := List.replicate 32 4, rho := 5, tau1 := 6, tau2 := 7 }
  C102_generic_prove E rnd rnd secret ⟨18, 200, bp, bp⟩ rfl rfl rfl rfl rfl rfl rfl rfl rfl rfl

/-- The honest proof for two bits of the example in `Props/Bp.lean`: at most 53 calls for `Verify`, 79 for `Prove`, which asks for at most 68
slice elements. -/
example : ∃ (E : Ext) (proof : BPProof), prove E (exRand 1) 1 exBP = .ok (some proof) ∧ curveCalls (bpVerifyC E proof).log ≤ 53 ∧
    curveCalls (proveC E (exRand 1) 1 exBP).log ≤ 79 ∧ requested (proveC E (exRand 1) 1 exBP).log ≤ 68 := by
  obtain ⟨p1, h1, -⟩ := exBP_honest 1 1 (Or.inr rfl) rfl
  exact ⟨_, p1, h1, C102_honest (idealExt_ok hashOne (fun _ => rfl)) (k := 1) rfl exBP_generators rfl rfl h1,
    C102_prove _ (exRand 1) 1 exBP 2 rfl rfl rfl rfl rfl⟩

theorem updateGeneratorsC_make (E : Ext) (Hh : List P256) (y n : Int) (hn : 0 ≤ n) :
    ∃ rest, (updateGeneratorsC E Hh y n).log = .make n.toNat :: rest := by
  rw [updateGeneratorsC, log_bind_ok (a := ()) (by rw [res_make, if_neg (by omega)]), log_make hn]
  exact ⟨_, rfl⟩

theorem bpVerifyC_updates (E : Ext) (p : BPProof) :
    ∃ f : List P256 → Cost (Bool × P256), bpVerifyC E p = updateGeneratorsC E p.Params.Hh (hashBP E p.A p.S).1 p.Params.N >>= f :=
  ⟨_, rfl⟩

/-- C102: the first thing `Verify` does is to ask for as many slice elements as the number `N` in the proof says. -/
theorem C102_first (E : Ext) (p : BPProof) (hN : 0 ≤ p.Params.N) : (bpVerifyC E p).log.head? = some (.make p.Params.N.toNat) := by
  obtain ⟨f, e⟩ := bpVerifyC_updates E p
  obtain ⟨r, hr⟩ := updateGeneratorsC_make E p.Params.Hh (hashBP E p.A p.S).1 p.Params.N hN
  obtain ⟨r', hr'⟩ := log_bind_prefix (updateGeneratorsC E p.Params.Hh (hashBP E p.A p.S).1 p.Params.N) f
  rw [e, ← hr', hr]
  rfl

example (E : Ext) (o : P256) (ip : IPProof) (q : IPParams) : (bpVerifyC E ⟨o, o, o, o, o, 0, 0, 0, ip, o, ⟨10 ^ 9, o, o, [], []⟩, q⟩).log.head? =
    some (.make (10 ^ 9)) := C102_first E _ (show (0 : Int) ≤ 10 ^ 9 by decide)

/-- C102: where `N` is at most the number of generators in the proof, the slices are bounded by the numbers of generators … -/
theorem C102_memory (E : Ext) (p : BPProof) (hN : p.Params.N ≤ p.Params.Hh.length) : requested (bpVerifyC E p).log ≤
    11 * p.Params.Hh.length + 3 * p.IP.Params.Gg.length + 3 * p.IP.Params.Hh.length := by
  have := (bpVerifyC_within E p).2
  omega

/-- C102: … and for a greater `N` `Verify` asks for `N` elements and then panics. -/
theorem C102_panics (E : Ext) (p : BPProof) (hN : p.Params.Hh.length < p.Params.N) :
    requested (bpVerifyC E p).log = p.Params.N.toNat ∧ (bpVerifyC E p).res = .panic ∧ bpVerify E p = .panic := by
  obtain ⟨f, e⟩ := bpVerifyC_updates E p
  have hp : (updateGeneratorsC E p.Params.Hh (hashBP E p.A p.S).1 p.Params.N).res = .panic := by
    cases h : (updateGeneratorsC E p.Params.Hh (hashBP E p.A p.S).1 p.Params.N).res with
    | panic => rfl
    | ok a =>
      rw [updateGeneratorsC_res] at h
      have := (updateGenerators_size h).2
      omega
  have h2 : (bpVerifyC E p).res = .panic := by rw [e, res_bind, hp]; rfl
  refine ⟨?_, h2, by rw [← bpVerifyC_res, h2]⟩
  rw [e, log_bind_panic hp]
  have h3 := (updateGeneratorsC_within E p.Params.Hh (hashBP E p.A p.S).1 p.Params.N).2
  obtain ⟨r, hr⟩ := updateGeneratorsC_make E p.Params.Hh (hashBP E p.A p.S).1 p.Params.N (by omega)
  rw [hr, requested] at h3 ⊢
  omega

/-- A proof with all points at infinity, no generators, and the number `N`. -/
def hollow (N : Int) : BPProof :=
  let o : P256 := ⟨none, none⟩
  ⟨o, o, o, o, o, 0, 0, 0, ⟨0, [], [], o, o, o, o, 0, 0, ⟨0, 0, o, o, [], [], o⟩⟩, o, ⟨N, o, o, [], []⟩, ⟨0, 0, o, o, [], [], o⟩⟩

/-- With `N = 0` nothing is asked for, with `N = 10^9` a slice of as many elements. -/
example (E : Ext) := And.intro (C102_memory E (hollow 0) (by decide)) (C102_panics E (hollow (10 ^ 9)) (by decide))

theorem decimal_length {M : Int} (h0 : 0 < M) (h1 : M < 2 ^ 63) : (decimal (some M)).length ≤ 19 := by
  rw [decimal, if_neg (by omega), decimalNat, if_neg (by omega), List.length_map, List.length_reverse, Nat.digits_length_le_iff (by decide)]
  omega

/-- C102: so a text of less than 700 bytes makes `Verify` ask for any number of elements of an `int64`, for every hash function. -/
theorem C102_text (E : Ext) {M : Int} (h0 : 0 < M) (h1 : M < 2 ^ 63) : ∃ text : List UInt8, text.length < 700 ∧
    ∃ p : BPProof, (unmarshalBP text).bind GoBPProof.deref = some p ∧ bpVerify E p = .panic ∧
      (bpVerifyC E p).log = [.make M.toNat] := by
  refine ⟨marshalBP (hollow M).toGo, ?_, hollow M, ?_, (C102_panics E (hollow M) h0).2.2, ?_⟩
  · have h := decimal_length h0 h1
    have z : (decimal (some 0)).length = 1 := by decide +kernel
    simp only [marshalBP, hollow, BPProof.toGo, IPProof.toGo, IPParams.toGo, points, encBPProof, encIPProof, encBPParams,
      encIPParams, encPoint, encPoints, encSlice, encPtr, encP256, encInt, encObj, Json.print, JsonMembers.print,
      List.length_append, List.length_cons, List.length_nil, z, if_true]
    generalize (decimal (some M)).length = d at h
    clear h0 h1 M z
    revert d
    decide +kernel
  · have hi : (hollow M).Int64 := by
      intro n hn
      simp only [hollow, List.mem_cons, List.not_mem_nil, or_false] at hn
      omega
    rw [C57_bulletproof hi.toGo]
    exact BPProof.deref_toGo _
  · have hp : (updateGeneratorsC E [] (hashBP E (hollow M).A (hollow M).S).1 M).log = [.make M.toNat] ∧
        (updateGeneratorsC E [] (hashBP E (hollow M).A (hollow M).S).1 M).res = .panic := by
      rw [updateGeneratorsC, log_bind_ok (a := ()) (by rw [res_make, if_neg (by omega)]), log_make (by omega), if_neg (by omega),
        res_bind, res_make, if_neg (by omega)]
      exact ⟨rfl, rfl⟩
    obtain ⟨f, e⟩ := bpVerifyC_updates E (hollow M)
    rw [e]
    exact (log_bind_panic hp.2 f).trans hp.1

example : (0 : Int) < 2 ^ 62 ∧ (2 : Int) ^ 62 < 2 ^ 63 := by decide

theorem updateGeneratorsLoopC_lens {E : Ext} {Hh : List P256} {yinv : Int} (hy : yinv ≠ 0) : ∀ (fuel i : Nat) (expy : Int), expy ≠ 0 →
    (∀ j, j < fuel → ∃ q, Hh[i + j]? = some q ∧ q.isZero = false) →
    (scalarLengths (updateGeneratorsLoopC E Hh yinv fuel i expy).log).length = fuel
  | 0, _, _, _, _ => rfl
  | fuel + 1, i, expy, he, h => by
    obtain ⟨q, h1, h2⟩ := h 0 (by omega)
    rw [Nat.add_zero] at h1
    have ih := updateGeneratorsLoopC_lens (E := E) hy fuel (i + 1) (expy * yinv) (mul_ne_zero he hy) fun j hj => by
      have := h (j + 1) (by omega)
      rwa [show i + (j + 1) = i + 1 + j by omega] at this
    rw [updateGeneratorsLoopC, log_bind_ok (a := q) (show idx Hh i = .ok q by rw [idx, h1]; rfl), log_bind_ok (P256.scalarMultC_res ..),
      scalarMultC_log h2 he, scalarLengths_append, scalarLengths_append, List.length_append, List.length_append]
    cases e : (updateGeneratorsLoopC E Hh yinv fuel (i + 1) (expy * yinv)).res with
    | panic => rw [log_bind_panic e, ih]; simp [Cost.lift, scalarLengths]; omega
    | ok a => rw [log_bind_ok e, scalarLengths_append, List.length_append, ih]; simp [Cost.lift, scalarLengths, Pure.pure]; omega

/-- C102: `Verify` is not sublinear: for finite generators it multiplies at least `n - 1` points, whatever the rest of the proof is. -/
theorem C102_linear (E : Ext) (p : BPProof) (n : Nat) (hn : 1 ≤ n) (hN : p.Params.N = n)
    (hH : ∀ i, i < n → ∃ q, p.Params.Hh[i]? = some q ∧ q.isZero = false) (hy : ¬ ORDER ∣ (hashBP E p.A p.S).1) :
    n - 1 ≤ (scalarLengths (bpVerifyC E p).log).length := by
  obtain ⟨f, e⟩ := bpVerifyC_updates E p
  obtain ⟨r, hr⟩ := log_bind_prefix (updateGeneratorsC E p.Params.Hh (hashBP E p.A p.S).1 p.Params.N) f
  rw [e, ← hr, scalarLengths_append, List.length_append]
  refine Nat.le_trans ?_ (Nat.le_add_right _ _)
  obtain ⟨q, h1, h2⟩ := hH 0 (by omega)
  obtain ⟨yi, hyi⟩ := modInverse_order_exists hy
  have y0 : yi ≠ 0 := by
    rintro rfl
    have := modInverse_order hyi
    simp at this
  rw [hN, updateGeneratorsC, log_bind_ok (a := ()) (by rw [res_make, if_neg (by omega)]), if_neg (by omega),
    log_bind_ok (a := q) (show idx p.Params.Hh 0 = .ok q by rw [idx, h1]; rfl), scalarLengths_append, List.length_append]
  by_cases h3 : n = 1
  · omega
  · rw [if_neg (by omega), log_bind_ok (a := yi) (show Res.ofOption (modInverse _ _) = _ by rw [hyi]; rfl), scalarLengths_append,
      scalarLengths_append, List.length_append, List.length_append]
    have hl := updateGeneratorsLoopC_lens (E := E) (Hh := p.Params.Hh) y0 (n - 1) 1 yi y0 fun j hj => hH (1 + j) (by omega)
    obtain ⟨r, hr⟩ := log_bind_prefix (updateGeneratorsLoopC E p.Params.Hh yi ((n : Int).toNat - 1) 1 yi) (fun r => Pure.pure (q :: r))
    rw [← hr, scalarLengths_append, List.length_append, Int.toNat_natCast, hl]
    omega

/-- A proof with two finite generators, and an `Ext` whose hash is 1. -/
example : let g : P256 := ⟨some secpGx, some secpGy⟩
    let p : BPProof := { hollow 2 with Params := ⟨2, g, g, [g, g], [g, g]⟩ }
    p.Params.N = (2 : Nat) ∧ (∀ i, i < 2 → ∃ q, p.Params.Hh[i]? = some q ∧ q.isZero = false) ∧
      ¬ ORDER ∣ (hashBP ⟨fun _ _ _ => ⟨none, none⟩, fun _ _ => ⟨none, none⟩, fun _ => none, fun _ => List.replicate 31 0 ++ [1]⟩ p.A p.S).1 := by
  refine ⟨rfl, ?_, by decide +kernel⟩
  intro i hi
  interval_cases i <;> exact ⟨_, rfl, by decide +kernel⟩

/-- A curve library and hash function for trying out the counters (not one that meets the contract). -/
def tryExt : Ext := ⟨fun x y n => ⟨some ((x * n + 1) % secpP), some y⟩, fun x y => ⟨some (2 * x), some y⟩,
  fun _ => some 29896722852569046015560700294576055776214335159245303116488692907525646231534,
  fun s => List.replicate 31 0 ++ [if s.head? = some 48 then 1 else UInt8.ofNat (s.length % 250 + 2)]⟩

/-- The calls and slice elements of one run of `Prove` and of one run of `Verify` for two bits, all counted. -/
example : let pt (n : Nat) : P256 := ⟨some (n : Int), some 1⟩
    let params : BPParams := ⟨2, pt 1, pt 2, [pt 3, pt 4], [pt 5, pt 6]⟩
    let rnd : BPRand := { gamma := 3, alpha := 4, rho := 5, sL := [6, 7], sR := [8, 9], tau1 := 10, tau2 := 11 }
    let run := proveC tryExt rnd 1 params
    curveCalls run.log = 54 ∧ requested run.log = 56 ∧ scalarLengths (run.log.take 10) = [1, 1, 1, 32] ∧
      (match run.res with
        | .ok (some p) => (curveCalls (bpVerifyC tryExt p).log, requested (bpVerifyC tryExt p).log)
        | _ => (0, 0)) = (44, 28) := by
  decide +kernel

end Verif

import Verif.Model.BpExp
import Verif.Props.BpWork
import Mathlib.Data.Nat.Size
import Mathlib.Data.Int.Interval

/-!
# C108: `updateGenerators` computes the powers of `y^-1` without reducing them
-/

namespace Verif

theorem updateGeneratorsLoopX_same (E : Ext) (Hh : List P256) (yinv : Int) : ∀ (fuel i : Nat) (e : Int),
    (updateGeneratorsLoopX E Hh yinv fuel i e).2 = updateGeneratorsLoop E Hh yinv fuel i e
  | 0, _, _ => rfl
  | fuel + 1, i, e => by
    rw [updateGeneratorsLoopX, updateGeneratorsLoop]
    cases idx Hh i with
    | panic => rfl
    | ok hi =>
      simp only [Res.ok_bind, updateGeneratorsLoopX_same E Hh yinv fuel (i + 1)]

/-- C108: with the products left out it is `updateGenerators`. -/
theorem C108_same (E : Ext) (Hh : List P256) (y n : Int) : (updateGeneratorsX E Hh y n).2 = updateGenerators E Hh y n := by
  rw [updateGeneratorsX, updateGenerators]
  by_cases h1 : n ≤ 0
  · rw [if_pos h1, if_pos h1]
  · rw [if_neg h1, if_neg h1]
    cases idx Hh 0 with
    | panic => rfl
    | ok h0 =>
      simp only [Res.ok_bind]
      by_cases h2 : n = 1
      · rw [if_pos h2, if_pos h2]
      · rw [if_neg h2, if_neg h2]
        cases modInverse y ORDER with
        | none => rfl
        | some v =>
          simp only [updateGeneratorsLoopX_same, Res.ofOption, Res.ok_bind]

theorem updateGeneratorsLoopX_products (E : Ext) {Hh : List P256} {yinv : Int} : ∀ (fuel i : Nat) (e : Int), i ≤ Hh.length →
    (updateGeneratorsLoopX E Hh yinv fuel i e).1 = (List.range (min fuel (Hh.length - i))).map fun k => e * yinv ^ (k + 1)
  | 0, _, _, _ => by rw [updateGeneratorsLoopX, Nat.zero_min]; rfl
  | fuel + 1, i, e, hi => by
    rw [updateGeneratorsLoopX]
    by_cases h : i < Hh.length
    · have ih := updateGeneratorsLoopX_products E fuel (i + 1) (e * yinv) (Hh := Hh) (yinv := yinv) h
      rw [show idx Hh i = .ok Hh[i] by rw [idx, List.getElem?_eq_getElem h]; rfl]
      simp only [ih]
      rw [show min (fuel + 1) (Hh.length - i) = min fuel (Hh.length - (i + 1)) + 1 by omega, List.range_succ_eq_map, List.map_cons,
        List.map_map]
      congr 1
      · rw [zero_add, pow_one]
      · apply List.map_congr_left
        intro k _
        show e * yinv * yinv ^ (k + 1) = e * yinv ^ (k + 1 + 1)
        ring
    · rw [show idx Hh i = .panic by rw [idx, List.getElem?_eq_none (by omega)]; rfl,
        show min (fuel + 1) (Hh.length - i) = 0 by omega]
      rfl

/-- C108: the products are the integers `v^2, …, v^n` for the inverse `v` of `y` in `[1, ORDER)`, where `n` is the number of
generators wanted; if there are fewer, as many as there are. -/
theorem C108_products (E : Ext) (Hh : List P256) (y : Int) (n : Nat) (hn : 1 ≤ n) (hH : 1 ≤ Hh.length) {v : Int}
    (hv : modInverse y ORDER = some v) :
    (updateGeneratorsX E Hh y n).1 = (List.range (min n Hh.length - 1)).map fun k => v ^ (k + 2) := by
  rw [updateGeneratorsX, if_neg (by omega), show idx Hh 0 = .ok Hh[0] by rw [idx, List.getElem?_eq_getElem hH]; rfl]
  simp only [hv]
  split_ifs with h1
  · rw [show min n Hh.length - 1 = 0 by omega]
    rfl
  · simp only [updateGeneratorsLoopX_products E _ 1 v hH, Int.toNat_natCast]
    rw [show min (n - 1) (Hh.length - 1) = min n Hh.length - 1 by omega]
    apply List.map_congr_left
    intro k _
    ring

/-- The inverse is in `[1, ORDER)`. -/
theorem modInverse_range {y v : Int} (h : modInverse y ORDER = some v) : 0 < v ∧ v < ORDER ∧ ORDER ∣ v * y - 1 := by
  have h0 : (0 : Int) < ORDER := by decide
  obtain ⟨h1, h2⟩ := modInverse_spec y ORDER (by decide)
  by_cases hg : Int.gcd y ORDER = 1
  · obtain ⟨r, e1, e2, e3, e4⟩ := h1 hg
    obtain rfl : v = r := Option.some.inj (h.symm.trans e1)
    rw [abs_of_pos h0] at e3
    refine ⟨lt_of_le_of_ne e2 ?_, e3, e4⟩
    rintro rfl
    rw [zero_mul, zero_sub, Int.dvd_neg] at e4
    exact absurd (Int.le_of_dvd one_pos e4) (by decide)
  · rw [h2 hg] at h
    cases h

theorem size_pow {v : Nat} (hv : 0 < v) (k : Nat) : (Nat.size v - 1) * k < Nat.size (v ^ k) ∧ Nat.size (v ^ k) ≤ Nat.size v * k + 1 := by
  have hs : 0 < Nat.size v := Nat.size_pos.2 hv
  refine ⟨Nat.lt_size.2 ?_, Nat.size_le.2 ?_⟩
  · rw [pow_mul]
    exact Nat.pow_le_pow_left (Nat.lt_size.1 (by omega)) k
  · rw [pow_succ, pow_mul]
    calc v ^ k ≤ (2 ^ Nat.size v) ^ k := Nat.pow_le_pow_left (Nat.lt_size_self v).le k
      _ < _ := by have : 0 < (2 ^ Nat.size v) ^ k := by positivity
                  omega

/-- C108: the `k`-th of them has about `k` times as many bits as `v`. -/
theorem C108_bits {v : Int} (hv : 0 < v) (k : Nat) :
    (Nat.size v.toNat - 1) * k < Nat.size (v ^ k).toNat ∧ Nat.size (v ^ k).toNat ≤ Nat.size v.toNat * k + 1 := by
  obtain ⟨w, rfl⟩ := Int.eq_ofNat_of_zero_le hv.le
  rw [show ((w : Int) ^ k).toNat = w ^ k by rw [← Nat.cast_pow]; rfl]
  exact size_pow (by omega) k

/-- The cube of a number of three bits has more than 6 and at most 10 bits. -/
example : 6 < Nat.size ((5 : Int) ^ 3).toNat ∧ Nat.size ((5 : Int) ^ 3).toNat ≤ 10 := by
  have h := C108_bits (v := 5) (by decide) 3
  have e : Nat.size (5 : Int).toNat = 3 := by decide
  rw [e] at h
  exact h

/-- The number of bits of a list of integers, all together. -/
def totalBits (l : List Int) : Nat := (l.map fun a => Nat.size a.natAbs).sum

theorem totalBits_powers {v : Int} (hv : 0 < v) : ∀ m : Nat,
    (Nat.size v.toNat - 1) * (m * (m + 3)) ≤ 2 * totalBits ((List.range m).map fun k => v ^ (k + 2)) ∧
    2 * totalBits ((List.range m).map fun k => v ^ (k + 2)) ≤ Nat.size v.toNat * (m * (m + 3)) + 2 * m
  | 0 => by simp [totalBits]
  | m + 1 => by
    obtain ⟨h1, h2⟩ := totalBits_powers hv m
    obtain ⟨b1, b2⟩ := C108_bits hv (m + 2)
    have e : totalBits ((List.range (m + 1)).map fun k => v ^ (k + 2)) =
        totalBits ((List.range m).map fun k => v ^ (k + 2)) + Nat.size (v ^ (m + 2)).toNat := by
      have hp : 0 ≤ v ^ (m + 2) := by positivity
      rw [show (v ^ (m + 2)).toNat = (v ^ (m + 2)).natAbs by omega]
      simp only [totalBits, List.range_succ, List.map_append, List.sum_append, List.map_cons, List.map_nil, List.sum_cons, List.sum_nil,
        Nat.add_zero]
    rw [e]
    generalize totalBits ((List.range m).map fun k => v ^ (k + 2)) = B at h1 h2 ⊢
    generalize Nat.size (v ^ (m + 2)).toNat = s at b1 b2 ⊢
    generalize Nat.size v.toNat = c at b1 b2 h1 h2 ⊢
    constructor
    · calc (c - 1) * ((m + 1) * (m + 1 + 3)) = (c - 1) * (m * (m + 3)) + 2 * ((c - 1) * (m + 2)) := by ring
        _ ≤ _ := by omega
    · calc 2 * (B + s) ≤ c * (m * (m + 3)) + 2 * m + 2 * (c * (m + 2) + 1) := by omega
        _ = _ := by ring

/-- C108: for `n` generators the products of one call have between `(b - 1)(n - 1)(n + 2)/2` and `b (n - 1)(n + 2)/2 + n - 1` bits,
where `b` is the number of bits of the inverse of `y`: the work grows with the square of `n`. -/
theorem C108_total (E : Ext) (Hh : List P256) (y : Int) (n : Nat) (hn : 1 ≤ n) (hH : n ≤ Hh.length) {v : Int}
    (hv : modInverse y ORDER = some v) :
    (Nat.size v.toNat - 1) * ((n - 1) * (n + 2)) ≤ 2 * totalBits (updateGeneratorsX E Hh y n).1 ∧
      2 * totalBits (updateGeneratorsX E Hh y n).1 ≤ Nat.size v.toNat * ((n - 1) * (n + 2)) + 2 * (n - 1) := by
  rw [C108_products E Hh y n hn (by omega) hv, Nat.min_eq_left hH, show n + 2 = n - 1 + 3 by omega]
  exact totalBits_powers (modInverse_range hv).1 (n - 1)

/-- C108: of the `ORDER - 1` possible `y` exactly `2^b - 1` have an inverse of at most `b` bits, for every `b < 256`; so the inverse
almost always has nearly 256 bits. -/
theorem C108_count (b : Nat) (hb : b < 256) : ((Finset.Ico 1 ORDER).filter fun y => ∃ v, modInverse y ORDER = some v ∧
    Nat.size v.toNat ≤ b).card = 2 ^ b - 1 := by
  have hO : (2 : Int) ^ 255 < ORDER := by decide +kernel
  have h2 : (2 : Int) ^ b ≤ 2 ^ 255 := pow_le_pow_right₀ (by decide) (by omega)
  have hc : (Finset.Ico (1 : Int) (2 ^ b)).card = 2 ^ b - 1 := by
    rw [Int.card_Ico]
    have : (1 : Int) ≤ 2 ^ b := one_le_pow₀ (by decide)
    have e : ((2 : Nat) ^ b : Nat) = (2 : Int) ^ b := by push_cast; rfl
    omega
  have ex : ∀ y ∈ Finset.Ico (1 : Int) ORDER, ∃ v, modInverse y ORDER = some v := fun y hy => by
    rw [Finset.mem_Ico] at hy
    exact modInverse_order_exists fun hd => absurd (Int.le_of_dvd (by omega) hd) (by omega)
  have inv : ∀ y ∈ Finset.Ico (1 : Int) ORDER, ∀ v, modInverse y ORDER = some v → modInverse v ORDER = some y := fun y hy v hv => by
    obtain ⟨h1, h2, h3⟩ := modInverse_range hv
    obtain ⟨w, hw⟩ := ex v (Finset.mem_Ico.2 ⟨h1, h2⟩)
    obtain ⟨g1, g2, g3⟩ := modInverse_range hw
    rw [Finset.mem_Ico] at hy
    have hd : ORDER ∣ w - y := by
      have : w - y = y * (w * v - 1) - w * (v * y - 1) := by ring
      rw [this]
      exact Int.dvd_sub (Dvd.dvd.mul_left g3 y) (Dvd.dvd.mul_left h3 w)
    have : w = y := by
      have := Int.eq_zero_of_abs_lt_dvd hd (abs_sub_lt_iff.2 ⟨by omega, by omega⟩)
      omega
    rw [hw, this]
  rw [← hc]
  refine Finset.card_bij (fun y _ => (modInverse y ORDER).getD 0) (fun y hy => ?_) (fun y hy z hz h => ?_) fun v hv => ?_
  · obtain ⟨_, v, e, hs⟩ := Finset.mem_filter.1 hy
    obtain ⟨h1, _, _⟩ := modInverse_range e
    have := Nat.size_le.1 hs
    rw [e, Option.getD_some, Finset.mem_Ico]
    refine ⟨h1, ?_⟩
    have e2 : ((2 : Nat) ^ b : Nat) = (2 : Int) ^ b := by push_cast; rfl
    omega
  · obtain ⟨hy, v, e, _⟩ := Finset.mem_filter.1 hy
    obtain ⟨hz, w, e', _⟩ := Finset.mem_filter.1 hz
    simp only [e, e', Option.getD_some] at h
    subst h
    exact Option.some.inj ((inv y hy v e).symm.trans (inv z hz v e'))
  · rw [Finset.mem_Ico] at hv
    have hv' : v ∈ Finset.Ico (1 : Int) ORDER := Finset.mem_Ico.2 ⟨hv.1, by omega⟩
    obtain ⟨y, hy⟩ := ex v hv'
    obtain ⟨h1, h2, _⟩ := modInverse_range hy
    have e := inv v hv' y hy
    refine ⟨y, Finset.mem_filter.2 ⟨Finset.mem_Ico.2 ⟨h1, h2⟩, v, e, Nat.size_le.2 ?_⟩, by rw [e]; rfl⟩
    have e2 : ((2 : Nat) ^ b : Nat) = (2 : Int) ^ b := by push_cast; rfl
    omega

/-- One `y` of `2^128` has an inverse of at most 128 bits. -/
example := C108_count 128 (by decide)

/-- The loop of `updateGenerators` as it would be with the product reduced. -/
def updateGeneratorsLoopReduced (E : Ext) (Hh : List P256) (yinv : Int) : Nat → Nat → Int → Res (List P256)
  | 0, _, _ => .ok []
  | fuel + 1, i, expy => do
    let hi ← idx Hh i
    let r ← updateGeneratorsLoopReduced E Hh yinv fuel (i + 1) (expy * yinv % ORDER)
    .ok (hi.scalarMult E expy :: r)

/-- `updateGenerators` with this loop: a fix. -/
def updateGeneratorsReduced (E : Ext) (Hh : List P256) (y n : Int) : Res (List P256) :=
  if n ≤ 0 then .panic
  else do
    let h0 ← idx Hh 0
    if n = 1 then .ok [h0]
    else do
      let yinv ← Res.ofOption (modInverse y ORDER)
      let r ← updateGeneratorsLoopReduced E Hh yinv (n.toNat - 1) 1 yinv
      .ok (h0 :: r)

theorem scalarMult_mod (E : Ext) (a : P256) {n : Int} (h : ¬ ORDER ∣ n) : a.scalarMult E (n % ORDER) = a.scalarMult E n := by
  have h1 : n ≠ 0 := by rintro rfl; exact h (dvd_zero _)
  have h2 : n % ORDER ≠ 0 := fun e => h (Int.dvd_of_emod_eq_zero e)
  rw [P256.scalarMult, P256.scalarMult, if_neg h1, if_neg h2, Int.emod_emod_of_dvd _ (dvd_refl _)]

theorem inverse_not_dvd {y v : Int} (h : modInverse y ORDER = some v) : ¬ ORDER ∣ v := fun hd => by
  obtain ⟨h1, h2, _⟩ := modInverse_range h
  exact absurd (Int.le_of_dvd h1 hd) (by omega)

theorem order_dvd_mul {a b : Int} (h : ORDER ∣ a * b) : ORDER ∣ a ∨ ORDER ∣ b := by
  rw [← fn_eq_zero, Int.cast_mul, mul_eq_zero, fn_eq_zero, fn_eq_zero] at h
  exact h

theorem updateGeneratorsLoop_reduced (E : Ext) (Hh : List P256) {y v : Int} (hv : modInverse y ORDER = some v) : ∀ (fuel i : Nat) (e : Int),
    ¬ ORDER ∣ e → updateGeneratorsLoopReduced E Hh v fuel i (e % ORDER) = updateGeneratorsLoop E Hh v fuel i e
  | 0, _, _, _ => rfl
  | fuel + 1, i, e, he => by
    have hd : ¬ ORDER ∣ e * v := fun h => (order_dvd_mul h).elim he (inverse_not_dvd hv)
    rw [updateGeneratorsLoopReduced, updateGeneratorsLoop]
    cases idx Hh i with
    | panic => rfl
    | ok hi =>
      rw [Res.ok_bind, Res.ok_bind, show e % ORDER * v % ORDER = e * v % ORDER by rw [Int.mul_emod, Int.emod_emod_of_dvd _ (dvd_refl _), ← Int.mul_emod],
        updateGeneratorsLoop_reduced E Hh hv fuel (i + 1) (e * v) hd, scalarMult_mod E hi he]

/-- C108: a reduction after each product, which keeps the integers below `ORDER`, would not change the result. -/
theorem C108_reduced (E : Ext) (Hh : List P256) (y n : Int) : updateGeneratorsReduced E Hh y n = updateGenerators E Hh y n := by
  rw [updateGeneratorsReduced, updateGenerators]
  cases hv : modInverse y ORDER with
  | none => rfl
  | some v =>
    obtain ⟨h1, h2, _⟩ := modInverse_range hv
    have h := updateGeneratorsLoop_reduced E Hh hv (n.toNat - 1) 1 v (inverse_not_dvd hv)
    rw [Int.emod_eq_of_lt h1.le h2] at h
    simp only [Res.ofOption, Res.ok_bind, h]

theorem bpVerify_updates (E : Ext) (p : BPProof) : ∃ f : List P256 → Res (Bool × P256),
    bpVerify E p = updateGenerators E p.Params.Hh (hashBP E p.A p.S).1 p.Params.N >>= f :=
  ⟨_, rfl⟩

/-- C108: `Verify` computes these products before it looks at anything else: if it panics there, it returns no verdict. -/
theorem C108_verify (E : Ext) (p : BPProof) : ∃ (r : Res (List P256)) (f : List P256 → Res (Bool × P256)),
    updateGeneratorsX E p.Params.Hh (hashBP E p.A p.S).1 p.Params.N = (verifyProducts E p, r) ∧ bpVerify E p = r >>= f := by
  obtain ⟨f, hf⟩ := bpVerify_updates E p
  refine ⟨(updateGeneratorsX E p.Params.Hh (hashBP E p.A p.S).1 p.Params.N).2, f, rfl, ?_⟩
  rw [hf, C108_same]

/-- A proof with the points `A` and `S` and `n` generators `h`, everything else at infinity or 0. -/
def heavy (A S : P256) (n : Nat) : BPProof :=
  let o : P256 := P256.infinity
  ⟨o, A, S, o, o, 0, 0, 0, ⟨0, [], [], o, o, o, o, 0, 0, ⟨0, 0, o, o, [], [], o⟩⟩, o, ⟨n, o, o, [], List.replicate n o⟩,
    ⟨0, 0, o, o, [], [], o⟩⟩

/-- C108: so a text of `168 n + 4200` bytes makes `Verify` compute integers of `(b - 1)(n - 1)(n + 2)/2` bits, where `b` is the number
of bits of the inverse of `y`, which the sender can choose by trying points `A` and `S`. -/
theorem C108_text (E : Ext) (A S : P256) (hA : A.Bounded) (hS : S.Bounded) (n : Nat) (hn : 1 ≤ n) (h63 : (n : Int) < 2 ^ 63) {v : Int}
    (hv : modInverse (hashBP E A S).1 ORDER = some v) : ∃ text : List UInt8, text.length ≤ 168 * n + 4200 ∧
    ∃ p : BPProof, (unmarshalBP text).bind GoBPProof.deref = some p ∧ p.Params.Hh.length = n ∧
      (Nat.size v.toNat - 1) * ((n - 1) * (n + 2)) ≤ 2 * totalBits (verifyProducts E p) := by
  have o : P256.infinity.Bounded := tidy_infinity.2
  have z : (0 : Int) ≤ 0 ∧ (0 : Int) < 2 ^ 256 := by norm_num
  have hN : (0 : Int) ≤ n ∧ (n : Int) < 2 ^ 256 := ⟨by omega, lt_trans h63 (by norm_num)⟩
  have hg : ∀ q ∈ ([] : List P256), q.Bounded := fun q hq => by cases hq
  have hp : IPPTidy ⟨0, 0, P256.infinity, P256.infinity, [], [], P256.infinity⟩ := ⟨z, z, o, o, hg, hg, o⟩
  have t : BPTidy (heavy A S n) := ⟨o, hA, hS, o, o, z, z, z, ⟨(fun q hq => by cases hq), (fun q hq => by cases hq), tidy_infinity,
    tidy_infinity, tidy_infinity, tidy_infinity, z, z⟩, hp, z, o, hN, o, o, hg,
    fun q hq => (List.eq_of_mem_replicate hq) ▸ o, hp⟩
  refine ⟨marshalBP (heavy A S n).toGo, ?_, heavy A S n, ?_, List.length_replicate, ?_⟩
  · have := encBPProof_length t
    rw [marshalBP]
    refine this.trans ?_
    simp [heavy]
  · have hi : (heavy A S n).Int64 := by
      intro m hm
      simp only [heavy, List.mem_cons, List.not_mem_nil, or_false] at hm
      omega
    rw [C57_bulletproof hi.toGo]
    exact BPProof.deref_toGo _
  · exact (C108_total E (List.replicate n P256.infinity) _ n hn (by rw [List.length_replicate]) hv).1

/-- Three generators and `y = 2`, whose inverse has 255 bits: the products are its square and its cube, of more than 1200 bits. -/
example : ∃ v, modInverse 2 ORDER = some v ∧ Nat.size v.toNat = 255 ∧
    (updateGeneratorsX tryExt [P256.infinity, P256.infinity, P256.infinity] 2 (3 : Nat)).1 = [v ^ 2, v ^ 3] ∧
    1270 ≤ totalBits (updateGeneratorsX tryExt [P256.infinity, P256.infinity, P256.infinity] 2 (3 : Nat)).1 := by
  obtain ⟨v, hv⟩ := modInverse_order_exists (x := 2) (by decide +kernel)
  have hs : (modInverse 2 ORDER).map (fun v => Nat.size v.toNat) = some 255 := by decide +kernel
  rw [hv, Option.map_some, Option.some.injEq] at hs
  have h := (C108_total tryExt [P256.infinity, P256.infinity, P256.infinity] 2 3 (by decide) (by decide) hv).1
  rw [hs] at h
  have h' := C108_products tryExt [P256.infinity, P256.infinity, P256.infinity] 2 3 (by decide) (by decide) hv
  exact ⟨v, hv, hs, h', by omega⟩

/-- A text of less than 173000 bytes for a thousand generators, for a hash function with constant value 2: the inverse has 255
bits, and the products have 127 million. -/
example : ∃ (E : Ext) (v : Int) (text : List UInt8) (p : BPProof), modInverse (hashBP E P256.infinity P256.infinity).1 ORDER = some v ∧
    text.length ≤ 172200 ∧ (unmarshalBP text).bind GoBPProof.deref = some p ∧ 127000000 ≤ totalBits (verifyProducts E p) := by
  let E : Ext := idealExt fun _ => List.replicate 31 0 ++ [2]
  have e : (hashBP E P256.infinity P256.infinity).1 = 2 := by decide +kernel
  obtain ⟨v, hv⟩ := modInverse_order_exists (x := 2) (by decide +kernel)
  have hs : (modInverse 2 ORDER).map (fun v => Nat.size v.toNat) = some 255 := by decide +kernel
  rw [hv, Option.map_some, Option.some.injEq] at hs
  obtain ⟨text, h1, p, h2, _, h3⟩ := C108_text E P256.infinity P256.infinity tidy_infinity.2 tidy_infinity.2 1000 (by norm_num)
    (by norm_num) (e ▸ hv)
  rw [hs] at h3
  exact ⟨E, v, text, p, e ▸ hv, h1, h2, by omega⟩

end Verif

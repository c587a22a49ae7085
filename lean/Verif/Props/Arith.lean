import Verif.Lemmas.Arith
import Verif.Props.Bytes
import Mathlib.Data.BitVec
import Mathlib.Data.Nat.Bitwise
import Mathlib.RingTheory.Coprime.Lemmas

/-! # C06-C09, C11, C12: modular arithmetic, decomposition, vectors -/

namespace Verif
open Spec

/-- C06 (non-negative exponent): `r = base^e` reduced into `[0,|m|)`. -/
theorem C06_modPow_nonneg (base m : Int) (e : Nat) (hm : m ≠ 0) :
    ∃ r, modPow base e m = some r ∧ 0 ≤ r ∧ r < |m| ∧ r ≡ base ^ e [ZMOD m] := by
  refine ⟨base ^ e % m, ?_, Int.emod_nonneg _ hm, Int.emod_lt_abs _ hm, Int.mod_modEq _ _⟩
  rw [modPow, if_pos (by omega), bigExp, Int.toNat_natCast]

/-- `2^10 mod -7`: the result is in `[0, 7)`. -/
example : ∃ r, modPow 2 (10 : Nat) (-7) = some r ∧ 0 ≤ r ∧ r < |(-7 : Int)| ∧ r ≡ 2 ^ 10 [ZMOD -7] :=
  C06_modPow_nonneg 2 (-7) 10 (by decide)

/-- C06 (negative exponent `-e`, `e > 0`): the inverse of `base^e` when it exists, nil otherwise. -/
theorem C06_modPow_neg (base m : Int) (e : Nat) (he : 0 < e) (hm : m ≠ 0) :
    (IsCoprime base m →
      ∃ r, modPow base (-e) m = some r ∧ 0 ≤ r ∧ r < |m| ∧ r * base ^ e ≡ 1 [ZMOD m]) ∧
    (¬ IsCoprime base m → modPow base (-e) m = none) := by
  have hdef : modPow base (-e) m = modInverse (base ^ e % m) m := by
    rw [modPow, if_neg (by omega), bigExp, Int.natAbs_neg, Int.natAbs_natCast, Int.toNat_natCast]
  have hg : Int.gcd (base ^ e % m) m = 1 ↔ IsCoprime base m := by
    rw [Int.gcd_emod, ← Int.isCoprime_iff_gcd_eq_one, IsCoprime.pow_left_iff he]
  obtain ⟨h1, h2⟩ := modInverse_spec (base ^ e % m) m hm
  rw [hdef]
  constructor
  · intro h
    obtain ⟨r, hr, r0, r1, hd⟩ := h1 (hg.2 h)
    refine ⟨r, hr, r0, r1, ?_⟩
    have : r * (base ^ e % m) ≡ 1 [ZMOD m] := (Int.modEq_iff_dvd.2 hd).symm
    exact ((Int.mod_modEq (base ^ e) m).mul_left r).symm.trans this
  · intro h; exact h2 (fun hc => h (hg.1 hc))

/-- `3^(-2) mod 7 = 4`, `2^(-1) mod 6` is nil. -/
example : modPow 3 (-2) 7 = some 4 ∧ modPow 2 (-1) 6 = none ∧ modPow 5 3 (-7) = some 6 := by
  decide +kernel

/-- The two encodings written to the digest. -/
def hashInput (b1 : Int) (b2 : Option Int) : List UInt8 :=
  toByteArray b1 ++ (match b2 with | some b => toByteArray b | none => [])

/-- C07 (i): there are different argument pairs which collide for *every* hash function, with
the second argument absent or present. -/
theorem C07_ambiguous (H : List UInt8 → List UInt8) :
    calculateHash H 1 (some 2) = calculateHash H 258 none ∧
    calculateHash H 1 (some 515) = calculateHash H 258 (some 3) := by
  have e1 : hashInput 1 (some 2) = hashInput 258 none := by decide +kernel
  have e2 : hashInput 1 (some 515) = hashInput 258 (some 3) := by decide +kernel
  exact ⟨congrArg (fun x => fromByteArray (H x)) e1, congrArg (fun x => fromByteArray (H x)) e2⟩

/-- C07 (ii): with the second argument fixed, a collision of `CalculateHash` on different first
arguments exhibits a collision of the 32-byte hash itself. -/
theorem C07_fixed_second (H : List UInt8 → List UInt8) (hH : ∀ s, (H s).length = 32)
    (a a' : Int) (b : Option Int) (hne : a ≠ a')
    (hcol : calculateHash H a b = calculateHash H a' b) :
    ∃ s s', s ≠ s' ∧ H s = H s' := by
  refine ⟨hashInput a b, hashInput a' b, ?_, ?_⟩
  · intro h
    have h' : toByteArray a = toByteArray a' := List.append_cancel_right h
    have e1 := C01_roundtrip a
    rw [h', C01_roundtrip a'] at e1
    simp only [Res.ok.injEq, Option.some.injEq] at e1
    exact hne e1.symm
  · have hc : fromByteArray (H (hashInput a b)) = fromByteArray (H (hashInput a' b)) := hcol
    have l1 := hH (hashInput a b)
    have l2 := hH (hashInput a' b)
    rw [C02_fromByteArray, C02_fromByteArray, if_neg (by intro h; simp [h] at l1),
      if_neg (by intro h; simp [h] at l2)] at hc
    simp only [Res.ok.injEq, Option.some.injEq] at hc
    match hs : H (hashInput a b), ht : H (hashInput a' b) with
    | x :: xs, y :: ys =>
      rw [hs, ht] at hc
      rw [hs] at l1
      rw [ht] at l2
      simp only [List.length_cons, Nat.reduceEqDiff] at l1 l2
      have r1 := unsigned_lt (x :: xs)
      have r2 := unsigned_lt (y :: ys)
      rw [twos_cons, twos_cons, l1, l2] at hc
      rw [List.length_cons, l1] at r1
      rw [List.length_cons, l2] at r2
      apply unsigned_injective (by simp [l1, l2])
      split at hc <;> split at hc <;> omega
    | [], _ => rw [hs] at l1; simp at l1
    | _ :: _, [] => rw [ht] at l2; simp at l2

/-- The hypotheses of `C07_fixed_second` are met e.g. by a constant 32-byte function. -/
example : ∃ H : List UInt8 → List UInt8, (∀ s, (H s).length = 32) ∧
    calculateHash H 5 (some 7) = calculateHash H 6 (some 7) :=
  ⟨fun _ => List.replicate 32 0, by simp, rfl⟩

/-- C08 (i): digits and value of `Decompose` for every base `u ≥ 1` and length `l ≥ 0`. -/
theorem C08_decompose (x u l : Int) (hu : 1 ≤ u) (hl : 0 ≤ l) :
    ∃ ds, decompose x u l = .ok ds ∧ (ds.length : Int) = l ∧ (∀ d ∈ ds, 0 ≤ d ∧ d < u) ∧
      weighted u ds = x % u ^ l.toNat := decompose_spec x u l hu hl

/-- A negative number in base 57 with three digits. -/
example : ∃ ds, decompose (-5) 57 3 = .ok ds ∧ (ds.length : Int) = 3 ∧ (∀ d ∈ ds, 0 ≤ d ∧ d < 57) ∧ weighted 57 ds = (-5) % 57 ^ 3 :=
  C08_decompose (-5) 57 3 (by decide) (by decide)

/-- C08 (ii): the digits represent `x` exactly when `0 ≤ x < u^l`. -/
theorem C08_exact (x u l : Int) (hu : 1 ≤ u) (hl : 0 ≤ l) (ds : List Int)
    (h : decompose x u l = .ok ds) : weighted u ds = x ↔ 0 ≤ x ∧ x < u ^ l.toNat := by
  obtain ⟨ds', h', _, _, hw⟩ := decompose_spec x u l hu hl
  rw [h'] at h
  injection h with h
  subst h
  have hp : 0 < u ^ l.toNat := by positivity
  rw [hw]
  constructor
  · intro e; rw [← e]; exact ⟨Int.emod_nonneg _ (ne_of_gt hp), Int.emod_lt_of_pos _ hp⟩
  · rintro ⟨a, b⟩; exact Int.emod_eq_of_lt a b

/-- The digits of 1234 represent it, those of -5 do not. -/
example : weighted 57 [37, 21, 0] = 1234 ∧ weighted 57 [52, 56, 56] ≠ -5 :=
  ⟨(C08_exact 1234 57 3 (by decide) (by decide) _ (by decide +kernel)).2 (by decide),
    fun h => absurd ((C08_exact (-5) 57 3 (by decide) (by decide) [52, 56, 56] (by decide +kernel)).1 h).1 (by decide)⟩

/-- C08 (iii): base zero panics as soon as there is a digit to compute. -/
theorem C08_zero_base (x l : Int) (hl : 1 ≤ l) : decompose x 0 l = .panic := by
  rw [decompose, if_neg (by omega)]
  obtain ⟨n, hn⟩ : ∃ n, l.toNat = n + 1 := ⟨l.toNat - 1, by omega⟩
  rw [hn]; rfl

/-- 1234 = 37 + 21·57 + 0·57². -/
example : decompose 1234 57 3 = .ok [37, 21, 0] := by decide +kernel

/-- C09: `IsPowerOfTwo` on every int64. -/
theorem C09_isPowerOfTwo (x : BitVec 64) :
    isPowerOfTwo x = true ↔ (∃ k : Nat, k < 63 ∧ x.toInt = 2 ^ k) ∨ x.toInt = -2 ^ 63 := by
  have hpow : isPowerOfTwo x = true ↔ ∃ k : Nat, k < 64 ∧ x.toNat = 2 ^ k := by
    by_cases h0 : x = 0
    · subst h0
      simp only [isPowerOfTwo, BitVec.ofNat_eq_ofNat, bne_self_eq_false, Bool.false_and,
        Bool.false_eq_true, BitVec.toNat_ofNat, Nat.zero_mod, false_iff, not_exists, not_and]
      intro k _ h
      exact absurd h.symm (by positivity)
    · have hpos : x.toNat ≠ 0 := fun h => h0 (by apply BitVec.eq_of_toNat_eq; simpa using h)
      have hsub : (x - 1).toNat = x.toNat - 1 := by
        rw [BitVec.toNat_sub]
        have := x.isLt
        simp only [BitVec.ofNat_eq_ofNat, BitVec.toNat_ofNat]
        omega
      have : isPowerOfTwo x = true ↔ x.toNat &&& (x.toNat - 1) = 0 := by
        simp only [isPowerOfTwo, Bool.and_eq_true, bne_iff_ne, ne_eq, beq_iff_eq]
        rw [← BitVec.toNat_inj (x := x &&& (x - 1)), BitVec.toNat_and, hsub]
        simp only [BitVec.ofNat_eq_ofNat, BitVec.toNat_ofNat, Nat.zero_mod]
        exact ⟨fun h => h.2, fun h => ⟨h0, h⟩⟩
      rw [this, Nat.and_sub_one_eq_zero_iff_isPowerOfTwo hpos]
      constructor
      · rintro ⟨k, hk⟩
        refine ⟨k, ?_, hk⟩
        have := x.isLt
        rw [hk] at this
        exact (Nat.pow_lt_pow_iff_right (by norm_num)).1 this
      · rintro ⟨k, _, hk⟩; exact ⟨k, hk⟩
  rw [hpow]
  have hlt := x.isLt
  constructor
  · rintro ⟨k, hk, hx⟩
    rcases Nat.lt_or_ge k 63 with h | h
    · refine Or.inl ⟨k, h, ?_⟩
      have : 2 ^ k < 2 ^ 63 := Nat.pow_lt_pow_right (by norm_num) h
      rw [BitVec.toInt_eq_toNat_of_lt (by omega), hx]; push_cast; rfl
    · have : k = 63 := by omega
      subst this
      refine Or.inr ?_
      rw [BitVec.toInt_eq_toNat_cond, if_neg (by omega), hx]; norm_num
  · rintro (⟨k, hk, hx⟩ | hx)
    · refine ⟨k, by omega, ?_⟩
      rw [BitVec.toInt_eq_toNat_cond] at hx
      split at hx
      · exact_mod_cast hx
      · have : (0 : Int) < 2 ^ k := by positivity
        omega
    · refine ⟨63, by norm_num, ?_⟩
      rw [BitVec.toInt_eq_toNat_cond] at hx
      split at hx <;> omega

example : isPowerOfTwo 65536 = true ∧ isPowerOfTwo 6 = false ∧
    isPowerOfTwo (BitVec.ofInt 64 (-2 ^ 63)) = true ∧ isPowerOfTwo (BitVec.ofInt 64 (-4)) = false := by
  decide

/-- Shape shared by the componentwise vector operations. -/
def Componentwise (f : Int → Int → Int) (op : List Int → List Int → Option (List Int)) : Prop :=
  ∀ a b, (a.length ≠ b.length → op a b = none) ∧
    (a.length = b.length → ∃ c, op a b = some c ∧ c.length = a.length ∧
      ∀ (i : Nat) (x y : Int), a[i]? = some x → b[i]? = some y →
        ∃ r, c[i]? = some r ∧ IsResidue ORDER (f x y) r)

private theorem componentwise_zipWith (f : Int → Int → Int) (op : List Int → List Int → Option (List Int))
    (h : ∀ a b, op a b = if a.length ≠ b.length then none
      else some (List.zipWith (fun x y => f x y % ORDER) a b)) : Componentwise f op := by
  intro a b
  refine ⟨fun hl => by rw [h, if_pos hl], fun hl => ?_⟩
  refine ⟨_, by rw [h, if_neg (not_not.2 hl)], by simp [hl], ?_⟩
  intro i x y hx hy
  exact ⟨f x y % ORDER, by rw [List.getElem?_zipWith, hx, hy], emod_isResidue ORDER_pos _⟩

/-- C11: vector addition, subtraction and multiplication. -/
theorem C11_vectorAdd : Componentwise (· + ·) vectorAdd := componentwise_zipWith _ _ fun _ _ => rfl
theorem C11_vectorSub : Componentwise (· - ·) vectorSub := componentwise_zipWith _ _ fun _ _ => rfl
theorem C11_vectorMul : Componentwise (· * ·) vectorMul := componentwise_zipWith _ _ fun _ _ => rfl

example : vectorMul [2, 5] [ORDER - 1, 3] = some [ORDER - 2, 15] ∧ vectorMul [1] [2, 3] = none := by decide

/-- C11: multiplication by a scalar. -/
theorem C11_vectorScalarMul (a : List Int) (s : Int) :
    (vectorScalarMul a s).length = a.length ∧
    ∀ (i : Nat) (x : Int), a[i]? = some x →
      ∃ r, (vectorScalarMul a s)[i]? = some r ∧ IsResidue ORDER (x * s) r := by
  refine ⟨by simp [vectorScalarMul], fun i x hx => ?_⟩
  exact ⟨(x * s) % ORDER, by simp [vectorScalarMul, hx], emod_isResidue ORDER_pos _⟩

example : vectorSub [1, 5] [2, 3] = some [ORDER - 1, 2] ∧ vectorAdd [1] [2, 3] = none := by decide

/-- C12: inner product. -/
theorem C12_scalarProduct (a b : List Int) :
    (a.length ≠ b.length → scalarProduct a b = none) ∧
    (a.length = b.length → ∃ r, scalarProduct a b = some r ∧ IsResidue ORDER (dot a b) r) := by
  refine ⟨fun h => by rw [scalarProduct, if_pos h], fun h => ?_⟩
  exact ⟨_, scalarProduct_eq a b h, emod_isResidue ORDER_pos _⟩

/-- C12: power vector. -/
theorem C12_powerOf (x : Int) (n : Nat) :
    ∃ v, powerOf x n = .ok v ∧ v.length = n ∧
      ∀ i, i < n → ∃ r, v[i]? = some r ∧ IsResidue ORDER (x ^ i) r := by
  refine ⟨_, powerOf_eq x n, by simp, fun i hi => ⟨x ^ i % ORDER, ?_, emod_isResidue ORDER_pos _⟩⟩
  simp [hi]

/-- C12: `delta(y,z) = (z-z²)·Σ y^i - z³·(2^n-1)` modulo the group order. -/
theorem C12_delta (n : Nat) (y z : Int) :
    ∃ r, delta n y z = .ok r ∧
      IsResidue ORDER ((z - z ^ 2) * (∑ i ∈ Finset.range n, y ^ i) - z ^ 3 * (2 ^ n - 1)) r :=
  ⟨_, delta_eq n y z, emod_isResidue ORDER_pos _⟩

example : scalarProduct [1, 2, 3] [4, 5, -6] = some (ORDER - 4) ∧
    powerOf 3 4 = .ok [1, 3, 9, 27] ∧ delta 2 3 5 = .ok (ORDER - 455) := by decide +kernel

end Verif

import Verif.Props.CcsUL
import Mathlib.Data.Nat.Digits.Lemmas

/-! # C55: the range proof of ccs08 -/

namespace Verif

/-- Number of base-57 digits (0 for `b ≤ 0`). -/
def digits57 (b : Int) : Nat := (Nat.digits 57 b.toNat).length

theorem digitCount_eq : ∀ (fuel : Nat) (b : Int), b < 57 ^ fuel → digitCount fuel b = digits57 b
  | 0, b, h => by
    have : b.toNat = 0 := by rw [pow_zero] at h; omega
    simp [digitCount, digits57, this]
  | fuel + 1, b, h => by
    rw [digitCount]
    split
    · rename_i hb
      have h1 : b / 57 < 57 ^ fuel := by
        rw [Int.ediv_lt_iff_lt_mul (by norm_num)]; rwa [pow_succ] at h
      have h2 : (b / 57).toNat = b.toNat / 57 := by omega
      rw [digitCount_eq fuel _ h1, digits57, digits57, h2,
        Nat.digits_def' (by norm_num) (show 0 < b.toNat by omega)]
      simp
    · rename_i hb
      have : b.toNat = 0 := by omega
      simp [digits57, this]

theorem digits57_lt (b : Int) : b < 57 ^ digits57 b := by
  have h := Nat.lt_base_pow_length_digits (b := 57) (m := b.toNat) (by norm_num)
  have h' : ((b.toNat : Nat) : Int) < 57 ^ digits57 b := by exact_mod_cast h
  omega

theorem digits57_nonpos {b : Int} (h : b ≤ 0) : digits57 b = 0 := by
  have : b.toNat = 0 := by omega
  simp [digits57, this]

/-- C55: `Setup(a,b)` returns an error exactly when `a > b` or `b = 1`; otherwise the parameters are
those of `SetupUL` for base 57 and the number of base-57 digits of `b`. -/
theorem C55_setup (a b sk : Int) (hb : b < 2 ^ 63)
    (hk : ∀ m, 0 ≤ m → m < 57 → ¬ m + sk ≡ 0 [ZMOD bnOrder]) :
    (a > b ∨ b = 1 → ccsSetup a b (some sk) = .ok none) ∧
    (¬ (a > b ∨ b = 1) → ∃ p, setupUL 57 (digits57 b) (some sk) = .ok p ∧
      ccsSetup a b (some sk) = .ok (some ⟨p, a, b⟩)) := by
  constructor
  · intro h
    by_cases h1 : a > b
    · rw [ccsSetup, if_pos h1]
    · rw [ccsSetup, if_neg h1, if_neg (by simpa using h.resolve_left h1)]
  · intro h
    rw [not_or] at h
    obtain ⟨p, _, hp, _⟩ := C54_setup 57 (digits57 b) sk hk
    refine ⟨p, hp, ?_⟩
    have hl : digitCount 64 b = digits57 b := digitCount_eq 64 b (lt_trans hb (by norm_num))
    rw [ccsSetup, if_neg h.1, if_pos h.2]
    simp only [hl, hp, Res.ok_bind]

example := C55_setup 18 200 1234 (by norm_num) (by intro m h0 h1; interval_cases m <;> decide +kernel)

/-- No coincidence when committing to `y` with the factor `r`: for `y ≥ 0` the in-place addition does
not meet equal operands; for `y < 0`, where the first operand is not on the curve, the sum is not. -/
def CommitClean (y r : Int) : Prop :=
  (0 ≤ y → NoClash y [ccsH * r]) ∧
  (y < 0 → SafeAdds (G2.scalarBaseMult y) [G2.scalarMult (G2.scalarBaseMult ccsH) r])

/-- No coincidence when `VerifyUL` recomputes `D` of the proof `q` for `y`, `r` with `L` digits. -/
def VerifyClean (y r : Int) (L : Nat) (q : ProofUL) (z : Nat → Int) : Prop :=
  (0 ≤ y → NoClash ((y + ccsH * r) * q.c) (ccsH * q.zr :: wts 57 z 0 L)) ∧
  (y < 0 → (G2.scalarMult q.C q.c).z ≠ .zero ∧
    SafeAdds (G2.scalarMult q.C q.c) (G2.scalarMult (G2.scalarBaseMult ccsH) q.zr :: ulPoints 57 z 0 L))

/-- The numbers are not negative, as those of `rand.Int`. -/
def ULRandom.Nonneg (w : ULRandom) : Prop :=
  0 ≤ w.m ∧ (∀ j, 0 ≤ w.v j) ∧ (∀ j, 0 ≤ w.s j) ∧ ∀ j, 0 ≤ w.t j

/-- The parameters of `Setup` and one half of a proof. -/
theorem ccsHalf (sha : List UInt8 → List UInt8) (hsha : ∀ b, (sha b).length = 32) {sk r : Int} {L : Nat} {p : ParamsUL}
    (hk : ∀ m, 0 ≤ m → m < 57 → ¬ m + sk ≡ 0 [ZMOD bnOrder]) (hr : 0 ≤ r) (hp : setupUL 57 L (some sk) = .ok p)
    (y : Int) (w : ULRandom) (hw : w.Nonneg)
    (hn : NoClash (ccsH * w.m) (wts 57 w.s 0 L)) (hd : ¬ ccsH * w.m + (wts 57 w.s 0 L).sum ≡ 0 [ZMOD bnOrder])
    (hc : CommitClean y r) (hy : |y| < bnOrder) :
    ∃ q z, proveUL sha y r p w.m w.v w.s w.t = .ok (some q) ∧ (∀ j, j < L → q.zsig[j]? = some (z j)) ∧
      ((∀ V ∈ q.V, PairOk V) → VerifyClean y r L q z →
        ∃ v q', verifyUL q p = .ok (v, q') ∧ (0 ≤ y → y < 57 ^ L → v = true) ∧
          (¬ q.c ≡ 0 [ZMOD bnOrder] → (v = true ↔ 0 ≤ y ∧ y < 57 ^ L))) := by
  obtain ⟨hm, hv, hs, ht⟩ := hw
  have hL : (L : Int).toNat = L := by simp
  have hH : p.H = G2.scalarBaseMult ccsH := by
    obtain ⟨q, _, g1, _, _, _, _, _, g4⟩ := C54_setup 57 (L : Int) sk hk
    rw [hp] at g1
    cases g1
    exact (g4 0).2.2
  rcases lt_or_ge y 0 with hy0 | hy0
  · obtain ⟨p', q, z, g1, g2, _, g3, _, _, g4⟩ := C54_negative sha hsha 57 L sk y r w.m w.v w.s w.t
      (by norm_num) (by omega) hk hy0 (fun hdv => by
        have := Int.eq_zero_of_abs_lt_dvd hdv hy
        omega) hr hm hv hs ht (by rw [hL]; exact hn) (by rw [hL]; exact hd) (hc.2 hy0)
    rw [hp] at g1
    obtain rfl : p = p' := Res.ok.inj g1
    rw [hL] at g3 g4
    refine ⟨q, z, g2, g3, fun hok hn => ?_⟩
    obtain ⟨n1, n2⟩ := hn.2 hy0
    rw [hH] at g4
    obtain ⟨q', e1⟩ := g4 n1 n2
    exact ⟨false, q', e1, fun h0 => absurd h0 (by omega), fun _ => by simp; omega⟩
  obtain ⟨p', q, z, g1, g2, g3, _, _, g4⟩ := C54_honest sha hsha 57 L sk y r w.m w.v w.s w.t (by norm_num)
    (by omega) hk hy0 hr hm hv hs ht (by rw [hL]; exact hn) (hc.1 hy0)
  rw [hp] at g1
  obtain rfl : p = p' := Res.ok.inj g1
  rw [hL] at g3 g4
  refine ⟨q, z, g2, g3, fun hok hn => ?_⟩
  obtain ⟨v, q', e1, e2⟩ := g4 hok (hn.1 hy0)
  obtain ⟨i1, i2⟩ := C54_interval 57 y q.c L (by norm_num)
  exact ⟨v, q', e1, fun h0 h1 => e2.2 (i1 h0 h1),
    fun hc => e2.trans ((i2 (by decide +kernel) hc).2 hy)⟩

/-- The values of the two halves are small. -/
theorem ccsHalf_small {a b x : Int} (hab : a ≤ b) (ha : -2 ^ 63 ≤ a) (hb : b < 2 ^ 63) (hx : |x| < 2 ^ 250) :
    |x - b + 57 ^ digits57 b| < bnOrder ∧ |x - a| < bnOrder := by
  have hlu : (57 : Int) ^ digits57 b ≤ 57 ^ 11 := by
    refine pow_le_pow_right₀ (by norm_num) ?_
    have h11 : b.toNat < 57 ^ 11 := by
      have : (2 : Int) ^ 63 < 57 ^ 11 := by norm_num
      omega
    exact (Nat.digits_length_le_iff (by norm_num) _).2 h11
  generalize digits57 b = L at *
  have hpos : (0 : Int) < 57 ^ L := by positivity
  have hbig : (2 : Int) ^ 251 < bnOrder := by decide +kernel
  rw [abs_lt] at hx
  constructor
  · have : (2 : Int) ^ 250 + 2 ^ 63 + 57 ^ 11 < 2 ^ 251 := by norm_num
    rw [abs_lt]
    constructor <;> linarith
  · have : (2 : Int) ^ 250 + 2 ^ 63 < 2 ^ 251 := by norm_num
    rw [abs_lt]
    constructor <;> linarith

/-- C55: verdict on honest proofs.  For int64 bounds with `a ≤ b`, `b ≠ 1`, every secret `x` (of
absolute value below `2^250`), every key and all randomness, `Prove` succeeds and — unless an
in-place addition meets a coincidence or a `V[i]` has its cached coordinate wrong — `Verify` accepts,
for challenges that are not 0, exactly the `x` with `max(a, b-57^l) ≤ x < min(b, a+57^l)`, where
`l` is the number of base-57 digits of `b`. -/
theorem C55_honest (sha : List UInt8 → List UInt8) (hsha : ∀ b, (sha b).length = 32) (a b sk x r : Int)
    (w1 w2 : ULRandom) (hab : a ≤ b) (hb1 : b ≠ 1) (ha : -2 ^ 63 ≤ a) (hb : b < 2 ^ 63) (hx : |x| < 2 ^ 250)
    (hk : ∀ m, 0 ≤ m → m < 57 → ¬ m + sk ≡ 0 [ZMOD bnOrder]) (hr : 0 ≤ r)
    (hw1 : w1.Nonneg) (hw2 : w2.Nonneg)
    (hn1 : NoClash (ccsH * w1.m) (wts 57 w1.s 0 (digits57 b)))
    (hn2 : NoClash (ccsH * w2.m) (wts 57 w2.s 0 (digits57 b)))
    (hd1 : ¬ ccsH * w1.m + (wts 57 w1.s 0 (digits57 b)).sum ≡ 0 [ZMOD bnOrder])
    (hd2 : ¬ ccsH * w2.m + (wts 57 w2.s 0 (digits57 b)).sum ≡ 0 [ZMOD bnOrder])
    (hc1 : CommitClean (x - b + 57 ^ digits57 b) r) (hc2 : CommitClean (x - a) r) :
    ∃ p p1 p2 z1 z2, ccsSetup a b (some sk) = .ok (some p) ∧
      ccsProve sha (some p) x r w1 w2 = .ok ⟨some p1, some p2⟩ ∧
      (∀ j, j < digits57 b → p1.zsig[j]? = some (z1 j) ∧ p2.zsig[j]? = some (z2 j)) ∧
      ((∀ V ∈ p1.V ++ p2.V, PairOk V) →
        VerifyClean (x - b + 57 ^ digits57 b) r (digits57 b) p1 z1 →
        VerifyClean (x - a) r (digits57 b) p2 z2 →
        ∃ v pr', ccsVerify ⟨some p1, some p2⟩ (some p) = .ok (v, pr') ∧
          (a ≤ x → x < b → b - 57 ^ digits57 b ≤ x → x < a + 57 ^ digits57 b → v = true) ∧
          (¬ p1.c ≡ 0 [ZMOD bnOrder] → ¬ p2.c ≡ 0 [ZMOD bnOrder] →
            (v = true ↔ max a (b - 57 ^ digits57 b) ≤ x ∧ x < min b (a + 57 ^ digits57 b)))) := by
  obtain ⟨p, hp, hsetup⟩ := (C55_setup a b sk hb hk).2 (by omega)
  obtain ⟨b1, b2⟩ := ccsHalf_small hab ha hb hx
  generalize digits57 b = L at *
  have hul : p.u = 57 ∧ p.l = L := by
    obtain ⟨q, _, g1, g2, g3, _⟩ := C54_setup 57 (L : Int) sk hk
    rw [hp] at g1
    cases g1
    exact ⟨g2, g3⟩
  obtain ⟨p1, z1, f1, f2, f3⟩ := ccsHalf sha hsha hk hr hp _ w1 hw1 hn1 hd1 hc1 b1
  obtain ⟨p2, z2, g1, g2, g3⟩ := ccsHalf sha hsha hk hr hp _ w2 hw2 hn2 hd2 hc2 b2
  refine ⟨⟨p, a, b⟩, p1, p2, z1, z2, hsetup, ?_, fun j hj => ⟨f2 j hj, g2 j hj⟩, fun hok k1 k2 => ?_⟩
  · simp only [ccsProve, Res.ofOption_some, Res.ok_bind, hul.1, hul.2, Int.toNat_natCast, f1, g1]
  · obtain ⟨v1, q1, e1, e2, e3⟩ := f3 (fun V hV => hok V (List.mem_append_left _ hV)) k1
    obtain ⟨v2, q2, d1, d2, d3⟩ := g3 (fun V hV => hok V (List.mem_append_right _ hV)) k2
    refine ⟨v1 && v2, ⟨some q1, some q2⟩, ?_, fun h1 h2 h3 h4 => ?_, fun n1 n2 => ?_⟩
    · simp only [ccsVerify, Res.ofOption_some, Res.ok_bind, e1, d1]
    · rw [e2 (by omega) (by omega), d2 (by omega) (by omega)]; rfl
    · rw [Bool.and_eq_true, e3 n1, d3 n2, max_le_iff, lt_min_iff]
      constructor <;> rintro ⟨⟨_, _⟩, _, _⟩ <;> refine ⟨⟨?_, ?_⟩, ?_, ?_⟩ <;> omega

/-- C55: for `0 ≤ a` the interval of `C55_honest` is `[a, b)`. -/
theorem C55_nonneg (a b x : Int) (ha : 0 ≤ a) :
    max a (b - 57 ^ digits57 b) ≤ x ∧ x < min b (a + 57 ^ digits57 b) ↔ a ≤ x ∧ x < b := by
  have h := digits57_lt b
  rw [max_le_iff, lt_min_iff]
  constructor
  · rintro ⟨⟨h1, _⟩, h2, _⟩; exact ⟨h1, h2⟩
  · rintro ⟨h1, h2⟩; refine ⟨⟨h1, ?_⟩, h2, ?_⟩ <;> omega

example := C55_nonneg 18 200 40 (by norm_num)

/-- C55: for `a < 0` the interval is too short, possibly empty: with an upper bound `b ≤ 0` it
contains only `x = a`, and that only for `b = a + 1`; and for the range `[-1000, 10)` it is empty. -/
theorem C55_negative :
    (∀ a b x : Int, b ≤ 0 → a ≤ b →
      (max a (b - 57 ^ digits57 b) ≤ x ∧ x < min b (a + 57 ^ digits57 b) ↔ x = a ∧ b = a + 1)) ∧
    (∀ x : Int, ¬ (max (-1000) (10 - 57 ^ digits57 10) ≤ x ∧ x < min 10 (-1000 + 57 ^ digits57 10))) := by
  constructor
  · intro a b x hb hab
    rw [digits57_nonpos hb, pow_zero, max_le_iff, lt_min_iff]
    omega
  · intro x
    have : digits57 10 = 1 := by simp [digits57]
    rw [this, max_le_iff, lt_min_iff]
    omega

/-- C55: after a failed `Setup`, `Prove` and `Verify` panic. -/
theorem C55_after_error (sha : List UInt8 → List UInt8) (x r : Int) (w1 w2 : ULRandom) (pr : CcsProof) :
    ccsProve sha none x r w1 w2 = .panic ∧ ccsVerify pr none = .panic := ⟨rfl, rfl⟩

/-- The hypotheses of `C55_honest` for the range [18, 200) and `x = 40`. -/
example : digits57 200 = 2 ∧ (18 : Int) ≤ 200 ∧ |(40 : Int)| < 2 ^ 250 ∧
    NoClash (ccsH * 11) (wts 57 (fun j => 17 + j) 0 2) ∧
    ¬ ccsH * 11 + (wts 57 (fun j => 17 + j) 0 2).sum ≡ 0 [ZMOD bnOrder] ∧
    CommitClean (40 - 200 + 57 ^ 2) 3 ∧ CommitClean (40 - 18) 3 := by
  refine ⟨by simp [digits57], by norm_num, by norm_num, by decide +kernel, by decide +kernel,
    ⟨fun _ => by decide +kernel, fun h => absurd h (by norm_num)⟩,
    ⟨fun _ => by decide +kernel, fun h => absurd h (by norm_num)⟩⟩

/-- And for `x = 17`, below the range. -/
example : CommitClean (17 - 200 + 57 ^ 2) 1 ∧ CommitClean (17 - 18) 1 :=
  ⟨⟨fun _ => by decide +kernel, fun h => absurd h (by norm_num)⟩,
    ⟨fun h => absurd h (by norm_num), fun _ => by decide +kernel⟩⟩

example : ∀ m : Int, 0 ≤ m → m < 57 → ¬ m + 1234 ≡ 0 [ZMOD bnOrder] := by
  intro m h0 h1
  interval_cases m <;> decide +kernel

end Verif

import Verif.Props.HonestFail
import Verif.Props.CcsRange

/-!
# C79 (continued): how rarely honest ccs08 proofs with digits are rejected
-/

namespace Verif

theorem wts_sum_nonneg {u : Int} {d : Nat → Int} (hu : 0 ≤ u) : ∀ n i, (∀ j, i ≤ j → j < i + n → 0 ≤ d j) → 0 ≤ (wts u d i n).sum
  | 0, _, _ => by simp [wts]
  | n + 1, i, h => by
    simp only [wts, List.sum_cons]
    exact add_nonneg (mul_nonneg (h i (le_refl i) (by omega)) (pow_nonneg hu i))
      (wts_sum_nonneg hu n (i + 1) fun j h1 h2 => h j (by omega) (by omega))

/-- The additions of `VerifyUL` after the first, as a function of the challenge: each is exceptional for at most one challenge. -/
theorem noClash_digits {u : Int} {d s : Nat → Int} (hu : 0 ≤ u) : ∀ (n i : Nat) (A : Int), (∀ j, i ≤ j → j < i + n → 0 ≤ d j) →
    2 * (wts u d i n).sum < bnOrder → NoClash A (wts u s i n) →
    ∃ bad : List Int, bad.length ≤ n ∧ ∀ c, 0 ≤ c → c < bnOrder → c ∉ bad → ∀ (z : Nat → Int) (k : Int),
      (∀ j, i ≤ j → j < i + n → z j ≡ s j - d j * c [ZMOD bnOrder]) → k ≡ A + (wts u d i n).sum * c [ZMOD bnOrder] →
      NoClash k (wts u z i n)
  | 0, _, _, _, _, _ => ⟨[], le_refl _, fun _ _ _ _ _ _ _ _ => trivial⟩
  | n + 1, i, A, hd, hB, ⟨h1, h2⟩ => by
    have hr := wts_sum_nonneg (d := d) hu n (i + 1) fun j k1 k2 => hd j (by omega) (by omega)
    have hi := mul_nonneg (hd i (le_refl i) (by omega)) (pow_nonneg hu i)
    simp only [wts, List.sum_cons] at hB ⊢
    obtain ⟨bad, b1, b2⟩ := noClash_digits (d := d) hu n (i + 1) _ (fun j k1 k2 => hd j (by omega) (by omega)) (by omega) h2
    generalize (wts u d (i + 1) n).sum = R at hr hB b2 ⊢
    generalize u ^ i = e at hi hB h1 b2 ⊢
    obtain ⟨c₀, hc₀⟩ : ∃ c₀, ∀ c, 0 ≤ c → c < bnOrder → ¬ A + (d i * e + R) * c ≡ 0 [ZMOD bnOrder] →
        A + (d i * e + R) * c ≡ (s i - d i * c) * e [ZMOD bnOrder] → c = c₀ := by
      by_cases h0 : d i * e + R = 0
      · have e0 : d i * e = 0 := by omega
        refine ⟨0, fun c _ _ k1 k2 => ?_⟩
        rw [h0, zero_mul, add_zero] at k1 k2
        rw [show (s i - d i * c) * e = s i * e - (d i * e) * c by ring, e0, zero_mul, sub_zero] at k2
        exact absurd k2 (h1.resolve_left k1)
      · have h3 : ¬ 2 * (d i * e) + R ≡ 0 [ZMOD bnOrder] := fun hm => by
          have := Int.le_of_dvd (by omega) (Int.modEq_zero_iff_dvd.1 hm)
          omega
        obtain ⟨c₀, hc⟩ := residue_unique (b := s i * e - A) h3
        refine ⟨c₀, fun c k0 k1 _ k3 => hc c k0 k1 ?_⟩
        have := k3.add_right (d i * e * c - A)
        ring_nf at this ⊢
        exact this
    refine ⟨c₀ :: bad, by simpa using b1, fun c k0 k1 kb z k hz hk => ?_⟩
    rw [List.mem_cons, not_or] at kb
    have hzi := (hz i (le_refl i) (by omega)).mul_right e
    refine ⟨?_, b2 c k0 k1 kb.2 z _ (fun j j1 j2 => hz j (by omega) (by omega)) ?_⟩
    · by_cases hk0 : k ≡ 0 [ZMOD bnOrder]
      · exact .inl hk0
      · exact .inr fun hb => kb.1 (hc₀ c k0 k1 (fun h => hk0 (hk.trans h)) (hk.symm.trans (hb.trans hzi)))
    · refine (hk.add hzi).trans ?_
      ring_nf
      rfl

/-- C79: numbers in `[0, u^l)`.  For every key, secret `x` in the interval (below half of `Order`), blinding and all random numbers (with
the conditions of C54 that do not involve the challenge, and `x + 2hr ≢ 0`) there are `l + 1` numbers such that every other challenge gives
an accepted proof, as long as no `V[j]` has a stale coordinate. -/
theorem C79_ul (u l sk x r m : Int) (v s t : Nat → Int) (hu : 1 ≤ u) (hl : 0 ≤ l)
    (hk : ∀ m, 0 ≤ m → m < u → ¬ m + sk ≡ 0 [ZMOD bnOrder]) (hx : 0 ≤ x) (hxu : x < u ^ l.toNat) (hx2 : 2 * x < bnOrder) (hr : 0 ≤ r)
    (hm : 0 ≤ m) (hv : ∀ j, 0 ≤ v j) (hs : ∀ j, 0 ≤ s j) (ht : ∀ j, 0 ≤ t j)
    (h1 : NoClash (ccsH * m) (wts u s 0 l.toNat)) (h2 : NoClash x [ccsH * r]) (h3 : ¬ x + 2 * (ccsH * r) ≡ 0 [ZMOD bnOrder]) :
    ∃ (bad : List Int) (p : ParamsUL), bad.length ≤ l.toNat + 1 ∧ setupUL u l (some sk) = .ok p ∧
      ∀ sha : List UInt8 → List UInt8, (∀ b, (sha b).length = 32) →
        ∃ pr, proveUL sha x r p m v s t = .ok (some pr) ∧
          (pr.c ∉ bad → (∀ V ∈ pr.V, PairOk V) → ∃ pr', verifyUL pr p = .ok (true, pr')) := by
  obtain ⟨p, pk, e1, rfl, rfl, e2, e3, e4, e5⟩ := C54_setup u l sk hk
  obtain ⟨ds, w1, w0, wd, w2⟩ := C08_decompose x p.u p.l hu hl
  have hlen : ds.length = p.l.toNat := by omega
  obtain ⟨d, hd⟩ : ∃ d : Nat → Int, ∀ j, j < ds.length → ds[j]? = some (d j) :=
    ⟨fun j => ds.getD j 0, fun j hj => by simp [List.getElem?_eq_getElem hj]⟩
  have hw : (wts p.u d 0 p.l.toNat).sum = x := by
    rw [← hlen, wts_weighted p.u ds 0 d (fun j hj => by rw [zero_add]; exact hd j hj), w2, pow_zero, one_mul,
      Int.emod_eq_of_lt hx hxu]
  have hd0 : ∀ j, 0 ≤ j → j < 0 + p.l.toNat → 0 ≤ d j := fun j _ hj => (wd _ (List.mem_of_getElem? (hd j (by omega)))).1
  obtain ⟨bad, b1, b2⟩ := noClash_digits (d := d) (by omega : 0 ≤ p.u) p.l.toNat 0 (ccsH * m) hd0 (by rw [hw]; exact hx2) h1
  rw [hw] at b2
  obtain ⟨c₁, hc₁⟩ := residue_unique (b := ccsH * m) h3
  refine ⟨c₁ :: bad, p, by simpa using b1, e1, fun sha hsha => ?_⟩
  obtain ⟨p', pr, z, f1, f2, f3, f4, f5, f6⟩ := C54_honest sha hsha p.u p.l sk x r m v s t hu hl hk hx hr hm hv hs ht h1 h2
  obtain rfl : p = p' := Res.ok.inj (e1.symm.trans f1)
  obtain ⟨ds', pr', e, d', g1, g2, g3, -, -, g6, -, -, -, -, -, g12⟩ :=
    C54_proof sha hsha x r ccsH sk p m v s t hu hl (fun d hd => ⟨_, (e5 d).1 hd |>.choose_spec⟩) e4 hm hv hs ht h1
  obtain rfl : pr = pr' := Option.some.inj (Res.ok.inj (f2.symm.trans g3))
  obtain rfl : ds = ds' := Res.ok.inj (w1.symm.trans g1)
  refine ⟨pr, f2, fun hc hok => ?_⟩
  rw [List.mem_cons, not_or] at hc
  have z1 : pr.zr ≡ m - r * pr.c [ZMOD bnOrder] := by rw [g12]; exact Int.mod_modEq _ _
  have z2 : ∀ j, 0 ≤ j → j < 0 + p.l.toNat → z j ≡ s j - d j * pr.c [ZMOD bnOrder] := fun j _ hj => by
    obtain ⟨k1, _, V, a, _, _, _, _, k2, _⟩ := g6 j (by omega)
    rw [f3 j (by omega)] at k2
    rw [hd j (by omega)] at k1
    rw [Option.some.inj k2, Option.some.inj k1]
    exact Int.mod_modEq _ _
  have hn : NoClash ((x + ccsH * r) * pr.c) (ccsH * pr.zr :: wts p.u z 0 p.l.toNat) := by
    have e : (x + ccsH * r) * pr.c + ccsH * pr.zr ≡ ccsH * m + x * pr.c [ZMOD bnOrder] := by
      refine ((z1.mul_left ccsH).add_left _).trans ?_
      generalize ccsH = h
      ring_nf
      rfl
    refine ⟨.inr fun hb => hc.1 (hc₁ _ f4 f5 ?_), b2 pr.c f4 f5 hc.2 z _ z2 e⟩
    have := (hb.trans (z1.mul_left ccsH)).add_right (ccsH * r * pr.c)
    generalize ccsH = h at this ⊢
    ring_nf at this ⊢
    exact this
  obtain ⟨b, q, k1, k2⟩ := f6 hok hn
  have : b = true := k2.2 (by rw [Int.emod_eq_of_lt hx hxu, sub_self, mul_zero])
  exact ⟨q, this ▸ k1⟩

example := C79_ul 4 3 1234 27 3 11 (fun j => 13 + j) (fun j => 17 + j) (fun j => 19 + j)
  (by decide) (by decide) (by intro m h0 h1; interval_cases m <;> decide +kernel) (by decide) (by decide) (by decide +kernel) (by decide)
  (by decide) (fun j => by positivity) (fun j => by positivity) (fun j => by positivity) (by decide +kernel) (by decide +kernel)
  (by decide +kernel)

/-- C79: ranges.  For int64 bounds, every secret in the range (and in the interval of C55), every key, blinding and all random numbers, each
half has at most `l + 1` bad challenges; when both are avoided `Verify` accepts, as long as no `V[j]` has a stale coordinate. -/
theorem C79_interval (a b sk x r : Int) (w1 w2 : ULRandom) (hab : a ≤ b) (hb1 : b ≠ 1) (ha : -2 ^ 63 ≤ a) (hb : b < 2 ^ 63)
    (hx : a ≤ x) (hxb : x < b) (hx1 : b - 57 ^ digits57 b ≤ x) (hx2 : x < a + 57 ^ digits57 b)
    (hk : ∀ m, 0 ≤ m → m < 57 → ¬ m + sk ≡ 0 [ZMOD bnOrder]) (hr : 0 ≤ r) (hw1 : w1.Nonneg) (hw2 : w2.Nonneg)
    (hn1 : NoClash (ccsH * w1.m) (wts 57 w1.s 0 (digits57 b))) (hn2 : NoClash (ccsH * w2.m) (wts 57 w2.s 0 (digits57 b)))
    (hc1 : NoClash (x - b + 57 ^ digits57 b) [ccsH * r]) (hc2 : NoClash (x - a) [ccsH * r])
    (hd1 : ¬ x - b + 57 ^ digits57 b + 2 * (ccsH * r) ≡ 0 [ZMOD bnOrder]) (hd2 : ¬ x - a + 2 * (ccsH * r) ≡ 0 [ZMOD bnOrder]) :
    ∃ (bad1 bad2 : List Int) (p : CcsParams), bad1.length ≤ digits57 b + 1 ∧ bad2.length ≤ digits57 b + 1 ∧
      ccsSetup a b (some sk) = .ok (some p) ∧
      ∀ sha : List UInt8 → List UInt8, (∀ b, (sha b).length = 32) →
        ∃ p1 p2, ccsProve sha (some p) x r w1 w2 = .ok ⟨some p1, some p2⟩ ∧
          (p1.c ∉ bad1 → p2.c ∉ bad2 → (∀ V ∈ p1.V ++ p2.V, PairOk V) → ∃ pr', ccsVerify ⟨some p1, some p2⟩ (some p) = .ok (true, pr')) := by
  obtain ⟨p, hp, hsetup⟩ := (C55_setup a b sk hb hk).2 (by omega)
  have hsmall : (57 : Int) ^ digits57 b ≤ 57 ^ 11 := by
    refine pow_le_pow_right₀ (by norm_num) ?_
    have h11 : b.toNat < 57 ^ 11 := by
      have : (2 : Int) ^ 63 < 57 ^ 11 := by norm_num
      omega
    exact (Nat.digits_length_le_iff (by norm_num) _).2 h11
  have hbig : 2 * (57 : Int) ^ 11 < bnOrder := by decide +kernel
  generalize digits57 b = L at *
  have hL : (L : Int).toNat = L := by simp
  have hul : p.u = 57 ∧ p.l = L := by
    obtain ⟨q, _, g1, g2, g3, _⟩ := C54_setup 57 (L : Int) sk hk
    rw [hp] at g1
    cases g1
    exact ⟨g2, g3⟩
  obtain ⟨m1, v1, s1, t1⟩ := hw1
  obtain ⟨m2, v2, s2, t2⟩ := hw2
  obtain ⟨bad1, p', b1, e1, f1⟩ := C79_ul 57 L sk (x - b + 57 ^ L) r w1.m w1.v w1.s w1.t (by norm_num) (by omega) hk (by omega)
    (by rw [hL]; omega) (by omega) hr m1 v1 s1 t1 (by rw [hL]; exact hn1) hc1 hd1
  obtain rfl : p = p' := Res.ok.inj (hp.symm.trans e1)
  obtain ⟨bad2, p', b2, e2, f2⟩ := C79_ul 57 L sk (x - a) r w2.m w2.v w2.s w2.t (by norm_num) (by omega) hk (by omega)
    (by rw [hL]; omega) (by omega) hr m2 v2 s2 t2 (by rw [hL]; exact hn2) hc2 hd2
  obtain rfl : p = p' := Res.ok.inj (hp.symm.trans e2)
  rw [hL] at b1 b2
  refine ⟨bad1, bad2, ⟨p, a, b⟩, b1, b2, hsetup, fun sha hsha => ?_⟩
  obtain ⟨q1, g1, g2⟩ := f1 sha hsha
  obtain ⟨q2, k1, k2⟩ := f2 sha hsha
  refine ⟨q1, q2, ?_, fun h1 h2 hok => ?_⟩
  · simp only [ccsProve, Res.ofOption_some, Res.ok_bind, hul.1, hul.2, Int.toNat_natCast, g1, k1]
  · obtain ⟨r1, j1⟩ := g2 h1 (fun V hV => hok V (List.mem_append_left _ hV))
    obtain ⟨r2, j2⟩ := k2 h2 (fun V hV => hok V (List.mem_append_right _ hV))
    exact ⟨⟨some r1, some r2⟩, by simp only [ccsVerify, Res.ofOption_some, Res.ok_bind, j1, j2]; rfl⟩

/-- The range [18, 200), `x = 40`, blinding 3. -/
example := C79_interval 18 200 1234 40 3 ⟨11, fun j => 13 + j, fun j => 17 + j, fun j => 19 + j⟩
  ⟨12, fun j => 14 + j, fun j => 18 + j, fun j => 20 + j⟩ (by norm_num) (by norm_num) (by norm_num) (by norm_num) (by norm_num) (by norm_num)
  (by simp [digits57]) (by simp [digits57]) (by intro m h0 h1; interval_cases m <;> decide +kernel) (by norm_num)
  ⟨by norm_num, fun j => by positivity, fun j => by positivity, fun j => by positivity⟩
  ⟨by norm_num, fun j => by positivity, fun j => by positivity, fun j => by positivity⟩
  (by rw [show digits57 200 = 2 by simp [digits57]]; decide +kernel) (by rw [show digits57 200 = 2 by simp [digits57]]; decide +kernel)
  (by rw [show digits57 200 = 2 by simp [digits57]]; decide +kernel) (by decide +kernel)
  (by rw [show digits57 200 = 2 by simp [digits57]]; decide +kernel) (by decide +kernel)

end Verif

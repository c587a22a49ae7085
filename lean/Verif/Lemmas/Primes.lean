import Mathlib.NumberTheory.LucasPrimality
import Mathlib.Tactic.NormNum.Prime
import Mathlib.Algebra.BigOperators.Group.List.Basic
import Mathlib.Algebra.BigOperators.Associated

/-!
# Primality of the four field and group orders

Pratt certificates (generated by `tools/pratt.py`), checked by kernel evaluation of a
square-and-multiply exponentiation.
-/

namespace Verif

/-- Square-and-multiply modulo `m`: `acc * a^e mod m` for `e < 2^fuel`. -/
def powMod (m : Nat) : Nat → Nat → Nat → Nat → Nat
  | 0, _, _, acc => acc
  | fuel + 1, a, e, acc =>
    if e = 0 then acc
    else powMod m fuel (a * a % m) (e / 2) (if e % 2 = 1 then acc * a % m else acc)

theorem powMod_spec (m fuel a e acc : Nat) (he : e < 2 ^ fuel) :
    (powMod m fuel a e acc : ZMod m) = (acc : ZMod m) * (a : ZMod m) ^ e := by
  induction fuel generalizing a e acc with
  | zero =>
    have : e = 0 := by simpa using he
    subst this; simp [powMod]
  | succ fuel ih =>
    rw [powMod]
    split
    · rename_i h; subst h; simp
    · rw [ih _ _ _ (by rw [pow_succ] at he; omega)]
      have hsq : ((a * a % m : Nat) : ZMod m) = (a : ZMod m) ^ 2 := by
        rw [ZMod.natCast_mod]; push_cast; ring
      rw [hsq, ← pow_mul]
      split
      · rename_i h
        rw [ZMod.natCast_mod]; push_cast
        have : e = 2 * (e / 2) + 1 := by omega
        conv_rhs => rw [this, pow_succ]
        ring
      · have : e = 2 * (e / 2) := by omega
        conv_rhs => rw [this]

/-- The checks of a Pratt certificate with base `a` for `p`, given the factorisation of `p-1`. -/
def prattCheck (p a : Nat) (fs : List (Nat × Nat)) : Bool :=
  decide (1 < p) && decide (p - 1 < 2 ^ 256) &&
  decide ((fs.map (fun f => f.1 ^ f.2)).prod = p - 1) &&
  decide (powMod p 256 a (p - 1) 1 % p = 1) &&
  fs.all (fun f => decide (powMod p 256 a ((p - 1) / f.1) 1 % p ≠ 1))

theorem pratt (p a : Nat) (fs : List (Nat × Nat)) (hc : prattCheck p a fs = true)
    (hfs : ∀ f ∈ fs, f.1.Prime) : p.Prime := by
  simp only [prattCheck, Bool.and_eq_true, decide_eq_true_eq, List.all_eq_true] at hc
  obtain ⟨⟨⟨⟨h1, hlt⟩, hprod⟩, hpow⟩, hall⟩ := hc
  have conv : ∀ e, e < 2 ^ 256 → ((a : ZMod p) ^ e = 1 ↔ powMod p 256 a e 1 % p = 1) := by
    intro e he
    have := powMod_spec p 256 a e 1 he
    rw [Nat.cast_one, one_mul] at this
    rw [← this, ← Nat.cast_one (R := ZMod p), ZMod.natCast_eq_natCast_iff, Nat.ModEq,
      Nat.mod_eq_of_lt h1]
  refine lucas_primality p (a : ZMod p) ((conv _ hlt).2 hpow) ?_
  intro q hq hqd
  rw [← hprod] at hqd
  obtain ⟨x, hx, hqx⟩ := (Prime.dvd_prod_iff (Nat.prime_iff.1 hq)).1 hqd
  obtain ⟨f, hf, rfl⟩ := List.mem_map.1 hx
  have hqf : q = f.1 :=
    (Nat.prime_dvd_prime_iff_eq hq (hfs f hf)).1 (hq.dvd_of_dvd_pow hqx)
  rw [hqf, Ne, conv _ (lt_of_le_of_lt (Nat.div_le_self _ _) hlt)]
  exact hall f hf

theorem prime_2 : Nat.Prime 2 := by norm_num

theorem prime_3 : Nat.Prime 3 := by norm_num

theorem prime_7 : Nat.Prime 7 := by norm_num

theorem prime_13441 : Nat.Prime 13441 := by norm_num

theorem prime_5 : Nat.Prime 5 := by norm_num

theorem prime_29 : Nat.Prime 29 := by norm_num

theorem prime_31 : Nat.Prime 31 := by norm_num

theorem prime_7723 : Nat.Prime 7723 := by norm_num

theorem prime_5323 : Nat.Prime 5323 := by norm_num

theorem prime_2621 : Nat.Prime 2621 := by norm_num

theorem prime_24809 : Nat.Prime 24809 := by norm_num

theorem prime_971 : Nat.Prime 971 := by norm_num

theorem prime_1373 : Nat.Prime 1373 := by norm_num

theorem prime_13331831 : Nat.Prime 13331831 :=
  pratt 13331831 13 [(2, 1), (5, 1), (971, 1), (1373, 1)]
    (by decide +kernel) (by simp only [List.forall_mem_cons]; exact ⟨prime_2, ⟨prime_5, ⟨prime_971, ⟨prime_1373, by simp⟩⟩⟩⟩)

theorem prime_173378833005251801 : Nat.Prime 173378833005251801 :=
  pratt 173378833005251801 6 [(2, 3), (5, 2), (2621, 1), (24809, 1), (13331831, 1)]
    (by decide +kernel) (by simp only [List.forall_mem_cons]; exact ⟨prime_2, ⟨prime_5, ⟨prime_2621, ⟨prime_24809, ⟨prime_13331831, by simp⟩⟩⟩⟩⟩)

theorem prime_22149492674086928081353 : Nat.Prime 22149492674086928081353 :=
  pratt 22149492674086928081353 5 [(2, 3), (3, 1), (5323, 1), (173378833005251801, 1)]
    (by decide +kernel) (by simp only [List.forall_mem_cons]; exact ⟨prime_2, ⟨prime_3, ⟨prime_5323, ⟨prime_173378833005251801, by simp⟩⟩⟩⟩)

theorem prime_132896956044521568488119 : Nat.Prime 132896956044521568488119 :=
  pratt 132896956044521568488119 6 [(2, 1), (3, 1), (22149492674086928081353, 1)]
    (by decide +kernel) (by simp only [List.forall_mem_cons]; exact ⟨prime_2, ⟨prime_3, ⟨prime_22149492674086928081353, by simp⟩⟩⟩)

theorem prime_11 : Nat.Prime 11 := by norm_num

theorem prime_1627 : Nat.Prime 1627 := by norm_num

theorem prime_2657 : Nat.Prime 2657 := by norm_num

theorem prime_4423 : Nat.Prime 4423 := by norm_num

theorem prime_41201 : Nat.Prime 41201 := by norm_num

theorem prime_96557 : Nat.Prime 96557 := by norm_num

theorem prime_20113 : Nat.Prime 20113 := by norm_num

theorem prime_1206781 : Nat.Prime 1206781 :=
  pratt 1206781 10 [(2, 2), (3, 1), (5, 1), (20113, 1)]
    (by decide +kernel) (by simp only [List.forall_mem_cons]; exact ⟨prime_2, ⟨prime_3, ⟨prime_5, ⟨prime_20113, by simp⟩⟩⟩⟩)

theorem prime_7240687 : Nat.Prime 7240687 :=
  pratt 7240687 3 [(2, 1), (3, 1), (1206781, 1)]
    (by decide +kernel) (by simp only [List.forall_mem_cons]; exact ⟨prime_2, ⟨prime_3, ⟨prime_1206781, by simp⟩⟩⟩)

theorem prime_53 : Nat.Prime 53 := by norm_num

theorem prime_107590001 : Nat.Prime 107590001 :=
  pratt 107590001 3 [(2, 4), (5, 4), (7, 1), (29, 1), (53, 1)]
    (by decide +kernel) (by simp only [List.forall_mem_cons]; exact ⟨prime_2, ⟨prime_5, ⟨prime_7, ⟨prime_29, ⟨prime_53, by simp⟩⟩⟩⟩⟩)

theorem prime_255515944373312847190720520512484175977 : Nat.Prime 255515944373312847190720520512484175977 :=
  pratt 255515944373312847190720520512484175977 3 [(2, 3), (7, 2), (11, 1), (1627, 1), (2657, 1), (4423, 1), (41201, 1), (96557, 1), (7240687, 1), (107590001, 1)]
    (by decide +kernel) (by simp only [List.forall_mem_cons]; exact ⟨prime_2, ⟨prime_7, ⟨prime_11, ⟨prime_1627, ⟨prime_2657, ⟨prime_4423, ⟨prime_41201, ⟨prime_96557, ⟨prime_7240687, ⟨prime_107590001, by simp⟩⟩⟩⟩⟩⟩⟩⟩⟩⟩)

theorem prime_205115282021455665897114700593932402728804164701536103180137503955397371 : Nat.Prime 205115282021455665897114700593932402728804164701536103180137503955397371 :=
  pratt 205115282021455665897114700593932402728804164701536103180137503955397371 10 [(2, 1), (3, 1), (5, 1), (29, 2), (31, 1), (7723, 1), (132896956044521568488119, 1), (255515944373312847190720520512484175977, 1)]
    (by decide +kernel) (by simp only [List.forall_mem_cons]; exact ⟨prime_2, ⟨prime_3, ⟨prime_5, ⟨prime_29, ⟨prime_31, ⟨prime_7723, ⟨prime_132896956044521568488119, ⟨prime_255515944373312847190720520512484175977, by simp⟩⟩⟩⟩⟩⟩⟩⟩)

theorem prime_115792089237316195423570985008687907853269984665640564039457584007908834671663 : Nat.Prime 115792089237316195423570985008687907853269984665640564039457584007908834671663 :=
  pratt 115792089237316195423570985008687907853269984665640564039457584007908834671663 3 [(2, 1), (3, 1), (7, 1), (13441, 1), (205115282021455665897114700593932402728804164701536103180137503955397371, 1)]
    (by decide +kernel) (by simp only [List.forall_mem_cons]; exact ⟨prime_2, ⟨prime_3, ⟨prime_7, ⟨prime_13441, ⟨prime_205115282021455665897114700593932402728804164701536103180137503955397371, by simp⟩⟩⟩⟩⟩)

theorem prime_149 : Nat.Prime 149 := by norm_num

theorem prime_631 : Nat.Prime 631 := by norm_num

theorem prime_16699 : Nat.Prime 16699 := by norm_num

theorem prime_85831 : Nat.Prime 85831 := by norm_num

theorem prime_97 : Nat.Prime 97 := by norm_num

theorem prime_2011 : Nat.Prime 2011 := by norm_num

theorem prime_4681609 : Nat.Prime 4681609 :=
  pratt 4681609 23 [(2, 3), (3, 1), (97, 1), (2011, 1)]
    (by decide +kernel) (by simp only [List.forall_mem_cons]; exact ⟨prime_2, ⟨prime_3, ⟨prime_97, ⟨prime_2011, by simp⟩⟩⟩⟩)

theorem prime_107361793816595537 : Nat.Prime 107361793816595537 :=
  pratt 107361793816595537 3 [(2, 4), (16699, 1), (85831, 1), (4681609, 1)]
    (by decide +kernel) (by simp only [List.forall_mem_cons]; exact ⟨prime_2, ⟨prime_16699, ⟨prime_85831, ⟨prime_4681609, by simp⟩⟩⟩⟩)

theorem prime_17 : Nat.Prime 17 := by norm_num

theorem prime_59 : Nat.Prime 59 := by norm_num

theorem prime_4051 : Nat.Prime 4051 := by norm_num

theorem prime_120233 : Nat.Prime 120233 := by norm_num

theorem prime_797 : Nat.Prime 797 := by norm_num

theorem prime_9349 : Nat.Prime 9349 := by norm_num

theorem prime_44706919 : Nat.Prime 44706919 :=
  pratt 44706919 6 [(2, 1), (3, 1), (797, 1), (9349, 1)]
    (by decide +kernel) (by simp only [List.forall_mem_cons]; exact ⟨prime_2, ⟨prime_3, ⟨prime_797, ⟨prime_9349, by simp⟩⟩⟩⟩)

theorem prime_174723607534414371449 : Nat.Prime 174723607534414371449 :=
  pratt 174723607534414371449 3 [(2, 3), (17, 1), (59, 1), (4051, 1), (120233, 1), (44706919, 1)]
    (by decide +kernel) (by simp only [List.forall_mem_cons]; exact ⟨prime_2, ⟨prime_17, ⟨prime_59, ⟨prime_4051, ⟨prime_120233, ⟨prime_44706919, by simp⟩⟩⟩⟩⟩⟩)

theorem prime_109 : Nat.Prime 109 := by norm_num

theorem prime_293 : Nat.Prime 293 := by norm_num

theorem prime_2731 : Nat.Prime 2731 := by norm_num

theorem prime_305873 : Nat.Prime 305873 :=
  pratt 305873 3 [(2, 4), (7, 1), (2731, 1)]
    (by decide +kernel) (by simp only [List.forall_mem_cons]; exact ⟨prime_2, ⟨prime_7, ⟨prime_2731, by simp⟩⟩⟩)

theorem prime_41 : Nat.Prime 41 := by norm_num

theorem prime_28181 : Nat.Prime 28181 := by norm_num

theorem prime_545358713 : Nat.Prime 545358713 :=
  pratt 545358713 5 [(2, 3), (41, 1), (59, 1), (28181, 1)]
    (by decide +kernel) (by simp only [List.forall_mem_cons]; exact ⟨prime_2, ⟨prime_41, ⟨prime_59, ⟨prime_28181, by simp⟩⟩⟩⟩)

theorem prime_461 : Nat.Prime 461 := by norm_num

theorem prime_1871 : Nat.Prime 1871 := by norm_num

theorem prime_1627771 : Nat.Prime 1627771 :=
  pratt 1627771 3 [(2, 1), (3, 1), (5, 1), (29, 1), (1871, 1)]
    (by decide +kernel) (by simp only [List.forall_mem_cons]; exact ⟨prime_2, ⟨prime_3, ⟨prime_5, ⟨prime_29, ⟨prime_1871, by simp⟩⟩⟩⟩⟩)

theorem prime_297159362677 : Nat.Prime 297159362677 :=
  pratt 297159362677 2 [(2, 2), (3, 2), (11, 1), (461, 1), (1627771, 1)]
    (by decide +kernel) (by simp only [List.forall_mem_cons]; exact ⟨prime_2, ⟨prime_3, ⟨prime_11, ⟨prime_461, ⟨prime_1627771, by simp⟩⟩⟩⟩⟩)

theorem prime_29047611873442575647497758179 : Nat.Prime 29047611873442575647497758179 :=
  pratt 29047611873442575647497758179 2 [(2, 1), (293, 1), (305873, 1), (545358713, 1), (297159362677, 1)]
    (by decide +kernel) (by simp only [List.forall_mem_cons]; exact ⟨prime_2, ⟨prime_293, ⟨prime_305873, ⟨prime_545358713, ⟨prime_297159362677, by simp⟩⟩⟩⟩⟩)

theorem prime_341948486974166000522343609283189 : Nat.Prime 341948486974166000522343609283189 :=
  pratt 341948486974166000522343609283189 2 [(2, 2), (3, 3), (109, 1), (29047611873442575647497758179, 1)]
    (by decide +kernel) (by simp only [List.forall_mem_cons]; exact ⟨prime_2, ⟨prime_3, ⟨prime_109, ⟨prime_29047611873442575647497758179, by simp⟩⟩⟩⟩)

theorem prime_115792089237316195423570985008687907852837564279074904382605163141518161494337 : Nat.Prime 115792089237316195423570985008687907852837564279074904382605163141518161494337 :=
  pratt 115792089237316195423570985008687907852837564279074904382605163141518161494337 7 [(2, 6), (3, 1), (149, 1), (631, 1), (107361793816595537, 1), (174723607534414371449, 1), (341948486974166000522343609283189, 1)]
    (by decide +kernel) (by simp only [List.forall_mem_cons]; exact ⟨prime_2, ⟨prime_3, ⟨prime_149, ⟨prime_631, ⟨prime_107361793816595537, ⟨prime_174723607534414371449, ⟨prime_341948486974166000522343609283189, by simp⟩⟩⟩⟩⟩⟩⟩)

theorem prime_13 : Nat.Prime 13 := by norm_num

theorem prime_983 : Nat.Prime 983 := by norm_num

theorem prime_11003 : Nat.Prime 11003 := by norm_num

theorem prime_3691 : Nat.Prime 3691 := by norm_num

theorem prime_4999 : Nat.Prime 4999 := by norm_num

theorem prime_405928799 : Nat.Prime 405928799 :=
  pratt 405928799 22 [(2, 1), (11, 1), (3691, 1), (4999, 1)]
    (by decide +kernel) (by simp only [List.forall_mem_cons]; exact ⟨prime_2, ⟨prime_11, ⟨prime_3691, ⟨prime_4999, by simp⟩⟩⟩⟩)

theorem prime_67 : Nat.Prime 67 := by norm_num

theorem prime_229 : Nat.Prime 229 := by norm_num

theorem prime_311 : Nat.Prime 311 := by norm_num

theorem prime_19 : Nat.Prime 19 := by norm_num

theorem prime_37 : Nat.Prime 37 := by norm_num

theorem prime_233 : Nat.Prime 233 := by norm_num

theorem prime_327599 : Nat.Prime 327599 :=
  pratt 327599 19 [(2, 1), (19, 1), (37, 1), (233, 1)]
    (by decide +kernel) (by simp only [List.forall_mem_cons]; exact ⟨prime_2, ⟨prime_19, ⟨prime_37, ⟨prime_233, by simp⟩⟩⟩⟩)

theorem prime_11465965001 : Nat.Prime 11465965001 :=
  pratt 11465965001 3 [(2, 3), (5, 4), (7, 1), (327599, 1)]
    (by decide +kernel) (by simp only [List.forall_mem_cons]; exact ⟨prime_2, ⟨prime_5, ⟨prime_7, ⟨prime_327599, by simp⟩⟩⟩⟩)

theorem prime_271 : Nat.Prime 271 := by norm_num

theorem prime_1853641 : Nat.Prime 1853641 :=
  pratt 1853641 17 [(2, 3), (3, 2), (5, 1), (19, 1), (271, 1)]
    (by decide +kernel) (by simp only [List.forall_mem_cons]; exact ⟨prime_2, ⟨prime_3, ⟨prime_5, ⟨prime_19, ⟨prime_271, by simp⟩⟩⟩⟩⟩)

theorem prime_1231 : Nat.Prime 1231 := by norm_num

theorem prime_4562087 : Nat.Prime 4562087 :=
  pratt 4562087 5 [(2, 1), (17, 1), (109, 1), (1231, 1)]
    (by decide +kernel) (by simp only [List.forall_mem_cons]; exact ⟨prime_2, ⟨prime_17, ⟨prime_109, ⟨prime_1231, by simp⟩⟩⟩⟩)

theorem prime_73 : Nat.Prime 73 := by norm_num

theorem prime_89 : Nat.Prime 89 := by norm_num

theorem prime_13327 : Nat.Prime 13327 := by norm_num

theorem prime_173171039 : Nat.Prime 173171039 :=
  pratt 173171039 13 [(2, 1), (73, 1), (89, 1), (13327, 1)]
    (by decide +kernel) (by simp only [List.forall_mem_cons]; exact ⟨prime_2, ⟨prime_73, ⟨prime_89, ⟨prime_13327, by simp⟩⟩⟩⟩)

theorem prime_911 : Nat.Prime 911 := by norm_num

theorem prime_3557 : Nat.Prime 3557 := by norm_num

theorem prime_1263766531 : Nat.Prime 1263766531 :=
  pratt 1263766531 10 [(2, 1), (3, 1), (5, 1), (13, 1), (911, 1), (3557, 1)]
    (by decide +kernel) (by simp only [List.forall_mem_cons]; exact ⟨prime_2, ⟨prime_3, ⟨prime_5, ⟨prime_13, ⟨prime_911, ⟨prime_3557, by simp⟩⟩⟩⟩⟩⟩)

theorem prime_35385462869 : Nat.Prime 35385462869 :=
  pratt 35385462869 2 [(2, 2), (7, 1), (1263766531, 1)]
    (by decide +kernel) (by simp only [List.forall_mem_cons]; exact ⟨prime_2, ⟨prime_7, ⟨prime_1263766531, by simp⟩⟩⟩)

theorem prime_2480874801745591 : Nat.Prime 2480874801745591 :=
  pratt 2480874801745591 6 [(2, 1), (3, 2), (5, 1), (19, 1), (41, 1), (35385462869, 1)]
    (by decide +kernel) (by simp only [List.forall_mem_cons]; exact ⟨prime_2, ⟨prime_3, ⟨prime_5, ⟨prime_19, ⟨prime_41, ⟨prime_35385462869, by simp⟩⟩⟩⟩⟩⟩)

theorem prime_13427688667394608761327070753331941386769 : Nat.Prime 13427688667394608761327070753331941386769 :=
  pratt 13427688667394608761327070753331941386769 17 [(2, 4), (3, 1), (7, 1), (11, 1), (1853641, 1), (4562087, 1), (173171039, 1), (2480874801745591, 1)]
    (by decide +kernel) (by simp only [List.forall_mem_cons]; exact ⟨prime_2, ⟨prime_3, ⟨prime_7, ⟨prime_11, ⟨prime_1853641, ⟨prime_4562087, ⟨prime_173171039, ⟨prime_2480874801745591, by simp⟩⟩⟩⟩⟩⟩⟩⟩)

theorem prime_21888242871839275222246405745257275088696311157297823662689037894645226208583 : Nat.Prime 21888242871839275222246405745257275088696311157297823662689037894645226208583 :=
  pratt 21888242871839275222246405745257275088696311157297823662689037894645226208583 3 [(2, 1), (3, 2), (13, 1), (29, 1), (983, 1), (11003, 1), (405928799, 1), (67, 1), (229, 1), (311, 1), (11465965001, 1), (13427688667394608761327070753331941386769, 1)]
    (by decide +kernel) (by simp only [List.forall_mem_cons]; exact ⟨prime_2, ⟨prime_3, ⟨prime_13, ⟨prime_29, ⟨prime_983, ⟨prime_11003, ⟨prime_405928799, ⟨prime_67, ⟨prime_229, ⟨prime_311, ⟨prime_11465965001, ⟨prime_13427688667394608761327070753331941386769, by simp⟩⟩⟩⟩⟩⟩⟩⟩⟩⟩⟩⟩)

theorem prime_449 : Nat.Prime 449 := by norm_num

theorem prime_237073 : Nat.Prime 237073 :=
  pratt 237073 15 [(2, 4), (3, 1), (11, 1), (449, 1)]
    (by decide +kernel) (by simp only [List.forall_mem_cons]; exact ⟨prime_2, ⟨prime_3, ⟨prime_11, ⟨prime_449, by simp⟩⟩⟩⟩)

theorem prime_107 : Nat.Prime 107 := by norm_num

theorem prime_661 : Nat.Prime 661 := by norm_num

theorem prime_93001 : Nat.Prime 93001 := by norm_num

theorem prime_12048837557 : Nat.Prime 12048837557 :=
  pratt 12048837557 2 [(2, 2), (7, 2), (661, 1), (93001, 1)]
    (by decide +kernel) (by simp only [List.forall_mem_cons]; exact ⟨prime_2, ⟨prime_7, ⟨prime_661, ⟨prime_93001, by simp⟩⟩⟩⟩)

theorem prime_5156902474397 : Nat.Prime 5156902474397 :=
  pratt 5156902474397 2 [(2, 2), (107, 1), (12048837557, 1)]
    (by decide +kernel) (by simp only [List.forall_mem_cons]; exact ⟨prime_2, ⟨prime_107, ⟨prime_12048837557, by simp⟩⟩⟩)

theorem prime_1670836401704629 : Nat.Prime 1670836401704629 :=
  pratt 1670836401704629 2 [(2, 2), (3, 4), (5156902474397, 1)]
    (by decide +kernel) (by simp only [List.forall_mem_cons]; exact ⟨prime_2, ⟨prime_3, ⟨prime_5156902474397, by simp⟩⟩⟩)

theorem prime_823 : Nat.Prime 823 := by norm_num

theorem prime_41927 : Nat.Prime 41927 := by norm_num

theorem prime_1593227 : Nat.Prime 1593227 :=
  pratt 1593227 2 [(2, 1), (19, 1), (41927, 1)]
    (by decide +kernel) (by simp only [List.forall_mem_cons]; exact ⟨prime_2, ⟨prime_19, ⟨prime_41927, by simp⟩⟩⟩)

theorem prime_83 : Nat.Prime 83 := by norm_num

theorem prime_379 : Nat.Prime 379 := by norm_num

theorem prime_1637 : Nat.Prime 1637 := by norm_num

theorem prime_853 : Nat.Prime 853 := by norm_num

theorem prime_639533339 : Nat.Prime 639533339 :=
  pratt 639533339 2 [(2, 1), (229, 1), (853, 1), (1637, 1)]
    (by decide +kernel) (by simp only [List.forall_mem_cons]; exact ⟨prime_2, ⟨prime_229, ⟨prime_853, ⟨prime_1637, by simp⟩⟩⟩⟩)

theorem prime_65865678001877903 : Nat.Prime 65865678001877903 :=
  pratt 65865678001877903 5 [(2, 1), (83, 1), (379, 1), (1637, 1), (639533339, 1)]
    (by decide +kernel) (by simp only [List.forall_mem_cons]; exact ⟨prime_2, ⟨prime_83, ⟨prime_379, ⟨prime_1637, ⟨prime_639533339, by simp⟩⟩⟩⟩⟩)

theorem prime_13818364434197438864469338081 : Nat.Prime 13818364434197438864469338081 :=
  pratt 13818364434197438864469338081 3 [(2, 5), (5, 1), (823, 1), (1593227, 1), (65865678001877903, 1)]
    (by decide +kernel) (by simp only [List.forall_mem_cons]; exact ⟨prime_2, ⟨prime_5, ⟨prime_823, ⟨prime_1593227, ⟨prime_65865678001877903, by simp⟩⟩⟩⟩⟩)

theorem prime_21888242871839275222246405745257275088548364400416034343698204186575808495617 : Nat.Prime 21888242871839275222246405745257275088548364400416034343698204186575808495617 :=
  pratt 21888242871839275222246405745257275088548364400416034343698204186575808495617 5 [(2, 28), (3, 2), (13, 1), (29, 1), (983, 1), (11003, 1), (237073, 1), (405928799, 1), (1670836401704629, 1), (13818364434197438864469338081, 1)]
    (by decide +kernel) (by simp only [List.forall_mem_cons]; exact ⟨prime_2, ⟨prime_3, ⟨prime_13, ⟨prime_29, ⟨prime_983, ⟨prime_11003, ⟨prime_237073, ⟨prime_405928799, ⟨prime_1670836401704629, ⟨prime_13818364434197438864469338081, by simp⟩⟩⟩⟩⟩⟩⟩⟩⟩⟩)

end Verif

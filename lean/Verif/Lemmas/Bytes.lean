import Verif.Model.Bytes
import Verif.Spec.Bytes
import Mathlib.Data.Nat.Digits.Lemmas
import Mathlib.Tactic.Ring
import Mathlib.Tactic.Linarith
import Mathlib.Tactic.Positivity

namespace Verif
open Spec

/-- Quantification over bytes is a finite check over `Fin 256`. -/
theorem forall_byte {P : UInt8 → Prop} (h : ∀ n : Fin 256, P (UInt8.ofFin n)) (b : UInt8) : P b := by
  have := h b.toFin
  simpa using this

theorem foldl256 (bs : List UInt8) (a : Nat) :
    bs.foldl (fun a b => a * 256 + b.toNat) a = a * 256 ^ bs.length + unsigned bs := by
  induction bs generalizing a with
  | nil => simp [unsigned]
  | cons b bs ih => simp only [List.foldl_cons, ih, unsigned, List.length_cons, pow_succ]; ring

theorem setBytes_eq (bs : List UInt8) : setBytes bs = unsigned bs := by
  rw [setBytes, foldl256]; simp

theorem unsigned_lt (bs : List UInt8) : unsigned bs < 256 ^ bs.length := by
  induction bs with
  | nil => simp [unsigned]
  | cons b bs ih =>
    have hb : b.toNat ≤ 255 := by have := b.toNat_lt; omega
    simp only [unsigned, List.length_cons, pow_succ]
    nlinarith [Nat.mul_le_mul_right (256 ^ bs.length) hb]

theorem unsigned_append (a b : List UInt8) :
    unsigned (a ++ b) = unsigned a * 256 ^ b.length + unsigned b := by
  rw [← setBytes_eq, setBytes, List.foldl_append, foldl256, foldl256]; simp

theorem unsigned_flip (bs : List UInt8) :
    unsigned (flipBytes bs) + unsigned bs + 1 = 256 ^ bs.length := by
  induction bs with
  | nil => rfl
  | cons b bs ih =>
    have hb : (b ^^^ 255).toNat + b.toNat = 255 :=
      forall_byte (P := fun b => (b ^^^ 255).toNat + b.toNat = 255) (by decide +kernel) b
    have hl : (flipBytes bs).length = bs.length := by simp [flipBytes]
    have : flipBytes (b :: bs) = (b ^^^ 255) :: flipBytes bs := rfl
    rw [this]
    simp only [unsigned, hl, List.length_cons, pow_succ]
    have h2 : (b ^^^ 255).toNat * 256 ^ bs.length + b.toNat * 256 ^ bs.length
      = 255 * 256 ^ bs.length := by rw [← add_mul, hb]
    omega

theorem natBytes_zero : natBytes 0 = [] := by simp [natBytes]

theorem unsigned_natBytes (n : Nat) : unsigned (natBytes n) = n := by
  induction n using Nat.strong_induction_on with
  | _ n ih =>
    rcases Nat.eq_zero_or_pos n with rfl | hn
    · simp [natBytes, unsigned]
    · have h : natBytes n = natBytes (n / 256) ++ [UInt8.ofNat (n % 256)] := by
        simp [natBytes, Nat.digits_def' (b := 256) (by norm_num) hn]
      rw [h, unsigned_append, ih _ (by omega)]
      simp [unsigned]
      omega

theorem natBytes_length (n : Nat) (k : Nat) : (natBytes n).length ≤ k ↔ n < 256 ^ k := by
  simp [natBytes, Nat.digits_length_le_iff]

theorem natBytes_length_eq {n k : Nat} (h1 : 256 ^ k ≤ n) (h2 : n < 256 ^ (k + 1)) :
    (natBytes n).length = k + 1 := by
  have a := (natBytes_length n (k + 1)).2 h2
  have b : ¬ (natBytes n).length ≤ k := by rw [natBytes_length]; omega
  omega

theorem unsigned_injective {a b : List UInt8} (hl : a.length = b.length)
    (h : unsigned a = unsigned b) : a = b := by
  induction a generalizing b with
  | nil => cases b with
    | nil => rfl
    | cons => simp at hl
  | cons x a ih => cases b with
    | nil => simp at hl
    | cons y b =>
      simp only [List.length_cons, Nat.add_right_cancel_iff] at hl
      simp only [unsigned, hl] at h
      have ha := unsigned_lt a
      have hb := unsigned_lt b
      rw [hl] at ha
      have hx : x.toNat = y.toNat := by
        have := congrArg (· / 256 ^ b.length) h
        simp only [mul_comm _ (256 ^ b.length)] at this
        rwa [Nat.mul_add_div (by positivity), Nat.mul_add_div (by positivity),
          Nat.div_eq_of_lt ha, Nat.div_eq_of_lt hb, add_zero, add_zero] at this
      have : x = y := UInt8.toNat_inj.1 hx
      subst this
      rw [ih hl (by omega)]

theorem topBit (b : UInt8) : (b &&& 128 ≠ 0) ↔ 128 ≤ b.toNat :=
  forall_byte (P := fun b => (b &&& 128 ≠ 0) ↔ 128 ≤ b.toNat) (by decide +kernel) b

/-- Top bit of a non-empty string in terms of its unsigned value. -/
theorem topBit_unsigned (b : UInt8) (bs : List UInt8) :
    128 ≤ b.toNat ↔ 128 * 256 ^ bs.length ≤ unsigned (b :: bs) := by
  have := unsigned_lt bs
  simp only [unsigned]
  constructor
  · intro h; nlinarith [Nat.mul_le_mul_right (256 ^ bs.length) h]
  · intro h
    by_contra hc
    have hb : b.toNat + 1 ≤ 128 := by omega
    nlinarith [Nat.mul_le_mul_right (256 ^ bs.length) hb]

theorem twos_cons (b : UInt8) (bs : List UInt8) :
    twos (b :: bs) = if 128 * 256 ^ bs.length ≤ unsigned (b :: bs)
      then (unsigned (b :: bs) : Int) - 256 ^ (bs.length + 1) else unsigned (b :: bs) := by
  have h := topBit_unsigned b bs
  by_cases hb : 128 ≤ b.toNat
  · rw [if_pos (h.1 hb)]; simp only [twos, if_pos hb, unsigned]; push_cast; ring
  · rw [if_neg (fun hh => hb (h.2 hh))]; simp only [twos, if_neg hb, unsigned]; push_cast; ring

/-- Exact range of `n+1`-byte two's complement values. -/
theorem twos_range (b : UInt8) (bs : List UInt8) :
    -(128 * 256 ^ bs.length) ≤ twos (b :: bs) ∧ twos (b :: bs) < 128 * 256 ^ bs.length := by
  have hlt := unsigned_lt (b :: bs)
  rw [List.length_cons, pow_succ] at hlt
  have hlt' : (unsigned (b :: bs) : Int) < 256 ^ bs.length * 256 := by exact_mod_cast hlt
  rw [twos_cons]
  split
  · rename_i h
    have h' : (128 * 256 ^ bs.length : Int) ≤ unsigned (b :: bs) := by exact_mod_cast h
    rw [pow_succ]
    constructor <;> linarith [pow_pos (by norm_num : (0:Int) < 256) bs.length]
  · rename_i h
    have h' : (unsigned (b :: bs) : Int) < 128 * 256 ^ bs.length := by exact_mod_cast not_le.1 h
    constructor
    · have := pow_pos (by norm_num : (0:Int) < 256) bs.length
      have h0 : (0 : Int) ≤ unsigned (b :: bs) := Int.natCast_nonneg _
      linarith
    · exact h'

/-- Every integer in the range has an encoding of that length. -/
theorem exists_encoding (n : Nat) (x : Int) (h1 : -(128 * 256 ^ n) ≤ x) (h2 : x < 128 * 256 ^ n) :
    ∃ b bs, bs.length = n ∧ twos (b :: bs) = x := by
  obtain ⟨v, hv, hvx⟩ : ∃ v : Nat, v < 256 ^ (n + 1) ∧
      x = if 128 * 256 ^ n ≤ v then (v : Int) - 256 ^ (n + 1) else v := by
    have hp := pow_pos (by norm_num : (0:Int) < 256) n
    rcases lt_or_ge x 0 with hx | hx
    · refine ⟨(x + 256 ^ (n+1)).toNat, ?_, ?_⟩
      · have : (((x + 256 ^ (n+1)).toNat : Nat) : Int) = x + 256 ^ (n+1) := by
          rw [Int.toNat_of_nonneg]; rw [pow_succ]; linarith
        have : (((x + 256 ^ (n+1)).toNat : Nat) : Int) < 256 ^ (n+1) := by rw [this]; linarith
        exact_mod_cast this
      · have h3 : (((x + 256 ^ (n+1)).toNat : Nat) : Int) = x + 256 ^ (n+1) := by
          rw [Int.toNat_of_nonneg]; rw [pow_succ]; linarith
        rw [if_pos, h3]; · ring
        have : ((128 * 256 ^ n : Nat) : Int) ≤ (((x + 256 ^ (n+1)).toNat : Nat) : Int) := by
          rw [h3]; push_cast; rw [pow_succ]; linarith
        exact_mod_cast this
    · obtain ⟨v, rfl⟩ := Int.eq_ofNat_of_zero_le hx
      have h2' : v < 128 * 256 ^ n := by exact_mod_cast h2
      refine ⟨v, by rw [pow_succ]; omega, by rw [if_neg (by omega)]⟩
  -- pad the minimal bytes with zeros
  have hl : (natBytes v).length ≤ n + 1 := (natBytes_length _ _).2 hv
  set l := List.replicate (n + 1 - (natBytes v).length) (0 : UInt8) ++ natBytes v with hldef
  have hlen : l.length = n + 1 := by simp [hldef]; omega
  have hz : ∀ k, unsigned (List.replicate k (0 : UInt8)) = 0 := by
    intro k; induction k with
    | zero => rfl
    | succ k ih => simp [List.replicate_succ, unsigned, ih]
  have hu : unsigned l = v := by
    rw [hldef, unsigned_append, hz, unsigned_natBytes]; simp
  match hl' : l, hlen, hu with
  | b :: bs, hlen, hu =>
    simp only [List.length_cons, Nat.add_right_cancel_iff] at hlen
    refine ⟨b, bs, hlen, ?_⟩
    rw [twos_cons, hu, hlen, hvx]

theorem natBytes_ne_nil {n : Nat} (h : n ≠ 0) : natBytes n ≠ [] := by
  intro hc
  have := unsigned_natBytes n
  rw [hc] at this
  exact h this.symm

theorem idx_zero_cons {α : Type} (a : α) (l : List α) : idx (a :: l) 0 = .ok a := rfl

theorem fromByteArray_cons (b : UInt8) (bs : List UInt8) :
    fromByteArray (b :: bs) = .ok (some (twos (b :: bs))) := by
  have hdef : fromByteArray (b :: bs) = (do
      let highestByte ← idx (b :: bs) 0
      if highestByte &&& 128 ≠ 0 then
        let tmpInt : Int := (setBytes (b :: bs) : Int) - 1
        let tmpBytes := natBytes tmpInt.natAbs
        let b0 ← idx tmpBytes 0
        let convertedBytes := if b0 = 255 then (flipBytes tmpBytes).drop 1 else flipBytes tmpBytes
        let tmp : Int := setBytes convertedBytes
        .ok (some (tmp * (-1)))
      else
        .ok (some (setBytes (b :: bs) : Int))) := by
    rw [fromByteArray, if_neg (by simp)]
  rw [hdef, idx_zero_cons, Res.ok_bind]
  simp only [topBit, setBytes_eq, topBit_unsigned b bs]
  rw [twos_cons]
  have hlt := unsigned_lt (b :: bs)
  set u := unsigned (b :: bs) with hu
  have hp : 0 < 256 ^ bs.length := by positivity
  rw [List.length_cons] at hlt
  split
  · rename_i h
    have hu1 : ((u : Int) - 1).natAbs = u - 1 := by omega
    rw [hu1]
    have hne : u - 1 ≠ 0 := by omega
    -- shape of tmpBytes
    have htl : (natBytes (u - 1)).length = bs.length + 1 := by
      apply natBytes_length_eq _ (by omega); omega
    have htu := unsigned_natBytes (u - 1)
    match htb : natBytes (u - 1), htl, htu with
    | t :: ts, htl, htu =>
      simp only [List.length_cons, Nat.add_right_cancel_iff] at htl
      rw [idx_zero_cons, Res.ok_bind]
      have hf := unsigned_flip (t :: ts)
      rw [List.length_cons, htl, htu] at hf
      have hconv : unsigned (if t = 255 then (flipBytes (t :: ts)).drop 1 else flipBytes (t :: ts))
          = unsigned (flipBytes (t :: ts)) := by
        split
        · rename_i h255
          subst h255
          simp [flipBytes, unsigned]
        · rfl
      rw [hconv]
      congr 2
      have : (unsigned (flipBytes (t :: ts)) : Int) + (u - 1 : Int) + 1 = 256 ^ (bs.length + 1) := by
        have h1 : ((unsigned (flipBytes (t :: ts)) + (u - 1) + 1 : Nat) : Int)
          = ((256 ^ (bs.length + 1) : Nat) : Int) := by rw [hf]
        push_cast [Nat.cast_sub (show 1 ≤ u by omega)] at h1
        linarith
      linarith
  · rfl

theorem toByteArray_props (x : Int) (n : Nat)
    (hmin : x.natAbs < 256 ^ (n + 1)) (hmin' : x.natAbs ≠ 0 → 256 ^ n ≤ x.natAbs)
    (hz : x.natAbs = 0 → n = 0) :
    ∃ b bs, toByteArray x = b :: bs ∧ twos (b :: bs) = x ∧
      bs.length = if 128 * 256 ^ n ≤ x.natAbs then n + 1 else n := by
  set m := x.natAbs with hm
  have hp : 0 < 256 ^ n := by positivity
  rcases Nat.eq_zero_or_pos m with h0 | hpos
  · have hn := hz h0
    subst hn
    have hx : x = 0 := by omega
    refine ⟨0, [], ?_, ?_, ?_⟩
    · rw [toByteArray, ← hm, h0, natBytes_zero]
    · rw [hx]; simp [twos, unsigned]
    · rw [h0]; simp
  · have hbl := natBytes_length_eq (hmin' (by omega)) hmin
    have hbu := unsigned_natBytes m
    match hb : natBytes m, hbl, hbu with
    | t :: ts, hbl, hbu =>
      simp only [List.length_cons, Nat.add_right_cancel_iff] at hbl
      have hdef : toByteArray x = if ¬ x < 0 then
            if t &&& 128 ≠ 0 then 0 :: t :: ts else t :: ts
          else
            natBytes (setBytes (if t &&& 128 ≠ 0 then 255 :: flipBytes (t :: ts)
              else flipBytes (t :: ts)) + 1) := by
        rw [toByteArray, ← hm, hb]
      have htop := topBit_unsigned t ts
      rw [hbl, hbu] at htop
      rw [hdef]
      simp only [topBit, htop, setBytes_eq]
      by_cases hx : x < 0
      · rw [if_neg (not_not.2 hx)]
        have hf := unsigned_flip (t :: ts)
        rw [List.length_cons, hbl, hbu] at hf
        have hfl : (flipBytes (t :: ts)).length = n + 1 := by simp [flipBytes, hbl]
        by_cases hh : 128 * 256 ^ n ≤ m
        · rw [if_pos hh, if_pos hh]
          have hv : unsigned (255 :: flipBytes (t :: ts)) + 1 + m = 256 ^ (n + 2) := by
            simp only [unsigned, hfl]
            have : (255 : UInt8).toNat = 255 := rfl
            rw [this, pow_succ 256 (n+1)]
            omega
          have hvl : (natBytes (unsigned (255 :: flipBytes (t :: ts)) + 1)).length = n + 1 + 1 := by
            apply natBytes_length_eq
            · rw [pow_succ 256 (n+1)] at hv; omega
            · change _ < 256 ^ (n + 2); omega
          have hvu := unsigned_natBytes (unsigned (255 :: flipBytes (t :: ts)) + 1)
          match hvb : natBytes (unsigned (255 :: flipBytes (t :: ts)) + 1), hvl, hvu with
          | c :: cs, hvl, hvu =>
            simp only [List.length_cons, Nat.add_right_cancel_iff] at hvl
            refine ⟨c, cs, rfl, ?_, hvl⟩
            rw [twos_cons, hvl, hvu, if_pos]
            · have : ((unsigned (255 :: flipBytes (t :: ts)) + 1 + m : Nat) : Int)
                  = ((256 ^ (n + 2) : Nat) : Int) := by rw [hv]
              push_cast at this ⊢
              have hxm : x = -(m : Int) := by omega
              linarith
            · have e1 : 256 ^ (n + 2) = 256 * 256 ^ (n + 1) := by ring
              rw [e1] at hv
              omega
        · rw [if_neg hh, if_neg hh]
          have hvl : (natBytes (unsigned (flipBytes (t :: ts)) + 1)).length = n + 1 := by
            apply natBytes_length_eq
            · rw [pow_succ] at hf; omega
            · omega
          have hvu := unsigned_natBytes (unsigned (flipBytes (t :: ts)) + 1)
          match hvb : natBytes (unsigned (flipBytes (t :: ts)) + 1), hvl, hvu with
          | c :: cs, hvl, hvu =>
            simp only [List.length_cons, Nat.add_right_cancel_iff] at hvl
            refine ⟨c, cs, rfl, ?_, hvl⟩
            rw [twos_cons, hvl, hvu, if_pos]
            · have : ((unsigned (flipBytes (t :: ts)) + m + 1 : Nat) : Int)
                  = ((256 ^ (n + 1) : Nat) : Int) := by rw [hf]
              push_cast at this ⊢
              have hxm : x = -(m : Int) := by omega
              linarith
            · rw [pow_succ] at hf
              omega
      · rw [if_pos hx]
        have hxm : x = (m : Int) := by omega
        by_cases hh : 128 * 256 ^ n ≤ m
        · rw [if_pos hh, if_pos hh]
          refine ⟨0, t :: ts, rfl, ?_, by simp [hbl]⟩
          have : twos (0 :: t :: ts) = (unsigned (t :: ts) : Int) := by simp [twos]
          rw [this, hbu, hxm]
        · rw [if_neg hh, if_neg hh]
          refine ⟨t, ts, rfl, ?_, hbl⟩
          rw [twos_cons, hbl, hbu, if_neg hh, hxm]

/-- Every non-zero number has a byte size. -/
theorem exists_size (m : Nat) : ∃ n, m < 256 ^ (n + 1) ∧ (m ≠ 0 → 256 ^ n ≤ m) ∧ (m = 0 → n = 0) := by
  rcases Nat.eq_zero_or_pos m with rfl | h
  · exact ⟨0, by norm_num, by simp, by simp⟩
  · refine ⟨Nat.log 256 m, Nat.lt_pow_succ_log_self (by norm_num) m,
      fun h => Nat.pow_log_le_self 256 h, by omega⟩

end Verif

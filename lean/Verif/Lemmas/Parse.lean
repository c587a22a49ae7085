import Verif.Lemmas.Bytes

namespace Verif
open Spec

theorem foldl10 (bs : List UInt8) (a : Int) :
    bs.foldl (fun (a : Int) b => a * 10 + ((b.toNat : Int) - 48)) a
      = a * 10 ^ bs.length + digitsVal bs := by
  induction bs generalizing a with
  | nil => simp [digitsVal]
  | cons b bs ih => simp only [List.foldl_cons, ih, digitsVal, List.length_cons, pow_succ]; ring

theorem setString10_eq (s : List UInt8) : setString10 s = intValue s := by
  match s with
  | [] => rfl
  | c :: r =>
    by_cases hc : c = 45
    · subst hc; simp [setString10, intValue, foldl10]
    · simp only [setString10, if_neg hc, foldl10, zero_mul, zero_add]
      unfold intValue
      split
      · rename_i h; injection h with h1 h2; exact absurd h1 hc
      · rfl

theorem isDigit_iff (b : UInt8) : ((48 : UInt8) ≤ b && b ≤ 57) = true ↔ IsDigit b := by
  simp [IsDigit, UInt8.le_iff_toNat_le]

theorem validFrom_iff (k : Nat) (s : List UInt8) :
    validFrom k s = true ↔ ∀ i b, s[i]? = some b → IsDigit b ∨ (k + i = 0 ∧ b = 45) := by
  induction s generalizing k with
  | nil => simp [validFrom]
  | cons e es ih =>
    rw [validFrom, Bool.and_eq_true, Bool.or_eq_true, isDigit_iff, ih]
    simp only [Bool.and_eq_true, beq_iff_eq]
    constructor
    · rintro ⟨h1, h2⟩ i b hi
      cases i with
      | zero =>
        simp only [List.getElem?_cons_zero, Option.some.injEq] at hi
        subst hi; simpa using h1
      | succ i =>
        rw [List.getElem?_cons_succ] at hi
        rcases h2 i b hi with h | h
        · exact Or.inl h
        · omega
    · intro h
      refine ⟨by simpa using h 0 e rfl, fun i b hi => ?_⟩
      rcases h (i + 1) b (by rwa [List.getElem?_cons_succ]) with h | h
      · exact Or.inl h
      · omega

theorem splitComma_ne_nil (s : List UInt8) : splitComma s ≠ [] := by
  cases s with
  | nil => simp [splitComma]
  | cons c r => simp only [splitComma]; split <;> [simp; (split <;> simp)]

theorem splitComma_length (s : List UInt8) : (splitComma s).length = s.count 44 + 1 := by
  induction s with
  | nil => rfl
  | cons c r ih =>
    simp only [splitComma]
    split
    · rename_i h; subst h; simp [ih]
    · rename_i h
      have := splitComma_ne_nil r
      match hs : splitComma r with
      | [] => exact absurd hs this
      | a :: t => rw [hs] at ih; simp [List.count_cons, h] at ih ⊢; exact ih

/-- Prepend a prefix to the first piece. -/
def prependFirst (cur : List UInt8) : List (List UInt8) → List (List UInt8)
  | [] => [cur]
  | h :: t => (cur ++ h) :: t

theorem parseLoop_eq (pre cur rest : List UInt8) (out : List Int) :
    parseLoop (pre ++ cur ++ rest) pre.length (pre.length + cur.length) out rest
      = ((prependFirst cur (splitComma rest)).mapM convertToBigInt).map (out ++ ·) := by
  induction rest generalizing pre cur out with
  | nil =>
    have h1 : ((pre ++ cur ++ []).drop pre.length) = cur := by simp
    simp only [List.append_nil] at h1
    simp only [parseLoop, splitComma, prependFirst, List.append_nil, List.mapM_cons,
      List.mapM_nil, h1]
    cases convertToBigInt cur <;> rfl
  | cons c r ih =>
    by_cases hc : c = 44
    · subst hc
      have h1 : ((pre ++ cur ++ 44 :: r).take (pre.length + cur.length)).drop pre.length = cur := by
        rw [List.append_assoc, List.take_length_add_append]
        simp
      have h2 := fun out' => ih (pre ++ cur ++ [44]) [] out'
      have h3 : (pre ++ (cur ++ [44])).length = pre.length + cur.length + 1 := by simp; omega
      simp only [List.append_nil, List.append_assoc, List.length_nil, Nat.add_zero,
        List.cons_append, List.nil_append, h3] at h2
      simp only [parseLoop, if_pos, List.append_assoc, splitComma] at h1 ⊢
      rw [h1]
      have h4 : prependFirst [] (splitComma r) = splitComma r := by
        match hs : splitComma r with
        | [] => exact absurd hs (splitComma_ne_nil r)
        | a :: t => rfl
      rw [h4] at h2
      simp only [h2]
      simp only [prependFirst, List.append_nil, List.mapM_cons]
      cases convertToBigInt cur with
      | none => rfl
      | some v =>
        cases List.mapM convertToBigInt (splitComma r) with
        | none => rfl
        | some vs => simp
    · have h2 := ih pre (cur ++ [c]) out
      simp only [List.append_assoc, List.cons_append, List.nil_append, List.length_append,
        List.length_cons, List.length_nil] at h2
      simp only [parseLoop, if_neg hc, List.append_assoc]
      rw [Nat.add_assoc, h2]
      simp only [splitComma, if_neg hc]
      match hs : splitComma r with
      | [] => exact absurd hs (splitComma_ne_nil r)
      | a :: t => simp [prependFirst]

theorem parseInput_eq (s : List UInt8) :
    parseInput s = (splitComma s).mapM convertToBigInt := by
  have h := parseLoop_eq [] [] s []
  simp only [List.append_nil, List.nil_append, List.length_nil, Nat.add_zero] at h
  rw [parseInput, h]
  match hs : splitComma s with
  | [] => exact absurd hs (splitComma_ne_nil s)
  | a :: t => simp [prependFirst]

theorem splitComma_noComma (s : List UInt8) (h : (44 : UInt8) ∉ s) : splitComma s = [s] := by
  induction s with
  | nil => rfl
  | cons c r ih =>
    simp only [List.mem_cons, not_or] at h
    rw [splitComma, if_neg (Ne.symm h.1), ih h.2]

theorem splitComma_append (s r : List UInt8) (h : (44 : UInt8) ∉ s) :
    splitComma (s ++ 44 :: r) = s :: splitComma r := by
  induction s with
  | nil => simp [splitComma]
  | cons c s ih =>
    simp only [List.mem_cons, not_or] at h
    rw [List.cons_append, splitComma, if_neg (Ne.symm h.1), ih h.2]

theorem splitComma_join (ss : List (List UInt8)) (hne : ss ≠ [])
    (h : ∀ s ∈ ss, (44 : UInt8) ∉ s) : splitComma (joinComma ss) = ss := by
  induction ss with
  | nil => exact absurd rfl hne
  | cons s t ih =>
    cases t with
    | nil => exact splitComma_noComma s (h s (by simp))
    | cons t ts =>
      rw [joinComma, splitComma_append _ _ (h s (by simp)),
        ih (by simp) (fun x hx => h x (List.mem_cons_of_mem _ hx))]

theorem asciiDigit_toNat {d : Nat} (h : d < 10) : (asciiDigit d).toNat = 48 + d := by
  simp only [asciiDigit, UInt8.toNat_ofNat']; omega

theorem digitsVal_append (a b : List UInt8) :
    digitsVal (a ++ b) = digitsVal a * 10 ^ b.length + digitsVal b := by
  have h1 := foldl10 (a ++ b) 0
  rw [List.foldl_append, foldl10, foldl10] at h1
  simpa using h1.symm

theorem digitsVal_digits (n : Nat) :
    digitsVal ((Nat.digits 10 n).reverse.map asciiDigit) = n := by
  induction n using Nat.strong_induction_on with
  | _ n ih =>
    rcases Nat.eq_zero_or_pos n with rfl | hn
    · simp [digitsVal]
    · rw [Nat.digits_def' (b := 10) (by norm_num) hn, List.reverse_cons, List.map_append,
        digitsVal_append, ih _ (by omega)]
      simp only [List.map_cons, List.map_nil, digitsVal, List.length_nil, List.length_cons,
        asciiDigit_toNat (Nat.mod_lt n (by norm_num : 0 < 10))]
      push_cast
      omega

theorem decNat_isDigit (n : Nat) : ∀ b ∈ decNat n, IsDigit b := by
  intro b hb
  rw [decNat] at hb
  split at hb
  · simp only [List.mem_singleton] at hb; subst hb; exact ⟨by decide, by decide⟩
  · simp only [List.mem_map, List.mem_reverse] at hb
    obtain ⟨d, hd, rfl⟩ := hb
    have hd' := Nat.digits_lt_base (by norm_num : 1 < 10) hd
    simp only [IsDigit, asciiDigit_toNat hd']; omega

theorem digitsVal_decNat (n : Nat) : digitsVal (decNat n) = n := by
  rw [decNat]; split
  · rename_i h; subst h; rfl
  · exact digitsVal_digits n

theorem decInt_noComma (x : Int) : (44 : UInt8) ∉ decInt x := by
  intro h
  have hd : ∀ n, (44 : UInt8) ∉ decNat n := fun n hn => by
    have := (decNat_isDigit n _ hn).1
    exact absurd this (by decide)
  rw [decInt] at h
  split at h
  · simp only [List.mem_cons] at h
    rcases h with h | h
    · exact absurd h (by decide)
    · exact hd _ h
  · exact hd _ h

theorem convertToBigInt_decInt (x : Int) : convertToBigInt (decInt x) = some x := by
  have hdig := decNat_isDigit x.natAbs
  have hget : ∀ (i : Nat) b, (decNat x.natAbs)[i]? = some b → IsDigit b :=
    fun i b h => hdig b (List.mem_of_getElem? h)
  rw [convertToBigInt, if_pos, setString10_eq]
  · rw [decInt]
    split
    · rename_i h
      simp only [intValue, digitsVal_decNat]
      congr 1; omega
    · rename_i h
      have : intValue (decNat x.natAbs) = digitsVal (decNat x.natAbs) := by
        unfold intValue
        split
        · rename_i r heq
          have := (hdig 45 (by rw [heq]; simp)).1
          exact absurd this (by decide)
        · rfl
      rw [this, digitsVal_decNat]; congr 1; omega
  · rw [validFrom_iff]
    intro i b hi
    rw [decInt] at hi
    split at hi
    · cases i with
      | zero =>
        simp only [List.getElem?_cons_zero, Option.some.injEq] at hi
        exact Or.inr ⟨rfl, hi.symm⟩
      | succ i => exact Or.inl (hget i b (by rwa [List.getElem?_cons_succ] at hi))
    · exact Or.inl (hget i b hi)

end Verif

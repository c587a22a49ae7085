import Verif.Lemmas.Parse

/-! # C01-C05: byte and text encodings of integers -/

namespace Verif
open Spec

/-- C01: decoding an encoded integer gives the integer back, with no error and no panic. -/
theorem C01_roundtrip (x : Int) : fromByteArray (toByteArray x) = .ok (some x) := by
  obtain ⟨n, h1, h2, h3⟩ := exists_size x.natAbs
  obtain ⟨b, bs, hb, ht, _⟩ := toByteArray_props x n h1 h2 h3
  rw [hb, fromByteArray_cons, ht]

example : toByteArray (-300) = [254, 212] := by decide +kernel

/-- C02: total characterisation of `FromByteArray`. -/
theorem C02_fromByteArray (bs : List UInt8) :
    fromByteArray bs = .ok (if bs = [] then none else some (twos bs)) := by
  cases bs with
  | nil => rfl
  | cons b bs => rw [fromByteArray_cons, if_neg (by simp)]

/-- The specification of C02 on an example: `ff 38` is `-200`. -/
example : twos [255, 56] = -200 := by decide

/-- C03 (i): the output is an encoding of the input. -/
theorem C03_encodes (x : Int) : Encodes (toByteArray x) x := by
  obtain ⟨n, h1, h2, h3⟩ := exists_size x.natAbs
  obtain ⟨b, bs, hb, ht, _⟩ := toByteArray_props x n h1 h2 h3
  rw [hb]; exact ⟨by simp, ht⟩

example : Encodes (toByteArray (-200)) (-200) := C03_encodes (-200)

private theorem pow_rewrite (k : Nat) : (2 : Int) ^ (8 * k + 7) = 128 * 256 ^ k := by
  rw [pow_add, pow_mul]; norm_num; ring

/-- C03 (ii): it is a shortest encoding unless `x` is `-2^(8k+7)`. -/
theorem C03_minimal (x : Int) (hx : ∀ k : Nat, x ≠ -2 ^ (8 * k + 7)) (bs : List UInt8)
    (hbs : Encodes bs x) : (toByteArray x).length ≤ bs.length := by
  obtain ⟨n, h1, h2, h3⟩ := exists_size x.natAbs
  obtain ⟨b, cs, hb, ht, hl⟩ := toByteArray_props x n h1 h2 h3
  rw [hb]
  match bs, hbs with
  | c :: ds, ⟨_, hds⟩ =>
    have hr := twos_range c ds
    rw [hds] at hr
    simp only [List.length_cons, Nat.add_le_add_iff_right]
    by_contra hcon
    have hlt : ds.length < cs.length := not_le.1 hcon
    have hxn : x ≠ -(128 * 256 ^ ds.length) := fun h => hx ds.length (by rw [pow_rewrite, h])
    have hab : x.natAbs < 128 * 256 ^ ds.length := by
      have e : ((128 * 256 ^ ds.length : Nat) : Int) = 128 * 256 ^ ds.length := by push_cast; rfl
      omega
    split at hl
    · have : 256 ^ ds.length ≤ 256 ^ n := Nat.pow_le_pow_right (by norm_num) (by omega)
      omega
    · have hn : n ≠ 0 := by omega
      have hm : x.natAbs ≠ 0 := fun h => hn (h3 h)
      have h4 := h2 hm
      have : 256 ^ ds.length * 256 ≤ 256 ^ n := by
        rw [← pow_succ]; exact Nat.pow_le_pow_right (by norm_num) (by omega)
      omega

/-- No encoding of 200 has fewer than two bytes; `00 00 c8` is another one. -/
example : (toByteArray 200).length ≤ [0, 0, (200 : UInt8)].length ∧ toByteArray 200 = [0, 200] :=
  ⟨C03_minimal 200 (fun k => by have : (0 : Int) < 2 ^ (8 * k + 7) := by positivity
                                omega) _ ⟨by simp, by decide⟩, by decide⟩

/-- C03 (iii): for `x = -2^(8k+7)` the shortest encoding has `k+1` bytes but `ToByteArray`
returns `k+2` bytes. -/
theorem C03_exception (k : Nat) :
    (∃ bs, Encodes bs (-2 ^ (8 * k + 7)) ∧ bs.length = k + 1) ∧
    (∀ bs, Encodes bs (-2 ^ (8 * k + 7)) → k + 1 ≤ bs.length) ∧
    (toByteArray (-2 ^ (8 * k + 7))).length = k + 2 := by
  rw [pow_rewrite]
  have hp := pow_pos (by norm_num : (0:Int) < 256) k
  refine ⟨?_, ?_, ?_⟩
  · obtain ⟨b, bs, hl, ht⟩ := exists_encoding k (-(128 * 256 ^ k)) (le_refl _) (by linarith)
    exact ⟨b :: bs, ⟨by simp, ht⟩, by simp [hl]⟩
  · rintro bs ⟨hne, ht⟩
    match bs, hne with
    | c :: ds, _ =>
      have hr := twos_range c ds
      rw [ht] at hr
      by_contra hcon
      simp only [List.length_cons, Nat.add_le_add_iff_right, not_le] at hcon
      have : (256 : Int) ^ (ds.length) * 256 ≤ 256 ^ k := by
        rw [← pow_succ]; exact pow_le_pow_right₀ (by norm_num) (by omega)
      have h0 := pow_pos (by norm_num : (0:Int) < 256) ds.length
      linarith [hr.1]
  · have hab : (-(128 * 256 ^ k) : Int).natAbs = 128 * 256 ^ k := by
      rw [Int.natAbs_neg, Int.natAbs_mul, Int.natAbs_pow]; rfl
    have hp' : 0 < 256 ^ k := by positivity
    obtain ⟨b, cs, hb, _, hl⟩ := toByteArray_props (-(128 * 256 ^ k)) k
      (by rw [hab, pow_succ]; omega) (by rw [hab]; omega) (by rw [hab]; omega)
    rw [hb, List.length_cons, hl, hab, if_pos (le_refl _)]

/-- The hypothesis of `C03_minimal` holds e.g. for `x = -200`, which takes two bytes. -/
example : (∀ k : Nat, (-200 : Int) ≠ -2 ^ (8 * k + 7)) ∧ Encodes [255, 56] (-200) := by
  refine ⟨fun k h => ?_, by decide, by decide⟩
  have h' : (2 : Int) ^ (8 * k + 7) = 200 := by linarith
  rw [pow_rewrite] at h'
  omega

/-- C04 (i): parsing the comma-separated decimal representations returns the integers. -/
theorem C04_parse_join (xs : List Int) (hne : xs ≠ []) :
    parseInput (joinComma (xs.map decInt)) = some xs := by
  rw [parseInput_eq, splitComma_join _ (by simpa using hne)]
  · clear hne
    induction xs with
    | nil => rfl
    | cons x xs ih =>
      rw [List.map_cons, List.mapM_cons, ih, convertToBigInt_decInt]; rfl
  · intro s hs
    obtain ⟨x, _, rfl⟩ := List.mem_map.1 hs
    exact decInt_noComma x

/-- `12,-7,0` -/
example : parseInput (joinComma [decInt 12, decInt (-7), decInt 0]) = some [12, -7, 0] := C04_parse_join [12, -7, 0] (by simp)

/-- C04 (ii): accepted inputs: the pieces between commas are converted one by one (an error
of any piece is an error of the whole), so there is one more result than there are commas. -/
theorem C04_parse_pieces (s : List UInt8) :
    parseInput s = (splitComma s).mapM convertToBigInt := parseInput_eq s

theorem C04_parse_count (s : List UInt8) (ys : List Int) (h : parseInput s = some ys) :
    ys.length = s.count 44 + 1 := by
  rw [parseInput_eq] at h
  have hlen : ∀ (ss : List (List UInt8)) (ys : List Int),
      ss.mapM convertToBigInt = some ys → ys.length = ss.length := by
    intro ss
    induction ss with
    | nil => intro ys h; simp at h; subst h; rfl
    | cons s ss ih =>
      intro ys h
      rw [List.mapM_cons] at h
      cases hv : convertToBigInt s with
      | none => rw [hv] at h; exact absurd h (by simp)
      | some v =>
        cases hvs : ss.mapM convertToBigInt with
        | none => rw [hv, hvs] at h; exact absurd h (by simp)
        | some vs =>
          rw [hv, hvs] at h
          simp only [Option.bind_eq_bind, Option.bind_some, Option.pure_def, Option.some.injEq] at h
          subst h
          simp [ih vs hvs]
  rw [hlen _ _ h, splitComma_length]

/-- "12,-7,0" parses to `[12, -7, 0]`. -/
example : joinComma ([12, -7, 0].map decInt) = [49, 50, 44, 45, 55, 44, 48] ∧
    parseInput [49, 50, 44, 45, 55, 44, 48] = some [12, -7, 0] := by
  decide +kernel

/-- C05: exact behaviour of `ConvertToBigInt`. -/
theorem C05_accepts (s : List UInt8) :
    (IntSyntax s → convertToBigInt s = some (intValue s)) ∧
    (¬ IntSyntax s → convertToBigInt s = none) := by
  have h : IntSyntax s ↔ validFrom 0 s = true := by
    rw [validFrom_iff]; simp [IntSyntax]
  constructor
  · intro hs; rw [convertToBigInt, if_pos (h.1 hs), setString10_eq]
  · intro hs; rw [convertToBigInt, if_neg (fun hc => hs (h.2 hc))]

/-- The empty string and "-" are accepted as 0; "1a" is rejected. -/
example : convertToBigInt [] = some 0 ∧ convertToBigInt [45] = some 0 ∧
    convertToBigInt [49, 97] = none := by decide

end Verif

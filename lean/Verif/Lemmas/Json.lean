import Verif.Model.Json
import Verif.Lemmas.Transcript

/-! # JSON texts are read back -/

namespace Verif
open Spec

mutual
/-- Number literals follow the grammar, strings need no escapes. -/
def Json.WF : Json → Prop
  | .null => True
  | .bool _ => True
  | .num lit => validNum lit = true ∧ lit.all isNumByte = true
  | .str s => s.all isStrByte = true
  | .arr l => l.WF
  | .obj m => m.WF
def JsonList.WF : JsonList → Prop
  | .nil => True
  | .cons v l => v.WF ∧ l.WF
def JsonMembers.WF : JsonMembers → Prop
  | .nil => True
  | .cons k v m => k.all isStrByte = true ∧ v.WF ∧ m.WF
end

mutual
/-- Recursion depth which suffices. -/
def Json.need : Json → Nat
  | .null => 1
  | .bool _ => 1
  | .num _ => 1
  | .str _ => 1
  | .arr l => 1 + l.need
  | .obj m => 1 + m.need
def JsonList.need : JsonList → Nat
  | .nil => 0
  | .cons v l => 1 + v.need + l.need
def JsonMembers.need : JsonMembers → Nat
  | .nil => 0
  | .cons _ v m => 1 + v.need + m.need
end

/-- What follows is not a continuation of a number. -/
def Stop (rest : List UInt8) : Prop := ∀ b ∈ rest.head?, isNumByte b = false

theorem numByte_facts (b : UInt8) (h : isNumByte b = true) :
    isWs b = false ∧ b ≠ 93 ∧ b ≠ 125 ∧ b ≠ 123 ∧ b ≠ 91 ∧ b ≠ 34 ∧ b ≠ 110 ∧ b ≠ 116 ∧ b ≠ 102 := by
  revert h
  refine forall_byte (P := fun b => isNumByte b = true →
    isWs b = false ∧ b ≠ 93 ∧ b ≠ 125 ∧ b ≠ 123 ∧ b ≠ 91 ∧ b ≠ 34 ∧ b ≠ 110 ∧ b ≠ 116 ∧ b ≠ 102) ?_ b
  decide +kernel

theorem takeWhile_append_all {p : UInt8 → Bool} {a b : List UInt8} (ha : a.all p = true)
    (hb : ∀ x ∈ b.head?, p x = false) : (a ++ b).takeWhile p = a ∧ (a ++ b).dropWhile p = b := by
  induction a with
  | nil => cases b with
    | nil => simp
    | cons x b => simp [hb x (by simp)]
  | cons y a ih =>
    rw [List.all_cons, Bool.and_eq_true] at ha
    obtain ⟨h1, h2⟩ := ih ha.2
    simp [ha.1, h1, h2]

theorem parseStr_append {s rest : List UInt8} (hs : s.all isStrByte = true) :
    parseStr (s ++ 34 :: rest) = some (s, rest) := by
  induction s with
  | nil => rw [List.nil_append, parseStr.eq_def]; exact if_pos rfl
  | cons b s ih =>
    rw [List.all_cons, Bool.and_eq_true] at hs
    have h := hs.1
    simp only [isStrByte, Bool.and_eq_true, decide_eq_true_eq, bne_iff_ne, ne_eq] at h
    rw [List.cons_append, parseStr.eq_def]
    dsimp only
    rw [if_neg h.1.2, if_neg h.2, if_pos h.1.1, ih hs.2]
    rfl

theorem skipWs_cons {c : UInt8} (h : isWs c = false) (r : List UInt8) : skipWs (c :: r) = c :: r := by
  simp [skipWs, h]

/-- The first byte of a value. -/
theorem Json.print_cons {j : Json} (h : j.WF) :
    ∃ c r, j.print = c :: r ∧ isWs c = false ∧ c ≠ 93 := by
  cases j with
  | null => exact ⟨_, _, rfl, by decide, by decide⟩
  | bool b => cases b <;> exact ⟨_, _, rfl, by decide, by decide⟩
  | num lit =>
    rw [Json.WF] at h
    cases lit with
    | nil => exact absurd h.1 (by decide)
    | cons c r =>
      obtain ⟨h1, h2, -⟩ := numByte_facts c (by have := h.2; rw [List.all_cons, Bool.and_eq_true] at this; exact this.1)
      exact ⟨c, r, by rw [Json.print], h1, h2⟩
  | str s => exact ⟨34, s ++ [34], by rw [Json.print]; rfl, by decide, by decide⟩
  | arr l => cases l with
    | nil => exact ⟨91, [93], by rw [Json.print], by decide, by decide⟩
    | cons v l => exact ⟨91, v.print ++ l.print, by rw [Json.print]; rfl, by decide, by decide⟩
  | obj m => cases m with
    | nil => exact ⟨123, [125], by rw [Json.print], by decide, by decide⟩
    | cons k v m =>
      exact ⟨123, 34 :: k ++ 34 :: 58 :: v.print ++ m.print, by rw [Json.print]; simp, by decide, by decide⟩

theorem JsonList.print_stop (l : JsonList) (rest : List UInt8) : Stop (l.print ++ rest) := by
  cases l <;> (rw [JsonList.print]; intro b hb; simp at hb; subst hb; decide)

theorem JsonMembers.print_stop (m : JsonMembers) (rest : List UInt8) : Stop (m.print ++ rest) := by
  cases m <;> (rw [JsonMembers.print]; intro b hb; simp at hb; subst hb; decide)

mutual
theorem parseVal_print : ∀ (j : Json), j.WF → ∀ (f : Nat) (rest : List UInt8), j.need ≤ f → Stop rest →
    parseVal f (j.print ++ rest) = some (j, rest)
  | .null, _, f, rest, hf, _ => by
    rw [Json.need] at hf
    obtain ⟨f, rfl⟩ := Nat.exists_eq_add_of_le' hf
    rw [parseVal, Json.print]
    simp only [List.cons_append, skipWs_cons (show isWs 110 = false by decide)]
    simp
  | .bool b, _, f, rest, hf, _ => by
    rw [Json.need] at hf
    obtain ⟨f, rfl⟩ := Nat.exists_eq_add_of_le' hf
    cases b
    · rw [parseVal, Json.print]
      simp only [List.cons_append, skipWs_cons (show isWs 102 = false by decide)]
      simp
    · rw [parseVal, Json.print]
      simp only [List.cons_append, skipWs_cons (show isWs 116 = false by decide)]
      simp
  | .num lit, hj, f, rest, hf, hr => by
    rw [Json.need] at hf
    obtain ⟨f, rfl⟩ := Nat.exists_eq_add_of_le' hf
    rw [Json.WF] at hj
    obtain ⟨h1, h2⟩ := takeWhile_append_all hj.2 hr
    cases lit with
    | nil => exact absurd hj.1 (by decide)
    | cons c r =>
      obtain ⟨k1, k2, k3, k4, k5, k6, k7, k8, k9⟩ := numByte_facts c
        (by have := hj.2; rw [List.all_cons, Bool.and_eq_true] at this; exact this.1)
      rw [parseVal, Json.print, List.cons_append, skipWs_cons k1]
      rw [List.cons_append] at h1 h2
      simp only [if_neg k4, if_neg k5, if_neg k6, if_neg k7, if_neg k8, if_neg k9, h1, h2, if_pos hj.1]
  | .str s, hj, f, rest, hf, _ => by
    rw [Json.need] at hf
    obtain ⟨f, rfl⟩ := Nat.exists_eq_add_of_le' hf
    rw [Json.WF] at hj
    rw [parseVal, Json.print]
    simp only [List.cons_append, List.append_assoc, List.nil_append, skipWs_cons (show isWs 34 = false by decide),
      parseStr_append hj]
    simp
  | .arr .nil, _, f, rest, hf, _ => by
    rw [Json.need] at hf
    obtain ⟨f, rfl⟩ := Nat.exists_eq_add_of_le' (show 1 ≤ f by omega)
    rw [parseVal, Json.print]
    simp only [List.cons_append, skipWs_cons (show isWs 91 = false by decide),
      skipWs_cons (show isWs 93 = false by decide)]
    simp
  | .arr (.cons v l), hj, f, rest, hf, _ => by
    rw [Json.need, JsonList.need] at hf
    obtain ⟨f, rfl⟩ := Nat.exists_eq_add_of_le' (show 1 ≤ f by omega)
    rw [Json.WF, JsonList.WF] at hj
    obtain ⟨c, r, e, k1, k2⟩ := Json.print_cons hj.1
    have key := parseElems_print l hj.2 v (parseVal_print v hj.1) f rest (by omega)
    rw [parseVal, Json.print]
    rw [e] at key ⊢
    simp only [List.cons_append, List.append_assoc] at key ⊢
    simp only [skipWs_cons (show isWs 91 = false by decide), skipWs_cons k1, if_neg k2, key]
    simp
  | .obj .nil, _, f, rest, hf, _ => by
    rw [Json.need] at hf
    obtain ⟨f, rfl⟩ := Nat.exists_eq_add_of_le' (show 1 ≤ f by omega)
    rw [parseVal, Json.print]
    simp only [List.cons_append, skipWs_cons (show isWs 123 = false by decide),
      skipWs_cons (show isWs 125 = false by decide)]
    simp
  | .obj (.cons k v m), hj, f, rest, hf, _ => by
    rw [Json.need, JsonMembers.need] at hf
    obtain ⟨f, rfl⟩ := Nat.exists_eq_add_of_le' (show 1 ≤ f by omega)
    rw [Json.WF, JsonMembers.WF] at hj
    have key := parseMembers_print m hj.2.2 k hj.1 v (parseVal_print v hj.2.1) f rest (by omega)
    rw [parseVal, Json.print]
    simp only [List.cons_append, List.append_assoc] at key ⊢
    simp only [skipWs_cons (show isWs 123 = false by decide), skipWs_cons (show isWs 34 = false by decide), key]
    simp
theorem parseElems_print : ∀ (l : JsonList), l.WF → ∀ (v : Json),
    (∀ (f : Nat) (rest : List UInt8), v.need ≤ f → Stop rest → parseVal f (v.print ++ rest) = some (v, rest)) →
    ∀ (f : Nat) (rest : List UInt8), 1 + v.need + l.need ≤ f →
    parseElems f (v.print ++ (l.print ++ rest)) = some (.cons v l, rest)
  | .nil, _, v, hv, f, rest, hf => by
    obtain ⟨f, rfl⟩ := Nat.exists_eq_add_of_le' (show 1 ≤ f by omega)
    rw [parseElems, hv f _ (by omega) (JsonList.print_stop _ _), JsonList.print]
    simp only [Option.bind_eq_bind, Option.bind_some, List.cons_append, List.nil_append,
      skipWs_cons (show isWs 93 = false by decide)]
    simp
  | .cons w l, hl, v, hv, f, rest, hf => by
    rw [JsonList.need] at hf
    rw [JsonList.WF] at hl
    obtain ⟨f, rfl⟩ := Nat.exists_eq_add_of_le' (show 1 ≤ f by omega)
    rw [parseElems, hv f _ (by omega) (JsonList.print_stop _ _), JsonList.print]
    have key := parseElems_print l hl.2 w (parseVal_print w hl.1) f rest (by omega)
    simp only [Option.bind_eq_bind, Option.bind_some, List.cons_append, List.append_assoc,
      skipWs_cons (show isWs 44 = false by decide), key]
    simp
theorem parseMembers_print : ∀ (m : JsonMembers), m.WF → ∀ (k : List UInt8), k.all isStrByte = true → ∀ (v : Json),
    (∀ (f : Nat) (rest : List UInt8), v.need ≤ f → Stop rest → parseVal f (v.print ++ rest) = some (v, rest)) →
    ∀ (f : Nat) (rest : List UInt8), 1 + v.need + m.need ≤ f →
    parseMembers f (34 :: k ++ 34 :: 58 :: v.print ++ (m.print ++ rest)) = some (.cons k v m, rest)
  | .nil, _, k, hk, v, hv, f, rest, hf => by
    obtain ⟨f, rfl⟩ := Nat.exists_eq_add_of_le' (show 1 ≤ f by omega)
    have key := hv f (JsonMembers.nil.print ++ rest) (by omega) (JsonMembers.print_stop _ _)
    rw [parseMembers]
    simp only [List.cons_append, List.append_assoc, skipWs_cons (show isWs 34 = false by decide), parseStr_append hk,
      Option.bind_eq_bind, Option.bind_some, skipWs_cons (show isWs 58 = false by decide), key]
    rw [JsonMembers.print]
    simp only [List.cons_append, List.nil_append, skipWs_cons (show isWs 125 = false by decide)]
    simp
  | .cons k' w m, hm, k, hk, v, hv, f, rest, hf => by
    rw [JsonMembers.need] at hf
    rw [JsonMembers.WF] at hm
    obtain ⟨f, rfl⟩ := Nat.exists_eq_add_of_le' (show 1 ≤ f by omega)
    have key := hv f ((JsonMembers.cons k' w m).print ++ rest) (by omega) (JsonMembers.print_stop _ _)
    have key2 := parseMembers_print m hm.2.2 k' hm.1 w (parseVal_print w hm.2.1) f rest (by omega)
    rw [parseMembers]
    simp only [List.cons_append, List.append_assoc, skipWs_cons (show isWs 34 = false by decide), parseStr_append hk,
      Option.bind_eq_bind, Option.bind_some, skipWs_cons (show isWs 58 = false by decide), key]
    rw [JsonMembers.print]
    simp only [List.cons_append, List.append_assoc] at key2
    simp only [List.cons_append, List.append_assoc, skipWs_cons (show isWs 44 = false by decide), key2]
    simp
end

mutual
theorem Json.need_le : ∀ (j : Json), j.WF → j.need ≤ j.print.length
  | .null, _ => by rw [Json.need, Json.print]; simp
  | .bool true, _ => by rw [Json.need, Json.print]; simp
  | .bool false, _ => by rw [Json.need, Json.print]; simp
  | .num lit, h => by
    obtain ⟨c, r, e, -⟩ := Json.print_cons h
    rw [e, Json.need]; simp
  | .str s, _ => by rw [Json.need, Json.print]; simp
  | .arr .nil, _ => by rw [Json.need, JsonList.need, Json.print]; simp
  | .arr (.cons v l), h => by
    rw [Json.WF, JsonList.WF] at h
    have h1 := Json.need_le v h.1
    have h2 := JsonList.need_le l h.2
    rw [Json.need, JsonList.need, Json.print]
    simp only [List.cons_append, List.length_cons, List.length_append]
    omega
  | .obj .nil, _ => by rw [Json.need, JsonMembers.need, Json.print]; simp
  | .obj (.cons k v m), h => by
    rw [Json.WF, JsonMembers.WF] at h
    have h1 := Json.need_le v h.2.1
    have h2 := JsonMembers.need_le m h.2.2
    rw [Json.need, JsonMembers.need, Json.print]
    simp only [List.cons_append, List.length_cons, List.length_append]
    omega
theorem JsonList.need_le : ∀ (l : JsonList), l.WF → l.need + 1 ≤ l.print.length
  | .nil, _ => by rw [JsonList.need, JsonList.print]; simp
  | .cons v l, h => by
    rw [JsonList.WF] at h
    have h1 := Json.need_le v h.1
    have h2 := JsonList.need_le l h.2
    rw [JsonList.need, JsonList.print]
    simp only [List.cons_append, List.length_cons, List.length_append]
    omega
theorem JsonMembers.need_le : ∀ (m : JsonMembers), m.WF → m.need + 1 ≤ m.print.length
  | .nil, _ => by rw [JsonMembers.need, JsonMembers.print]; simp
  | .cons k v m, h => by
    rw [JsonMembers.WF] at h
    have h1 := Json.need_le v h.2.1
    have h2 := JsonMembers.need_le m h.2.2
    rw [JsonMembers.need, JsonMembers.print]
    simp only [List.cons_append, List.length_cons, List.length_append]
    omega
end

/-- Every JSON value is read back from its text. -/
theorem parseJson_print {j : Json} (h : j.WF) : parseJson j.print = some j := by
  have := parseVal_print j h (j.print.length + 1) [] (by have := j.need_le h; omega) (by intro b hb; simp at hb)
  rw [List.append_nil] at this
  rw [parseJson, this]
  rfl

/-! ### Values of the Go types -/

theorem decNat_cons (n : Nat) : ∃ c r, decNat n = c :: r ∧ isDig c = true ∧ r.all isDig = true ∧ (c = 48 → r = []) := by
  have hd : ∀ b ∈ decNat n, isDig b = true := fun b hb => (isDigit_iff b).2 (decNat_isDigit n b hb)
  cases hn : decNat n with
  | nil =>
    rw [decNat] at hn
    split at hn
    · cases hn
    · rename_i h0
      simp [Nat.digits_eq_nil_iff_eq_zero, h0] at hn
  | cons c r =>
    rw [hn] at hd
    refine ⟨c, r, rfl, hd c (by simp), List.all_eq_true.2 fun b hb => hd b (by simp [hb]), ?_⟩
    intro hc
    rw [decNat] at hn
    split at hn
    · injection hn with _ h; exact h.symm
    · rename_i h0
      exfalso
      subst hc
      have hl := Nat.getLast_digit_ne_zero 10 h0
      have hne := Nat.digits_ne_nil_iff_ne_zero (b := 10).2 h0
      have h1 : ((Nat.digits 10 n).reverse.map asciiDigit).head? = some 48 := by rw [hn]; rfl
      rw [List.head?_map, List.head?_reverse, List.getLast?_eq_getLast_of_ne_nil hne] at h1
      simp only [Option.map_some, Option.some.injEq] at h1
      have hlt := Nat.digits_lt_base (b := 10) (by norm_num) (List.getLast_mem hne)
      generalize (Nat.digits 10 n).getLast hne = d at h1 hl hlt
      interval_cases d <;> first | exact hl rfl | exact absurd h1 (by decide)

theorem dig_numByte (b : UInt8) (h : isDig b = true) : isNumByte b = true ∧ b ≠ 45 := by
  revert h
  refine forall_byte (P := fun b => isDig b = true → isNumByte b = true ∧ b ≠ 45) ?_ b
  decide +kernel

theorem dropWhile_all {p : UInt8 → Bool} {l : List UInt8} (h : l.all p = true) : l.dropWhile p = [] := by
  have := (takeWhile_append_all (b := []) h (by simp)).2
  rwa [List.append_nil] at this

theorem validNat_decNat (n : Nat) : validNat (decNat n) = true := by
  obtain ⟨c, r, e, h1, h2, h3⟩ := decNat_cons n
  rw [e, validNat]
  by_cases hc : c = 48
  · rw [h3 hc]; simp [hc, validFrac]
  · simp [hc, h1, dropWhile_all h2, validFrac]

theorem encInt_wf (v : Int) : (encInt v).WF := by
  rw [encInt, Json.WF, decimal_some, decInt]
  have hall : (decNat v.natAbs).all isNumByte = true :=
    List.all_eq_true.2 fun b hb => (dig_numByte b ((isDigit_iff b).2 (decNat_isDigit _ b hb))).1
  split
  · refine ⟨by simp [validNum, validNat_decNat], ?_⟩
    rw [List.all_cons, hall]; decide
  · refine ⟨?_, hall⟩
    obtain ⟨c, r, e, h1, h2, h3⟩ := decNat_cons v.natAbs
    have := validNat_decNat v.natAbs
    rw [e] at this ⊢
    rw [validNum, if_neg (by simpa using (dig_numByte c h1).2), this]

theorem intLit_decimal (v : Int) : intLit (decimal (some v)) = some v := by
  have h := convertToBigInt_decInt v
  rw [convertToBigInt] at h
  split at h
  · rw [decimal_some, intLit, if_pos, h]
    rw [List.all_eq_true]
    intro b hb
    rcases decInt_bytes v b hb with rfl | hb
    · decide
    · rw [Bool.or_eq_true]; exact Or.inl ((isDigit_iff b).2 hb)
  · cases h

theorem encPtr_wf {T : Type} {enc : T → Json} (h : ∀ t, (enc t).WF) : ∀ o, (encPtr enc o).WF
  | none => trivial
  | some t => h t

theorem encElems_wf {T : Type} {enc : T → Json} (h : ∀ t, (enc t).WF) : ∀ l, (encElems enc l).WF
  | [] => trivial
  | a :: l => ⟨h a, encElems_wf h l⟩

theorem encSlice_wf {T : Type} {enc : T → Json} (h : ∀ t, (enc t).WF) : ∀ o, (encSlice enc o).WF
  | none => trivial
  | some l => encElems_wf h l

theorem encObj_wf {m : List (List UInt8 × Json)} (h : ∀ kv ∈ m, kv.1.all isStrByte = true ∧ kv.2.WF) :
    (encObj m).WF := by
  induction m with
  | nil => trivial
  | cons kv m ih =>
    have h1 := h kv (by simp)
    exact ⟨h1.1, h1.2, ih fun kv hkv => h kv (by simp [hkv])⟩

theorem decBig_enc (o old : Option Int) : decBig (encPtr encInt o) old = some o := by
  cases o with
  | none => rfl
  | some v => simp [encPtr, encInt, decBig, intLit_decimal]

theorem decInt64_enc {v : Int} (h : -2 ^ 63 ≤ v ∧ v < 2 ^ 63) (old : Int) : decInt64 (encInt v) old = some v := by
  simp only [encInt, decInt64, intLit_decimal, Option.bind_eq_bind, Option.bind_some, if_pos h]

theorem decInt64_range {v : Int} (h : ¬ (-2 ^ 63 ≤ v ∧ v < 2 ^ 63)) (old : Int) : decInt64 (encInt v) old = none := by
  simp only [encInt, decInt64, intLit_decimal, Option.bind_eq_bind, Option.bind_some, if_neg h]

theorem decElems_enc {T : Type} {enc : T → Json} {dec : Json → Option T} (h : ∀ t, dec (enc t) = some t) :
    ∀ l, decElems dec (encElems enc l) = some l
  | [] => rfl
  | a :: l => by simp [encElems, decElems, h, decElems_enc h l]

theorem decSlice_enc {T : Type} {enc : T → Json} {dec : Json → Option T} (h : ∀ t, dec (enc t) = some t)
    (o old : Option (List T)) : decSlice dec (encSlice enc o) old = some o := by
  cases o with
  | none => rfl
  | some l => simp [encSlice, decSlice, decElems_enc h]

theorem decFields_cons {T : Type} {fs : List (List UInt8 × (Json → T → Option T))} {k : List UInt8} {v : Json}
    {m : JsonMembers} {t : T} {f : Json → T → Option T} (h : findField fs (unquote k) = some f) :
    decFields fs (.cons k v m) t = (f v t).bind (decFields fs m) := by
  rw [decFields, h]; rfl

theorem decP256_enc (p old : P256) : decP256 (encP256 p) old = some p := by
  simp only [decP256, encP256, decStruct, encObj]
  iterate 2
    rw [decFields_cons rfl]
    simp only [fieldOf, decBig_enc, Option.bind_eq_bind, Option.bind_some]
  rfl

theorem decPoint_enc (p old : Option P256) : decPoint (encPoint p) old = some p := by
  cases p with
  | none => rfl
  | some p => exact congrArg (Option.map some) (decP256_enc p (old.getD ⟨none, none⟩))

theorem decPoints_enc (p old : Option (List (Option P256))) : decPoints (encPoints p) old = some p :=
  decSlice_enc (fun t => decPoint_enc t none) p old

/-- The int64 fields are in range. -/
def GoIPParams.Int64 (p : GoIPParams) : Prop := -2 ^ 63 ≤ p.N ∧ p.N < 2 ^ 63
/-- The int64 fields are in range. -/
def GoIPProof.Int64 (p : GoIPProof) : Prop := (-2 ^ 63 ≤ p.N ∧ p.N < 2 ^ 63) ∧ p.Params.Int64
/-- The int64 fields are in range. -/
def GoBPProof.Int64 (p : GoBPProof) : Prop :=
  p.InnerProductProof.Int64 ∧ (-2 ^ 63 ≤ p.Params.N ∧ p.Params.N < 2 ^ 63) ∧ p.Params.InnerProductParams.Int64

theorem decIPParams_enc {p : GoIPParams} (hp : p.Int64) (old : GoIPParams) : decIPParams (encIPParams p) old = some p := by
  simp only [decIPParams, encIPParams, decStruct, encObj]
  iterate 7
    rw [decFields_cons rfl]
    simp only [fieldOf, decBig_enc, decPoint_enc, decPoints_enc, decInt64_enc hp, Option.bind_eq_bind,
      Option.bind_some]
  rfl

theorem decIPProof_enc {p : GoIPProof} (hp : p.Int64) (old : GoIPProof) : decIPProof (encIPProof p) old = some p := by
  simp only [decIPProof, encIPProof, decStruct, encObj]
  iterate 10
    rw [decFields_cons rfl]
    simp only [fieldOf, decBig_enc, decPoint_enc, decPoints_enc, decInt64_enc hp.1, decIPParams_enc hp.2,
      Option.bind_eq_bind, Option.bind_some]
  rfl

theorem decBPParams_enc {p : GoBPParams} (hp : -2 ^ 63 ≤ p.N ∧ p.N < 2 ^ 63) (hp' : p.InnerProductParams.Int64)
    (old : GoBPParams) : decBPParams (encBPParams p) old = some p := by
  simp only [decBPParams, encBPParams, decStruct, encObj]
  iterate 6
    rw [decFields_cons rfl]
    simp only [fieldOf, decBig_enc, decPoint_enc, decPoints_enc, decInt64_enc hp, decIPParams_enc hp',
      Option.bind_eq_bind, Option.bind_some]
  rfl

theorem decBPProof_enc {p : GoBPProof} (hp : p.Int64) (old : GoBPProof) : decBPProof (encBPProof p) old = some p := by
  simp only [decBPProof, encBPProof, decStruct, encObj]
  iterate 11
    rw [decFields_cons rfl]
    simp only [fieldOf, decBig_enc, decPoint_enc, decIPProof_enc hp.1, decBPParams_enc hp.2.1 hp.2.2,
      Option.bind_eq_bind, Option.bind_some]
  rfl

theorem decBPRPProof_enc {p : GoBPRPProof} (h1 : p.P1.Int64) (h2 : p.P2.Int64) (old : GoBPRPProof) :
    decBPRPProof (encBPRPProof p) old = some p := by
  simp only [decBPRPProof, encBPRPProof, decStruct, encObj]
  iterate 2
    rw [decFields_cons rfl]
    simp only [fieldOf, decBPProof_enc h1, decBPProof_enc h2, Option.bind_eq_bind, Option.bind_some]
  rfl


theorem encP256_wf (p : P256) : (encP256 p).WF := by
  refine encObj_wf ?_
  simp only [List.forall_mem_cons, List.not_mem_nil, false_implies, implies_true, and_true]
  exact ⟨⟨by decide, encPtr_wf encInt_wf _⟩, by decide, encPtr_wf encInt_wf _⟩

theorem encPoint_wf (p : Option P256) : (encPoint p).WF := encPtr_wf encP256_wf p

theorem encPoints_wf (p : Option (List (Option P256))) : (encPoints p).WF := encSlice_wf encPoint_wf p

theorem encBig_wf (p : Option Int) : (encPtr encInt p).WF := encPtr_wf encInt_wf p

theorem encIPParams_wf (p : GoIPParams) : (encIPParams p).WF := by
  refine encObj_wf ?_
  simp only [List.forall_mem_cons, List.not_mem_nil, false_implies, implies_true, and_true, encInt_wf, encBig_wf,
    encPoint_wf, encPoints_wf]
  decide

theorem encIPProof_wf (p : GoIPProof) : (encIPProof p).WF := by
  refine encObj_wf ?_
  simp only [List.forall_mem_cons, List.not_mem_nil, false_implies, implies_true, and_true, encInt_wf, encBig_wf,
    encPoint_wf, encPoints_wf, encIPParams_wf]
  decide

theorem encBPParams_wf (p : GoBPParams) : (encBPParams p).WF := by
  refine encObj_wf ?_
  simp only [List.forall_mem_cons, List.not_mem_nil, false_implies, implies_true, and_true, encInt_wf, encBig_wf,
    encPoint_wf, encPoints_wf, encIPParams_wf]
  decide

theorem encBPProof_wf (p : GoBPProof) : (encBPProof p).WF := by
  refine encObj_wf ?_
  simp only [List.forall_mem_cons, List.not_mem_nil, false_implies, implies_true, and_true, encInt_wf, encBig_wf,
    encPoint_wf, encPoints_wf, encIPProof_wf, encBPParams_wf]
  decide

theorem encBPRPProof_wf (p : GoBPRPProof) : (encBPRPProof p).WF := by
  refine encObj_wf ?_
  simp only [List.forall_mem_cons, List.not_mem_nil, false_implies, implies_true, and_true, encBPProof_wf]
  decide

theorem derefs_points (l : List P256) : derefs (points l) = some l := by
  rw [derefs, points]
  split
  · rename_i h; simp [h]
  · rw [Option.getD_some]
    induction l with
    | nil => rfl
    | cons a l ih => 
      cases l with
      | nil => rfl
      | cons b l => simp_all

theorem IPParams.deref_toGo (p : IPParams) : p.toGo.deref = some p := by
  simp [IPParams.toGo, GoIPParams.deref, derefs_points]

theorem IPProof.deref_toGo (p : IPProof) : p.toGo.deref = some p := by
  simp [IPProof.toGo, GoIPProof.deref, derefs_points, IPParams.deref_toGo]

theorem BPProof.deref_toGo (p : BPProof) : p.toGo.deref = some p := by
  simp [BPProof.toGo, GoBPProof.deref, GoBPParams.deref, derefs_points, IPParams.deref_toGo, IPProof.deref_toGo]

theorem BPRPProof.deref_toGo (p : BPRPProof) : p.toGo.deref = some p := by
  simp [BPRPProof.toGo, GoBPRPProof.deref, BPProof.deref_toGo]

end Verif

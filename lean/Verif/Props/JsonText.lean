import Verif.Lemmas.JsonText

/-! # C57: which texts are decoded -/

namespace Verif

/-- C57: the parser accepts exactly the texts of the JSON grammar, with the value the grammar gives. -/
theorem C57_grammar {s : List UInt8} {j : Json} : parseJson s = some j ↔ JsonText s j := parseJson_iff

/-- C57: no text has two values. -/
theorem C57_unambiguous {s : List UInt8} {j j' : Json} (h : JsonText s j) (h' : JsonText s j') : j = j' :=
  Option.some.inj ((C57_grammar.2 h).symm.trans (C57_grammar.2 h'))

/-- C57: a text which is not JSON is not decoded as a proof. -/
theorem C57_not_json {s : List UInt8} (h : ∀ j, ¬ JsonText s j) : unmarshalBP s = none ∧ unmarshalBPRP s = none := by
  have : parseJson s = none := by
    cases e : parseJson s with
    | none => rfl
    | some j => exact absurd (C57_grammar.1 e) (h j)
  exact ⟨by rw [unmarshalBP, this]; rfl, by rw [unmarshalBPRP, this]; rfl⟩

/-- `01` is not JSON. -/
example : unmarshalBP (ascii "01") = none := (C57_not_json fun j h => by
  have h1 : parseJson (ascii "01") = none := by decide +kernel
  rw [← C57_grammar, h1] at h
  cases h).1

/-- C57: however the characters of a string are written, the literal is accepted and stands for their UTF-8 bytes; what is
not a character is replaced by U+FFFD. -/
theorem C57_strings {cs : List Char} {s : List UInt8} (h : CharsText cs s) :
    JsonText (34 :: s ++ [34]) (.str s) ∧ unquote s = cs.flatMap String.utf8EncodeChar :=
  ⟨⟨[], _, [], by simp, by simp [Ws], .str (charsText_str h), by simp [Ws]⟩, unquoteN_chars h _ (le_refl _)⟩

open Classical in
/-- C57: the name of a member, however it is written, belongs to the field with exactly this name, otherwise to the first field
with this name up to case, otherwise to none. -/
theorem C57_names {F : Type} (fs : List (List Char × F)) {cs : List Char} {s : List UInt8} (h : CharsText cs s) :
    findField (fs.map fun f => (f.1.flatMap String.utf8EncodeChar, f.2)) (unquote s) =
      ((fs.find? fun f => f.1 = cs).or (fs.find? fun f => List.Forall₂ SameLetter f.1 cs)).map (·.2) := by
  rw [(C57_strings h).2, findField]
  have h1 : (fs.map fun f => (f.1.flatMap String.utf8EncodeChar, f.2)).find? (fun f => f.1 == cs.flatMap String.utf8EncodeChar) =
      (fs.find? fun f => f.1 = cs).map fun f => (f.1.flatMap String.utf8EncodeChar, f.2) := by
    rw [List.find?_map]
    congr 2
    funext f
    rw [Function.comp, Bool.eq_iff_iff, beq_iff_eq, decide_eq_true_iff]
    exact ⟨chars_inj, fun h => by rw [h]⟩
  have h2 : (fs.map fun f => (f.1.flatMap String.utf8EncodeChar, f.2)).find? (fun f => foldKey f.1 == foldKey (cs.flatMap String.utf8EncodeChar)) =
      (fs.find? fun f => List.Forall₂ SameLetter f.1 cs).map fun f => (f.1.flatMap String.utf8EncodeChar, f.2) := by
    rw [List.find?_map]
    congr 2
    funext f
    rw [Function.comp, Bool.eq_iff_iff, beq_iff_eq, decide_eq_true_iff]
    exact foldKey_eq_iff
  rw [h1, h2]
  cases fs.find? fun f => f.1 = cs with
  | some f => rfl
  | none => simp [Function.comp_def]

/-- `Taux` in another case, and `S` written with the long s. -/
example : findField [(ascii "Taux", 1), (ascii "S", 2)] (ascii "tAUX") = some 1 ∧ findField [(ascii "Taux", 1), (ascii "S", 2)] [197, 191] = some 2 := by
  decide +kernel

/-- C57: every literal of the grammar stands for characters, even if its bytes are not UTF-8. -/
theorem C57_strings_all {s : List UInt8} (h : StrText s) : ∃ cs, CharsText cs s := charsText_total _ (le_refl _) h

/-- The first half of a surrogate pair before `V`, and the byte 255. -/
example : CharsText [replacement, 'V', replacement] (ascii "\\uD83DV" ++ [255]) :=
  .lone (n := 0xD83D) (s := ascii "\\uD83D") (t := 86 :: [255]) ⟨68, 56, 51, 68, 13, 8, 3, 13, by decide, .upper 3 (by decide), .digit 8 (by decide), .digit 3 (by decide),
    .upper 3 (by decide), by decide⟩ (by decide) (by decide)
    (fun m s' t' e h _ _ _ => by obtain ⟨a, b, c, d, rfl, -⟩ := code_spec h; cases e)
    (.cons (s := [86]) (t := [255]) (.plain 'V' (by decide) (by decide) (by decide))
      (.bad (by decide) (fun c t' e => by
        obtain ⟨x, r, hx, ht⟩ := takeChar_utf8 c (by rintro rfl; cases e) t'
        rw [hx, List.cons_append] at e
        obtain ⟨rfl, e'⟩ := List.cons.inj e
        rw [← e', hx] at ht
        have : takeChar 255 [] = (badRune, []) := by decide
        rw [this] at ht
        cases ht) .nil))

/-- A text with white space, nesting, an escape and a number with all its parts. -/
example : JsonText (ascii " {\"\\u0056\": [null , -1.50e+3] }\n")
    (.obj (.cons (ascii "\\u0056") (.arr (.cons .null (.cons (.num (ascii "-1.50e+3")) .nil))) .nil)) := by
  have hn : NumText (ascii "-1.50e+3") := validNum_iff.1 (by decide)
  have hk : StrText (ascii "\\u0056") :=
    .code (isHex_iff.1 (by decide)) (isHex_iff.1 (by decide)) (isHex_iff.1 (by decide)) (isHex_iff.1 (by decide)) .nil
  have h0 : Ws [] := by simp [Ws]
  have h1 : Ws [32] := by simp [Ws]
  have h2 : Ws [10] := by simp [Ws]
  exact ⟨[32], _, [10], by decide +kernel, h1, .obj (.one h0 hk h0 h1 (.arr (.more h0 .null h1 (.one h1 (.num hn) h0))) h1), h2⟩

/-- Leading zeros, a trailing comma, and a control character in a string are not JSON. -/
example (j : Json) : ¬ JsonText (ascii "01") j ∧ ¬ JsonText (ascii "[1,]") j ∧ ¬ JsonText (ascii "\"\n\"") j := by
  have h1 : parseJson (ascii "01") = none := by decide +kernel
  have h2 : parseJson (ascii "[1,]") = none := by decide +kernel
  have h3 : parseJson (ascii "\"\n\"") = none := by decide +kernel
  refine ⟨?_, ?_, ?_⟩ <;> rw [← C57_grammar] <;> simp [h1, h2, h3]

/-- `V` as a number, and U+1F600 as two surrogates. -/
example : CharsText ['V', Char.ofNat 0x1F600] (ascii "\\u0056\\uD83D\\uDE00") :=
  .cons (s := ascii "\\u0056")
    (.code ⟨48, 48, 53, 54, 0, 0, 5, 6, by decide, .digit 0 (by decide), .digit 0 (by decide), .digit 5 (by decide),
      .digit 6 (by decide), by decide⟩)
    (.cons (s := ascii "\\uD83D" ++ ascii "\\uDE00") (t := [])
      (.pair 0x3D 0x200 (by decide) (by decide) (by decide)
        ⟨68, 56, 51, 68, 13, 8, 3, 13, by decide, .upper 3 (by decide), .digit 8 (by decide), .digit 3 (by decide),
          .upper 3 (by decide), by decide⟩
        ⟨68, 69, 48, 48, 13, 14, 0, 0, by decide, .upper 3 (by decide), .upper 4 (by decide), .digit 0 (by decide),
          .digit 0 (by decide), by decide⟩)
      .nil)

end Verif

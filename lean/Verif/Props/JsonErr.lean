import Verif.Lemmas.JsonErr
import Verif.Props.Readme
/-!
# Ignoring the error of `json.Unmarshal` (C111)
-/
namespace Verif

/-- C111: the value left without an error is the decoded one of `Model/Json.lean`. -/
theorem C111_agrees (bad : Json → Option Int → Int) (text : List UInt8) (p : GoBPRPProof) :
    unmarshalErr bad text = (p, .none) ↔ unmarshalBPRP text = some p := by
  rw [unmarshalErr, unmarshalBPRP]
  cases parseJson text with
  | none => simp
  | some j => exact (errBPRPProof_agrees bad j _ p).symm

/-- C111: there is an error exactly if `Model/Json.lean` says so, and otherwise ignoring errors changes nothing. -/
theorem C111_error (E : Ext) (bad : Json → Option Int → Int) (text : List UInt8) :
    (readmeVerifier E text = none ↔ (unmarshalErr bad text).2 ≠ .none) ∧
      ∀ r, readmeVerifier E text = some r → readmeIgnore E bad text = r := by
  have h := C111_agrees bad text
  cases hu : unmarshalBPRP text with
  | none =>
    refine ⟨⟨fun _ hn => ?_, fun _ => by rw [readmeVerifier, hu]; rfl⟩, fun r hr => ?_⟩
    · have := (h (unmarshalErr bad text).1).1 (by rw [← hn])
      rw [hu] at this; nomatch this
    · rw [readmeVerifier, hu] at hr; nomatch hr
  | some p =>
    have := (h p).2 hu
    refine ⟨⟨fun hn => ?_, fun hn => absurd (by rw [this]) hn⟩, fun r hr => ?_⟩
    · rw [readmeVerifier, hu] at hn; nomatch hn
    · rw [readmeVerifier, hu] at hr
      rw [readmeIgnore, this]
      exact Option.some.inj hr

/-- C111: ignoring errors lets nothing more through.  Whatever the text, the value left is one which another text gives
without an error; that text gets the same verdict from a verifier which looks at the error. -/
theorem C111_no_more (E : Ext) (bad : Json → Option Int → Int) (text : List UInt8) :
    unmarshalBPRP (marshalBPRP (unmarshalErr bad text).1) = some (unmarshalErr bad text).1 ∧
      readmeVerifier E (marshalBPRP (unmarshalErr bad text).1) = some (readmeIgnore E bad text) := by
  have hz : GoBPRPProof.zero.P1.Int64 ∧ GoBPRPProof.zero.P2.Int64 := by
    refine ⟨⟨⟨?_, ?_⟩, ?_, ?_⟩, ⟨?_, ?_⟩, ?_, ?_⟩ <;> exact ⟨by decide, by decide⟩
  have h : (unmarshalErr bad text).1.P1.Int64 ∧ (unmarshalErr bad text).1.P2.Int64 := by
    rw [unmarshalErr]
    cases parseJson text with
    | none => exact hz
    | some j => exact errBPRPProof_int64 bad j _ hz
  have e := C57_generic h.1 h.2
  exact ⟨e, by rw [readmeVerifier, e]; rfl⟩

/-- C111: a text which is not JSON, and one whose value is not an object, make the program panic. -/
theorem C111_not_object (E : Ext) (bad : Json → Option Int → Int) {text : List UInt8}
    (h : ∀ m, parseJson text ≠ some (.obj m)) : readmeIgnore E bad text = .panic := by
  have hz : (unmarshalErr bad text).1 = GoBPRPProof.zero := by
    rw [unmarshalErr]
    cases hj : parseJson text with
    | none => rfl
    | some j =>
      cases j with
      | obj m => exact absurd hj (h m)
      | _ => rfl
  rw [readmeIgnore, hz]
  simp only [goVerifyGeneric]
  rw [show GoBPRPProof.zero.P1 = GoBPProof.zero from rfl, goVerify_zero]
  rfl

example (E : Ext) (bad : Json → Option Int → Int) : readmeIgnore E bad (ascii "[]") = .panic :=
  C111_not_object E bad (by intro m h; rw [show parseJson (ascii "[]") = some (.arr .nil) by rfl] at h; nomatch h)

/-! ### Single values -/

/-- The elements of an array as a list. -/
def JsonList.toList : JsonList → List Json
  | .nil => []
  | .cons v l => v :: l.toList

/-- C111: an `int64` field keeps its value with an error that is remembered, unless the text is `null` or an integer in
range. -/
theorem C111_int64 (j : Json) (old : Int) : errInt64 j old =
    match j with
    | .null => (old, .none)
    | .num lit => if lit.all (fun b => isDig b || b == 45) ∧ -2 ^ 63 ≤ setString10 lit ∧ setString10 lit < 2 ^ 63
      then (setString10 lit, .none) else (old, .saved)
    | _ => (old, .saved) := by
  cases j with
  | num lit =>
    simp only [errInt64, intLit]
    by_cases h : lit.all (fun b => isDig b || b == 45) = true
    · by_cases hv : -2 ^ 63 ≤ setString10 lit ∧ setString10 lit < 2 ^ 63
      · rw [if_pos h, if_pos ⟨h, hv⟩]; simp only [if_pos hv]
      · rw [if_pos h, if_neg (fun k => hv k.2)]; simp only [if_neg hv]
    · rw [if_neg h, if_neg (fun k => h k.1)]
  | _ => rfl

example : errInt64 (.num (ascii "9223372036854775808")) 7 = (7, .saved) := by decide +kernel
example : errInt64 (.num (ascii "1.5")) 7 = (7, .saved) := by decide +kernel

/-- C111: a `*big.Int` is nil after `null`, holds an integer after an integer, and otherwise is not nil and decoding ends. -/
theorem C111_big (bad : Json → Option Int → Int) (j : Json) (old : Option Int) : errBig bad j old =
    match j with
    | .null => (none, .none)
    | .num lit => if lit.all (fun b => isDig b || b == 45) then (some (setString10 lit), .none)
      else (some (bad (.num lit) old), .stop)
    | j => (some (bad j old), .stop) := by
  cases j with
  | num lit =>
    simp only [errBig, intLit]
    by_cases h : lit.all (fun b => isDig b || b == 45) = true
    · rw [if_pos h, if_pos h]
    · rw [if_neg h, if_neg h]
  | _ => rfl

/-- C111: a `*P256` for which there is a value of the wrong kind is not nil afterwards: it keeps its coordinates, or is a
new point whose coordinates are nil. -/
theorem C111_point (bad : Json → Option Int → Int) {j : Json} (hn : j ≠ .null) (ho : ∀ m, j ≠ .obj m) (old : Option P256) :
    errPoint bad j old = (some (old.getD ⟨none, none⟩), .saved) := by
  cases j with
  | null => exact absurd rfl hn
  | obj m => exact absurd rfl (ho m)
  | _ => rfl

example (bad : Json → Option Int → Int) : errPoint bad (.bool true) none = (some ⟨none, none⟩, .saved) :=
  C111_point bad (j := .bool true) (fun h => nomatch h) (fun _ h => nomatch h) none

/-- C111: a coordinate is decoded into the point which is there, also where the other coordinate is an error. -/
theorem C111_point_members (bad : Json → Option Int → Int) (x y : Json) (old : Option P256) :
    errPoint bad (.obj (.cons (ascii "X") x (.cons (ascii "Y") y .nil))) old =
      let p := old.getD ⟨none, none⟩
      if (errBig bad x p.X).2 = .stop then (some { p with X := (errBig bad x p.X).1 }, .stop)
      else (some ⟨(errBig bad x p.X).1, (errBig bad y p.Y).1⟩, (errBig bad y p.Y).2) := by
  have hs : ∀ j o, (errBig bad j o).2 = .stop ∨ (errBig bad j o).2 = .none := by
    intro j o
    cases j with
    | num lit => simp only [errBig]; cases intLit lit <;> simp
    | _ => simp [errBig]
  simp only [errPoint, errPtr, errP256, errStruct]
  rw [errFields_cons rfl, errFields_cons rfl]
  simp only [errFieldOf, errFields]
  rcases hs x (old.getD ⟨none, none⟩).X with h | h <;> rcases hs y (old.getD ⟨none, none⟩).Y with h' | h' <;>
    simp [h, h', DecErr.join]

/-- C111: a slice keeps its value if the text has a value of the wrong kind. -/
theorem C111_slice (bad : Json → Option Int → Int) {j : Json} (hn : j ≠ .null) (ha : ∀ l, j ≠ .arr l)
    (old : Option (List (Option P256))) : errPoints bad j old = (old, .saved) := by
  cases j with
  | null => exact absurd rfl hn
  | arr l => exact absurd rfl (ha l)
  | _ => rfl

example (bad : Json → Option Int → Int) (old : Option (List (Option P256))) :
    errPoints bad (.str (ascii "x")) old = (old, .saved) :=
  C111_slice bad (j := .str (ascii "x")) (fun h => nomatch h) (fun _ h => nomatch h) old

/-- C111: the elements of an array are decoded one by one up to the first error which ends decoding, inclusive; the array
has an error exactly if one of these elements has. -/
theorem C111_elements {T : Type} (dec : Json → T × DecErr) : ∀ (l : JsonList),
    ((∀ v ∈ l.toList, (dec v).2 ≠ .stop) → (errElems dec l).1 = l.toList.map (fun v => (dec v).1) ∧
      ((errElems dec l).2 = .none ↔ ∀ v ∈ l.toList, (dec v).2 = .none) ∧ (errElems dec l).2 ≠ .stop) ∧
    ∀ a b r, l.toList = a ++ b :: r → (∀ v ∈ a, (dec v).2 ≠ .stop) → (dec b).2 = .stop →
      errElems dec l = (a.map (fun v => (dec v).1) ++ [(dec b).1], .stop)
  | .nil => by
    refine ⟨fun _ => ⟨rfl, by simp [errElems, JsonList.toList], by simp [errElems]⟩, fun a b r h => ?_⟩
    simp [JsonList.toList] at h
  | .cons v l => by
    obtain ⟨i1, i2⟩ := C111_elements dec l
    constructor
    · intro h
      simp only [JsonList.toList, List.forall_mem_cons] at h
      obtain ⟨k1, k2, k3⟩ := i1 h.2
      simp only [errElems, if_neg h.1, JsonList.toList, List.map_cons, k1, List.forall_mem_cons, DecErr.join_none, k2]
      refine ⟨trivial, trivial, ?_⟩
      cases h1 : (dec v).2 <;> cases h2 : (errElems dec l).2 <;> simp_all [DecErr.join]
    · intro a b r e ha hb
      cases a with
      | nil =>
        simp only [JsonList.toList, List.nil_append, List.cons.injEq] at e
        rw [← e.1] at hb ⊢
        simp only [errElems, if_pos hb]; rfl
      | cons w a =>
        simp only [JsonList.toList, List.cons_append, List.cons.injEq] at e
        simp only [List.forall_mem_cons] at ha
        rw [← e.1] at ha ⊢
        rw [errElems, if_neg ha.1, i2 a b r e.2 ha.2 hb]
        cases h1 : (dec v).2 <;> simp_all [DecErr.join]

/-- `[{}, 7, null]` gives two points without coordinates and nil, with an error. -/
example (bad : Json → Option Int → Int) :
    errPoints bad (.arr (.cons (.obj .nil) (.cons (.num (ascii "7")) (.cons .null .nil)))) none =
      (some [some ⟨none, none⟩, some ⟨none, none⟩, none], .saved) := rfl

/-- The members of an encoded generic proof. -/
def bprpMembers (p : GoBPRPProof) : JsonMembers := encObj [(ascii "P1", encBPProof p.P1), (ascii "P2", encBPProof p.P2)]

/-- The text of a generic proof with further members at its end. -/
def bprpWith (p : GoBPRPProof) (m : JsonMembers) : List UInt8 := (Json.obj ((bprpMembers p).append m)).print

/-- C111: members at the end of the text of a proof are decoded into this proof. -/
theorem C111_with (bad : Json → Option Int → Int) {p : GoBPRPProof} (h1 : p.P1.Int64) (h2 : p.P2.Int64) {m : JsonMembers}
    (hm : m.WF) : unmarshalErr bad (bprpWith p m) = errBPRPProof bad (.obj m) p := by
  have hw : (bprpMembers p).WF := encBPRPProof_wf p
  have he : errBPRPProof bad (.obj (bprpMembers p)) GoBPRPProof.zero = (p, .none) :=
    (errBPRPProof_agrees bad _ _ p).1 (decBPRPProof_enc h1 h2 _)
  rw [unmarshalErr, bprpWith, parseJson_print (show Json.WF (.obj _) from JsonMembers.append_wf hm hw)]
  simp only [errBPRPProof, errStruct] at he ⊢
  rw [errFields_append, he, if_neg (by exact fun h => nomatch h)]
  rfl

/-- C111: the message may be printed although `json.Unmarshal` has returned an error.  For every proof, after its text is
extended by a member `"P2"` with a number, string, boolean or array, decoding returns an error, but leaves this proof:
the program gives the verdict on the proof, a program which looks at the error does not come so far. -/
theorem C111_saved (E : Ext) (bad : Json → Option Int → Int) {p : GoBPRPProof} (h1 : p.P1.Int64) (h2 : p.P2.Int64)
    {v : Json} (hw : v.WF) (hn : v ≠ .null) (ho : ∀ m, v ≠ .obj m) :
    unmarshalErr bad (bprpWith p (.cons (ascii "P2") v .nil)) = (p, .saved) ∧
      readmeVerifier E (bprpWith p (.cons (ascii "P2") v .nil)) = none ∧
      readmeIgnore E bad (bprpWith p (.cons (ascii "P2") v .nil)) = goVerifyGeneric E p := by
  have hu : unmarshalErr bad (bprpWith p (.cons (ascii "P2") v .nil)) = (p, .saved) := by
    rw [C111_with bad h1 h2 (m := .cons (ascii "P2") v .nil) ⟨by decide, hw, trivial⟩]
    have hs : errBPProof bad v p.P2 = (p.P2, .saved) := by
      cases v with
      | null => exact absurd rfl hn
      | obj m => exact absurd rfl (ho m)
      | _ => rfl
    simp only [errBPRPProof, errStruct]
    rw [errFields_cons rfl]
    simp only [errFieldOf, hs]
    rfl
  refine ⟨hu, (C111_error E bad _).1.2 (by rw [hu]; exact fun h => nomatch h), by rw [readmeIgnore, hu]⟩

/-- The message is printed for a text for which `json.Unmarshal` returns an error: the proof of `50 ∈ [10, 100)`
extended by `"P2":7`. -/
example (bad : Json → Option Int → Int) : ∃ (E : Ext) (text : List UInt8), E.Ok ∧ (unmarshalErr bad text).2 = .saved ∧
    readmeVerifier E text = none ∧ readmeIgnore E bad text = .ok true := by
  obtain ⟨E, proof, hE, i1, i2, -, hv⟩ := readme_example
  obtain ⟨h1, h2, h3⟩ := C111_saved E bad (p := proof.toGo) i1.toGo i2.toGo (v := .num (ascii "7")) ⟨by decide, by decide⟩
    (fun h => nomatch h) (fun m h => nomatch h)
  refine ⟨E, _, hE, by rw [h1], h2, ?_⟩
  rw [readmeVerifier, C57_generic i1.toGo i2.toGo] at hv
  rw [h3]
  exact Option.some.inj hv

/-- C111: the same for an error which ends decoding: a string in place of a number, in a part which `Verify` does not
read. -/
theorem C111_stop (E : Ext) (bad : Json → Option Int → Int) {p : GoBPRPProof} (h1 : p.P1.Int64) (h2 : p.P2.Int64) :
    let m : JsonMembers := .cons (ascii "P2") (.obj (.cons (ascii "Params") (.obj (.cons (ascii "G")
      (.obj (.cons (ascii "X") (.str []) .nil)) .nil)) .nil)) .nil
    (unmarshalErr bad (bprpWith p m)).2 = .stop ∧ readmeVerifier E (bprpWith p m) = none ∧
      readmeIgnore E bad (bprpWith p m) = goVerifyGeneric E p := by
  intro m
  have hw : m.WF := by refine ⟨by decide, ⟨by decide, ⟨by decide, ⟨by decide, ?_, trivial⟩, trivial⟩, trivial⟩, trivial⟩; rfl
  have hu : unmarshalErr bad (bprpWith p m) = ({ p with P2 := { p.P2 with Params := { p.P2.Params with
      G := some { p.P2.Params.G.getD ⟨none, none⟩ with X := some (bad (.str []) (p.P2.Params.G.getD ⟨none, none⟩).X) } } } }, .stop) := by
    rw [C111_with bad h1 h2 hw]
    rfl
  refine ⟨by rw [hu], (C111_error E bad _).1.2 (by rw [hu]; exact fun h => nomatch h), ?_⟩
  rw [readmeIgnore, hu]
  have := C70_ignored (E := E) p.P2 (some { p.P2.Params.G.getD ⟨none, none⟩ with X := some (bad (.str []) (p.P2.Params.G.getD ⟨none, none⟩).X) })
    p.P2.Params.InnerProductParams p.P2.InnerProductProof.P p.P2.InnerProductProof.Gg p.P2.InnerProductProof.Hh
    p.P2.InnerProductProof.Params.N p.P2.InnerProductProof.Params.Cc p.P2.InnerProductProof.Params.Uu p.P2.InnerProductProof.Params.H
  simp only [goVerifyGeneric]
  rw [← this]

example (bad : Json → Option Int → Int) : ∃ (E : Ext) (text : List UInt8), E.Ok ∧ (unmarshalErr bad text).2 = .stop ∧
    readmeVerifier E text = none ∧ readmeIgnore E bad text = .ok true := by
  obtain ⟨E, proof, hE, i1, i2, -, hv⟩ := readme_example
  obtain ⟨h1, h2, h3⟩ := C111_stop E bad (p := proof.toGo) i1.toGo i2.toGo
  refine ⟨E, _, hE, h1, h2, ?_⟩
  rw [readmeVerifier, C57_generic i1.toGo i2.toGo] at hv
  rw [h3]
  exact Option.some.inj hv

/-- C111: after an error of this kind nothing more is read.  If it occurs in the first half, and the text begins with the
first half, the message is not printed. -/
theorem C111_rest (E : Ext) (bad : Json → Option Int → Int) {text : List UInt8} {v : Json} {m : JsonMembers}
    (h : parseJson text = some (.obj (.cons (ascii "P1") v m))) (hv : (errBPProof bad v GoBPProof.zero).2 = .stop) :
    (unmarshalErr bad text).1 = ⟨(errBPProof bad v GoBPProof.zero).1, GoBPProof.zero⟩ ∧
      readmeIgnore E bad text ≠ .ok true := by
  have hu : (unmarshalErr bad text).1 = ⟨(errBPProof bad v GoBPProof.zero).1, GoBPProof.zero⟩ := by
    rw [unmarshalErr, h]
    simp only [errBPRPProof, errStruct]
    rw [errFields_cons rfl]
    rw [if_pos (by exact hv)]
    rfl
  refine ⟨hu, fun e => ?_⟩
  rw [readmeIgnore, hu] at e
  obtain ⟨-, P, e'⟩ := (C70_generic _).2.1.1 e
  exact nomatch (goVerify_zero E).symm.trans e'

/-- A first half whose `Taux` is a string. -/
example (E : Ext) (bad : Json → Option Int → Int) {text : List UInt8} {m : JsonMembers}
    (h : parseJson text = some (.obj (.cons (ascii "P1") (.obj (.cons (ascii "Taux") (.str (ascii "5")) .nil)) m))) :
    readmeIgnore E bad text ≠ .ok true := (C111_rest E bad h rfl).2

example (E : Ext) (bad : Json → Option Int → Int) :
    let j := Json.obj (.cons (ascii "P1") (.obj (.cons (ascii "Taux") (.str (ascii "5")) .nil)) (.cons (ascii "P2") .null .nil))
    readmeIgnore E bad j.print ≠ .ok true := by
  intro j
  have hw : j.WF := by
    refine ⟨by decide, ?_, by decide, trivial, trivial⟩
    refine ⟨by decide, ?_, trivial⟩
    exact (by decide : (ascii "5").all isStrByte = true)
  exact (C111_rest E bad (parseJson_print hw) rfl).2

end Verif

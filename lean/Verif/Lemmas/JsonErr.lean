import Verif.Model.JsonErr
import Verif.Lemmas.Json
/-!
# Lemmas on decoders with errors
-/
namespace Verif

/-- The decoder with errors gives a value without an error exactly where the plain decoder gives this value. -/
def Agrees {T : Type} (dec : Json → T → Option T) (err : ErrDec T) : Prop :=
  ∀ j t t', dec j t = some t' ↔ err j t = (t', .none)

/-- Tables of fields with the same names and decoders which agree. -/
def AgreesFields {T : Type} : List (List UInt8 × (Json → T → Option T)) → List (List UInt8 × ErrDec T) → Prop :=
  List.Forall₂ fun a b => a.1 = b.1 ∧ Agrees a.2 b.2

theorem DecErr.join_none {a b : DecErr} : a.join b = .none ↔ a = .none ∧ b = .none := by
  cases a <;> cases b <;> decide

theorem find_agrees {T : Type} {p : List UInt8 → Bool} {fs : List (List UInt8 × (Json → T → Option T))}
    {gs : List (List UInt8 × ErrDec T)} (h : AgreesFields fs gs) :
    (fs.find? (fun f => p f.1) = none ∧ gs.find? (fun f => p f.1) = none) ∨
      ∃ f g, fs.find? (fun f => p f.1) = some f ∧ gs.find? (fun f => p f.1) = some g ∧ Agrees f.2 g.2 := by
  induction h with
  | nil => exact .inl ⟨rfl, rfl⟩
  | @cons a b as bs hab _ ih =>
    cases hp : p a.1 with
    | true =>
      exact .inr ⟨a, b, by rw [List.find?_cons_of_pos (by exact hp)],
        by rw [List.find?_cons_of_pos (by rw [← hab.1]; exact hp)], hab.2⟩
    | false =>
      rw [List.find?_cons_of_neg (by simp [hp]), List.find?_cons_of_neg (by simp [← hab.1, hp])]
      exact ih

theorem findField_agrees {T : Type} {fs : List (List UInt8 × (Json → T → Option T))} {gs : List (List UInt8 × ErrDec T)}
    (h : AgreesFields fs gs) (key : List UInt8) :
    (findField fs key = none ∧ findField gs key = none) ∨
      ∃ f g, findField fs key = some f ∧ findField gs key = some g ∧ Agrees f g := by
  rcases find_agrees (p := fun k => k == key) h with ⟨h1, h2⟩ | ⟨f, g, h1, h2, h3⟩
  · rcases find_agrees (p := fun k => foldKey k == foldKey key) h with ⟨k1, k2⟩ | ⟨f, g, k1, k2, k3⟩
    · exact .inl ⟨by simp only [findField, h1, k1, Option.map_none], by simp only [findField, h2, k2, Option.map_none]⟩
    · exact .inr ⟨f.2, g.2, by simp only [findField, h1, k1, Option.map_some],
        by simp only [findField, h2, k2, Option.map_some], k3⟩
  · exact .inr ⟨f.2, g.2, by simp only [findField, h1], by simp only [findField, h2], h3⟩

theorem errFields_agrees {T : Type} {fs : List (List UInt8 × (Json → T → Option T))} {gs : List (List UInt8 × ErrDec T)}
    (h : AgreesFields fs gs) : ∀ (m : JsonMembers) (t t' : T), decFields fs m t = some t' ↔ errFields gs m t = (t', .none)
  | .nil, t, t' => by simp [decFields, errFields]
  | .cons k v m, t, t' => by
    rcases findField_agrees h (unquote k) with ⟨h1, h2⟩ | ⟨f, g, h1, h2, h3⟩
    · simp only [decFields, errFields, h1, h2]
      exact errFields_agrees h m t t'
    · simp only [decFields, errFields, h1, h2, Option.bind_eq_bind, Option.bind_eq_some_iff]
      constructor
      · rintro ⟨a, ha, hm⟩
        rw [(h3 v t a).1 ha, if_neg (by exact fun h => nomatch h), (errFields_agrees h m a t').1 hm]
        rfl
      · intro e
        split at e
        · rename_i hs
          rw [e] at hs; nomatch hs
        · injection e with e1 e2
          obtain ⟨e2, e3⟩ := DecErr.join_none.1 e2
          exact ⟨(g v t).1, (h3 v t _).2 (by rw [← e2]), (errFields_agrees h m _ t').2 (by rw [← e1, ← e3])⟩

theorem errStruct_agrees {T : Type} {fs : List (List UInt8 × (Json → T → Option T))} {gs : List (List UInt8 × ErrDec T)}
    (h : AgreesFields fs gs) : Agrees (decStruct fs) (errStruct gs) := by
  intro j t t'
  cases j with
  | obj m => exact errFields_agrees h m t t'
  | _ => simp [decStruct, errStruct]

theorem errFieldOf_agrees {T A : Type} {get : T → A} {set : A → T → T} {dec : Json → A → Option A} {err : ErrDec A}
    (h : Agrees dec err) :
    Agrees (fieldOf get set dec) (errFieldOf get set err) := by
  intro j t t'
  simp only [fieldOf, errFieldOf, Option.bind_eq_bind, Option.bind_eq_some_iff, Option.some.injEq, Prod.mk.injEq]
  constructor
  · rintro ⟨a, ha, rfl⟩
    rw [(h _ _ _).1 ha]
    exact ⟨rfl, rfl⟩
  · rintro ⟨e1, e2⟩
    exact ⟨(err j (get t)).1, (h _ _ _).2 (by rw [← e2]), e1⟩

theorem errInt64_agrees : Agrees decInt64 errInt64 := by
  intro j t t'
  cases j with
  | num lit =>
    simp only [decInt64, errInt64]
    cases intLit lit with
    | none => simp
    | some v =>
      by_cases hv : -2 ^ 63 ≤ v ∧ v < 2 ^ 63
      · simp only [Option.bind_eq_bind, Option.bind_some, if_pos hv]; simp
      · simp only [Option.bind_eq_bind, Option.bind_some, if_neg hv]; simp
  | _ => simp [decInt64, errInt64]

theorem errBig_agrees (bad : Json → Option Int → Int) : Agrees decBig (errBig bad) := by
  intro j t t'
  cases j with
  | num lit =>
    simp only [decBig, errBig]
    cases intLit lit <;> simp
  | _ => simp [decBig, errBig]

theorem errPtr_agrees {T : Type} {zero : T} {dec : Json → T → Option T} {err : ErrDec T} (h : Agrees dec err) :
    Agrees (decPtr zero dec) (errPtr zero err) := by
  have key : ∀ j (t t' : Option T), (dec j (t.getD zero)).map some = some t' ↔
      (some (err j (t.getD zero)).1, (err j (t.getD zero)).2) = (t', DecErr.none) := by
    intro j t t'
    simp only [Option.map_eq_some_iff, Prod.mk.injEq]
    constructor
    · rintro ⟨a, ha, rfl⟩
      rw [(h _ _ _).1 ha]; exact ⟨rfl, rfl⟩
    · rintro ⟨e1, e2⟩
      exact ⟨_, (h _ _ _).2 (by rw [← e2]), e1⟩
  intro j t t'
  cases j with
  | null => simp [decPtr, errPtr]
  | _ => exact key _ t t'

theorem errElems_agrees {T : Type} {dec : Json → Option T} {err : Json → T × DecErr}
    (h : ∀ j t, dec j = some t ↔ err j = (t, .none)) :
    ∀ (l : JsonList) (r : List T), decElems dec l = some r ↔ errElems err l = (r, .none)
  | .nil, r => by simp [decElems, errElems]
  | .cons v l, r => by
    simp only [decElems, errElems, Option.bind_eq_bind, Option.bind_eq_some_iff, Option.some.injEq]
    constructor
    · rintro ⟨a, ha, q, hq, rfl⟩
      rw [(h _ _).1 ha, if_neg (by exact fun h => nomatch h), (errElems_agrees h l q).1 hq]; rfl
    · intro e
      split at e
      · injection e with _ e; nomatch e
      · injection e with e1 e2
        obtain ⟨e2, e3⟩ := DecErr.join_none.1 e2
        exact ⟨(err v).1, (h _ _).2 (by rw [← e2]), (errElems err l).1, (errElems_agrees h l _).2 (by rw [← e3]), e1⟩

theorem errSlice_agrees {T : Type} {dec : Json → Option T} {err : Json → T × DecErr}
    (h : ∀ j t, dec j = some t ↔ err j = (t, .none)) : Agrees (decSlice dec) (errSlice err) := by
  intro j t t'
  cases j with
  | arr l =>
    simp only [decSlice, errSlice, Option.map_eq_some_iff, Prod.mk.injEq]
    constructor
    · rintro ⟨a, ha, rfl⟩
      rw [(errElems_agrees h _ _).1 ha]; exact ⟨rfl, rfl⟩
    · rintro ⟨e1, e2⟩
      exact ⟨_, (errElems_agrees h _ _).2 (by rw [← e2]), e1⟩
  | _ => simp [decSlice, errSlice]

/-- Tables of fields agree if their decoders do. -/
macro "agree" : tactic => `(tactic| (
  refine errStruct_agrees ?_
  repeat' first
    | exact List.Forall₂.nil
    | refine List.Forall₂.cons ⟨rfl, errFieldOf_agrees ?_⟩ ?_))

theorem errP256_agrees (bad : Json → Option Int → Int) : Agrees decP256 (errP256 bad) := by
  agree <;> exact errBig_agrees bad

theorem errPoint_agrees (bad : Json → Option Int → Int) : Agrees decPoint (errPoint bad) :=
  errPtr_agrees (errP256_agrees bad)

theorem errPoints_agrees (bad : Json → Option Int → Int) : Agrees decPoints (errPoints bad) :=
  errSlice_agrees fun j t => errPoint_agrees bad j none t

theorem errIPParams_agrees (bad : Json → Option Int → Int) : Agrees decIPParams (errIPParams bad) := by
  agree <;> first | exact errBig_agrees bad | exact errInt64_agrees | exact errPoint_agrees bad | exact errPoints_agrees bad

theorem errIPProof_agrees (bad : Json → Option Int → Int) : Agrees decIPProof (errIPProof bad) := by
  agree <;> first | exact errBig_agrees bad | exact errInt64_agrees | exact errPoint_agrees bad | exact errPoints_agrees bad |
    exact errIPParams_agrees bad

theorem errBPParams_agrees (bad : Json → Option Int → Int) : Agrees decBPParams (errBPParams bad) := by
  agree <;> first | exact errInt64_agrees | exact errPoint_agrees bad | exact errPoints_agrees bad | exact errIPParams_agrees bad

theorem errBPProof_agrees (bad : Json → Option Int → Int) : Agrees decBPProof (errBPProof bad) := by
  agree <;> first | exact errBig_agrees bad | exact errPoint_agrees bad | exact errIPProof_agrees bad | exact errBPParams_agrees bad

theorem errBPRPProof_agrees (bad : Json → Option Int → Int) : Agrees decBPRPProof (errBPRPProof bad) := by
  agree <;> exact errBPProof_agrees bad

/-! ### What every decoder preserves -/

theorem findField_entry {F : Type} {fs : List (List UInt8 × F)} {key : List UInt8} {f : F} (h : findField fs key = some f) :
    ∃ k, (k, f) ∈ fs := by
  simp only [findField] at h
  split at h
  · rename_i g hg
    injection h with h
    exact ⟨g.1, by rw [← h]; exact List.mem_of_find?_eq_some hg⟩
  · simp only [Option.map_eq_some_iff] at h
    obtain ⟨g, hg, h⟩ := h
    exact ⟨g.1, by rw [← h]; exact List.mem_of_find?_eq_some hg⟩

/-- The decoder leaves values with the property, whatever the text and the error. -/
def Leaves {T : Type} (P : T → Prop) (err : ErrDec T) : Prop := ∀ j t, P t → P (err j t).1

theorem errFields_leaves {T : Type} {P : T → Prop} {fs : List (List UInt8 × ErrDec T)} (h : ∀ f ∈ fs, Leaves P f.2) :
    ∀ (m : JsonMembers) (t : T), P t → P (errFields fs m t).1
  | .nil, _, ht => ht
  | .cons k v m, t, ht => by
    simp only [errFields]
    split
    · exact errFields_leaves h m t ht
    · rename_i f hf
      obtain ⟨k, hk⟩ := findField_entry hf
      have h1 := h _ hk v t ht
      split
      · exact h1
      · exact errFields_leaves h m _ h1

theorem errStruct_leaves {T : Type} {P : T → Prop} {fs : List (List UInt8 × ErrDec T)} (h : ∀ f ∈ fs, Leaves P f.2) :
    Leaves P (errStruct fs) := by
  intro j t ht
  cases j with
  | obj m => exact errFields_leaves h m t ht
  | _ => exact ht

theorem errInt64_leaves : Leaves (fun v => -2 ^ 63 ≤ v ∧ v < 2 ^ 63) errInt64 := by
  intro j t ht
  cases j with
  | num lit =>
    simp only [errInt64]
    cases intLit lit with
    | none => exact ht
    | some v =>
      by_cases hv : -2 ^ 63 ≤ v ∧ v < 2 ^ 63
      · simp only [if_pos hv]; exact hv
      · simp only [if_neg hv]; exact ht
  | _ => exact ht

theorem errIPParams_int64 (bad : Json → Option Int → Int) : Leaves GoIPParams.Int64 (errIPParams bad) := by
  refine errStruct_leaves ?_
  simp only [List.forall_mem_cons, List.not_mem_nil, false_implies, implies_true, and_true]
  exact ⟨fun j t ht => errInt64_leaves j t.N ht, fun _ _ ht => ht, fun _ _ ht => ht, fun _ _ ht => ht, fun _ _ ht => ht,
    fun _ _ ht => ht, fun _ _ ht => ht⟩

theorem errIPProof_int64 (bad : Json → Option Int → Int) : Leaves GoIPProof.Int64 (errIPProof bad) := by
  refine errStruct_leaves ?_
  simp only [List.forall_mem_cons, List.not_mem_nil, false_implies, implies_true, and_true]
  exact ⟨fun j t ht => ⟨errInt64_leaves j t.N ht.1, ht.2⟩, fun _ _ ht => ht, fun _ _ ht => ht, fun _ _ ht => ht,
    fun _ _ ht => ht, fun _ _ ht => ht, fun _ _ ht => ht, fun _ _ ht => ht, fun _ _ ht => ht,
    fun j t ht => ⟨ht.1, errIPParams_int64 bad j t.Params ht.2⟩⟩

theorem errBPParams_int64 (bad : Json → Option Int → Int) :
    Leaves (fun p : GoBPParams => (-2 ^ 63 ≤ p.N ∧ p.N < 2 ^ 63) ∧ p.InnerProductParams.Int64) (errBPParams bad) := by
  refine errStruct_leaves ?_
  simp only [List.forall_mem_cons, List.not_mem_nil, false_implies, implies_true, and_true]
  exact ⟨fun j t ht => ⟨errInt64_leaves j t.N ht.1, ht.2⟩, fun _ _ ht => ht, fun _ _ ht => ht, fun _ _ ht => ht,
    fun _ _ ht => ht, fun j t ht => ⟨ht.1, errIPParams_int64 bad j t.InnerProductParams ht.2⟩⟩

theorem errBPProof_int64 (bad : Json → Option Int → Int) : Leaves GoBPProof.Int64 (errBPProof bad) := by
  refine errStruct_leaves ?_
  simp only [List.forall_mem_cons, List.not_mem_nil, false_implies, implies_true, and_true]
  exact ⟨fun _ _ ht => ht, fun _ _ ht => ht, fun _ _ ht => ht, fun _ _ ht => ht, fun _ _ ht => ht, fun _ _ ht => ht,
    fun _ _ ht => ht, fun _ _ ht => ht, fun j t ht => ⟨errIPProof_int64 bad j t.InnerProductProof ht.1, ht.2⟩,
    fun _ _ ht => ht, fun j t ht => ⟨ht.1, errBPParams_int64 bad j t.Params ht.2⟩⟩

theorem errBPRPProof_int64 (bad : Json → Option Int → Int) :
    Leaves (fun p : GoBPRPProof => p.P1.Int64 ∧ p.P2.Int64) (errBPRPProof bad) := by
  refine errStruct_leaves ?_
  simp only [List.forall_mem_cons, List.not_mem_nil, false_implies, implies_true, and_true]
  exact ⟨fun j t ht => ⟨errBPProof_int64 bad j t.P1 ht.1, ht.2⟩, fun j t ht => ⟨ht.1, errBPProof_int64 bad j t.P2 ht.2⟩⟩

/-! ### Members one after the other -/

/-- The members of two objects, those of the first one first. -/
def JsonMembers.append : JsonMembers → JsonMembers → JsonMembers
  | .nil, m => m
  | .cons k v m, m' => .cons k v (m.append m')

theorem errFields_skip {T : Type} {fs : List (List UInt8 × ErrDec T)} {k : List UInt8} {v : Json} {m : JsonMembers} {t : T}
    (h : findField fs (unquote k) = none) : errFields fs (.cons k v m) t = errFields fs m t := by
  rw [errFields, h]

theorem errFields_cons {T : Type} {fs : List (List UInt8 × ErrDec T)} {k : List UInt8} {v : Json} {m : JsonMembers} {t : T}
    {f : ErrDec T} (h : findField fs (unquote k) = some f) : errFields fs (.cons k v m) t =
      if (f v t).2 = .stop then f v t
      else ((errFields fs m (f v t).1).1, (f v t).2.join (errFields fs m (f v t).1).2) := by
  rw [errFields, h]

theorem errFields_append {T : Type} {fs : List (List UInt8 × ErrDec T)} (m' : JsonMembers) :
    ∀ (m : JsonMembers) (t : T), errFields fs (m.append m') t =
      if (errFields fs m t).2 = .stop then errFields fs m t
      else ((errFields fs m' (errFields fs m t).1).1, (errFields fs m t).2.join (errFields fs m' (errFields fs m t).1).2)
  | .nil, t => by simp [JsonMembers.append, errFields, DecErr.join]
  | .cons k v m, t => by
    rw [JsonMembers.append]
    rcases hf : findField fs (unquote k) with _ | f
    · rw [errFields_skip hf, errFields_skip hf]
      exact errFields_append m' m t
    · rw [errFields_cons hf, errFields_cons hf, errFields_append m' m]
      cases h1 : (f v t).2 <;> cases h2 : (errFields fs m (f v t).1).2 <;>
        cases h3 : (errFields fs m' (errFields fs m (f v t).1).1).2 <;> simp [h1, h2, h3, DecErr.join]

theorem JsonMembers.append_wf {m' : JsonMembers} (h' : m'.WF) : ∀ {m : JsonMembers}, m.WF → (m.append m').WF
  | .nil, _ => h'
  | .cons _ _ _, h => ⟨h.1, h.2.1, JsonMembers.append_wf h' h.2.2⟩

end Verif

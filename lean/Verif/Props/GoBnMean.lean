import Verif.Lemmas.GoBnMean
import Verif.Props.GoBn

/-! # C97: what a program of calls of `bn256` computes -/

namespace Verif

/-- C97: there is a bilinear map, trivial only if one of its arguments is, with which for every program the variables have
after the run the values which the group laws give, as far as they are known. -/
theorem C97_programs : ∃ pr : BG1 →+ AddSubgroup.zmultiples bnG2 →+ Additive F12ˣ,
    (∀ P Q, pr P Q = 0 ↔ P = 0 ∨ Q = 0) ∧
    ∀ (prog : List BnStmt) (σ σ' : BnVars) (α : BnElems), σ.Have α → bnRun prog σ = .ok σ' → σ'.Have (bnMean pr prog α) := by
  obtain ⟨pr, h1, -, h3⟩ := C62_pairing
  refine ⟨pr, h1, fun prog => ?_⟩
  induction prog with
  | nil => intro σ σ' α h he; cases he; exact h
  | cons s prog ih =>
    intro σ σ' α h he
    rw [bnRun, Res.bind_eq_ok] at he
    obtain ⟨σ₁, e1, e2⟩ := he
    exact ih σ₁ σ' _ (exec_mean h3 h s e1) e2

private theorem out_ok (s : BnStmt) {σ σ' : BnVars} (h : s.exec σ = .ok σ') : ∃ o, s.out σ = .ok o := by
  cases s <;> simp only [BnStmt.exec, BnStmt.out, Res.bind_eq_ok, Res.ofOption_eq_ok, Res.ok.injEq, exists_and_left, exists_eq', and_true] at h ⊢
  all_goals first
    | trivial
    | (obtain ⟨a, h1, -⟩ := h; exact ⟨_, h1⟩)
    | (obtain ⟨a, h1, b, h2, -⟩ := h; exact ⟨_, _, h1, _, h2, rfl⟩)
    | (obtain ⟨a, h1, -⟩ := h; exact ⟨_, _, h1, rfl⟩)
    | exact ⟨_, rfl⟩

/-- C97: the returned values do not change what a program does. -/
theorem C97_run (prog : List BnStmt) (σ σ' : BnVars) : bnRun prog σ = .ok σ' ↔ ∃ os, bnRunOut prog σ = .ok (os, σ') := by
  induction prog generalizing σ with
  | nil => simp [bnRun, bnRunOut]
  | cons s prog ih =>
    simp only [bnRun, bnRunOut, Res.bind_eq_ok]
    constructor
    · rintro ⟨σ₁, h1, h2⟩
      obtain ⟨os, h3⟩ := (ih σ₁).1 h2
      obtain ⟨o, h4⟩ := out_ok s h1
      exact ⟨o :: os, o, h4, σ₁, h1, (os, σ'), h3, rfl⟩
    · rintro ⟨os, o, h4, σ₁, h1, ⟨os', σ₂⟩, h3, h5⟩
      cases h5
      exact ⟨σ₁, h1, (ih σ₁).2 ⟨_, h3⟩⟩

/-- C97: and every call returns the value which the group elements determine: the tests, the bytes, the verdict of
`Unmarshal`, and of `PairingCheck` for elements of the subgroup. -/
theorem C97_answers : ∃ pr : BG1 →+ AddSubgroup.zmultiples bnG2 →+ Additive F12ˣ,
    (∀ P Q, pr P Q = 0 ↔ P = 0 ∨ Q = 0) ∧
    ∀ (prog : List BnStmt) (σ σ' : BnVars) (α : BnElems) (os : List BnOut), σ.Have α → bnRunOut prog σ = .ok (os, σ') →
      bnAnswers pr prog α os ∧ σ'.Have (bnMean pr prog α) := by
  obtain ⟨pr, h1, -, h3⟩ := C62_pairing
  refine ⟨pr, h1, fun prog => ?_⟩
  induction prog with
  | nil => intro σ σ' α os h he; cases he; exact ⟨rfl, h⟩
  | cons s prog ih =>
    intro σ σ' α os h he
    simp only [bnRunOut, Res.bind_eq_ok] at he
    obtain ⟨o, e1, σ₁, e2, ⟨os', σ₂⟩, e3, e4⟩ := he
    cases e4
    obtain ⟨g1, g2⟩ := ih σ₁ _ _ os' (exec_mean h3 h s e2) e3
    exact ⟨⟨out_answers h3 h s e1, g1⟩, g2⟩

/-- C97: a program which sets every variable before it reads it returns, and the variables have these values. -/
theorem C97_from_start : ∃ pr : BG1 →+ AddSubgroup.zmultiples bnG2 →+ Additive F12ˣ,
    (∀ P Q, pr P Q = 0 ↔ P = 0 ∨ Q = 0) ∧
    ∀ prog : List BnStmt, BnDefined [] prog → ∃ σ', bnRun prog .zero = .ok σ' ∧ σ'.Have (bnMean pr prog .nothing) := by
  obtain ⟨pr, h1, h2⟩ := C97_programs
  refine ⟨pr, h1, fun prog hd => ?_⟩
  obtain ⟨σ', e, -⟩ := C96_programs prog [] .zero hd (by intro i p h; cases h) (by simp)
  exact ⟨σ', e, h2 prog .zero σ' .nothing ⟨nofun, nofun, nofun, nofun⟩ e⟩

/-- The pairing of `-10·g1`, computed in several steps, with the bytes of `3·g2`, inverted and squared in its own variable. -/
example (pr : BG1 →+ AddSubgroup.zmultiples bnG2 →+ Additive F12ˣ) :
    let m := (G2.marshal (G2.scalarBaseMult 3)).1
    let prog := [BnStmt.g1ScalarBaseMult 0 5, .g1Add 1 0 0, .g1Marshal 1, .g1Neg 1 1, .g2Unmarshal 7 m, .pair 4 1 7, .gtExp 2 4 (-2)]
    BnDefined [] prog ∧ (bnMean pr prog .nothing).gt 4 =
      some (((pr (-((5 : Int) • bnG1 + (5 : Int) • bnG1)) ⟨(3 : Int) • bnG2, AddSubgroup.zsmul_mem_zmultiples _ _⟩).toMul : F12) ^ (-2 : Int)) ∧
      (bnMean pr prog .nothing).gt 2 = none := by
  intro m prog
  have h3 := C36_scalarBaseMult 3 (by decide)
  have hl : m.length = 128 := (C39_length _ _ h3).1
  have hm : elem2 m = some ((3 : Int) • bnG2) := elem2_marshal h3
  have h0 : ¬ -((5 : Int) • bnG1 + (5 : Int) • bnG1) = 0 := by
    rw [← add_smul, ← neg_smul]
    intro h
    have := (addOrderOf_dvd_iff_zsmul_eq_zero (x := bnG1)).2 h
    rw [addOrderOf_eq_prime bnG1_order bnG1_ne_zero] at this
    revert this
    decide +kernel
  have h0' : ¬ -((5 : Int) • bnG1) + -((5 : Int) • bnG1) = 0 := by rwa [neg_add] at h0
  refine ⟨?_, ?_, ?_⟩
  · simp [prog, BnDefined, BnStmt.inputs, BnStmt.outputs, BnStmt.Fits, hl]
  · simp [prog, bnMean, BnStmt.mean, BnElems.let1, BnElems.let2, BnElems.letT, BnElems.nothing, hl, hm, h0', AddSubgroup.zsmul_mem_zmultiples]
  · simp [prog, bnMean, BnStmt.mean, BnElems.let1, BnElems.let2, BnElems.letT, BnElems.nothing, hl]

/-- `PairingCheck([5·g1, -g1], [m, 5·m])` for the bytes of an element `3·g2`: the answer is `true`. -/
example (pr : BG1 →+ AddSubgroup.zmultiples bnG2 →+ Additive F12ˣ) (os : List BnOut) :
    let m := (G2.marshal (G2.scalarBaseMult 3)).1
    let m5 := (G2.marshal (G2.scalarBaseMult 15)).1
    let prog := [BnStmt.g1ScalarBaseMult 0 5, .g1ScalarBaseMult 1 (-1), .g2Unmarshal 0 m, .g2Unmarshal 1 m5, .pairingCheck [0, 1] [0, 1]]
    bnAnswers pr prog .nothing os → os = [.nothing, .nothing, .bool true, .bool true, .bool true] := by
  intro m m5 prog h
  have h3 := C36_scalarBaseMult 3 (by decide)
  have h5 := C36_scalarBaseMult 15 (by decide)
  have l3 : m.length = 128 := (C39_length _ _ h3).1
  have l5 : m5.length = 128 := (C39_length _ _ h5).1
  have e3 : elem2 m = some ((3 : Int) • bnG2) := elem2_marshal h3
  have e5 : elem2 m5 = some ((15 : Int) • bnG2) := elem2_marshal h5
  obtain _ | ⟨o1, _ | ⟨o2, _ | ⟨o3, _ | ⟨o4, _ | ⟨o5, os⟩⟩⟩⟩⟩ := os <;> simp only [prog, bnAnswers, and_false] at h
  obtain ⟨rfl, rfl, rfl, rfl, h, rfl⟩ := h
  have := h [((5 : Int) • bnG1, ⟨(3 : Int) • bnG2, AddSubgroup.zsmul_mem_zmultiples _ _⟩), ((-1 : Int) • bnG1, ⟨(15 : Int) • bnG2, AddSubgroup.zsmul_mem_zmultiples _ _⟩)]
    (by simp [BnStmt.mean, BnElems.let1, BnElems.let2, l3, l5])
    (by simp [BnStmt.mean, BnElems.let1, BnElems.let2, l3, l5, e3, e5])
  rw [this, e3, e5]
  have e15 : (⟨(15 : Int) • bnG2, AddSubgroup.zsmul_mem_zmultiples _ _⟩ : AddSubgroup.zmultiples bnG2) =
      (5 : Int) • ⟨(3 : Int) • bnG2, AddSubgroup.zsmul_mem_zmultiples _ _⟩ := by
    ext
    simp [smul_smul]
  have e0 : pr ((5 : Int) • bnG1) ⟨(3 : Int) • bnG2, AddSubgroup.zsmul_mem_zmultiples _ _⟩ +
      (pr ((-1 : Int) • bnG1) ⟨(15 : Int) • bnG2, AddSubgroup.zsmul_mem_zmultiples _ _⟩ + 0) = 0 := by
    have hz : ∀ (k : Int) (Q), pr (k • bnG1) Q = k • pr bnG1 Q := fun k Q => map_zsmul (AddMonoidHom.flip pr Q) k bnG1
    rw [e15, hz, hz, map_zsmul, add_zero, smul_smul, ← add_zsmul]
    exact zero_zsmul _
  simp only [List.map_cons, List.map_nil, List.sum_cons, List.sum_nil, e0, decide_true, Option.isSome_some]

/-- C97: in the exceptional cases in `G2` the variable has no group element at all, except for `Add`, where it can have the sum by chance
(C35). -/
theorem C97_lost (σ σ' : BnVars) (α : BnElems) (h : σ.Have α) (e a : Nat) (Q : BG2) (ha : α.g2 a = some Q) (s : BnStmt)
    (hs : (s = .g2Neg a a ∧ a = e ∧ Q ≠ -Q) ∨ (∃ k : Int, s = .g2ScalarMult e a k ∧ k < 0 ∧ (2 * k) • Q ≠ 0) ∨
      (s = .g2Marshal a ∧ a = e ∧ Q = 0))
    (he : s.exec σ = .ok σ') : ∃ q, σ'.g2 e = some q ∧ ∀ R : BG2, ¬ Rep2 q R := by
  rcases hs with ⟨rfl, rfl, hQ⟩ | ⟨k, rfl, hk, hQ⟩ | ⟨rfl, rfl, hQ⟩
  · simp only [BnStmt.exec, Res.bind_eq_ok, Res.ofOption_eq_ok, Res.ok.injEq, fill2_put] at he
    obtain ⟨p, hp, rfl⟩ := he
    obtain ⟨p', hp', rp⟩ := Have.fill2 (e := a) h ha
    cases hp.symm.trans hp'
    exact ⟨_, put2_self _ _ _, by rw [if_pos trivial]; exact ((C36_neg_inplace _ _ rp).2 hQ).2⟩
  · obtain ⟨p, hp, rp⟩ := Have.fill2 (e := e) h ha
    simp only [BnStmt.exec, hp, goTwistMul_some, Res.ok_bind, fill2_put, if_neg (not_le.2 hk), ge_iff_le, Res.ok.injEq] at he
    subst he
    have := ((C36_scalarMult_negative _ _ rp k hk).2 hQ).2
    rw [G2.scalarMult, if_neg (by omega)] at this
    exact ⟨_, put2_self _ _ _, this⟩
  · obtain ⟨p, hp, rp⟩ := h.g2 _ _ ha
    simp only [BnStmt.exec, hp, Res.ofOption_some, Res.ok_bind, Res.ok.injEq] at he
    subst he
    exact ⟨_, put2_self _ _ _, ((C39_length _ _ rp).2.2 hQ).2.2⟩

/-- Marshalling infinity. -/
example : ∃ σ' q, BnStmt.exec (.g2Marshal 0) (BnVars.zero.put2 0 TwistPoint.new.setInfinity) = .ok σ' ∧ σ'.g2 0 = some q ∧ ∀ R : BG2, ¬ Rep2 q R := by
  have hv : (BnVars.zero.put2 0 TwistPoint.new.setInfinity).Have (BnElems.nothing.let2 0 (some 0) true) :=
    Have.put2 (α := .nothing) ⟨nofun, nofun, nofun, nofun⟩ (fun R hR => by cases hR; exact rep2_infinity rfl) fun _ => pairOk_of_zero (rep2_infinity rfl)
  have he : BnStmt.exec (.g2Marshal 0) (BnVars.zero.put2 0 TwistPoint.new.setInfinity) =
      .ok ((BnVars.zero.put2 0 TwistPoint.new.setInfinity).put2 0 TwistPoint.new.setInfinity.makeAffine) := rfl
  obtain ⟨q, h1, h2⟩ := C97_lost _ _ _ hv 0 0 0 (by simp [BnElems.let2]) _ (.inr (.inr ⟨rfl, rfl, rfl⟩)) he
  exact ⟨_, q, he, h1, h2⟩

end Verif

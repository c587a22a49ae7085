import Verif.Spec.GoBnMean
import Verif.Lemmas.GoBn
import Verif.Props.BnPair
import Verif.Props.BnBytes
import Verif.Props.BnText

/-! # Lemmas for C97 -/

namespace Verif

open Classical

variable {σ σ' : BnVars} {α : BnElems} {e a b : Nat}

theorem Have.put1 (h : σ.Have α) {v : CurvePoint} {w : Option BG1} (hv : ∀ P, w = some P → Rep1 v P) : (σ.put1 e v).Have (α.let1 e w) := by
  refine ⟨fun i P hi => ?_, h.g2, h.usable, h.gt⟩
  simp only [BnElems.let1] at hi
  simp only [BnVars.put1]
  split_ifs at hi ⊢ with hc
  · exact ⟨v, rfl, hv P hi⟩
  · exact h.g1 i P hi

theorem Have.put2 (h : σ.Have α) {v : TwistPoint} {w : Option BG2} {u : Bool} (hv : ∀ P, w = some P → Rep2 v P) (hu : u = true → PairOk v) :
    (σ.put2 e v).Have (α.let2 e w u) := by
  refine ⟨h.g1, fun i P hi => ?_, fun i q hi hq => ?_, h.gt⟩
  · simp only [BnElems.let2] at hi
    simp only [BnVars.put2]
    split_ifs at hi ⊢ with hc
    · exact ⟨v, rfl, hv P hi⟩
    · exact h.g2 i P hi
  · simp only [BnElems.let2] at hi
    simp only [BnVars.put2] at hq
    split_ifs at hi hq with hc
    · cases hq; exact hu hi
    · exact h.usable i q hi hq

theorem Have.putT (h : σ.Have α) {v : GfP12} {w : Option F12} (hv : ∀ x, w = some x → v.val = x) : (σ.putT e v).Have (α.letT e w) := by
  refine ⟨h.g1, h.g2, h.usable, fun i P hi => ?_⟩
  simp only [BnElems.letT] at hi
  simp only [BnVars.putT]
  split_ifs at hi ⊢ with hc
  · exact ⟨v, rfl, hv P hi⟩
  · exact h.gt i P hi

/-- The variable `e` keeps what is known of it. -/
theorem Have.keep1 (h : σ.Have α) {v : CurvePoint} (hv : ∀ P, α.g1 e = some P → Rep1 v P) : (σ.put1 e v).Have α := by
  have := Have.put1 (e := e) h hv
  have e' : α.let1 e (α.g1 e) = α := by
    cases α; simp only [BnElems.let1, BnElems.mk.injEq, and_true]
    funext i; split_ifs with hc; rw [hc]; rfl
  rwa [e'] at this

theorem Have.keepT (h : σ.Have α) {v : GfP12} (hv : ∀ P, α.gt e = some P → v.val = P) : (σ.putT e v).Have α := by
  have := Have.putT (e := e) h hv
  have e' : α.letT e (α.gt e) = α := by
    cases α; simp only [BnElems.letT, BnElems.mk.injEq, true_and]
    funext i; split_ifs with hc; rw [hc]; rfl
  rwa [e'] at this

/-- What is known stays known when the receiver is filled. -/
theorem Have.fill1 (h : σ.Have α) {P : BG1} (ha : α.g1 a = some P) : ∃ p, (σ.fill1 e).g1 a = some p ∧ Rep1 p P := by
  obtain ⟨p, h1, h2⟩ := h.g1 a P ha
  refine ⟨p, ?_, h2⟩
  simp only [BnVars.fill1, BnVars.put1]
  split_ifs with hc
  · rw [← hc, h1]; rfl
  · exact h1

theorem Have.fill2 (h : σ.Have α) {P : BG2} (ha : α.g2 a = some P) : ∃ p, (σ.fill2 e).g2 a = some p ∧ Rep2 p P := by
  obtain ⟨p, h1, h2⟩ := h.g2 a P ha
  refine ⟨p, ?_, h2⟩
  simp only [BnVars.fill2, BnVars.put2]
  split_ifs with hc
  · rw [← hc, h1]; rfl
  · exact h1

theorem Have.fillT (h : σ.Have α) {x : F12} (ha : α.gt a = some x) : ∃ p, (σ.fillT e).gt a = some p ∧ p.val = x := by
  obtain ⟨p, h1, h2⟩ := h.gt a x ha
  refine ⟨p, ?_, h2⟩
  simp only [BnVars.fillT, BnVars.putT]
  split_ifs with hc
  · rw [← hc, h1]; rfl
  · exact h1

/-! ### Bytes -/

theorem word32_take (m : List UInt8) : word32 m 0 = setBytes (m.take 32) := rfl

theorem word32_drop (m : List UInt8) (i : Nat) (h : m.length = 32 * (i + 1)) : word32 m i = setBytes (m.drop (32 * i)) := by
  rw [word32, List.take_of_length_le (by rw [List.length_drop]; omega)]; rfl

theorem word2_eq (m : List UInt8) (i : Nat) (x y : Nat) (hx : word32 m i = x) (hy : word32 m (i + 1) = y) :
    word2 m i = GfP2.val ⟨x, y⟩ := by
  rw [word2, hx, hy, GfP2.val, Int.cast_natCast, Int.cast_natCast]

theorem rep1_affine {P : BG1} {x y : Nat} (h : IsPt P (x : BF) (y : BF)) : Rep1 ⟨x, y, 1, 1⟩ P := by
  refine ⟨?_, Int.one_nonneg, fun h => absurd h (by simp)⟩
  simp only [Int.cast_one, Int.cast_natCast]
  exact Jac.of_affine h

theorem rep2_affine {P : BG2} {x y : GfP2} (h : IsPt P x.val y.val) : Rep2 ⟨x, y, .one, .one⟩ P := by
  refine ⟨?_, Int.one_nonneg, fun h => absurd h (by simp)⟩
  simp only [GfP2.val_one]
  exact Jac.of_affine h

/-- `Unmarshal` reads the element with these coordinates. -/
theorem elem1_unmarshal (m : List UInt8) : (elem1 m = none ∧ G1.unmarshal m = none) ∨ ∃ P p, elem1 m = some P ∧ G1.unmarshal m = some p ∧ Rep1 p P := by
  rw [elem1, G1.unmarshal]
  by_cases hl : m.length = 64
  · rw [if_neg (not_not.2 hl), if_neg (not_not.2 hl)]
    rw [word32_take, word32_drop m 1 (by omega)]
    dsimp only
    generalize setBytes (m.take 32) = x
    rw [show 32 * 1 = 32 from rfl]
    generalize setBytes (m.drop 32) = y
    by_cases h0 : x = 0 ∧ (y = 0 ∨ y = 1)
    · rw [if_pos h0, if_pos (by omega)]
      exact .inr ⟨_, _, rfl, rfl, rep1_infinity rfl⟩
    · rw [if_neg h0, if_neg (by omega)]
      by_cases hc : ∃ P : BG1, IsPt P (x : BF) (y : BF)
      · rw [dif_pos hc]
        have he := hc.choose_spec.eqn
        rw [if_neg]
        · exact .inr ⟨_, _, rfl, rfl, rep1_affine hc.choose_spec⟩
        · rw [not_not, CurvePoint.isOnCurve_iff]
          simpa using he
      · rw [dif_neg hc, if_pos]
        · exact .inl ⟨rfl, rfl⟩
        · intro he
          rw [CurvePoint.isOnCurve_iff] at he
          simp only [Int.cast_natCast] at he
          exact hc ⟨_, ⟨curve_nonsingular bf_two bf_three bf_three he, rfl⟩⟩
  · rw [if_pos hl, if_pos hl]
    exact .inl ⟨rfl, rfl⟩

theorem elem2_unmarshal (m : List UInt8) : (elem2 m = none ∧ G2.unmarshal m = none) ∨ ∃ P p, elem2 m = some P ∧ G2.unmarshal m = some p ∧ Rep2 p P := by
  rw [elem2, G2.unmarshal]
  by_cases hl : m.length = 128
  · rw [if_neg (not_not.2 hl), if_neg (not_not.2 hl)]
    rw [word2_eq m 0 _ _ rfl rfl, word2_eq m 2 _ _ rfl rfl]
    have e3 := word32_drop m 3 (by omega)
    rw [show 32 * 3 = 96 from rfl] at e3
    rw [show 2 + 1 = 3 from rfl, show 0 + 1 = 1 from rfl, e3, show word32 m 0 = setBytes (m.take 32) from rfl,
      show word32 m 1 = setBytes ((m.drop 32).take 32) from rfl, show word32 m 2 = setBytes ((m.drop 64).take 32) from rfl]
    dsimp only
    generalize setBytes (m.take 32) = xx
    generalize setBytes ((m.drop 32).take 32) = xy
    generalize setBytes ((m.drop 64).take 32) = yx
    generalize setBytes (m.drop 96) = yy
    by_cases h0 : xx = 0 ∧ xy = 0 ∧ yx = 0 ∧ yy = 0
    · rw [if_pos h0, if_pos (by omega)]
      exact .inr ⟨_, _, rfl, rfl, rep2_infinity rfl⟩
    · rw [if_neg h0, if_neg (by omega)]
      by_cases hc : ∃ P : BG2, IsPt P (GfP2.val ⟨xx, xy⟩) (GfP2.val ⟨yx, yy⟩)
      · rw [dif_pos hc]
        have he := hc.choose_spec.eqn
        rw [if_neg]
        · exact .inr ⟨_, _, rfl, rfl, rep2_affine hc.choose_spec⟩
        · rw [not_not, TwistPoint.isOnCurve_iff]
          exact he
      · rw [dif_neg hc, if_pos]
        · exact .inl ⟨rfl, rfl⟩
        · intro he
          rw [TwistPoint.isOnCurve_iff] at he
          exact hc ⟨_, ⟨curve_nonsingular f2_two f2_three twist_ne he, rfl⟩⟩
  · rw [if_pos hl, if_pos hl]
    exact .inl ⟨rfl, rfl⟩

theorem elemT_unmarshal (m : List UInt8) : (elemT m = none ∧ GT.unmarshal m = none) ∨ ∃ p, elemT m = some p.val ∧ GT.unmarshal m = some p := by
  rw [elemT, GT.unmarshal]
  by_cases hl : m.length = 384
  · rw [if_neg (not_not.2 hl), if_neg (not_not.2 hl)]
    refine .inr ⟨_, ?_, rfl⟩
    rw [GfP12.val, GfP6.val, GfP6.val, word6, word6]
    simp only [word2_eq m _ _ _ rfl rfl]
    rfl
  · rw [if_pos hl, if_pos hl]
    exact .inl ⟨rfl, rfl⟩

theorem elem1_rep {m : List UInt8} {P : BG1} (h : elem1 m = some P) : ∃ p, G1.unmarshal m = some p ∧ Rep1 p P := by
  rcases elem1_unmarshal m with ⟨h1, -⟩ | ⟨Q, p, h1, h2, h3⟩
  · rw [h] at h1; cases h1
  · cases h.symm.trans h1; exact ⟨p, h2, h3⟩

theorem elem2_rep {m : List UInt8} {P : BG2} (h : elem2 m = some P) : ∃ p, G2.unmarshal m = some p ∧ Rep2 p P := by
  rcases elem2_unmarshal m with ⟨h1, -⟩ | ⟨Q, p, h1, h2, h3⟩
  · rw [h] at h1; cases h1
  · cases h.symm.trans h1; exact ⟨p, h2, h3⟩

theorem elemT_rep {m : List UInt8} {x : F12} (h : elemT m = some x) : ∃ p, GT.unmarshal m = some p ∧ p.val = x := by
  rcases elemT_unmarshal m with ⟨h1, -⟩ | ⟨p, h1, h2⟩
  · rw [h] at h1; cases h1
  · cases h.symm.trans h1; exact ⟨p, h2, rfl⟩

theorem elem1_marshal {p : CurvePoint} {P : BG1} (h : Rep1 p P) : elem1 (G1.marshal p).1 = some P := by
  obtain ⟨q, h1, h2⟩ := C38_roundtrip p P h
  rcases elem1_unmarshal (G1.marshal p).1 with ⟨-, h3⟩ | ⟨Q, r, h3, h4, h5⟩
  · rw [h1] at h3; cases h3
  · cases h1.symm.trans h4
    rw [h3, (C38_injective q q Q P h5 h2).1 rfl]

theorem elem2_marshal {p : TwistPoint} {P : BG2} (h : Rep2 p P) : elem2 (G2.marshal p).1 = some P := by
  obtain ⟨q, h1, h2⟩ := C39_roundtrip p P h
  rcases elem2_unmarshal (G2.marshal p).1 with ⟨-, h3⟩ | ⟨Q, r, h3, h4, h5⟩
  · rw [h1] at h3; cases h3
  · cases h1.symm.trans h4
    rw [h3, (C39_injective q q Q P h5 h2).1 rfl]

theorem elemT_marshal (g : GfP12) : elemT (GT.marshal g).1 = some g.val := by
  obtain ⟨-, h1, h2, -⟩ := C40_marshal g g
  rcases elemT_unmarshal (GT.marshal g).1 with ⟨-, h3⟩ | ⟨r, h3, h4⟩
  · rw [h1] at h3; cases h3
  · cases h1.symm.trans h4
    rw [h3, h2]

theorem word32_words {l : List Int} (h : ∀ n ∈ l, 0 ≤ n ∧ n < 2 ^ 256) (i : Nat) (hi : i < l.length) : (word32 (words l) i : Int) = l[i] :=
  word_words h i hi

theorem reduced_words {l : List Int} (h : ∀ n ∈ l, 0 ≤ n ∧ n < bnP) : Reduced (words l) := by
  have h' : ∀ n ∈ l, 0 ≤ n ∧ n < 2 ^ 256 := fun n hn => ⟨(h n hn).1, (h n hn).2.trans (by decide)⟩
  intro i
  by_cases hi : i < l.length
  · rw [word32_words h' i hi]
    exact (h _ (List.getElem_mem hi)).2
  · rw [word32, List.drop_eq_nil_of_le (by rw [words_length h']; omega)]
    decide

theorem G1.marshal_words (p : CurvePoint) : (G1.marshal p).1 = words [p.makeAffine.x % bnP, p.makeAffine.y % bnP] := by
  simp [G1.marshal, words]

theorem G2.marshal_words (p : TwistPoint) : (G2.marshal p).1 =
    words [p.makeAffine.x.x % bnP, p.makeAffine.x.y % bnP, p.makeAffine.y.x % bnP, p.makeAffine.y.y % bnP] := by
  simp [G2.marshal, words]

theorem emod_red (x : Int) : 0 ≤ x % bnP ∧ x % bnP < bnP := ⟨Int.emod_nonneg _ (by decide), Int.emod_lt_of_pos _ (by decide)⟩

theorem reduced1 (p : CurvePoint) : Reduced (G1.marshal p).1 := by
  rw [G1.marshal_words]
  apply reduced_words
  simp only [List.forall_mem_cons, List.not_mem_nil, false_implies, implies_true, and_true]
  exact ⟨emod_red _, emod_red _⟩

theorem reduced2 (p : TwistPoint) : Reduced (G2.marshal p).1 := by
  rw [G2.marshal_words]
  apply reduced_words
  simp only [List.forall_mem_cons, List.not_mem_nil, false_implies, implies_true, and_true]
  exact ⟨emod_red _, emod_red _, emod_red _, emod_red _⟩

theorem reducedT (g : GfP12) : Reduced (GT.marshal g).1 := by
  rw [GT.marshal_eq]
  apply reduced_words
  have h : ∀ a : GfP2, (0 ≤ a.minimal.x ∧ a.minimal.x < bnP) ∧ 0 ≤ a.minimal.y ∧ a.minimal.y < bnP := fun a => by
    obtain ⟨h1, h2, h3, h4⟩ := GfP2.minimal_red a
    exact ⟨⟨h1, h2⟩, h3, h4⟩
  simp only [GfP12.coords, List.forall_mem_cons, List.not_mem_nil, false_implies, implies_true, and_true]
  exact ⟨(h _).1, (h _).2, (h _).1, (h _).2, (h _).1, (h _).2, (h _).1, (h _).2, (h _).1, (h _).2, (h _).1, (h _).2⟩

theorem marshal_infinity {p : CurvePoint} (h : Rep1 p 0) : word32 (G1.marshal p).1 1 = 1 := by
  have e : (G1.marshal p).1 = words [0, 1] := by
    rw [G1.marshal_words, CurvePoint.makeAffine_infinity h]; rfl
  have : (word32 (words [0, 1]) 1 : Int) = 1 := word32_words (l := [0, 1]) (by simp) 1 (by decide)
  rw [e]
  exact_mod_cast this

theorem pairOk_of_zero {q : TwistPoint} (h : Rep2 q 0) : PairOk q := by
  intro hz
  have h0 := h.isInfinity.2 rfl
  simp only [TwistPoint.isInfinity, GfP2.isZero, GfP2.isOne, Bool.and_eq_true, beq_iff_eq] at h0 hz
  simp [h0.1, h0.2] at hz

/-- One call. -/
theorem exec_mean {pr : BG1 →+ AddSubgroup.zmultiples bnG2 →+ Additive F12ˣ}
    (hpr : ∀ (b : CurvePoint) (a : TwistPoint) (P : BG1) (Q : AddSubgroup.zmultiples bnG2),
      Rep1 b P → Rep2 a Q → PairOk a → (pair b a).val = ((pr P Q).toMul : F12))
    (h : σ.Have α) (s : BnStmt) (he : s.exec σ = .ok σ') : σ'.Have (s.mean pr α) := by
  cases s with
  | g1Add e a b =>
    simp only [BnStmt.exec, Res.bind_eq_ok, Res.ofOption_eq_ok, Res.ok.injEq, fill1_put] at he
    obtain ⟨c, -, pa, ha, pb, hb, rfl⟩ := he
    refine Have.put1 h fun R hR => ?_
    simp only [Option.bind_eq_bind, Option.bind_eq_some_iff] at hR
    obtain ⟨P, hP, Q, hQ, hR⟩ := hR
    obtain ⟨pa', ha', ra⟩ := Have.fill1 (e := e) h hP
    obtain ⟨pb', hb', rb⟩ := Have.fill1 (e := e) h hQ
    cases ha.symm.trans ha'
    cases hb.symm.trans hb'
    split_ifs at hR with hc
    cases hR
    split_ifs with hea
    · exact C35_distinct _ _ _ _ ra rb (by tauto)
    · exact C34_add _ _ _ _ _ ra rb
  | g1Neg e a =>
    simp only [BnStmt.exec, Res.bind_eq_ok, Res.ofOption_eq_ok, Res.ok.injEq, fill1_put] at he
    obtain ⟨pa, ha, rfl⟩ := he
    refine Have.put1 h fun R hR => ?_
    obtain ⟨P, hP, rfl⟩ := Option.map_eq_some_iff.1 hR
    obtain ⟨pa', ha', ra⟩ := Have.fill1 (e := e) h hP
    cases ha.symm.trans ha'
    exact C34_neg _ _ ra
  | g1ScalarMult e a k =>
    simp only [BnStmt.exec, Res.bind_eq_ok, Res.ofOption_eq_ok, fill1_put] at he
    obtain ⟨c, -, he⟩ := he
    split_ifs at he with h0 h1
    · cases he
      refine Have.put1 h fun R hR => ?_
      rw [if_pos h0] at hR
      cases hR
      exact rep1_infinity rfl
    · simp only [Res.bind_eq_ok, Res.ok.injEq] at he
      obtain ⟨r, hr, rfl⟩ := he
      refine Have.put1 h fun R hR => ?_
      rw [if_neg h0] at hR
      obtain ⟨P, hP, rfl⟩ := Option.map_eq_some_iff.1 hR
      obtain ⟨pa', ha', ra⟩ := Have.fill1 (e := e) h hP
      rw [ha', goCurveMul_some] at hr
      cases hr
      exact CurvePoint.mul_rep ra h1.le
    · simp only [Res.bind_eq_ok, Res.ok.injEq] at he
      obtain ⟨r, hr, rfl⟩ := he
      refine Have.put1 h fun R hR => ?_
      rw [if_neg h0] at hR
      obtain ⟨P, hP, rfl⟩ := Option.map_eq_some_iff.1 hR
      obtain ⟨pa', ha', ra⟩ := Have.fill1 (e := e) h hP
      rw [ha', goCurveMul_some] at hr
      cases hr
      have := CurvePoint.neg_rep (CurvePoint.mul_rep ra (k := (k.natAbs : Int)) (by omega))
      rwa [← neg_smul, show -(k.natAbs : Int) = k by omega] at this
  | g1ScalarBaseMult e k =>
    simp only [BnStmt.exec, Res.bind_eq_ok, Res.ofOption_eq_ok, Res.ok.injEq, fill1_put] at he
    obtain ⟨c, -, rfl⟩ := he
    exact Have.put1 h fun R hR => by cases hR; exact C34_scalarBaseMult _ _
  | g1SetInfinity e => cases he; exact Have.put1 h fun R hR => by cases hR; exact rep1_infinity rfl
  | g1SetZero e =>
    simp only [BnStmt.exec, Res.bind_eq_ok, Res.ofOption_eq_ok, Res.ok.injEq] at he
    obtain ⟨c, -, rfl⟩ := he
    exact Have.put1 h fun R hR => by cases hR; exact rep1_infinity rfl
  | g1IsZero e =>
    simp only [BnStmt.exec, Res.bind_eq_ok, Res.ok.injEq] at he
    obtain ⟨c, -, rfl⟩ := he
    exact h
  | g1CurvePoints e =>
    simp only [BnStmt.exec, Res.bind_eq_ok, Res.ok.injEq] at he
    obtain ⟨c, -, rfl⟩ := he
    exact h
  | g1String e =>
    simp only [BnStmt.exec, Res.bind_eq_ok, Res.ofOption_eq_ok, Res.ok.injEq] at he
    obtain ⟨p, hp, r, hr, rfl⟩ := he
    refine Have.keep1 h fun P hP => ?_
    obtain ⟨p', hp', rp⟩ := h.g1 _ _ hP
    cases hp.symm.trans hp'
    rw [goMakeAffine] at hr
    split_ifs at hr
    cases hr
    exact CurvePoint.makeAffine_rep rp
  | g1Marshal e =>
    simp only [BnStmt.exec, Res.bind_eq_ok, Res.ofOption_eq_ok, Res.ok.injEq] at he
    obtain ⟨p, hp, r, hr, rfl⟩ := he
    refine Have.keep1 h fun P hP => ?_
    obtain ⟨p', hp', rp⟩ := h.g1 _ _ hP
    cases hp.symm.trans hp'
    rw [goMakeAffine] at hr
    split_ifs at hr
    cases hr
    exact CurvePoint.makeAffine_rep rp
  | g1Unmarshal e m =>
    simp only [BnStmt.exec] at he
    simp only [BnStmt.mean]
    by_cases hc : m.length = 64
    · rw [if_pos hc]
      rw [if_neg (not_not.2 hc)] at he
      cases he
      refine Have.put1 h fun P hP => ?_
      obtain ⟨p, hp, rp⟩ := elem1_rep hP
      rw [hp]; exact rp
    · rw [if_neg hc]
      rw [if_pos hc] at he
      cases he
      exact h
  | g2Add e a b =>
    simp only [BnStmt.exec, Res.bind_eq_ok, Res.ofOption_eq_ok, Res.ok.injEq, fill2_put] at he
    obtain ⟨c, -, pa, ha, pb, hb, rfl⟩ := he
    refine Have.put2 h (fun R hR => ?_) nofun
    simp only [Option.bind_eq_bind, Option.bind_eq_some_iff] at hR
    obtain ⟨P, hP, Q, hQ, hR⟩ := hR
    obtain ⟨pa', ha', ra⟩ := Have.fill2 (e := e) h hP
    obtain ⟨pb', hb', rb⟩ := Have.fill2 (e := e) h hQ
    cases ha.symm.trans ha'
    cases hb.symm.trans hb'
    split_ifs at hR with hc
    cases hR
    split_ifs with hea
    · exact C35_distinct2 _ _ _ _ ra rb (by tauto)
    · exact C36_add _ _ _ _ _ ra rb
  | g2Neg e a =>
    simp only [BnStmt.exec, Res.bind_eq_ok, Res.ofOption_eq_ok, Res.ok.injEq, fill2_put] at he
    obtain ⟨pa, ha, rfl⟩ := he
    refine Have.put2 h (fun R hR => ?_) nofun
    simp only [Option.bind_eq_bind, Option.bind_eq_some_iff] at hR
    obtain ⟨P, hP, hR⟩ := hR
    obtain ⟨pa', ha', ra⟩ := Have.fill2 (e := e) h hP
    cases ha.symm.trans ha'
    split_ifs at hR with hc
    cases hR
    split_ifs with hea
    · exact (C36_neg_inplace _ _ ra).1 (by tauto)
    · exact C36_neg _ _ ra
  | g2ScalarMult e a k =>
    have key : ∃ v, σ' = σ.put2 e v ∧ (∀ pa, (σ.fill2 e).g2 a = some pa → v = G2.scalarMult pa k) ∧ (k = 0 → Rep2 v 0) := by
      simp only [BnStmt.exec] at he
      split_ifs at he with hk
      · simp only [Res.bind_eq_ok, Res.ok.injEq, fill2_put] at he
        obtain ⟨r, hr, rfl⟩ := he
        refine ⟨r, rfl, fun pa hpa => ?_, fun h0 => ?_⟩
        · rw [hpa, goTwistMul_some] at hr
          cases hr
          rw [G2.scalarMult, if_pos hk]
        · subst h0
          have h0 : ∀ p : TwistPoint, Rep2 (p.mul 0) 0 := fun p => by
            have := TwistPoint.mul_rep rep2_gen (k := 0) (le_refl 0)
            rw [zero_smul] at this
            exact this
          cases hg : (σ.fill2 e).g2 a with
          | none =>
            rw [hg, goTwistMul_none .gen (le_refl 0), if_pos rfl] at hr
            cases hr
            exact h0 _
          | some p =>
            rw [hg, goTwistMul_some] at hr
            cases hr
            exact h0 p
      · simp only [Res.bind_eq_ok, Res.ok.injEq, fill2_put] at he
        obtain ⟨r, hr, rfl⟩ := he
        refine ⟨r.negSelf, rfl, fun pa hpa => ?_, fun h0 => by omega⟩
        rw [hpa, goTwistMul_some] at hr
        cases hr
        rw [G2.scalarMult, if_neg hk]
    obtain ⟨v, rfl, h1, h2⟩ := key
    refine Have.put2 h (fun R hR => ?_) nofun
    split_ifs at hR with h0
    · cases hR; exact h2 h0
    simp only [Option.bind_eq_bind, Option.bind_eq_some_iff] at hR
    obtain ⟨P, hP, hR⟩ := hR
    obtain ⟨pa', ha', ra⟩ := Have.fill2 (e := e) h hP
    split_ifs at hR with hc
    cases hR
    rw [h1 _ ha']
    by_cases hk : k < 0
    · exact (C36_scalarMult_negative _ _ ra k hk).1 (by tauto)
    · exact C36_scalarMult _ _ ra k (by omega)
  | g2ScalarBaseMult e k =>
    cases he
    refine Have.put2 h (fun R hR => ?_) nofun
    split_ifs at hR with hc
    cases hR
    by_cases hk : k < 0
    · exact (C36_scalarBaseMult_negative k hk).1 (by tauto)
    · exact C36_scalarBaseMult k (by omega)
  | g2SetInfinity e =>
    cases he
    exact Have.put2 h (fun R hR => by cases hR; exact rep2_infinity rfl) fun _ => pairOk_of_zero (rep2_infinity rfl)
  | g2IsZero e =>
    simp only [BnStmt.exec, Res.bind_eq_ok, Res.ok.injEq] at he
    obtain ⟨c, -, rfl⟩ := he
    exact h
  | g2CurvePoints e =>
    simp only [BnStmt.exec, Res.bind_eq_ok, Res.ok.injEq] at he
    obtain ⟨c, -, rfl⟩ := he
    exact h
  | g2String e =>
    simp only [BnStmt.exec, Res.bind_eq_ok, Res.ok.injEq] at he
    obtain ⟨c, -, rfl⟩ := he
    exact h
  | g2Marshal e =>
    simp only [BnStmt.exec, Res.bind_eq_ok, Res.ofOption_eq_ok, Res.ok.injEq] at he
    obtain ⟨p, hp, rfl⟩ := he
    refine Have.put2 h (fun R hR => ?_) fun hu => ?_
    · simp only [Option.bind_eq_bind, Option.bind_eq_some_iff] at hR
      obtain ⟨P, hP, hR⟩ := hR
      obtain ⟨p', hp', rp⟩ := h.g2 _ _ hP
      cases hp.symm.trans hp'
      split_ifs at hR with hc
      cases hR
      exact TwistPoint.makeAffine_rep rp hc
    · have hok := h.usable _ _ hu hp
      obtain ⟨-, -, h1, h2⟩ := C58_invariant p []
      cases hz : p.z.isOne with
      | false => exact h1 hz
      | true => rw [h2 hz]; exact hok
  | g2Unmarshal e m =>
    simp only [BnStmt.exec] at he
    simp only [BnStmt.mean]
    by_cases hc : m.length = 128
    · rw [if_pos hc]
      rw [if_neg (not_not.2 hc)] at he
      cases he
      refine Have.put2 h (fun P hP => ?_) fun _ => ?_
      · obtain ⟨p, hp, rp⟩ := elem2_rep hP
        rw [hp]; exact rp
      · cases hm : G2.unmarshal m with
        | none => exact fun _ => GfP2.val_one
        | some p => exact (C58_invariant p m).2.1 hm
    · rw [if_neg hc]
      rw [if_pos hc] at he
      cases he
      exact h
  | gtAdd e a b =>
    simp only [BnStmt.exec, Res.bind_eq_ok, Res.ofOption_eq_ok, Res.ok.injEq, fillT_put] at he
    obtain ⟨pa, ha, pb, hb, rfl⟩ := he
    refine Have.putT h fun R hR => ?_
    simp only [Option.bind_eq_bind, Option.bind_eq_some_iff, Option.some.injEq] at hR
    obtain ⟨x, hx, y, hy, rfl⟩ := hR
    obtain ⟨pa', ha', ra⟩ := Have.fillT (e := e) h hx
    obtain ⟨pb', hb', rb⟩ := Have.fillT (e := e) h hy
    cases ha.symm.trans ha'
    cases hb.symm.trans hb'
    rw [GT.add, GfP12.val_mul, ra, rb]
  | gtNeg e a =>
    simp only [BnStmt.exec, Res.bind_eq_ok, Res.ofOption_eq_ok, Res.ok.injEq, fillT_put] at he
    obtain ⟨pa, ha, rfl⟩ := he
    refine Have.putT h fun R hR => ?_
    obtain ⟨x, hx, rfl⟩ := Option.map_eq_some_iff.1 hR
    obtain ⟨pa', ha', ra⟩ := Have.fillT (e := e) h hx
    cases ha.symm.trans ha'
    rw [GT.neg, GfP12.val_invert, ra]
  | gtInvert e a =>
    simp only [BnStmt.exec, Res.bind_eq_ok, Res.ofOption_eq_ok, Res.ok.injEq, fillT_put] at he
    obtain ⟨pa, ha, rfl⟩ := he
    refine Have.putT h fun R hR => ?_
    obtain ⟨x, hx, rfl⟩ := Option.map_eq_some_iff.1 hR
    obtain ⟨pa', ha', ra⟩ := Have.fillT (e := e) h hx
    cases ha.symm.trans ha'
    rw [GT.invert, GfP12.val_invert, ra]
  | gtScalarMult e a k =>
    simp only [BnStmt.exec, Res.bind_eq_ok, Res.ok.injEq, fillT_put] at he
    obtain ⟨r, hr, rfl⟩ := he
    refine Have.putT h fun R hR => ?_
    by_cases h0 : k = 0
    · rw [if_pos h0] at hR
      cases hR
      subst h0
      cases hg : (σ.fillT e).gt a with
      | none =>
        rw [hg, goGtExp_none, if_pos rfl] at hr
        cases hr
        exact GfP12.val_one
      | some p =>
        rw [hg, goGtExp_some] at hr
        cases hr
        exact (C43_scalarMult p 0).trans (pow_zero _)
    · rw [if_neg h0] at hR
      obtain ⟨x, hx, rfl⟩ := Option.map_eq_some_iff.1 hR
      obtain ⟨pa', ha', ra⟩ := Have.fillT (e := e) h hx
      rw [ha', goGtExp_some] at hr
      cases hr
      split_ifs with hk
      · have := C43_scalarMult pa' k.natAbs
        rwa [show ((k.natAbs : Nat) : Int) = k by omega, ra] at this
      · have := C43_scalarMult_neg pa' (k := k) (by omega)
        rwa [bitLen, if_neg h0, ra] at this
  | gtExp e a k =>
    simp only [BnStmt.exec, fillT_self, goGtExp_some, Res.ok_bind, fillT_put] at he
    have key : σ' = σ.putT a (GT.exp .zero ((σ.gt a).getD .zero) k).1 := by
      rw [GT.exp]
      split_ifs at he ⊢ with hk <;> cases he <;> rfl
    rw [key]
    refine Have.putT h fun R hR => ?_
    obtain ⟨x, hx, rfl⟩ := Option.map_eq_some_iff.1 hR
    obtain ⟨g, hg, rg⟩ := h.gt _ _ hx
    rw [hg, Option.getD_some, ← rg, GT.exp]
    dsimp only
    split_ifs with hk
    · have := C43_scalarMult g k.natAbs
      rw [show ((k.natAbs : Nat) : Int) = k by omega] at this
      rw [this, ← zpow_natCast, show ((k.natAbs : Nat) : Int) = k by omega]
    · rw [GfP12.val_invert, C43_scalarMult, ← zpow_natCast, ← zpow_neg, show -((k.natAbs : Nat) : Int) = k by omega]
  | gtIsZero e =>
    simp only [BnStmt.exec, Res.bind_eq_ok, Res.ofOption_eq_ok, Res.ok.injEq] at he
    obtain ⟨p, hp, rfl⟩ := he
    refine Have.keepT h fun P hP => ?_
    obtain ⟨p', hp', rp⟩ := h.gt _ _ hP
    cases hp.symm.trans hp'
    exact (GfP12.val_minimal p).trans rp
  | gtIsOne e =>
    simp only [BnStmt.exec, Res.bind_eq_ok, Res.ofOption_eq_ok, Res.ok.injEq] at he
    obtain ⟨p, hp, rfl⟩ := he
    refine Have.keepT h fun P hP => ?_
    obtain ⟨p', hp', rp⟩ := h.gt _ _ hP
    cases hp.symm.trans hp'
    exact (GfP12.val_minimal p).trans rp
  | gtString e =>
    simp only [BnStmt.exec, Res.bind_eq_ok, Res.ok.injEq] at he
    obtain ⟨c, -, rfl⟩ := he
    exact h
  | gtMarshal e =>
    simp only [BnStmt.exec, Res.bind_eq_ok, Res.ofOption_eq_ok, Res.ok.injEq] at he
    obtain ⟨p, hp, rfl⟩ := he
    refine Have.keepT h fun P hP => ?_
    obtain ⟨p', hp', rp⟩ := h.gt _ _ hP
    cases hp.symm.trans hp'
    exact (GfP12.val_minimal p).trans rp
  | gtUnmarshal e m =>
    simp only [BnStmt.exec] at he
    simp only [BnStmt.mean]
    by_cases hc : m.length = 384
    · rw [if_pos hc]
      obtain ⟨v, hv⟩ := Option.ne_none_iff_exists'.1 ((C40_accepts m).2 hc)
      rw [hv] at he
      cases he
      refine Have.putT h fun P hP => ?_
      obtain ⟨p, hp, rp⟩ := elemT_rep hP
      cases hv.symm.trans hp
      exact rp
    · rw [if_neg hc]
      rw [not_not.1 (mt (C40_accepts m).1 hc)] at he
      cases he
      exact h
  | pair e i j =>
    simp only [BnStmt.exec, Res.bind_eq_ok, Res.ofOption_eq_ok, Res.ok.injEq] at he
    obtain ⟨q, hq, p, hp, -, -, rfl⟩ := he
    refine Have.putT h fun R hR => ?_
    simp only [Option.bind_eq_bind, Option.bind_eq_some_iff] at hR
    obtain ⟨P, hP, Q, hQ, hR⟩ := hR
    obtain ⟨p', hp', rp⟩ := h.g1 _ _ hP
    obtain ⟨q', hq', rq⟩ := h.g2 _ _ hQ
    cases hp.symm.trans hp'
    cases hq.symm.trans hq'
    split_ifs at hR with h0 h1
    · cases hR
      rw [C46_infinity _ _ _ _ rp rq (.inl h0)]
      exact GfP12.val_one
    · cases hR
      refine hpr p q P ⟨Q, h1.1⟩ rp rq ?_
      rcases h1.2 with rfl | hu
      · exact pairOk_of_zero rq
      · exact h.usable _ _ hu hq
  | pairingCheck a b =>
    simp only [BnStmt.exec, Res.bind_eq_ok, Res.ok.injEq] at he
    obtain ⟨c, -, rfl⟩ := he
    exact h

/-! ### Answers -/

/-- With all values known the loop is that of the model of values. -/
theorem goPairingCheckLoop_have (h : σ.Have α) (l : List (BG1 × AddSubgroup.zmultiples bnG2)) : ∀ (a b : List Nat) (acc : GfP12),
    List.Forall₂ (fun i q => α.g1 i = some q.1) a l →
    List.Forall₂ (fun j q => α.g2 j = some q.2.1 ∧ (q.2 = 0 ∨ α.usable j = true)) b l →
    ∃ (ps : List CurvePoint) (qs : List TwistPoint), ps.length = qs.length ∧
      List.Forall₂ (fun (x : CurvePoint × TwistPoint) (q : BG1 × AddSubgroup.zmultiples bnG2) => Rep1 x.1 q.1 ∧ Rep2 x.2 q.2.1 ∧ PairOk x.2) (ps.zip qs) l ∧
      ∀ r, goPairingCheckLoop σ a b acc = .ok r → pairingCheckLoop ps qs acc = .ok r := by
  induction l with
  | nil =>
    intro a b acc h1 h2
    cases h1
    cases h2
    exact ⟨[], [], rfl, .nil, fun r hr => by rw [goPairingCheckLoop] at hr; exact hr⟩
  | cons q l ih =>
    intro a b acc h1 h2
    obtain _ | ⟨h1, h2'⟩ := h1
    obtain _ | ⟨h3, h4⟩ := h2
    rename_i i a j b
    obtain ⟨p, hp, rp⟩ := h.g1 _ _ h1
    obtain ⟨t, ht, rt⟩ := h.g2 _ _ h3.1
    have ok : PairOk t := by
      rcases h3.2 with h0 | hu
      · refine pairOk_of_zero ?_
        rw [h0] at rt
        exact rt
      · exact h.usable _ _ hu ht
    by_cases hc : (p.isInfinity || t.isInfinity) = true
    · obtain ⟨ps, qs, e1, e2, e3⟩ := ih a b acc h2' h4
      refine ⟨p :: ps, t :: qs, by simp [e1], .cons ⟨rp, rt, ok⟩ e2, fun r hr => ?_⟩
      rw [pairingCheckLoop, if_pos hc]
      apply e3
      rw [goPairingCheckLoop.eq_def] at hr
      simp only [hp, Res.ofOption_some, Res.ok_bind, List.tail_cons] at hr
      split_ifs at hr with g1
      · exact hr
      · have g2 : t.isInfinity = true := by
          rw [Bool.or_eq_true] at hc
          exact hc.resolve_left g1
        simp only [ht, Res.ofOption_some, Res.ok_bind, g2, if_true] at hr
        exact hr
    · obtain ⟨ps, qs, e1, e2, e3⟩ := ih a b (acc.mul (miller t p)) h2' h4
      refine ⟨p :: ps, t :: qs, by simp [e1], .cons ⟨rp, rt, ok⟩ e2, fun r hr => ?_⟩
      rw [pairingCheckLoop, if_neg hc]
      apply e3
      rw [Bool.or_eq_true, not_or] at hc
      rw [goPairingCheckLoop.eq_def] at hr
      simp only [hp, ht, Res.ofOption_some, Res.ok_bind, List.tail_cons, hc.1, hc.2, if_false, Res.bind_eq_ok, Bool.false_eq_true] at hr
      obtain ⟨-, -, hr⟩ := hr
      exact hr

/-- The product of the pairings. -/
theorem pairProd_eq {pr : BG1 →+ AddSubgroup.zmultiples bnG2 →+ Additive F12ˣ}
    (hpr : ∀ (b : CurvePoint) (a : TwistPoint) (P : BG1) (Q : AddSubgroup.zmultiples bnG2), Rep1 b P → Rep2 a Q → PairOk a →
      (Verif.pair b a).val = ((pr P Q).toMul : F12)) : ∀ {xs : List (CurvePoint × TwistPoint)} {l : List (BG1 × AddSubgroup.zmultiples bnG2)},
    List.Forall₂ (fun (x : CurvePoint × TwistPoint) (q : BG1 × AddSubgroup.zmultiples bnG2) => Rep1 x.1 q.1 ∧ Rep2 x.2 q.2.1 ∧ PairOk x.2) xs l →
    (xs.map fun q => (Verif.pair q.1 q.2).val).prod = (((l.map fun q => pr q.1 q.2).sum.toMul : F12ˣ) : F12)
  | _, _, .nil => by simp
  | _, _, .cons ⟨h1, h2, h3⟩ h => by
    simp only [List.map_cons, List.prod_cons, List.sum_cons, toMul_add, Units.val_mul]
    rw [pairProd_eq hpr h, hpr _ _ _ _ h1 h2 h3]

theorem out_answers {pr : BG1 →+ AddSubgroup.zmultiples bnG2 →+ Additive F12ˣ}
    (hpr : ∀ (b : CurvePoint) (a : TwistPoint) (P : BG1) (Q : AddSubgroup.zmultiples bnG2), Rep1 b P → Rep2 a Q → PairOk a →
      (Verif.pair b a).val = ((pr P Q).toMul : F12)) (h : σ.Have α) (s : BnStmt) {o : BnOut} (ho : s.out σ = .ok o) : s.Answers pr α o := by
  cases s with
  | g1IsZero e =>
    simp only [BnStmt.out, Res.bind_eq_ok, Res.ofOption_eq_ok, Res.ok.injEq] at ho
    obtain ⟨p, hp, rfl⟩ := ho
    intro P hP
    obtain ⟨p', hp', rp⟩ := h.g1 _ _ hP
    cases hp.symm.trans hp'
    rw [BnOut.bool.injEq, Bool.eq_iff_iff, decide_eq_true_iff]
    exact rp.isInfinity
  | g2IsZero e =>
    simp only [BnStmt.out, Res.bind_eq_ok, Res.ofOption_eq_ok, Res.ok.injEq] at ho
    obtain ⟨p, hp, rfl⟩ := ho
    intro P hP
    obtain ⟨p', hp', rp⟩ := h.g2 _ _ hP
    cases hp.symm.trans hp'
    rw [BnOut.bool.injEq, Bool.eq_iff_iff, decide_eq_true_iff]
    exact rp.isInfinity
  | gtIsZero e =>
    simp only [BnStmt.out, Res.bind_eq_ok, Res.ofOption_eq_ok, Res.ok.injEq] at ho
    obtain ⟨p, hp, rfl⟩ := ho
    intro P hP
    obtain ⟨p', hp', rfl⟩ := h.gt _ _ hP
    cases hp.symm.trans hp'
    rw [BnOut.bool.injEq, Bool.eq_iff_iff, decide_eq_true_iff, GT.isZero, GfP12.isZero_iff]
  | gtIsOne e =>
    simp only [BnStmt.out, Res.bind_eq_ok, Res.ofOption_eq_ok, Res.ok.injEq] at ho
    obtain ⟨p, hp, rfl⟩ := ho
    intro P hP
    obtain ⟨p', hp', rfl⟩ := h.gt _ _ hP
    cases hp.symm.trans hp'
    rw [BnOut.bool.injEq, Bool.eq_iff_iff, decide_eq_true_iff, GT.isOne, GfP12.isOne_iff]
  | g1Marshal e =>
    simp only [BnStmt.out, Res.bind_eq_ok, Res.ofOption_eq_ok, Res.ok.injEq] at ho
    obtain ⟨p, hp, -, -, rfl⟩ := ho
    intro P hP
    obtain ⟨p', hp', rp⟩ := h.g1 _ _ hP
    cases hp.symm.trans hp'
    exact ⟨_, rfl, elem1_marshal rp, reduced1 p, fun h0 => marshal_infinity (h0 ▸ rp)⟩
  | g2Marshal e =>
    simp only [BnStmt.out, Res.bind_eq_ok, Res.ofOption_eq_ok, Res.ok.injEq] at ho
    obtain ⟨p, hp, rfl⟩ := ho
    intro P hP
    obtain ⟨p', hp', rp⟩ := h.g2 _ _ hP
    cases hp.symm.trans hp'
    exact ⟨_, rfl, elem2_marshal rp, reduced2 p⟩
  | gtMarshal e =>
    simp only [BnStmt.out, Res.bind_eq_ok, Res.ofOption_eq_ok, Res.ok.injEq] at ho
    obtain ⟨p, hp, rfl⟩ := ho
    intro P hP
    obtain ⟨p', hp', rfl⟩ := h.gt _ _ hP
    cases hp.symm.trans hp'
    exact ⟨_, rfl, elemT_marshal p, reducedT p⟩
  | g1Unmarshal e m =>
    cases ho
    rcases elem1_unmarshal m with ⟨h1, h2⟩ | ⟨P, p, h1, h2, -⟩ <;> simp [BnStmt.Answers, h1, h2]
  | g2Unmarshal e m =>
    cases ho
    rcases elem2_unmarshal m with ⟨h1, h2⟩ | ⟨P, p, h1, h2, -⟩ <;> simp [BnStmt.Answers, h1, h2]
  | gtUnmarshal e m =>
    cases ho
    rcases elemT_unmarshal m with ⟨h1, h2⟩ | ⟨p, h1, h2⟩ <;> simp [BnStmt.Answers, h1, h2]
  | pairingCheck a b =>
    simp only [BnStmt.out, Res.bind_eq_ok, Res.ok.injEq] at ho
    obtain ⟨r, hr, rfl⟩ := ho
    intro l h1 h2
    obtain ⟨ps, qs, e1, e2, e3⟩ := goPairingCheckLoop_have h l a b .one h1 h2
    obtain ⟨v, hv, hv'⟩ := C61_product ps qs e1.le
    have e4 := e3 r hr
    simp only [pairingCheck, e4, Res.ok_bind, Res.ok.injEq] at hv
    rw [BnOut.bool.injEq, Bool.eq_iff_iff, decide_eq_true_iff, hv, hv', pairProd_eq hpr e2, ← Units.val_one, Units.val_inj]
    exact Iff.rfl
  | g1String e => trivial
  | g2String e => trivial
  | gtString e => trivial
  | _ => cases ho; exact rfl

end Verif

import Verif.Lemmas.BnTrace

/-!
# Access traces of `Mul` and `Exp`
-/

namespace Verif

open BigP

theorem np_mod (d a : Cell) : (BigP.mod d a).NoPanic := .bind (.read _) fun _ => .write _ _
theorem np_neg (d a : Cell) : (BigP.neg d a).NoPanic := .bind (.read _) fun _ => .write _ _
theorem np_set (d a : Cell) : (BigP.set d a).NoPanic := .bind (.read _) fun _ => .write _ _
theorem np_lsh1 (d a : Cell) : (BigP.lsh1 d a).NoPanic := .bind (.read _) fun _ => .write _ _
theorem np_lsh3 (d a : Cell) : (BigP.lsh3 d a).NoPanic := .bind (.read _) fun _ => .write _ _
theorem np_setInt (d : Cell) (n : Int) : (BigP.setInt d n).NoPanic := .write _ _
theorem np_add (d a b : Cell) : (BigP.add d a b).NoPanic := .bind (.read _) fun _ => .bind (.read _) fun _ => .write _ _
theorem np_sub (d a b : Cell) : (BigP.sub d a b).NoPanic := .bind (.read _) fun _ => .bind (.read _) fun _ => .write _ _
theorem np_mul (d a b : Cell) : (BigP.mul d a b).NoPanic := .bind (.read _) fun _ => .bind (.read _) fun _ => .write _ _

/-- Computations made of the operations of math/big do not panic. -/
macro "nopanic" "[" ts:term,* "]" : tactic => do
  let ls ← ts.getElems.mapM fun t => `(Lean.Parser.Tactic.tacticSeq| with_reducible exact $t)
  `(tactic| repeat' (first
    | with_reducible exact NoPanic.get | with_reducible exact NoPanic.put _ | with_reducible exact np_mul _ _ _
    | with_reducible exact np_mod _ _ | with_reducible exact np_add _ _ _ | with_reducible exact np_sub _ _ _
    | with_reducible exact np_set _ _ | with_reducible exact np_neg _ _ | with_reducible exact np_lsh1 _ _
    | with_reducible exact np_lsh3 _ _ | with_reducible exact np_setInt _ _ | with_reducible exact NoPanic.pure _
    | with_reducible exact NoPanic.read _ | with_reducible exact NoPanic.write _ _
    | (first $[| $ls]* | fail)
    | with_reducible refine NoPanic.bind ?_ fun _ => ?_
    | with_reducible refine NoPanic.ite ?_ ?_))

namespace Inter

theorem Gf2.np_new : Gf2.new.NoPanic := by unfold Gf2.new; nopanic [NoPanic.get]
theorem Gf2.np_put (e : Gf2) : e.put.NoPanic := by unfold Gf2.put; nopanic [NoPanic.get]
theorem Gf2.np_set (e a : Gf2) : (e.set a).NoPanic := by unfold Gf2.set; nopanic [NoPanic.get]
theorem Gf2.np_setZero (e : Gf2) : e.setZero.NoPanic := by unfold Gf2.setZero; nopanic [NoPanic.get]
theorem Gf2.np_setOne (e : Gf2) : e.setOne.NoPanic := by unfold Gf2.setOne; nopanic [NoPanic.get]
theorem Gf2.np_isZero (e : Gf2) : e.isZero.NoPanic := by unfold Gf2.isZero; nopanic [NoPanic.get]
theorem Gf2.np_neg (e a : Gf2) : (e.neg a).NoPanic := by unfold Gf2.neg; nopanic [NoPanic.get]
theorem Gf2.np_add (e a b : Gf2) : (e.add a b).NoPanic := by unfold Gf2.add; nopanic [NoPanic.get]
theorem Gf2.np_sub (e a b : Gf2) : (e.sub a b).NoPanic := by unfold Gf2.sub; nopanic [NoPanic.get]
theorem Gf2.np_double (e a : Gf2) : (e.double a).NoPanic := by unfold Gf2.double; nopanic [NoPanic.get]
theorem Gf2.np_mul (e a b : Gf2) : (e.mul a b).NoPanic := by unfold Gf2.mul; nopanic [NoPanic.get]
theorem Gf2.np_mulXi (e a : Gf2) : (e.mulXi a).NoPanic := by unfold Gf2.mulXi; nopanic [NoPanic.get]
theorem Gf2.np_square (e a : Gf2) : (e.square a).NoPanic := by unfold Gf2.square; nopanic [NoPanic.get]

/-- The same with the operations of `gfP2`. -/
macro "nopanic2" "[" ts:term,* "]" : tactic => do
  let ls := ts.getElems
  `(tactic| nopanic [Gf2.np_new, Gf2.np_put _, Gf2.np_set _ _, Gf2.np_setZero _, Gf2.np_setOne _, Gf2.np_isZero _, Gf2.np_neg _ _,
    Gf2.np_add _ _ _, Gf2.np_sub _ _ _, Gf2.np_double _ _, Gf2.np_mul _ _ _, Gf2.np_mulXi _ _, Gf2.np_square _ _, $ls,*])

theorem Gf6.np_new : Gf6.new.NoPanic := by unfold Gf6.new; nopanic2 []
theorem Gf6.np_put (e : Gf6) : e.put.NoPanic := by unfold Gf6.put; nopanic2 []
theorem Gf6.np_set (e a : Gf6) : (e.set a).NoPanic := by unfold Gf6.set; nopanic2 []
theorem Gf6.np_setZero (e : Gf6) : e.setZero.NoPanic := by unfold Gf6.setZero; nopanic2 []
theorem Gf6.np_setOne (e : Gf6) : e.setOne.NoPanic := by unfold Gf6.setOne; nopanic2 []
theorem Gf6.np_add (e a b : Gf6) : (e.add a b).NoPanic := by unfold Gf6.add; nopanic2 []
theorem Gf6.np_sub (e a b : Gf6) : (e.sub a b).NoPanic := by unfold Gf6.sub; nopanic2 []
theorem Gf6.np_double (e a : Gf6) : (e.double a).NoPanic := by unfold Gf6.double; nopanic2 []
theorem Gf6.np_mul (e a b : Gf6) : (e.mul a b).NoPanic := by unfold Gf6.mul; nopanic2 []
theorem Gf6.np_mulTau (e a : Gf6) : (e.mulTau a).NoPanic := by unfold Gf6.mulTau; nopanic2 []

/-- The same with the operations of `gfP6`. -/
macro "nopanic6" : tactic =>
  `(tactic| nopanic [Gf6.np_new, Gf6.np_put _, Gf6.np_set _ _, Gf6.np_setZero _, Gf6.np_setOne _,
    Gf6.np_add _ _ _, Gf6.np_sub _ _ _, Gf6.np_double _ _, Gf6.np_mul _ _ _, Gf6.np_mulTau _ _])

theorem Gf12.np_new : Gf12.new.NoPanic := by unfold Gf12.new; nopanic6
theorem Gf12.np_put (e : Gf12) : e.put.NoPanic := by unfold Gf12.put; nopanic6
theorem Gf12.np_set (e a : Gf12) : (e.set a).NoPanic := by unfold Gf12.set; nopanic6
theorem Gf12.np_setOne (e : Gf12) : e.setOne.NoPanic := by unfold Gf12.setOne; nopanic6
theorem Gf12.np_mul (e a b : Gf12) : (e.mul a b).NoPanic := by unfold Gf12.mul; nopanic6
theorem Gf12.np_square (e a : Gf12) : (e.square a).NoPanic := by unfold Gf12.square; nopanic6

theorem CurveP.np_new : CurveP.new.NoPanic := by unfold CurveP.new; nopanic [NoPanic.get]
theorem CurveP.np_put (e : CurveP) : (CurveP.put e).NoPanic := by unfold CurveP.put; nopanic [NoPanic.get]
theorem CurveP.np_set (e a : CurveP) : (CurveP.set e a).NoPanic := by unfold CurveP.set; nopanic [NoPanic.get]
theorem CurveP.np_neg (e a : CurveP) : (CurveP.neg e a).NoPanic := by unfold CurveP.neg; nopanic [NoPanic.get]
theorem CurveP.np_isInfinity (e : CurveP) : (CurveP.isInfinity e).NoPanic := by unfold CurveP.isInfinity; nopanic [NoPanic.get]
theorem CurveP.np_setInfinity (e : CurveP) : (CurveP.setInfinity e).NoPanic := by unfold CurveP.setInfinity; nopanic [NoPanic.get]
theorem CurveP.np_double (e a : CurveP) : (CurveP.double e a).NoPanic := by unfold CurveP.double; nopanic [NoPanic.get]
theorem CurveP.np_addTail (c a b : CurveP) (z1z1 z2z2 u1 u2 t s1 s2 h i j : Cell) :
    (CurveP.addTail c a b z1z1 z2z2 u1 u2 t s1 s2 h i j).NoPanic := by unfold CurveP.addTail; nopanic [NoPanic.get]
theorem CurveP.np_add (c a b : CurveP) : (CurveP.add c a b).NoPanic := by
  unfold CurveP.add CurveP.addGeneral
  nopanic [CurveP.np_isInfinity _, CurveP.np_set _ _, CurveP.np_double _ _, CurveP.np_addTail _ _ _ _ _ _ _ _ _ _ _ _ _]

theorem TwistP.np_new : TwistP.new.NoPanic := by unfold TwistP.new; nopanic2 []
theorem TwistP.np_put (e : TwistP) : (TwistP.put e).NoPanic := by unfold TwistP.put; nopanic2 []
theorem TwistP.np_set (e a : TwistP) : (TwistP.set e a).NoPanic := by unfold TwistP.set; nopanic2 []
theorem TwistP.np_isInfinity (e : TwistP) : (TwistP.isInfinity e).NoPanic := by unfold TwistP.isInfinity; nopanic2 []
theorem TwistP.np_setInfinity (e : TwistP) : (TwistP.setInfinity e).NoPanic := by unfold TwistP.setInfinity; nopanic2 []
theorem TwistP.np_double (e a : TwistP) : (TwistP.double e a).NoPanic := by unfold TwistP.double; nopanic2 []
theorem TwistP.np_addTail (c a b : TwistP) (z1z1 z2z2 u1 u2 t s1 s2 h i j : Gf2) :
    (TwistP.addTail c a b z1z1 z2z2 u1 u2 t s1 s2 h i j).NoPanic := by unfold TwistP.addTail; nopanic2 []
theorem TwistP.np_add (c a b : TwistP) : (TwistP.add c a b).NoPanic := by
  unfold TwistP.add TwistP.addGeneral
  nopanic2 [TwistP.np_isInfinity _, TwistP.np_set _ _, TwistP.np_double _ _, TwistP.np_addTail _ _ _ _ _ _ _ _ _ _ _ _ _]

/-! ### Scalar multiplication in `G1` -/

/-- What is read first. -/
theorem CurveP.begins_set (c a : CurveP) : Begins (CurveP.set c a) fun l => ∃ l', l = .read a.x :: .write c.x :: l' :=
  fun _ _ _ _ _ => ⟨_, rfl⟩

theorem CurveP.begins_add (c a b : CurveP) : Begins (CurveP.add c a b) fun l => ∃ l', l = .read a.z :: l' :=
  fun _ _ _ _ _ => ⟨_, rfl⟩

theorem CurveP.begins_double (c a : CurveP) : Begins (CurveP.double c a) fun l =>
    (∃ l', l = .new :: l') ∨ ∃ l', l = .read a.x :: .read a.x :: l' := by
  unfold CurveP.double
  exact Begins.get (fun l => .inl ⟨_, rfl⟩) fun _ _ _ _ _ _ => .inr ⟨_, rfl⟩

theorem CurveP.mulLoop_eq (sum t a : CurveP) (k : Int) : ∀ n,
    CurveP.mulLoop sum t a k n = bitLoop (CurveP.double t sum) (CurveP.add sum t a) (CurveP.set sum t) k n
  | 0 => rfl
  | n + 1 => by rw [CurveP.mulLoop, bitLoop, CurveP.mulLoop_eq sum t a k n]

/-- The accesses of `Mul`, whatever is done afterwards, determine the bits of the scalar. -/
theorem CurveP.mul_trace (c a : CurveP) {γ : Type} (r r' : BigP γ) (k k' : Int) (mem : Cell → Int) (next : Nat)
    (e : ((CurveP.mul c a k >>= fun _ => r) (some [])).trace mem next =
      ((CurveP.mul c a k' >>= fun _ => r') (some [])).trace mem next) :
    bitLen k = bitLen k' ∧ (∀ i ≤ bitLen k, intBit k i = intBit k' i) ∧
      ∃ p' mem' next', (r p').trace mem' next' = (r' p').trace mem' next' := by
  let sum : CurveP := ⟨next, next + 1, next + 2, next + 3⟩
  let t : CurveP := ⟨next + 4, next + 5, next + 6, next + 7⟩
  have h : ∃ mem', ∀ (k : Int) (r : BigP γ), ((CurveP.mul c a k >>= fun _ => r) (some [])).trace mem next =
      [.new, .new, .new, .new, .write (next + 2), .new, .new, .new, .new] ++
        ((bitLoop (CurveP.double t sum) (CurveP.add sum t a) (CurveP.set sum t) k (bitLen k + 1) >>= fun _ =>
          CurveP.set c sum >>= fun _ => CurveP.put sum >>= fun _ => CurveP.put t >>= fun _ => r) (some [])).trace mem'
          (next + 8) := by
    refine ⟨[next, next + 1, next + 2, next + 3, next + 2, next + 4, next + 5, next + 6, next + 7].foldl
      (fun m n c => if c = n then 0 else m c) mem, fun k r => ?_⟩
    rw [← CurveP.mulLoop_eq]
    simp only [CurveP.mul, BigP.bind_assoc]
    rfl
  obtain ⟨mem', h⟩ := h
  rw [h, h] at e
  obtain ⟨h1, h2, p, mem, next, h3⟩ := bitLoop_trace (CurveP.np_double _ _) (CurveP.np_add _ _ _) (CurveP.np_set _ _)
    (CurveP.np_set _ _)
    ((CurveP.begins_add _ _ _).differ (CurveP.begins_set _ _) (by
      rintro l ⟨l', rfl⟩ ⟨l'', h⟩
      injection h with h _
      injection h with h
      have : next + 6 = next + 4 := h
      omega))
    ((CurveP.begins_set _ _).differ (CurveP.begins_double _ _) (by
      rintro l ⟨l', rfl⟩ (⟨l'', h⟩ | ⟨l'', h⟩)
      · cases h
      · injection h with _ h
        injection h with h _
        cases h)) _ _ k k' _ _ _ _ _ (List.append_cancel_left e)
  obtain ⟨_, p, mem, next, h3⟩ := BigP.trace_cancel (CurveP.np_put _) h3
  obtain ⟨_, p, mem, next, h3⟩ := BigP.trace_cancel (CurveP.np_put _) h3
  exact ⟨by omega, fun i hi => h2 i (by omega), p, mem, next, h3⟩

/-! ### Scalar multiplication in `G2` -/

theorem TwistP.begins_set (c a : TwistP) : Begins (TwistP.set c a) fun l => ∃ l', l = .read a.x.x :: l' :=
  fun _ _ _ _ _ => ⟨_, rfl⟩

theorem TwistP.begins_add (c a b : TwistP) : Begins (TwistP.add c a b) fun l => ∃ l', l = .read a.z.x :: l' :=
  fun _ _ _ _ _ => ⟨_, rfl⟩

theorem TwistP.begins_double (c a : TwistP) : Begins (TwistP.double c a) fun l =>
    (∃ l', l = .new :: l') ∨ ∃ l', l = .read a.x.y :: l' := by
  unfold TwistP.double
  simp only [Gf2.new, Gf2.square, BigP.bind_assoc, BigP.pure_bind]
  refine Begins.get (fun l => .inl ⟨_, rfl⟩) fun _ => ?_
  refine Begins.get (fun l => .inl ⟨_, rfl⟩) fun _ => ?_
  refine Begins.get (fun l => .inl ⟨_, rfl⟩) fun _ => ?_
  exact fun _ _ _ _ _ => .inr ⟨_, rfl⟩

theorem TwistP.mulLoop_eq (sum t a : TwistP) (k : Int) : ∀ n,
    TwistP.mulLoop sum t a k n = bitLoop (TwistP.double t sum) (TwistP.add sum t a) (TwistP.set sum t) k n
  | 0 => rfl
  | n + 1 => by rw [TwistP.mulLoop, bitLoop, TwistP.mulLoop_eq sum t a k n]

/-- The accesses of `Mul`, whatever is done afterwards, determine the bits of the scalar. -/
theorem TwistP.mul_trace (c a : TwistP) {γ : Type} (r r' : BigP γ) (k k' : Int) (mem : Cell → Int) (next : Nat)
    (e : ((TwistP.mul c a k >>= fun _ => r) (some [])).trace mem next =
      ((TwistP.mul c a k' >>= fun _ => r') (some [])).trace mem next) :
    bitLen k = bitLen k' ∧ (∀ i ≤ bitLen k, intBit k i = intBit k' i) ∧
      ∃ p' mem' next', (r p').trace mem' next' = (r' p').trace mem' next' := by
  let sum : TwistP := ⟨⟨next, next + 1⟩, ⟨next + 2, next + 3⟩, ⟨next + 4, next + 5⟩, ⟨next + 6, next + 7⟩⟩
  let t : TwistP := ⟨⟨next + 8, next + 9⟩, ⟨next + 10, next + 11⟩, ⟨next + 12, next + 13⟩, ⟨next + 14, next + 15⟩⟩
  have h : ∃ mem', ∀ (k : Int) (r : BigP γ), ((TwistP.mul c a k >>= fun _ => r) (some [])).trace mem next =
      (List.replicate 8 .new ++ .write (next + 4) :: .write (next + 5) :: List.replicate 8 .new) ++
        ((bitLoop (TwistP.double t sum) (TwistP.add sum t a) (TwistP.set sum t) k (bitLen k + 1) >>= fun _ =>
          TwistP.set c sum >>= fun _ => TwistP.put sum >>= fun _ => TwistP.put t >>= fun _ => r) (some [])).trace mem'
          (next + 16) := by
    refine ⟨[next, next + 1, next + 2, next + 3, next + 4, next + 5, next + 6, next + 7, next + 4, next + 5, next + 8, next + 9,
      next + 10, next + 11, next + 12, next + 13, next + 14, next + 15].foldl
      (fun m n c => if c = n then 0 else m c) mem, fun k r => ?_⟩
    rw [← TwistP.mulLoop_eq]
    simp only [TwistP.mul, BigP.bind_assoc]
    rfl
  obtain ⟨mem', h⟩ := h
  rw [h, h] at e
  obtain ⟨h1, h2, p, mem, next, h3⟩ := bitLoop_trace (TwistP.np_double _ _) (TwistP.np_add _ _ _) (TwistP.np_set _ _)
    (TwistP.np_set _ _)
    ((TwistP.begins_add _ _ _).differ (TwistP.begins_set _ _) (by
      rintro l ⟨l', rfl⟩ ⟨l'', h⟩
      injection h with h _
      injection h with h
      have : next + 12 = next + 8 := h
      omega))
    ((TwistP.begins_set _ _).differ (TwistP.begins_double _ _) (by
      rintro l ⟨l', rfl⟩ (⟨l'', h⟩ | ⟨l'', h⟩)
      · cases h
      · injection h with h _
        injection h with h
        have : next = next + 1 := h
        omega)) _ _ k k' _ _ _ _ _ (List.append_cancel_left e)
  obtain ⟨_, p, mem, next, h3⟩ := BigP.trace_cancel (TwistP.np_put _) h3
  obtain ⟨_, p, mem, next, h3⟩ := BigP.trace_cancel (TwistP.np_put _) h3
  exact ⟨by omega, fun i hi => h2 i (by omega), p, mem, next, h3⟩

/-! ### Exponentiation in `GT` -/

theorem Gf12.begins_set (c a : Gf12) : Begins (Gf12.set c a) fun l => ∃ l', l = .read a.x.x.x :: l' :=
  fun _ _ _ _ _ => ⟨_, rfl⟩

theorem Begins.gf2 {α : Type} {f : Gf2 → BigP α} {P : List Access → Prop} (hnew : ∀ l, P (.new :: l))
    (h : ∀ c, Begins (f c) P) : Begins (Gf2.new >>= f) P := by
  simp only [Gf2.new, BigP.bind_assoc, BigP.pure_bind]
  exact Begins.get hnew fun _ => Begins.get hnew fun _ => h _

theorem Begins.gf6 {α : Type} {f : Gf6 → BigP α} {P : List Access → Prop} (hnew : ∀ l, P (.new :: l))
    (h : ∀ c, Begins (f c) P) : Begins (Gf6.new >>= f) P := by
  simp only [Gf6.new, BigP.bind_assoc, BigP.pure_bind]
  exact Begins.gf2 hnew fun _ => Begins.gf2 hnew fun _ => Begins.gf2 hnew fun _ => h _

theorem Gf2.begins_mul (c a b : Gf2) : Begins (Gf2.mul c a b) fun l =>
    (∃ l', l = .new :: l') ∨ ∃ l', l = .read a.x :: l' := by
  unfold Gf2.mul
  exact Begins.get (fun l => .inl ⟨_, rfl⟩) fun _ _ _ _ _ _ => .inr ⟨_, rfl⟩

theorem Gf6.begins_mul (c a b : Gf6) : Begins (Gf6.mul c a b) fun l =>
    (∃ l', l = .new :: l') ∨ ∃ l', l = .read a.z.x :: l' := by
  unfold Gf6.mul
  exact Begins.gf2 (fun l => .inl ⟨_, rfl⟩) fun _ => Begins.bind (Gf2.begins_mul _ _ _)

theorem Gf12.begins_mul (c a b : Gf12) : Begins (Gf12.mul c a b) fun l =>
    (∃ l', l = .new :: l') ∨ ∃ l', l = .read a.x.z.x :: l' := by
  unfold Gf12.mul
  exact Begins.gf6 (fun l => .inl ⟨_, rfl⟩) fun _ => Begins.bind (Gf6.begins_mul _ _ _)

theorem Gf12.begins_square (c a : Gf12) : Begins (Gf12.square c a) fun l =>
    (∃ l', l = .new :: l') ∨ ∃ l', l = .read a.x.z.x :: l' := by
  unfold Gf12.square
  exact Begins.gf6 (fun l => .inl ⟨_, rfl⟩) fun _ => Begins.bind (Gf6.begins_mul _ _ _)

theorem Gf12.expLoop_eq (sum t a : Gf12) (k : Int) : ∀ n,
    Gf12.expLoop sum t a k n = bitLoop (Gf12.square t sum) (Gf12.mul sum t a) (Gf12.set sum t) k n
  | 0 => rfl
  | n + 1 => by rw [Gf12.expLoop, bitLoop, Gf12.expLoop_eq sum t a k n]

/-- The accesses of `Exp`, whatever is done afterwards, determine the bits of the exponent. -/
theorem Gf12.exp_trace (c a : Gf12) {γ : Type} (r r' : BigP γ) (k k' : Int) (mem : Cell → Int) (next : Nat)
    (e : ((Gf12.exp c a k >>= fun _ => r) (some [])).trace mem next =
      ((Gf12.exp c a k' >>= fun _ => r') (some [])).trace mem next) :
    bitLen k = bitLen k' ∧ (∀ i < bitLen k, intBit k i = intBit k' i) ∧
      ∃ p' mem' next', (r p').trace mem' next' = (r' p').trace mem' next' := by
  let sum : Gf12 := ⟨⟨⟨next, next + 1⟩, ⟨next + 2, next + 3⟩, ⟨next + 4, next + 5⟩⟩,
    ⟨⟨next + 6, next + 7⟩, ⟨next + 8, next + 9⟩, ⟨next + 10, next + 11⟩⟩⟩
  let t : Gf12 := ⟨⟨⟨next + 12, next + 13⟩, ⟨next + 14, next + 15⟩, ⟨next + 16, next + 17⟩⟩,
    ⟨⟨next + 18, next + 19⟩, ⟨next + 20, next + 21⟩, ⟨next + 22, next + 23⟩⟩⟩
  have h : ∃ mem', ∀ (k : Int) (r : BigP γ), ((Gf12.exp c a k >>= fun _ => r) (some [])).trace mem next =
      (List.replicate 12 .new ++ [.write next, .write (next + 1), .write (next + 2), .write (next + 3), .write (next + 4),
        .write (next + 5), .write (next + 6), .write (next + 7), .write (next + 8), .write (next + 9), .write (next + 10),
        .write (next + 11)] ++ List.replicate 12 .new) ++
        ((bitLoop (Gf12.square t sum) (Gf12.mul sum t a) (Gf12.set sum t) k (bitLen k) >>= fun _ =>
          Gf12.set c sum >>= fun _ => Gf12.put sum >>= fun _ => Gf12.put t >>= fun _ => r) (some [])).trace mem'
          (next + 24) := by
    refine ⟨[next + 12, next + 13, next + 14, next + 15, next + 16, next + 17, next + 18, next + 19, next + 20,
      next + 21, next + 22, next + 23].foldl (fun m n c => if c = n then 0 else m c) fun c => if c = next + 11 then 1 else
        ([next, next + 1, next + 2, next + 3, next + 4, next + 5, next + 6, next + 7, next + 8, next + 9, next + 10,
          next + 11, next, next + 1, next + 2, next + 3, next + 4, next + 5, next + 6, next + 7, next + 8, next + 9,
          next + 10].foldl (fun m n c => if c = n then 0 else m c) mem) c, fun k r => ?_⟩
    rw [← Gf12.expLoop_eq]
    simp only [Gf12.exp, BigP.bind_assoc]
    rfl
  obtain ⟨mem', h⟩ := h
  rw [h, h] at e
  obtain ⟨h1, h2, p, mem, next, h3⟩ := bitLoop_trace (Gf12.np_square _ _) (Gf12.np_mul _ _ _) (Gf12.np_set _ _)
    (Gf12.np_set _ _)
    ((Gf12.begins_mul _ _ _).differ (Gf12.begins_set _ _) (by
      rintro l (⟨l'', rfl⟩ | ⟨l'', rfl⟩) ⟨l', h⟩
      · cases h
      · injection h with h _
        injection h with h
        have : next + 16 = next + 12 := h
        omega))
    ((Gf12.begins_set _ _).differ (Gf12.begins_square _ _) (by
      rintro l ⟨l', rfl⟩ (⟨l'', h⟩ | ⟨l'', h⟩)
      · cases h
      · injection h with h _
        injection h with h
        have : next = next + 4 := h
        omega)) _ _ k k' _ _ _ _ _ (List.append_cancel_left e)
  obtain ⟨_, p, mem, next, h3⟩ := BigP.trace_cancel (Gf12.np_put _) h3
  obtain ⟨_, p, mem, next, h3⟩ := BigP.trace_cancel (Gf12.np_put _) h3
  exact ⟨h1, h2, p, mem, next, h3⟩

end Inter

end Verif

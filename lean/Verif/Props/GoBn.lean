import Verif.Lemmas.GoBn
import Verif.Props.BnGroup
import Verif.Props.BnField

/-!
# The zero value of `G1`, `G2` and `GT`

crypto/bn256/bn256.go:45-46, 195-196, 344-345: "The zero value is suitable for use as the output of an operation, but cannot be used
as an input."  A program is a list of calls on variables which begin as zero values.
-/

namespace Verif

/-- C96: a call (other than `PairingCheck`) panics exactly if it reads a variable without a value. -/
theorem C96_exact (s : BnStmt) (hs : s.Simple) (σ : BnVars) (h : σ.Ok) :
    s.exec σ = .panic ↔ ∃ v ∈ s.needs, ¬ σ.Set v := by
  constructor
  · intro hp
    by_contra hc
    push Not at hc
    obtain ⟨σ', h1, -⟩ := exec_ok h s hs hc
    rw [h1] at hp
    cases hp
  · rintro ⟨v, hv, hn⟩
    exact exec_panic s hs hv hn

/-- The sum of two zero values into a third panics, into the first of them too if the second is another variable. -/
example : BnStmt.exec (.g1Add 0 1 2) .zero = .panic ∧ BnStmt.exec (.g1Add 0 0 1) .zero = .panic ∧
    BnStmt.exec (.g1Add 0 0 0) .zero ≠ .panic := by
  have ok : BnVars.zero.Ok := by intro i p h; cases h
  refine ⟨(C96_exact _ (by trivial) _ ok).2 ⟨.g1 1, by decide, by simp [BnVars.Set, BnVars.zero]⟩,
    (C96_exact _ (by trivial) _ ok).2 ⟨.g1 1, by decide, by simp [BnVars.Set, BnVars.zero]⟩, fun h => ?_⟩
  obtain ⟨v, hv, -⟩ := (C96_exact _ (by trivial) _ ok).1 h
  exact absurd hv (by simp [BnStmt.needs])

theorem goPairingCheckLoop_eq {σ : BnVars} (h : σ.Ok) : ∀ (a b : List Nat) (acc : GfP12),
    ((∃ (k i : Nat), a[k]? = some i ∧ (σ.g1 i = none ∨ ∃ p, σ.g1 i = some p ∧ p.isInfinity = false ∧ ∀ j, b[k]? = some j → σ.g2 j = none)) ∧
      goPairingCheckLoop σ a b acc = .panic) ∨
    ((¬ ∃ (k i : Nat), a[k]? = some i ∧ (σ.g1 i = none ∨ ∃ p, σ.g1 i = some p ∧ p.isInfinity = false ∧ ∀ j, b[k]? = some j → σ.g2 j = none)) ∧
      ∃ r, goPairingCheckLoop σ a b acc = .ok r)
  | [], b, acc => .inr ⟨by simp, acc, rfl⟩
  | i :: a, b, acc => by
    rw [goPairingCheckLoop.eq_def]
    dsimp only
    -- the first index, or the others
    have step : (∃ (k i' : Nat), (i :: a)[k]? = some i' ∧
        (σ.g1 i' = none ∨ ∃ p, σ.g1 i' = some p ∧ p.isInfinity = false ∧ ∀ j, b[k]? = some j → σ.g2 j = none)) ↔
        (σ.g1 i = none ∨ ∃ p, σ.g1 i = some p ∧ p.isInfinity = false ∧ ∀ j, b[0]? = some j → σ.g2 j = none) ∨
        ∃ (k i' : Nat), a[k]? = some i' ∧
        (σ.g1 i' = none ∨ ∃ p, σ.g1 i' = some p ∧ p.isInfinity = false ∧ ∀ j, b.tail[k]? = some j → σ.g2 j = none) := by
      have ht : ∀ k, b.tail[k]? = b[k + 1]? := fun k => by cases b <;> rfl
      simp only [ht]
      constructor
      · rintro ⟨k, i', h1, h2⟩
        cases k with
        | zero => cases h1; exact .inl h2
        | succ k => exact .inr ⟨k, i', h1, h2⟩
      · rintro (h2 | ⟨k, i', h1, h2⟩)
        · exact ⟨0, i, rfl, h2⟩
        · exact ⟨k + 1, i', h1, h2⟩
    rw [step]
    cases hp : σ.g1 i with
    | none => exact .inl ⟨.inl (.inl rfl), rfl⟩
    | some p =>
      rw [Res.ofOption_some, Res.ok_bind]
      by_cases hi : p.isInfinity = true
      · rw [if_pos hi]
        have hn : ¬ ((some p : Option CurvePoint) = none ∨ ∃ q, some p = some q ∧ q.isInfinity = false ∧ ∀ j, b[0]? = some j → σ.g2 j = none) := by
          rintro (h | ⟨q, h, h', -⟩)
          · cases h
          · cases h; rw [hi] at h'; cases h'
        rw [or_iff_right hn]
        exact goPairingCheckLoop_eq h a b.tail acc
      · rw [if_neg hi]
        have hi' : p.isInfinity = false := by simpa using hi
        cases b with
        | nil => exact .inl ⟨.inl (.inr ⟨p, rfl, hi', by simp⟩), rfl⟩
        | cons j b =>
          dsimp only
          cases hj : σ.g2 j with
          | none => exact .inl ⟨.inl (.inr ⟨p, rfl, hi', by rintro _ ⟨⟩; exact hj⟩), rfl⟩
          | some q =>
            have hn : ¬ ((some p : Option CurvePoint) = none ∨ ∃ q, some p = some q ∧ q.isInfinity = false ∧
                ∀ j', (j :: b)[0]? = some j' → σ.g2 j' = none) := by
              rintro (h | ⟨_, -, -, h⟩)
              · cases h
              · rw [h j rfl] at hj; cases hj
            rw [or_iff_right hn, Res.ofOption_some, Res.ok_bind, List.tail_cons]
            split
            · exact goPairingCheckLoop_eq h a b acc
            · rw [goMakeAffine_ok (h i p hp), Res.ok_bind]
              exact goPairingCheckLoop_eq h a b _

/-- C96: `PairingCheck` panics exactly if some point of the first list has no value, or is finite while its partner in the second
list is absent or has no value.  Otherwise nothing changes. -/
theorem C96_pairingCheck (a b : List Nat) (σ : BnVars) (h : σ.Ok) :
    (BnStmt.exec (.pairingCheck a b) σ = .panic ↔
      ∃ (k i : Nat), a[k]? = some i ∧
        (σ.g1 i = none ∨ ∃ p, σ.g1 i = some p ∧ p.isInfinity = false ∧ ∀ j, b[k]? = some j → σ.g2 j = none)) ∧
    (BnStmt.exec (.pairingCheck a b) σ ≠ .panic → BnStmt.exec (.pairingCheck a b) σ = .ok σ) := by
  rw [BnStmt.exec]
  rcases goPairingCheckLoop_eq h a b .one with ⟨h1, h2⟩ | ⟨h1, r, h2⟩
  · rw [h2]
    exact ⟨⟨fun _ => h1, fun _ => rfl⟩, fun h => absurd rfl h⟩
  · rw [h2]
    exact ⟨⟨nofun, fun h => absurd h h1⟩, fun _ => rfl⟩

/-- A second list that is too short is no obstacle while the points of the first list are infinite. -/
example : ∃ σ, BnVars.Ok σ ∧ BnStmt.exec (.pairingCheck [0, 0] []) σ = .ok σ ∧ BnStmt.exec (.pairingCheck [0, 1] []) σ = .panic := by
  refine ⟨BnVars.zero.put1 0 CurvePoint.new, put1_ok (by intro i p h; cases h) new_invertible, rfl, rfl⟩

theorem exec_step {σ σ' : BnVars} (h : σ.Ok) (s : BnStmt) (he : s.exec σ = .ok σ') : BnStep σ σ' s.outputs := by
  by_cases hs : s.Simple
  · obtain ⟨σ'', h1, h2⟩ := exec_ok h s hs (fun v hv => by
      by_contra hn
      rw [exec_panic s hs hv hn] at he
      cases he)
    rw [h1] at he
    cases he
    exact h2
  · cases s with
    | pairingCheck a b =>
      have := (C96_pairingCheck a b σ h).2 (by rw [he]; nofun)
      rw [this] at he
      cases he
      exact BnStep.same h
    | _ => exact absurd trivial hs

/-- C96: a call which returns leaves every variable with a value which had one, gives its output one, and every
`z` in `G1` stays invertible. -/
theorem C96_step (s : BnStmt) (σ σ' : BnVars) (h : σ.Ok) (he : s.exec σ = .ok σ') :
    σ'.Ok ∧ (∀ v, σ.Set v → σ'.Set v) ∧ ∀ v ∈ s.outputs, σ'.Set v := exec_step h s he

example : ∃ σ', BnStmt.exec (.g1ScalarBaseMult 3 5) .zero = .ok σ' ∧ σ'.Ok ∧ σ'.Set (.g1 3) ∧ ¬ σ'.Set (.g1 2) := by
  have ok : BnVars.zero.Ok := by intro i p h; cases h
  refine ⟨_, rfl, (C96_step (.g1ScalarBaseMult 3 5) _ _ ok rfl).1, (C96_step (.g1ScalarBaseMult 3 5) _ _ ok rfl).2.2 _ (by simp [BnStmt.outputs]), ?_⟩
  exact fun h => h rfl

theorem needs_inputs (s : BnStmt) : ∀ v ∈ s.needs, v ∈ s.inputs := by
  intro v hv
  cases s with
  | g1Add | g1Neg | g2Add | g2Neg | gtAdd | gtNeg | gtInvert =>
    simp only [BnStmt.needs, mem_filter_ne] at hv
    exact hv.1
  | g1ScalarMult | g2ScalarMult | gtScalarMult =>
    simp only [BnStmt.needs] at hv
    split at hv
    · cases hv
    · exact (mem_filter_ne.1 hv).1
  | gtExp => cases hv
  | _ => exact hv

/-- C96: a program which keeps the documented rule does not panic. -/
theorem C96_programs : ∀ (prog : List BnStmt) (D : List BnVar) (σ : BnVars), BnDefined D prog → σ.Ok → (∀ v ∈ D, σ.Set v) →
    ∃ σ', bnRun prog σ = .ok σ' ∧ σ'.Ok ∧ ∀ v, (v ∈ D ∨ ∃ s ∈ prog, v ∈ s.outputs) → σ'.Set v
  | [], D, σ, _, h, hD => ⟨σ, rfl, h, by simpa using hD⟩
  | s :: prog, D, σ, hdef, h, hD => by
    obtain ⟨h1, h2, h3⟩ := hdef
    have hin : ∀ v ∈ s.inputs, σ.Set v := fun v hv => hD v (h1 v hv)
    have hex : ∃ σ₁, s.exec σ = .ok σ₁ := by
      by_cases hs : s.Simple
      · obtain ⟨σ₁, h4, -⟩ := exec_ok h s hs (fun v hv => hin v (needs_inputs s v hv))
        exact ⟨σ₁, h4⟩
      · cases s with
        | pairingCheck a b =>
          refine ⟨σ, (C96_pairingCheck a b σ h).2 ?_⟩
          rw [Ne, (C96_pairingCheck a b σ h).1]
          rintro ⟨k, i, hk, hi⟩
          have hg1 : σ.g1 i ≠ none := hin (.g1 i) (by
            simp only [BnStmt.inputs, List.mem_append, List.mem_map]
            exact .inl ⟨i, List.mem_of_getElem? hk, rfl⟩)
          rcases hi with hi | ⟨p, -, -, hb⟩
          · exact hg1 hi
          · have hlen : k < b.length := lt_of_lt_of_le (List.getElem?_eq_some_iff.1 hk).1 h2
            exact hin (.g2 b[k]) (by
              simp only [BnStmt.inputs, List.mem_append, List.mem_map]
              exact .inr ⟨b[k], List.getElem_mem hlen, rfl⟩) (hb _ (List.getElem?_eq_getElem hlen))
        | _ => exact absurd trivial hs
    obtain ⟨σ₁, he⟩ := hex
    obtain ⟨k1, k2, k3⟩ := exec_step h s he
    obtain ⟨σ', r1, r2, r3⟩ := C96_programs prog (D ++ s.outputs) σ₁ h3 k1 (fun v hv => by
      rcases List.mem_append.1 hv with hv | hv
      · exact k2 v (hD v hv)
      · exact k3 v hv)
    refine ⟨σ', by rw [bnRun, he, Res.ok_bind, r1], r2, fun v hv => r3 v ?_⟩
    rcases hv with hv | ⟨s', hs', hv⟩
    · exact .inl (List.mem_append_left _ hv)
    · rcases List.mem_cons.1 hs' with rfl | hs'
      · exact .inl (List.mem_append_right _ hv)
      · exact .inr ⟨s', hs', hv⟩

/-- `P = 5·G`, `Q = -7·H`, `R = P + P`, `e(R, Q)`, `e(R, Q)^3`, its text; the program keeps the rule. -/
example : ∃ σ', bnRun [.g1ScalarBaseMult 0 5, .g2ScalarBaseMult 0 (-7), .g1Add 1 0 0, .pair 0 1 0, .gtScalarMult 1 0 3, .gtString 1,
    .pairingCheck [0, 1] [0, 0]] .zero = .ok σ' ∧ σ'.Set (.gt 1) := by
  obtain ⟨σ', h1, -, h3⟩ := C96_programs [.g1ScalarBaseMult 0 5, .g2ScalarBaseMult 0 (-7), .g1Add 1 0 0, .pair 0 1 0, .gtScalarMult 1 0 3,
    .gtString 1, .pairingCheck [0, 1] [0, 0]] [] .zero (by simp [BnDefined, BnStmt.inputs, BnStmt.outputs, BnStmt.Fits])
    (by intro i p h; cases h) (by simp)
  exact ⟨σ', h1, h3 _ (.inr ⟨.gtScalarMult 1 0 3, by simp, by simp [BnStmt.outputs]⟩)⟩

/-! ### Sums begun with a zero value -/

theorem run_sum_g1 {e : Nat} {Q : Nat → BG1} : ∀ (xs : List Nat) (σ : BnVars) (p : CurvePoint) (S : BG1), e ∉ xs →
    σ.g1 e = some p → Rep1 p S → (∀ i ∈ xs, ∃ q, σ.g1 i = some q ∧ Rep1 q (Q i)) →
    (∀ l i r, xs = l ++ i :: r → S + (l.map Q).sum ≠ Q i ∨ S + (l.map Q).sum = 0) →
    ∃ σ' p', bnRun (xs.map fun i => .g1Add e e i) σ = .ok σ' ∧ σ'.g1 e = some p' ∧ Rep1 p' (S + (xs.map Q).sum)
  | [], σ, p, S, _, hp, hS, _, _ => ⟨σ, p, rfl, hp, by simpa using hS⟩
  | i :: xs, σ, p, S, he, hp, hS, hx, hd => by
    obtain ⟨q, hq, hQ⟩ := hx i (by simp)
    have hie : i ≠ e := fun h => he (by simp [h])
    have f1 : (σ.fill1 e).g1 e = some p := by rw [fill1_self, hp]; rfl
    have f2 : (σ.fill1 e).g1 i = some q := by
      simp only [BnVars.fill1, BnVars.put1, if_neg hie, hq]
    have hex : BnStmt.exec (.g1Add e e i) σ = .ok (σ.put1 e (p.addSelf q)) := by
      simp only [BnStmt.exec, f1, f2, Res.ofOption_some, Res.ok_bind, fill1_put, if_true]
    have h0 := hd [] i xs rfl
    rw [List.map_nil, List.sum_nil, add_zero] at h0
    obtain ⟨σ', p', h1, h2, h3⟩ := run_sum_g1 (e := e) (Q := Q) xs (σ.put1 e (p.addSelf q)) (p.addSelf q) (S + Q i) (fun h => he (by simp [h]))
      (put1_self _ _ _) (C35_distinct _ _ _ _ hS hQ h0)
      (fun j hj => by
        obtain ⟨q', h4, h5⟩ := hx j (by simp [hj])
        exact ⟨q', by simp only [BnVars.put1, if_neg (fun h : j = e => he (by simp [← h, hj])), h4], h5⟩)
      (fun l j r h => by
        have := hd (i :: l) j r (by rw [h, List.cons_append])
        rwa [List.map_cons, List.sum_cons, ← add_assoc] at this)
    refine ⟨σ', p', ?_, h2, by rwa [List.map_cons, List.sum_cons, ← add_assoc]⟩
    rw [List.map_cons, bnRun, hex, Res.ok_bind, h1]

theorem run_sum_g2 {e : Nat} {Q : Nat → BG2} : ∀ (xs : List Nat) (σ : BnVars) (p : TwistPoint) (S : BG2), e ∉ xs →
    σ.g2 e = some p → Rep2 p S → (∀ i ∈ xs, ∃ q, σ.g2 i = some q ∧ Rep2 q (Q i)) →
    (∀ l i r, xs = l ++ i :: r → S + (l.map Q).sum ≠ Q i ∨ S + (l.map Q).sum = 0) →
    ∃ σ' p', bnRun (xs.map fun i => .g2Add e e i) σ = .ok σ' ∧ σ'.g2 e = some p' ∧ Rep2 p' (S + (xs.map Q).sum)
  | [], σ, p, S, _, hp, hS, _, _ => ⟨σ, p, rfl, hp, by simpa using hS⟩
  | i :: xs, σ, p, S, he, hp, hS, hx, hd => by
    obtain ⟨q, hq, hQ⟩ := hx i (by simp)
    have hie : i ≠ e := fun h => he (by simp [h])
    have f1 : (σ.fill2 e).g2 e = some p := by rw [fill2_self, hp]; rfl
    have f2 : (σ.fill2 e).g2 i = some q := by
      simp only [BnVars.fill2, BnVars.put2, if_neg hie, hq]
    have hex : BnStmt.exec (.g2Add e e i) σ = .ok (σ.put2 e (p.addSelf q)) := by
      simp only [BnStmt.exec, f1, f2, Res.ofOption_some, Res.ok_bind, fill2_put, if_true]
    have h0 := hd [] i xs rfl
    rw [List.map_nil, List.sum_nil, add_zero] at h0
    obtain ⟨σ', p', h1, h2, h3⟩ := run_sum_g2 (e := e) (Q := Q) xs (σ.put2 e (p.addSelf q)) (p.addSelf q) (S + Q i) (fun h => he (by simp [h]))
      (put2_self _ _ _) (C35_distinct2 _ _ _ _ hS hQ h0)
      (fun j hj => by
        obtain ⟨q', h4, h5⟩ := hx j (by simp [hj])
        exact ⟨q', by simp only [BnVars.put2, if_neg (fun h : j = e => he (by simp [← h, hj])), h4], h5⟩)
      (fun l j r h => by
        have := hd (i :: l) j r (by rw [h, List.cons_append])
        rwa [List.map_cons, List.sum_cons, ← add_assoc] at this)
    refine ⟨σ', p', ?_, h2, by rwa [List.map_cons, List.sum_cons, ← add_assoc]⟩
    rw [List.map_cons, bnRun, hex, Res.ok_bind, h1]

/-- Running with a receiver that was filled beforehand is the same, if the first call fills it. -/
theorem run_fill1 (σ : BnVars) (e i : Nat) (xs : List Nat) :
    bnRun ((i :: xs).map fun i => .g1Add e e i) σ = bnRun ((i :: xs).map fun i => .g1Add e e i) (σ.fill1 e) := by
  have h : (σ.fill1 e).fill1 e = σ.fill1 e := by
    conv_lhs => rw [BnVars.fill1, fill1_self, Option.getD_some, fill1_put]
    rfl
  simp only [List.map_cons, bnRun, BnStmt.exec, h]

theorem run_fill2 (σ : BnVars) (e i : Nat) (xs : List Nat) :
    bnRun ((i :: xs).map fun i => .g2Add e e i) σ = bnRun ((i :: xs).map fun i => .g2Add e e i) (σ.fill2 e) := by
  have h : (σ.fill2 e).fill2 e = σ.fill2 e := by
    conv_lhs => rw [BnVars.fill2, fill2_self, Option.getD_some, fill2_put]
    rfl
  simp only [List.map_cons, bnRun, BnStmt.exec, h]

/-- C96: a sum in `G1` may begin with the zero value, against the documentation: the calls `e.Add(e, x)` for `x` in `xs` leave the sum in
`e` (if no `x` is equal to the sum before it, for then C35 applies). -/
theorem C96_sum_g1 (σ : BnVars) (e : Nat) (xs : List Nat) (Q : Nat → BG1) (he : e ∉ xs) (hxs : xs ≠ []) (hz : σ.g1 e = none)
    (hx : ∀ i ∈ xs, ∃ q, σ.g1 i = some q ∧ Rep1 q (Q i))
    (hd : ∀ l i r, xs = l ++ i :: r → (l.map Q).sum ≠ Q i ∨ (l.map Q).sum = 0) :
    ∃ σ' p, bnRun (xs.map fun i => .g1Add e e i) σ = .ok σ' ∧ σ'.g1 e = some p ∧ Rep1 p (xs.map Q).sum := by
  cases xs with
  | nil => exact absurd rfl hxs
  | cons i xs =>
    rw [run_fill1]
    obtain ⟨σ', p, h1, h2, h3⟩ := run_sum_g1 (Q := Q) (i :: xs) (σ.fill1 e) _ 0 he (fill1_self σ e)
      (rep1_infinity (by rw [hz]; rfl))
      (fun j hj => by
        obtain ⟨q, h4, h5⟩ := hx j hj
        exact ⟨q, by simp only [BnVars.fill1, BnVars.put1, if_neg (fun h : j = e => he (h ▸ hj)), h4], h5⟩)
      (fun l j r h => by rw [zero_add]; exact hd l j r h)
    exact ⟨σ', p, h1, h2, by rwa [zero_add] at h3⟩

/-- C96: the same in `G2`. -/
theorem C96_sum_g2 (σ : BnVars) (e : Nat) (xs : List Nat) (Q : Nat → BG2) (he : e ∉ xs) (hxs : xs ≠ []) (hz : σ.g2 e = none)
    (hx : ∀ i ∈ xs, ∃ q, σ.g2 i = some q ∧ Rep2 q (Q i))
    (hd : ∀ l i r, xs = l ++ i :: r → (l.map Q).sum ≠ Q i ∨ (l.map Q).sum = 0) :
    ∃ σ' p, bnRun (xs.map fun i => .g2Add e e i) σ = .ok σ' ∧ σ'.g2 e = some p ∧ Rep2 p (xs.map Q).sum := by
  cases xs with
  | nil => exact absurd rfl hxs
  | cons i xs =>
    rw [run_fill2]
    obtain ⟨σ', p, h1, h2, h3⟩ := run_sum_g2 (Q := Q) (i :: xs) (σ.fill2 e) _ 0 he (fill2_self σ e)
      (rep2_infinity (by rw [hz]; rfl))
      (fun j hj => by
        obtain ⟨q, h4, h5⟩ := hx j hj
        exact ⟨q, by simp only [BnVars.fill2, BnVars.put2, if_neg (fun h : j = e => he (h ▸ hj)), h4], h5⟩)
      (fun l j r h => by rw [zero_add]; exact hd l j r h)
    exact ⟨σ', p, h1, h2, by rwa [zero_add] at h3⟩

/-- C96: a product in `GT` must not begin with the zero value: the calls `e.Add(e, x)` do not panic and leave the zero of the field in `e`,
which is no element of the group, whatever the factors are. -/
theorem C96_prod_gt (σ : BnVars) (e : Nat) (hz : σ.gt e = none) : ∀ (xs : List Nat), e ∉ xs → xs ≠ [] →
    (∀ i ∈ xs, σ.gt i ≠ none) →
    ∃ σ' g, bnRun (xs.map fun i => .gtAdd e e i) σ = .ok σ' ∧ σ'.gt e = some g ∧ g.val = 0 := by
  have main : ∀ (xs : List Nat) (σ : BnVars), e ∉ xs → (∀ g, σ.gt e = some g → g.val = 0) → (xs = [] → σ.gt e ≠ none) →
      (∀ i ∈ xs, σ.gt i ≠ none) → ∃ σ' g, bnRun (xs.map fun i => .gtAdd e e i) σ = .ok σ' ∧ σ'.gt e = some g ∧ g.val = 0 := by
    intro xs
    induction xs with
    | nil =>
      intro σ _ hv hn _
      obtain ⟨g, hg⟩ := Option.ne_none_iff_exists'.1 (hn rfl)
      exact ⟨σ, g, rfl, hg, hv g hg⟩
    | cons i xs ih =>
      intro σ he hv _ hx
      obtain ⟨q, hq⟩ := Option.ne_none_iff_exists'.1 (hx i (by simp))
      have hie : i ≠ e := fun h => he (by simp [h])
      have f2 : (σ.fillT e).gt i = some q := by
        simp only [BnVars.fillT, BnVars.putT, if_neg hie, hq]
      have hz : ((σ.gt e).getD .zero).val = 0 := by
        cases hg : σ.gt e with
        | none => exact GfP12.val_zero
        | some g => exact hv g hg
      have hex : BnStmt.exec (.gtAdd e e i) σ = .ok (σ.putT e (GT.add ((σ.gt e).getD .zero) q)) := by
        simp only [BnStmt.exec, fillT_self, f2, Res.ofOption_some, Res.ok_bind, fillT_put]
      obtain ⟨σ', g, h1, h2, h3⟩ := ih (σ.putT e (GT.add ((σ.gt e).getD .zero) q)) (fun h => he (by simp [h]))
        (fun g hg => by
          simp only [BnVars.putT, if_true, Option.some.injEq] at hg
          rw [← hg, GT.add, GfP12.val_mul, hz, zero_mul])
        (fun _ => by simp [BnVars.putT])
        (fun j hj => by
          simp only [BnVars.putT, if_neg (fun h : j = e => he (by simp [← h, hj]))]
          exact hx j (by simp [hj]))
      exact ⟨σ', g, by rw [List.map_cons, bnRun, hex, Res.ok_bind, h1], h2, h3⟩
  intro xs he hxs hx
  exact main xs σ he (by rw [hz]; nofun) (fun h => absurd h hxs) hx

/-- Two multiples of the generators, added up from the zero value in all three groups (in `GT`: the product of `1` and `1` is `0`). -/
example : ∃ σ : BnVars, (∃ σ' p, bnRun [.g1Add 0 0 1, .g1Add 0 0 2] σ = .ok σ' ∧ σ'.g1 0 = some p ∧ Rep1 p ((3 : Int) • bnG1)) ∧
    (∃ σ' p, bnRun [.g2Add 0 0 1, .g2Add 0 0 2] σ = .ok σ' ∧ σ'.g2 0 = some p ∧ Rep2 p ((3 : Int) • bnG2)) ∧
    ∃ σ' g, bnRun [.gtAdd 0 0 1, .gtAdd 0 0 2] σ = .ok σ' ∧ σ'.gt 0 = some g ∧ g.val = 0 := by
  refine ⟨⟨fun i => if i = 0 then none else some (G1.scalarBaseMult .new i), fun i => if i = 0 then none else some (G2.scalarBaseMult i),
    fun i => if i = 0 then none else some .one⟩, ?_, ?_, ?_⟩
  · obtain ⟨σ', p, h1, h2, h3⟩ := C96_sum_g1 ⟨fun i => if i = 0 then none else some (G1.scalarBaseMult .new i),
      fun i => if i = 0 then none else some (G2.scalarBaseMult i), fun i => if i = 0 then none else some .one⟩ 0 [1, 2]
      (fun i => (i : Int) • bnG1) (by decide) (by decide) rfl
      (by
        intro i hi
        have h0 : i ≠ 0 := by rintro rfl; exact absurd hi (by decide)
        exact ⟨_, if_neg h0, C34_scalarBaseMult _ _⟩)
      (by
        intro l i r h
        match l, h with
        | [], _ => exact .inr rfl
        | [a], h =>
          simp only [List.cons_append, List.nil_append, List.cons.injEq] at h
          obtain ⟨rfl, rfl, -⟩ := h
          left
          simp only [List.map_cons, List.map_nil, List.sum_cons, List.sum_nil, add_zero]
          intro hc
          rw [Nat.cast_one, one_zsmul, Nat.cast_ofNat, two_zsmul] at hc
          exact bnG1_ne_zero (left_eq_add.1 hc)
        | a :: b :: l, h => simp at h)
    refine ⟨σ', p, h1, h2, ?_⟩
    simp only [List.map_cons, List.map_nil, List.sum_cons, List.sum_nil, add_zero] at h3
    rwa [← add_smul] at h3
  · obtain ⟨σ', p, h1, h2, h3⟩ := C96_sum_g2 ⟨fun i => if i = 0 then none else some (G1.scalarBaseMult .new i),
      fun i => if i = 0 then none else some (G2.scalarBaseMult i), fun i => if i = 0 then none else some .one⟩ 0 [1, 2]
      (fun i => (i : Int) • bnG2) (by decide) (by decide) rfl
      (by
        intro i hi
        have h0 : i ≠ 0 := by rintro rfl; exact absurd hi (by decide)
        exact ⟨_, if_neg h0, C36_scalarBaseMult _ (Int.natCast_nonneg _)⟩)
      (by
        intro l i r h
        match l, h with
        | [], _ => exact .inr rfl
        | [a], h =>
          simp only [List.cons_append, List.nil_append, List.cons.injEq] at h
          obtain ⟨rfl, rfl, -⟩ := h
          left
          simp only [List.map_cons, List.map_nil, List.sum_cons, List.sum_nil, add_zero]
          intro hc
          rw [Nat.cast_one, one_zsmul, Nat.cast_ofNat, two_zsmul] at hc
          exact bnG2_ne_zero (left_eq_add.1 hc)
        | a :: b :: l, h => simp at h)
    refine ⟨σ', p, h1, h2, ?_⟩
    simp only [List.map_cons, List.map_nil, List.sum_cons, List.sum_nil, add_zero] at h3
    rwa [← add_smul] at h3
  · exact C96_prod_gt _ 0 rfl [1, 2] (by decide) (by decide) (by
      intro i hi
      have h0 : i ≠ 0 := by rintro rfl; exact absurd hi (by decide)
      simp [h0])

/-! ### A zero value as receiver and argument at once -/

/-- C96: with a zero value as receiver and argument, the operations of `G1` and `G2` return infinity. -/
theorem C96_self (σ : BnVars) (e : Nat) (k : Int) :
    (σ.g1 e = none → ∀ s ∈ [BnStmt.g1Add e e e, .g1Neg e e, .g1ScalarMult e e k],
      ∃ σ' p, s.exec σ = .ok σ' ∧ σ'.g1 e = some p ∧ Rep1 p 0) ∧
    (σ.g2 e = none → ∀ s ∈ [BnStmt.g2Add e e e, .g2Neg e e, .g2ScalarMult e e k],
      ∃ σ' p, s.exec σ = .ok σ' ∧ σ'.g2 e = some p ∧ Rep2 p 0) := by
  have r1 : Rep1 CurvePoint.new 0 := rep1_infinity rfl
  have r2 : Rep2 TwistPoint.new 0 := rep2_infinity rfl
  constructor
  · intro hz s hs
    have f : (σ.fill1 e).g1 e = some .new := by rw [fill1_self, hz]; rfl
    simp only [List.mem_cons, List.not_mem_nil, or_false] at hs
    rcases hs with rfl | rfl | rfl
    · refine ⟨σ.put1 e (CurvePoint.new.addSelf .new), _, ?_, put1_self _ _ _, ?_⟩
      · simp only [BnStmt.exec, f, Res.ofOption_some, Res.ok_bind, fill1_put, if_true]
      · simpa using C35_distinct _ _ _ _ r1 r1 (.inr rfl)
    · refine ⟨σ.put1 e CurvePoint.new.neg, _, ?_, put1_self _ _ _, ?_⟩
      · simp only [BnStmt.exec, f, Res.ofOption_some, Res.ok_bind, fill1_put]
      · simpa using C34_neg _ _ r1
    · refine ⟨σ.put1 e (G1.scalarMult .new .new k), _, ?_, put1_self _ _ _, ?_⟩
      · simp only [BnStmt.exec, f, Res.ofOption_some, Res.ok_bind, fill1_put, goCurveMul_some, G1.scalarMult]
        by_cases hk : k = 0
        · rw [if_pos hk, if_pos (by omega), if_pos hk]
        · rw [if_neg hk]
          by_cases hk' : k > 0
          · rw [if_pos hk', if_pos (by omega), if_neg hk]
          · rw [if_neg hk', if_neg (by omega)]
      · simpa using C34_scalarMult _ _ _ r1 k
  · intro hz s hs
    have f : (σ.fill2 e).g2 e = some .new := by rw [fill2_self, hz]; rfl
    simp only [List.mem_cons, List.not_mem_nil, or_false] at hs
    rcases hs with rfl | rfl | rfl
    · refine ⟨σ.put2 e (TwistPoint.new.addSelf .new), _, ?_, put2_self _ _ _, ?_⟩
      · simp only [BnStmt.exec, f, Res.ofOption_some, Res.ok_bind, fill2_put, if_true]
      · simpa using C35_distinct2 _ _ _ _ r2 r2 (.inr rfl)
    · refine ⟨σ.put2 e TwistPoint.new.negSelf, _, ?_, put2_self _ _ _, ?_⟩
      · simp only [BnStmt.exec, f, Res.ofOption_some, Res.ok_bind, fill2_put, if_true]
      · simpa using (C36_neg_inplace _ _ r2).1 (by simp)
    · refine ⟨σ.put2 e (G2.scalarMult .new k), _, ?_, put2_self _ _ _, ?_⟩
      · simp only [BnStmt.exec, f, Res.ok_bind, fill2_put, goTwistMul_some, G2.scalarMult]
        split <;> rfl
      · rcases le_or_gt 0 k with hk | hk
        · simpa using C36_scalarMult _ _ r2 k hk
        · simpa using (C36_scalarMult_negative _ _ r2 k hk).1 (by simp)

example : ∃ σ' p, BnStmt.exec (.g2ScalarMult 0 0 (-3)) .zero = .ok σ' ∧ σ'.g2 0 = some p ∧ Rep2 p 0 :=
  (C96_self .zero 0 (-3)).2 rfl _ (by simp)

/-- C96: `GT.Exp` never panics: a zero value as argument is filled with the zero of the field and becomes `0^k` (for `k < 0`: `1/0 = 0`). -/
theorem C96_exp (σ : BnVars) (e a : Nat) (k : Int) (hz : σ.gt a = none) :
    ∃ σ' g, BnStmt.exec (.gtExp e a k) σ = .ok σ' ∧ σ'.gt a = some g ∧ g.val = (if k = 0 then 1 else 0) := by
  have f : (σ.fillT a).gt a = some .zero := by rw [fillT_self, hz]; rfl
  have hv : ∀ j : Int, 0 ≤ j → (GT.scalarMult .zero j).val = if j = 0 then 1 else 0 := by
    intro j hj
    rw [GT.scalarMult, GfP12.val_exp _ hj, GfP12.val_zero, zero_pow_eq]
    simp only [Int.toNat_eq_zero]
    by_cases h : j = 0
    · rw [if_pos h, if_pos h.le]
    · rw [if_neg h, if_neg (by omega)]
  rcases le_or_gt 0 k with hk | hk
  · refine ⟨σ.putT a (GT.scalarMult .zero k), _, ?_, putT_self _ _ _, hv k hk⟩
    simp only [BnStmt.exec, f, ge_iff_le, if_pos hk, goGtExp_some, Res.ok_bind, fillT_put]
  · refine ⟨σ.putT a (GT.invert (GT.scalarMult .zero k.natAbs)), _, ?_, putT_self _ _ _, ?_⟩
    · simp only [BnStmt.exec, f, ge_iff_le, if_neg (not_le.2 hk), goGtExp_some, Res.ok_bind, fillT_put]
    · rw [GT.invert, GfP12.val_invert, hv _ (by omega), if_neg (by omega), if_neg (by omega), inv_zero]

example : ∃ σ' g, BnStmt.exec (.gtExp 1 0 5) .zero = .ok σ' ∧ σ'.gt 0 = some g ∧ g.val = 0 := C96_exp .zero 1 0 5 rfl

end Verif

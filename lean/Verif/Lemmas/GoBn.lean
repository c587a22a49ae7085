import Verif.Spec.GoBn
import Verif.Lemmas.GoCcs

/-! # Programs which call methods of `bn256` -/

namespace Verif

/-! ### Loops with a nil operand -/

theorem goCurveMulLoop_some (a : CurvePoint) (k : Int) : ∀ (n : Nat) (sum t : CurvePoint),
    goCurveMulLoop (some a) k n sum t = .ok (CurvePoint.mulLoop a k n sum t)
  | 0, _, _ => rfl
  | n + 1, sum, t => by
    rw [goCurveMulLoop, CurvePoint.mulLoop]
    split
    · rw [Res.ofOption_some, Res.ok_bind, goCurveMulLoop_some a k n]
    · rw [goCurveMulLoop_some a k n]

theorem goCurveMul_some (a : CurvePoint) (k : Int) : goCurveMul (some a) k = .ok (a.mul k) := goCurveMulLoop_some _ _ _ _ _

theorem goCurveMulLoop_none (a : CurvePoint) (k : Int) : ∀ (n : Nat) (sum t : CurvePoint),
    goCurveMulLoop none k n sum t = if (k % 2 ^ n).toNat = 0 then .ok (CurvePoint.mulLoop a k n sum t) else .panic
  | 0, _, _ => by simp [goCurveMulLoop, CurvePoint.mulLoop]
  | n + 1, sum, t => by
    have hp : 0 < 2 ^ n := Nat.two_pow_pos n
    rw [goCurveMulLoop, CurvePoint.mulLoop, emod_two_pow_succ]
    by_cases hb : intBit k n = true
    · rw [if_pos hb, if_pos hb, if_neg (by omega)]
      rfl
    · rw [if_neg hb, if_neg hb, if_neg hb, goCurveMulLoop_none a k n, Nat.zero_add]

theorem goCurveMul_none {k : Int} (hk : 0 < k) : goCurveMul none k = .panic := by
  rw [goCurveMul, goCurveMulLoop_none .gen, emod_bitLen_succ hk.le, if_neg (by omega)]

theorem goGtExpLoop_some (a : GfP12) (k : Int) : ∀ (n : Nat) (sum : GfP12),
    goGtExpLoop (some a) k n sum = .ok (GfP12.expLoop a k n sum)
  | 0, _ => rfl
  | n + 1, sum => by
    rw [goGtExpLoop, GfP12.expLoop]
    split
    · rw [Res.ofOption_some, Res.ok_bind, goGtExpLoop_some a k n]
    · rw [goGtExpLoop_some a k n]

theorem goGtExp_some (a : GfP12) (k : Int) : goGtExp (some a) k = .ok (GT.scalarMult a k) := goGtExpLoop_some _ _ _ _

theorem goGtExpLoop_none (a : GfP12) (k : Int) : ∀ (n : Nat) (sum : GfP12),
    goGtExpLoop none k n sum = if (k % 2 ^ n).toNat = 0 then .ok (GfP12.expLoop a k n sum) else .panic
  | 0, _ => by simp [goGtExpLoop, GfP12.expLoop]
  | n + 1, sum => by
    have hp : 0 < 2 ^ n := Nat.two_pow_pos n
    rw [goGtExpLoop, GfP12.expLoop, emod_two_pow_succ]
    by_cases hb : intBit k n = true
    · rw [if_pos hb, if_pos hb, if_neg (by omega)]
      rfl
    · rw [if_neg hb, if_neg hb, if_neg hb, goGtExpLoop_none a k n, Nat.zero_add]

theorem emod_bitLen_zero {k : Int} : (k % 2 ^ bitLen k).toNat = 0 ↔ k = 0 := by
  have h := lt_two_pow_bitLen k
  have h2 : (k.natAbs : Int) < 2 ^ bitLen k := by exact_mod_cast h
  have hp : (0 : Int) < 2 ^ bitLen k := by positivity
  have h3 := Int.emod_nonneg k hp.ne'
  constructor
  · intro h0
    have h4 : k % 2 ^ bitLen k = 0 := by omega
    have h5 := Int.natAbs_dvd_natAbs.2 (Int.dvd_of_emod_eq_zero h4)
    have h6 : (2 ^ bitLen k : Int).natAbs = 2 ^ bitLen k := by simp [Int.natAbs_pow]
    rw [h6] at h5
    by_contra hk
    exact absurd (Nat.le_of_dvd (by omega) h5) (by omega)
  · rintro rfl
    simp

theorem goGtExp_none (k : Int) : goGtExp none k = if k = 0 then .ok .one else .panic := by
  rw [goGtExp, goGtExpLoop_none .one]
  simp only [emod_bitLen_zero]
  by_cases hk : k = 0
  · subst hk; rfl
  · rw [if_neg hk, if_neg hk]

/-! ### Inverses -/

theorem goMakeAffine_ok {c : CurvePoint} (h : c.Invertible) : goMakeAffine c = .ok c.makeAffine := if_pos h

theorem invertible_of_range {c : CurvePoint} (h0 : 0 ≤ c.z) (h1 : c.z < bnP) : c.Invertible := by
  by_cases hz : c.z = 0
  · exact .inr (.inl (by simp [CurvePoint.isInfinity, hz]))
  · obtain ⟨r, h, -⟩ := modInverse_bn (z := c.z) (by
      rw [Ne, bf_eq_zero]
      intro hd
      exact absurd (Int.le_of_dvd (by omega) hd) (by omega))
    exact .inr (.inr (by rw [h]; rfl))

theorem invertible_of_double {c : CurvePoint} {t : Int} (h : c.z = t % bnP + t % bnP) : c.Invertible := by
  have hp := bnP_pos
  have h0 := Int.emod_nonneg t hp.ne'
  have h1 := Int.emod_lt_of_pos t hp
  by_cases hz : c.z = 0
  · exact .inr (.inl (by simp [CurvePoint.isInfinity, hz]))
  · obtain ⟨r, h, -⟩ := modInverse_bn (z := c.z) (by
      rw [Ne, bf_eq_zero]
      rintro ⟨q, hd⟩
      have q1 : 0 < q := by
        by_contra hq
        have : bnP * q ≤ 0 := Int.mul_nonpos_of_nonneg_of_nonpos hp.le (by omega)
        omega
      have q2 : q < 2 := by
        by_contra hq
        have : bnP * 2 ≤ bnP * q := Int.mul_le_mul_of_nonneg_left (by omega) hp.le
        omega
      have q3 : q = 1 := by omega
      have h2 : bnP % 2 = 1 := by decide
      rw [q3] at hd
      omega)
    exact .inr (.inr (by rw [h]; rfl))

theorem double_invertible (c a : CurvePoint) : (CurvePoint.double c a).Invertible := invertible_of_double (t := a.y * a.z) rfl

theorem addXYZ_z {a b : CurvePoint} {x y z : Int} (h : CurvePoint.addXYZ a b = some (x, y, z)) : 0 ≤ z ∧ z < bnP := by
  unfold CurvePoint.addXYZ at h
  dsimp only at h
  split at h
  · cases h
  · simp only [Option.some.injEq, Prod.mk.injEq] at h
    obtain ⟨-, -, rfl⟩ := h
    exact ⟨Int.emod_nonneg _ bnP_pos.ne', Int.emod_lt_of_pos _ bnP_pos⟩

theorem add_invertible (c : CurvePoint) {a b : CurvePoint} (ha : a.Invertible) (hb : b.Invertible) : (CurvePoint.add c a b).Invertible := by
  rw [CurvePoint.add]
  split
  · exact hb
  split
  · exact ha
  split
  · exact double_invertible c a
  · rename_i h
    obtain ⟨h1, h2⟩ := addXYZ_z h
    exact invertible_of_range h1 h2

theorem addSelf_invertible {a b : CurvePoint} (ha : a.Invertible) (hb : b.Invertible) : (CurvePoint.addSelf a b).Invertible := by
  rw [CurvePoint.addSelf]
  split
  · exact hb
  split
  · exact ha
  split
  · exact invertible_of_double (t := (CurvePoint.doubleXY a).2 * a.z) rfl
  · rename_i h
    obtain ⟨h1, h2⟩ := addXYZ_z h
    exact invertible_of_range h1 h2

theorem setInfinity_invertible (a : CurvePoint) : a.setInfinity.Invertible := .inr (.inl rfl)

theorem new_invertible : CurvePoint.new.Invertible := .inr (.inl rfl)

theorem neg_invertible {a : CurvePoint} (ha : a.Invertible) : a.neg.Invertible := ha

theorem mulLoop_invertible {a : CurvePoint} (ha : a.Invertible) (k : Int) : ∀ (n : Nat) (sum t : CurvePoint), sum.Invertible →
    (CurvePoint.mulLoop a k n sum t).Invertible
  | 0, _, _, h => h
  | n + 1, sum, t, h => by
    rw [CurvePoint.mulLoop]
    apply mulLoop_invertible ha
    split
    · exact add_invertible _ (double_invertible _ _) ha
    · exact double_invertible _ _

theorem mul_invertible {a : CurvePoint} (ha : a.Invertible) (k : Int) : (a.mul k).Invertible :=
  mulLoop_invertible ha k _ _ _ (setInfinity_invertible _)

theorem scalarMult_invertible {a : CurvePoint} (ha : a.Invertible) (c : CurvePoint) (k : Int) : (G1.scalarMult c a k).Invertible := by
  rw [G1.scalarMult]
  split
  · split
    · exact setInfinity_invertible _
    · exact mul_invertible ha _
  · exact neg_invertible (mul_invertible ha _)

theorem makeAffine_invertible (a : CurvePoint) : a.makeAffine.Invertible := by
  rw [CurvePoint.makeAffine]
  split
  · rename_i h
    exact .inl h
  split
  · exact .inr (.inl rfl)
  · exact .inl rfl

theorem unmarshalRaw_invertible (m : List UInt8) :
    ((G1.unmarshal m).getD ⟨setBytes (m.take 32), setBytes (m.drop 32), 1, 1⟩).Invertible := by
  cases h : G1.unmarshal m with
  | none => exact .inl rfl
  | some v =>
    rw [Option.getD_some]
    unfold G1.unmarshal at h
    split at h
    · cases h
    · dsimp only at h
      split at h
      · cases h; exact .inr (.inl rfl)
      · split at h
        · cases h
        · cases h; exact .inl rfl

/-! ### Variables -/

theorem put1_set {σ : BnVars} {e : Nat} {v : CurvePoint} {w : BnVar} : (σ.put1 e v).Set w ↔ w = .g1 e ∨ σ.Set w := by
  cases w with
  | g1 i =>
    simp only [BnVars.Set, BnVars.put1, BnVar.g1.injEq]
    by_cases h : i = e <;> simp [h]
  | g2 i => simp [BnVars.Set, BnVars.put1]
  | gt i => simp [BnVars.Set, BnVars.put1]

theorem put2_set {σ : BnVars} {e : Nat} {v : TwistPoint} {w : BnVar} : (σ.put2 e v).Set w ↔ w = .g2 e ∨ σ.Set w := by
  cases w with
  | g2 i =>
    simp only [BnVars.Set, BnVars.put2, BnVar.g2.injEq]
    by_cases h : i = e <;> simp [h]
  | g1 i => simp [BnVars.Set, BnVars.put2]
  | gt i => simp [BnVars.Set, BnVars.put2]

theorem putT_set {σ : BnVars} {e : Nat} {v : GfP12} {w : BnVar} : (σ.putT e v).Set w ↔ w = .gt e ∨ σ.Set w := by
  cases w with
  | gt i =>
    simp only [BnVars.Set, BnVars.putT, BnVar.gt.injEq]
    by_cases h : i = e <;> simp [h]
  | g2 i => simp [BnVars.Set, BnVars.putT]
  | g1 i => simp [BnVars.Set, BnVars.putT]

theorem put1_ok {σ : BnVars} {e : Nat} {v : CurvePoint} (h : σ.Ok) (hv : v.Invertible) : (σ.put1 e v).Ok := by
  intro i p hp
  simp only [BnVars.put1] at hp
  split at hp
  · cases hp; exact hv
  · exact h i p hp

theorem put1_put1 (σ : BnVars) (e : Nat) (v w : CurvePoint) : (σ.put1 e v).put1 e w = σ.put1 e w := by
  simp only [BnVars.put1, BnVars.mk.injEq, and_true]
  funext i
  split <;> rfl

theorem put2_put2 (σ : BnVars) (e : Nat) (v w : TwistPoint) : (σ.put2 e v).put2 e w = σ.put2 e w := by
  simp only [BnVars.put2, BnVars.mk.injEq, and_true, true_and]
  funext i
  split <;> rfl

theorem putT_putT (σ : BnVars) (e : Nat) (v w : GfP12) : (σ.putT e v).putT e w = σ.putT e w := by
  simp only [BnVars.putT, BnVars.mk.injEq, true_and]
  funext i
  split <;> rfl

theorem put1_self (σ : BnVars) (e : Nat) (v : CurvePoint) : (σ.put1 e v).g1 e = some v := if_pos rfl
theorem put2_self (σ : BnVars) (e : Nat) (v : TwistPoint) : (σ.put2 e v).g2 e = some v := if_pos rfl
theorem putT_self (σ : BnVars) (e : Nat) (v : GfP12) : (σ.putT e v).gt e = some v := if_pos rfl

theorem fill1_put (σ : BnVars) (e : Nat) (w : CurvePoint) : (σ.fill1 e).put1 e w = σ.put1 e w := put1_put1 _ _ _ _
theorem fill2_put (σ : BnVars) (e : Nat) (w : TwistPoint) : (σ.fill2 e).put2 e w = σ.put2 e w := put2_put2 _ _ _ _
theorem fillT_put (σ : BnVars) (e : Nat) (w : GfP12) : (σ.fillT e).putT e w = σ.putT e w := putT_putT _ _ _ _

theorem fill1_self (σ : BnVars) (e : Nat) : (σ.fill1 e).g1 e = some ((σ.g1 e).getD .new) := by simp [BnVars.fill1, BnVars.put1]
theorem fill2_self (σ : BnVars) (e : Nat) : (σ.fill2 e).g2 e = some ((σ.g2 e).getD .new) := by simp [BnVars.fill2, BnVars.put2]
theorem fillT_self (σ : BnVars) (e : Nat) : (σ.fillT e).gt e = some ((σ.gt e).getD .zero) := by simp [BnVars.fillT, BnVars.putT]

theorem fill1_ok {σ : BnVars} (h : σ.Ok) (e : Nat) : (σ.fill1 e).Ok := by
  refine put1_ok h ?_
  cases he : σ.g1 e with
  | none => exact new_invertible
  | some p => exact h e p he

/-- After filling, the variable `a` has a value if it had one or is the receiver. -/
theorem fill1_some {σ : BnVars} {e a : Nat} (h : BnVar.g1 a ≠ .g1 e → σ.Set (.g1 a)) : ∃ p, (σ.fill1 e).g1 a = some p := by
  apply Option.ne_none_iff_exists'.1
  refine (put1_set (w := .g1 a)).2 ?_
  tauto

theorem fill2_some {σ : BnVars} {e a : Nat} (h : BnVar.g2 a ≠ .g2 e → σ.Set (.g2 a)) : ∃ p, (σ.fill2 e).g2 a = some p := by
  apply Option.ne_none_iff_exists'.1
  refine (put2_set (w := .g2 a)).2 ?_
  tauto

theorem fillT_some {σ : BnVars} {e a : Nat} (h : BnVar.gt a ≠ .gt e → σ.Set (.gt a)) : ∃ p, (σ.fillT e).gt a = some p := by
  apply Option.ne_none_iff_exists'.1
  refine (putT_set (w := .gt a)).2 ?_
  tauto

theorem fill1_none {σ : BnVars} {e a : Nat} (h : BnVar.g1 a ≠ .g1 e) (h' : ¬ σ.Set (.g1 a)) : (σ.fill1 e).g1 a = none := by
  by_contra hc
  exact ((put1_set (w := .g1 a)).1 hc).elim h h'

theorem fill2_none {σ : BnVars} {e a : Nat} (h : BnVar.g2 a ≠ .g2 e) (h' : ¬ σ.Set (.g2 a)) : (σ.fill2 e).g2 a = none := by
  by_contra hc
  exact ((put2_set (w := .g2 a)).1 hc).elim h h'

theorem fillT_none {σ : BnVars} {e a : Nat} (h : BnVar.gt a ≠ .gt e) (h' : ¬ σ.Set (.gt a)) : (σ.fillT e).gt a = none := by
  by_contra hc
  exact ((putT_set (w := .gt a)).1 hc).elim h h'

/-- What a call which does not panic leaves. -/
def BnStep (σ σ' : BnVars) (E : List BnVar) : Prop := σ'.Ok ∧ (∀ v, σ.Set v → σ'.Set v) ∧ ∀ v ∈ E, σ'.Set v

theorem BnStep.same {σ : BnVars} (h : σ.Ok) : BnStep σ σ [] := ⟨h, fun _ h => h, by simp⟩

theorem BnStep.put1 {σ : BnVars} {e : Nat} {v : CurvePoint} (h : σ.Ok) (hv : v.Invertible) : BnStep σ (σ.put1 e v) [.g1 e] :=
  ⟨put1_ok h hv, fun _ h => put1_set.2 (.inr h), fun w hw => put1_set.2 (.inl (by simpa using hw))⟩

theorem BnStep.put2 {σ : BnVars} {e : Nat} {v : TwistPoint} (h : σ.Ok) : BnStep σ (σ.put2 e v) [.g2 e] :=
  ⟨h, fun _ h => put2_set.2 (.inr h), fun w hw => put2_set.2 (.inl (by simpa using hw))⟩

theorem BnStep.putT {σ : BnVars} {e : Nat} {v : GfP12} (h : σ.Ok) : BnStep σ (σ.putT e v) [.gt e] :=
  ⟨h, fun _ h => putT_set.2 (.inr h), fun w hw => putT_set.2 (.inl (by simpa using hw))⟩

theorem BnStep.weaken {σ σ' : BnVars} {E : List BnVar} (h : BnStep σ σ' E) : BnStep σ σ' [] := ⟨h.1, h.2.1, by simp⟩

theorem mem_filter_ne {v w : BnVar} {l : List BnVar} : v ∈ l.filter (· ≠ w) ↔ v ∈ l ∧ v ≠ w := by simp

/-- A call whose needs are met. -/
theorem exec_ok {σ : BnVars} (h : σ.Ok) (s : BnStmt) (hs : s.Simple) (hn : ∀ v ∈ s.needs, σ.Set v) :
    ∃ σ', s.exec σ = .ok σ' ∧ BnStep σ σ' s.outputs := by
  cases s with
  | g1Add e a b =>
    simp only [BnStmt.needs, mem_filter_ne, List.mem_cons, List.not_mem_nil, or_false] at hn
    obtain ⟨pa, ha⟩ := fill1_some (fun hc => hn (.g1 a) ⟨.inl rfl, hc⟩)
    obtain ⟨pb, hb⟩ := fill1_some (fun hc => hn (.g1 b) ⟨.inr rfl, hc⟩)
    refine ⟨_, ?_, BnStep.put1 (e := e) (v := if e = a then pa.addSelf pb else CurvePoint.add ((σ.g1 e).getD .new) pa pb) h ?_⟩
    · simp only [BnStmt.exec, fill1_self, ha, hb, Res.ofOption_some, Res.ok_bind, fill1_put]
    · have h1 := fill1_ok h e a pa ha
      have h2 := fill1_ok h e b pb hb
      split
      · exact addSelf_invertible h1 h2
      · exact add_invertible _ h1 h2
  | g1Neg e a =>
    simp only [BnStmt.needs, mem_filter_ne, List.mem_cons, List.not_mem_nil, or_false] at hn
    obtain ⟨pa, ha⟩ := fill1_some (fun hc => hn (.g1 a) ⟨rfl, hc⟩)
    refine ⟨_, ?_, BnStep.put1 (e := e) (v := pa.neg) h (neg_invertible (fill1_ok h e a pa ha))⟩
    simp only [BnStmt.exec, ha, Res.ofOption_some, Res.ok_bind, fill1_put]
  | g1ScalarMult e a k =>
    by_cases hk : k = 0
    · refine ⟨_, ?_, BnStep.put1 (e := e) (v := ((σ.g1 e).getD .new).setInfinity) h (setInfinity_invertible _)⟩
      simp only [BnStmt.exec, fill1_self, Res.ofOption_some, Res.ok_bind, fill1_put, if_pos hk]
    · simp only [BnStmt.needs, if_neg hk, mem_filter_ne, List.mem_cons, List.not_mem_nil, or_false] at hn
      obtain ⟨pa, ha⟩ := fill1_some (fun hc => hn (.g1 a) ⟨rfl, hc⟩)
      refine ⟨_, ?_, BnStep.put1 (e := e) (v := G1.scalarMult ((σ.g1 e).getD .new) pa k) h
        (scalarMult_invertible (fill1_ok h e a pa ha) _ _)⟩
      simp only [BnStmt.exec, fill1_self, ha, Res.ofOption_some, Res.ok_bind, fill1_put, if_neg hk, goCurveMul_some, G1.scalarMult]
      by_cases hk' : k > 0
      · rw [if_pos hk', if_pos (by omega)]
      · rw [if_neg hk', if_neg (by omega)]
  | g1ScalarBaseMult e k =>
    refine ⟨_, ?_, BnStep.put1 (e := e) (v := G1.scalarBaseMult ((σ.g1 e).getD .new) k) h (scalarMult_invertible (.inl rfl) _ _)⟩
    simp only [BnStmt.exec, fill1_self, Res.ofOption_some, Res.ok_bind, fill1_put]
  | g1SetInfinity e => exact ⟨_, rfl, BnStep.put1 h (setInfinity_invertible _)⟩
  | g1SetZero e =>
    obtain ⟨p, hp⟩ := Option.ne_none_iff_exists'.1 (hn (.g1 e) (by simp [BnStmt.needs, BnStmt.inputs]))
    refine ⟨_, ?_, (BnStep.put1 (e := e) (v := p.setInfinity) h (setInfinity_invertible _)).weaken⟩
    simp only [BnStmt.exec, hp, Res.ofOption_some, Res.ok_bind]
  | g1IsZero e =>
    obtain ⟨p, hp⟩ := Option.ne_none_iff_exists'.1 (hn (.g1 e) (by simp [BnStmt.needs, BnStmt.inputs]))
    refine ⟨σ, ?_, BnStep.same h⟩
    simp only [BnStmt.exec, hp, Res.ofOption_some, Res.ok_bind]
  | g1CurvePoints e =>
    obtain ⟨p, hp⟩ := Option.ne_none_iff_exists'.1 (hn (.g1 e) (by simp [BnStmt.needs, BnStmt.inputs]))
    refine ⟨σ, ?_, BnStep.same h⟩
    simp only [BnStmt.exec, hp, Res.ofOption_some, Res.ok_bind]
  | g1String e =>
    obtain ⟨p, hp⟩ := Option.ne_none_iff_exists'.1 (hn (.g1 e) (by simp [BnStmt.needs, BnStmt.inputs]))
    refine ⟨_, ?_, (BnStep.put1 (e := e) (v := p.makeAffine) h (makeAffine_invertible _)).weaken⟩
    simp only [BnStmt.exec, hp, Res.ofOption_some, Res.ok_bind, goMakeAffine_ok (h e p hp)]
  | g1Marshal e =>
    obtain ⟨p, hp⟩ := Option.ne_none_iff_exists'.1 (hn (.g1 e) (by simp [BnStmt.needs, BnStmt.inputs]))
    refine ⟨_, ?_, (BnStep.put1 (e := e) (v := p.makeAffine) h (makeAffine_invertible _)).weaken⟩
    simp only [BnStmt.exec, hp, Res.ofOption_some, Res.ok_bind, goMakeAffine_ok (h e p hp)]
  | g1Unmarshal e m =>
    by_cases hm : m.length = 64
    · refine ⟨σ.put1 e ((G1.unmarshal m).getD ⟨setBytes (m.take 32), setBytes (m.drop 32), 1, 1⟩), ?_, ?_⟩
      · simp only [BnStmt.exec, if_neg (not_not.2 hm)]
      · simp only [BnStmt.outputs, if_pos hm]
        exact BnStep.put1 (e := e) h (unmarshalRaw_invertible m)
    · refine ⟨σ, ?_, ?_⟩
      · simp only [BnStmt.exec, if_pos hm]
      · simp only [BnStmt.outputs, if_neg hm]
        exact BnStep.same h
  | g2Add e a b =>
    simp only [BnStmt.needs, mem_filter_ne, List.mem_cons, List.not_mem_nil, or_false] at hn
    obtain ⟨pa, ha⟩ := fill2_some (fun hc => hn (.g2 a) ⟨.inl rfl, hc⟩)
    obtain ⟨pb, hb⟩ := fill2_some (fun hc => hn (.g2 b) ⟨.inr rfl, hc⟩)
    refine ⟨_, ?_, BnStep.put2 (e := e) (v := if e = a then pa.addSelf pb else TwistPoint.add ((σ.g2 e).getD .new) pa pb) h⟩
    simp only [BnStmt.exec, fill2_self, ha, hb, Res.ofOption_some, Res.ok_bind, fill2_put]
  | g2Neg e a =>
    simp only [BnStmt.needs, mem_filter_ne, List.mem_cons, List.not_mem_nil, or_false] at hn
    obtain ⟨pa, ha⟩ := fill2_some (fun hc => hn (.g2 a) ⟨rfl, hc⟩)
    refine ⟨_, ?_, BnStep.put2 (e := e) (v := if e = a then pa.negSelf else pa.neg) h⟩
    simp only [BnStmt.exec, ha, Res.ofOption_some, Res.ok_bind, fill2_put]
  | g2ScalarMult e a k =>
    have key : ∃ v, BnStmt.exec (.g2ScalarMult e a k) σ = .ok (σ.put2 e v) := by
      by_cases hk : k = 0
      · subst hk
        cases hg : (σ.fill2 e).g2 a with
        | none => exact ⟨TwistPoint.mul .gen 0, by simp only [BnStmt.exec, hg, goTwistMul_none .gen (le_refl 0), if_true, ge_iff_le, le_refl, Res.ok_bind, fill2_put]⟩
        | some p => exact ⟨p.mul 0, by simp only [BnStmt.exec, hg, goTwistMul_some, ge_iff_le, le_refl, if_true, Res.ok_bind, fill2_put]⟩
      · simp only [BnStmt.needs, if_neg hk, mem_filter_ne, List.mem_cons, List.not_mem_nil, or_false] at hn
        obtain ⟨pa, ha⟩ := fill2_some (fun hc => hn (.g2 a) ⟨rfl, hc⟩)
        simp only [BnStmt.exec, ha, goTwistMul_some, Res.ok_bind, fill2_put]
        split <;> exact ⟨_, rfl⟩
    obtain ⟨v, hv⟩ := key
    exact ⟨_, hv, BnStep.put2 h⟩
  | g2ScalarBaseMult e k => exact ⟨_, rfl, BnStep.put2 h⟩
  | g2SetInfinity e => exact ⟨_, rfl, BnStep.put2 h⟩
  | g2IsZero e =>
    obtain ⟨p, hp⟩ := Option.ne_none_iff_exists'.1 (hn (.g2 e) (by simp [BnStmt.needs, BnStmt.inputs]))
    refine ⟨σ, ?_, BnStep.same h⟩
    simp only [BnStmt.exec, hp, Res.ofOption_some, Res.ok_bind]
  | g2CurvePoints e =>
    obtain ⟨p, hp⟩ := Option.ne_none_iff_exists'.1 (hn (.g2 e) (by simp [BnStmt.needs, BnStmt.inputs]))
    refine ⟨σ, ?_, BnStep.same h⟩
    simp only [BnStmt.exec, hp, Res.ofOption_some, Res.ok_bind]
  | g2String e =>
    obtain ⟨p, hp⟩ := Option.ne_none_iff_exists'.1 (hn (.g2 e) (by simp [BnStmt.needs, BnStmt.inputs]))
    refine ⟨σ, ?_, BnStep.same h⟩
    simp only [BnStmt.exec, hp, Res.ofOption_some, Res.ok_bind]
  | g2Marshal e =>
    obtain ⟨p, hp⟩ := Option.ne_none_iff_exists'.1 (hn (.g2 e) (by simp [BnStmt.needs, BnStmt.inputs]))
    refine ⟨_, ?_, (BnStep.put2 (e := e) (v := p.makeAffine) h).weaken⟩
    simp only [BnStmt.exec, hp, Res.ofOption_some, Res.ok_bind]
  | g2Unmarshal e m =>
    by_cases hm : m.length = 128
    · refine ⟨σ.put2 e ((G2.unmarshal m).getD ⟨⟨setBytes (m.take 32), setBytes ((m.drop 32).take 32)⟩,
        ⟨setBytes ((m.drop 64).take 32), setBytes (m.drop 96)⟩, .one, .one⟩), ?_, ?_⟩
      · simp only [BnStmt.exec, if_neg (not_not.2 hm)]
      · simp only [BnStmt.outputs, if_pos hm]
        exact BnStep.put2 (e := e) h
    · refine ⟨σ, ?_, ?_⟩
      · simp only [BnStmt.exec, if_pos hm]
      · simp only [BnStmt.outputs, if_neg hm]
        exact BnStep.same h
  | gtAdd e a b =>
    simp only [BnStmt.needs, mem_filter_ne, List.mem_cons, List.not_mem_nil, or_false] at hn
    obtain ⟨pa, ha⟩ := fillT_some (fun hc => hn (.gt a) ⟨.inl rfl, hc⟩)
    obtain ⟨pb, hb⟩ := fillT_some (fun hc => hn (.gt b) ⟨.inr rfl, hc⟩)
    refine ⟨_, ?_, BnStep.putT (e := e) (v := GT.add pa pb) h⟩
    simp only [BnStmt.exec, ha, hb, Res.ofOption_some, Res.ok_bind, fillT_put]
  | gtNeg e a =>
    simp only [BnStmt.needs, mem_filter_ne, List.mem_cons, List.not_mem_nil, or_false] at hn
    obtain ⟨pa, ha⟩ := fillT_some (fun hc => hn (.gt a) ⟨rfl, hc⟩)
    refine ⟨_, ?_, BnStep.putT (e := e) (v := GT.neg pa) h⟩
    simp only [BnStmt.exec, ha, Res.ofOption_some, Res.ok_bind, fillT_put]
  | gtInvert e a =>
    simp only [BnStmt.needs, mem_filter_ne, List.mem_cons, List.not_mem_nil, or_false] at hn
    obtain ⟨pa, ha⟩ := fillT_some (fun hc => hn (.gt a) ⟨rfl, hc⟩)
    refine ⟨_, ?_, BnStep.putT (e := e) (v := GT.invert pa) h⟩
    simp only [BnStmt.exec, ha, Res.ofOption_some, Res.ok_bind, fillT_put]
  | gtScalarMult e a k =>
    have key : ∃ v, BnStmt.exec (.gtScalarMult e a k) σ = .ok (σ.putT e v) := by
      by_cases hk : k = 0
      · subst hk
        cases hg : (σ.fillT e).gt a with
        | none => exact ⟨.one, by simp only [BnStmt.exec, hg, goGtExp_none, if_true, Res.ok_bind, fillT_put]⟩
        | some p => exact ⟨GT.scalarMult p 0, by simp only [BnStmt.exec, hg, goGtExp_some, Res.ok_bind, fillT_put]⟩
      · simp only [BnStmt.needs, if_neg hk, mem_filter_ne, List.mem_cons, List.not_mem_nil, or_false] at hn
        obtain ⟨pa, ha⟩ := fillT_some (fun hc => hn (.gt a) ⟨rfl, hc⟩)
        exact ⟨GT.scalarMult pa k, by simp only [BnStmt.exec, ha, goGtExp_some, Res.ok_bind, fillT_put]⟩
    obtain ⟨v, hv⟩ := key
    exact ⟨_, hv, BnStep.putT h⟩
  | gtExp e a k =>
    have key : ∃ v, BnStmt.exec (.gtExp e a k) σ = .ok (σ.putT a v) := by
      simp only [BnStmt.exec, fillT_self, goGtExp_some, Res.ok_bind, fillT_put]
      split <;> exact ⟨_, rfl⟩
    obtain ⟨v, hv⟩ := key
    exact ⟨_, hv, BnStep.putT h⟩
  | gtIsZero e =>
    obtain ⟨p, hp⟩ := Option.ne_none_iff_exists'.1 (hn (.gt e) (by simp [BnStmt.needs, BnStmt.inputs]))
    refine ⟨_, ?_, (BnStep.putT (e := e) (v := (GT.isZero p).2) h).weaken⟩
    simp only [BnStmt.exec, hp, Res.ofOption_some, Res.ok_bind]
  | gtIsOne e =>
    obtain ⟨p, hp⟩ := Option.ne_none_iff_exists'.1 (hn (.gt e) (by simp [BnStmt.needs, BnStmt.inputs]))
    refine ⟨_, ?_, (BnStep.putT (e := e) (v := (GT.isOne p).2) h).weaken⟩
    simp only [BnStmt.exec, hp, Res.ofOption_some, Res.ok_bind]
  | gtString e =>
    obtain ⟨p, hp⟩ := Option.ne_none_iff_exists'.1 (hn (.gt e) (by simp [BnStmt.needs, BnStmt.inputs]))
    refine ⟨σ, ?_, BnStep.same h⟩
    simp only [BnStmt.exec, hp, Res.ofOption_some, Res.ok_bind]
  | gtMarshal e =>
    obtain ⟨p, hp⟩ := Option.ne_none_iff_exists'.1 (hn (.gt e) (by simp [BnStmt.needs, BnStmt.inputs]))
    refine ⟨_, ?_, (BnStep.putT (e := e) (v := (GT.marshal p).2) h).weaken⟩
    simp only [BnStmt.exec, hp, Res.ofOption_some, Res.ok_bind]
  | gtUnmarshal e m =>
    by_cases hm : m.length = 384
    · obtain ⟨v, hv⟩ : ∃ v, GT.unmarshal m = some v := by
        rw [GT.unmarshal, if_neg (not_not.2 hm)]
        exact ⟨_, rfl⟩
      refine ⟨σ.putT e v, ?_, ?_⟩
      · simp only [BnStmt.exec, hv]
      · simp only [BnStmt.outputs, if_pos hm]
        exact BnStep.putT (e := e) h
    · refine ⟨σ, ?_, ?_⟩
      · simp only [BnStmt.exec, GT.unmarshal, ne_eq, if_pos hm]
      · simp only [BnStmt.outputs, if_neg hm]
        exact BnStep.same h
  | pair e i j =>
    obtain ⟨p, hp⟩ := Option.ne_none_iff_exists'.1 (hn (.g1 i) (by simp [BnStmt.needs, BnStmt.inputs]))
    obtain ⟨q, hq⟩ := Option.ne_none_iff_exists'.1 (hn (.g2 j) (by simp [BnStmt.needs, BnStmt.inputs]))
    refine ⟨_, ?_, BnStep.putT (e := e) (v := Verif.pair p q) h⟩
    simp only [BnStmt.exec, hp, hq, Res.ofOption_some, Res.ok_bind, goMakeAffine_ok (h i p hp)]
  | pairingCheck a b => exact hs.elim

/-- A call whose needs are not met. -/
theorem exec_panic {σ : BnVars} (s : BnStmt) (hs : s.Simple) {v : BnVar} (hv : v ∈ s.needs) (hn : ¬ σ.Set v) : s.exec σ = .panic := by
  have nn1 : ∀ {i}, ¬ σ.Set (.g1 i) → σ.g1 i = none := fun h => not_not.1 h
  have nn2 : ∀ {i}, ¬ σ.Set (.g2 i) → σ.g2 i = none := fun h => not_not.1 h
  have nnT : ∀ {i}, ¬ σ.Set (.gt i) → σ.gt i = none := fun h => not_not.1 h
  cases s with
  | g1Add e a b =>
    simp only [BnStmt.needs, mem_filter_ne, List.mem_cons, List.not_mem_nil, or_false] at hv
    simp only [BnStmt.exec, fill1_self, Res.ofOption_some, Res.ok_bind]
    obtain ⟨rfl | rfl, h1⟩ := hv
    · rw [fill1_none h1 hn]; rfl
    · rw [fill1_none h1 hn]
      cases (σ.fill1 e).g1 a <;> rfl
  | g1Neg e a =>
    simp only [BnStmt.needs, mem_filter_ne, List.mem_cons, List.not_mem_nil, or_false] at hv
    obtain ⟨rfl, h1⟩ := hv
    simp only [BnStmt.exec]
    rw [fill1_none h1 hn]; rfl
  | g1ScalarMult e a k =>
    by_cases hk : k = 0
    · simp [BnStmt.needs, hk] at hv
    · simp only [BnStmt.needs, if_neg hk, mem_filter_ne, List.mem_cons, List.not_mem_nil, or_false] at hv
      obtain ⟨rfl, h1⟩ := hv
      simp only [BnStmt.exec, fill1_self, Res.ofOption_some, Res.ok_bind, if_neg hk, fill1_none h1 hn]
      split
      · rename_i h; rw [goCurveMul_none h]; rfl
      · rw [goCurveMul_none (by omega)]; rfl
  | g2Add e a b =>
    simp only [BnStmt.needs, mem_filter_ne, List.mem_cons, List.not_mem_nil, or_false] at hv
    simp only [BnStmt.exec, fill2_self, Res.ofOption_some, Res.ok_bind]
    obtain ⟨rfl | rfl, h1⟩ := hv
    · rw [fill2_none h1 hn]; rfl
    · rw [fill2_none h1 hn]
      cases (σ.fill2 e).g2 a <;> rfl
  | g2Neg e a =>
    simp only [BnStmt.needs, mem_filter_ne, List.mem_cons, List.not_mem_nil, or_false] at hv
    obtain ⟨rfl, h1⟩ := hv
    simp only [BnStmt.exec]
    rw [fill2_none h1 hn]; rfl
  | g2ScalarMult e a k =>
    by_cases hk : k = 0
    · simp [BnStmt.needs, hk] at hv
    · simp only [BnStmt.needs, if_neg hk, mem_filter_ne, List.mem_cons, List.not_mem_nil, or_false] at hv
      obtain ⟨rfl, h1⟩ := hv
      simp only [BnStmt.exec, fill2_none h1 hn]
      split
      · rename_i h; rw [goTwistMul_none .gen h, if_neg hk]; rfl
      · rw [goTwistMul_none .gen (by omega), if_neg (by omega)]; rfl
  | gtAdd e a b =>
    simp only [BnStmt.needs, mem_filter_ne, List.mem_cons, List.not_mem_nil, or_false] at hv
    simp only [BnStmt.exec]
    obtain ⟨rfl | rfl, h1⟩ := hv
    · rw [fillT_none h1 hn]; rfl
    · rw [fillT_none h1 hn]
      cases (σ.fillT e).gt a <;> rfl
  | gtNeg e a =>
    simp only [BnStmt.needs, mem_filter_ne, List.mem_cons, List.not_mem_nil, or_false] at hv
    obtain ⟨rfl, h1⟩ := hv
    simp only [BnStmt.exec]
    rw [fillT_none h1 hn]; rfl
  | gtInvert e a =>
    simp only [BnStmt.needs, mem_filter_ne, List.mem_cons, List.not_mem_nil, or_false] at hv
    obtain ⟨rfl, h1⟩ := hv
    simp only [BnStmt.exec]
    rw [fillT_none h1 hn]; rfl
  | gtScalarMult e a k =>
    by_cases hk : k = 0
    · simp [BnStmt.needs, hk] at hv
    · simp only [BnStmt.needs, if_neg hk, mem_filter_ne, List.mem_cons, List.not_mem_nil, or_false] at hv
      obtain ⟨rfl, h1⟩ := hv
      simp only [BnStmt.exec, fillT_none h1 hn, goGtExp_none, if_neg hk]
      rfl
  | g1ScalarBaseMult | g1SetInfinity | g1Unmarshal | g2ScalarBaseMult | g2SetInfinity | g2Unmarshal | gtExp | gtUnmarshal =>
    simp [BnStmt.needs, BnStmt.inputs] at hv
  | g1SetZero | g1IsZero | g1CurvePoints | g1String | g1Marshal =>
    simp only [BnStmt.needs, BnStmt.inputs, List.mem_cons, List.not_mem_nil, or_false] at hv
    subst hv
    simp only [BnStmt.exec, nn1 hn]
    rfl
  | g2IsZero | g2CurvePoints | g2String | g2Marshal =>
    simp only [BnStmt.needs, BnStmt.inputs, List.mem_cons, List.not_mem_nil, or_false] at hv
    subst hv
    simp only [BnStmt.exec, nn2 hn]
    rfl
  | gtIsZero | gtIsOne | gtString | gtMarshal =>
    simp only [BnStmt.needs, BnStmt.inputs, List.mem_cons, List.not_mem_nil, or_false] at hv
    subst hv
    simp only [BnStmt.exec, nnT hn]
    rfl
  | pair e i j =>
    simp only [BnStmt.needs, BnStmt.inputs, List.mem_cons, List.not_mem_nil, or_false] at hv
    simp only [BnStmt.exec]
    obtain rfl | rfl := hv
    · rw [nn1 hn]
      cases σ.g2 j <;> rfl
    · rw [nn2 hn]; rfl
  | pairingCheck a b => exact hs.elim

end Verif

import Verif.Lemmas.P256ObjMap
import Verif.Lemmas.BpHonest
import Verif.Props.Text
import Verif.Props.P256

/-! Single calls of `P256` programs. -/

namespace Verif

open BigM PtM

/-- A call, seen from the variables: the new value of the variable it assigns, or only new temporary objects. -/
def PtEffect (σ σ' : PtHeap) (t o : Option Nat) : Prop := (t = none ∧ Quiet σ σ') ∨ ∃ p v, t = some p ∧ PtStep σ σ' p v o

theorem PtEffect.big {σ σ' : PtHeap} {t o : Option Nat} (h : PtEffect σ σ' t o) : Grown σ.big σ'.big := by
  rcases h with ⟨_, h⟩ | ⟨_, _, _, h⟩
  · exact h.big
  · exact h.big

theorem PtEffect.ok {σ σ' : PtHeap} {t o : Option Nat} (hσ : σ.Ok) (h : PtEffect σ σ' t o) : σ'.Ok := by
  rcases h with ⟨_, h⟩ | ⟨_, _, _, h⟩
  · exact h.ok hσ
  · exact h.ok hσ

theorem p256_uses_lt {σ : PtHeap} (hσ : σ.Ok) {i : Nat} {c : Cell} (h : σ.Uses i c) : c < σ.big.next :=
  h.elim (hσ.x i c) (hσ.y i c)

theorem PtEffect.apart {σ σ' : PtHeap} {t o : Option Nat} (hσ : σ.Ok) (ha : σ.Apart) (h : PtEffect σ σ' t o) : σ'.Apart := by
  rcases h with ⟨_, h⟩ | ⟨p, _, _, h⟩
  · refine ⟨fun i j c => ?_, fun i c => ?_, fun i c => ?_⟩
    · unfold PtHeap.Uses; rw [h.pt]; exact ha.same i j c
    · rw [h.pt]; exact ha.ne i c
    · unfold PtHeap.Uses; rw [h.pt]; exact ha.own i c
  · rcases h.fields with ⟨k, hk⟩ | hn
    · have e : ∀ i, ∃ i', σ'.pt i = σ.pt i' := by
        intro i
        by_cases hi : i = p
        · exact ⟨k, by rw [hi, hk]⟩
        · exact ⟨i, h.others i hi⟩
      refine ⟨fun i j c => ?_, fun i c => ?_, fun i c => ?_⟩
      · obtain ⟨i', ei⟩ := e i
        obtain ⟨j', ej⟩ := e j
        unfold PtHeap.Uses; rw [ei, ej]; exact ha.same i' j' c
      · obtain ⟨i', ei⟩ := e i
        rw [ei]; exact ha.ne i' c
      · obtain ⟨i', ei⟩ := e i
        unfold PtHeap.Uses; rw [ei]; exact ha.own i' c
    · have hp : ∀ c, σ'.Uses p c → σ.big.next ≤ c := fun c hc => hc.elim (fun e => (hn.x c e).1) fun e => (hn.y c e).1
      have ho : ∀ i c, i ≠ p → σ'.Uses i c → c < σ.big.next := by
        intro i c hi hc
        unfold PtHeap.Uses at hc
        rw [h.others i hi] at hc
        exact p256_uses_lt hσ hc
      refine ⟨fun i j c hi hj => ?_, fun i c => ?_, fun i c hi => ?_⟩
      · by_cases e1 : i = p <;> by_cases e2 : j = p
        · rw [e1, e2]
        · subst e1
          exact absurd (ho j c e2 hj) (Nat.not_lt.2 (hp c hi))
        · subst e2
          exact absurd (ho i c e1 hi) (Nat.not_lt.2 (hp c hj))
        · unfold PtHeap.Uses at hi hj
          rw [h.others i e1] at hi ⊢
          rw [h.others j e2] at hj ⊢
          exact ha.same i j c hi hj
      · by_cases e1 : i = p
        · rw [e1]; exact hn.ne c
        · rw [h.others i e1]; exact ha.ne i c
      · by_cases e1 : i = p
        · subst e1
          have h2 : 2 ≤ c := hσ.two.trans (hp c hi)
          exact ⟨fun e => absurd (e ▸ h2) (by decide), fun e => absurd (e ▸ h2) (by decide)⟩
        · unfold PtHeap.Uses at hi
          rw [h.others i e1] at hi
          exact ha.own i c hi

theorem p256_have_step {σ σ' : PtHeap} {p : Nat} {v : P256} {o : Option Nat} {α : Nat → Secp} (hσ : σ.Ok) (h : PtStep σ σ' p v o) (hα : σ.Have α) {Q : Secp}
    (hv : Rep v Q) : σ'.Have (letPt α p Q) := by
  intro i
  unfold letPt
  by_cases hi : i = p
  · rw [if_pos hi, hi, h.value]; exact hv
  · rw [if_neg hi, h.val_other hσ hi]; exact hα i

theorem p256_have_quiet {σ σ' : PtHeap} {α : Nat → Secp} (hσ : σ.Ok) (h : Quiet σ σ') (hα : σ.Have α) : σ'.Have α := by
  intro i
  rw [h.val hσ]; exact hα i

theorem p256_double_rep {E : Ext} (hE : E.Ok) {a : P256} {Q : Secp} (hQ : Rep a Q) : Rep (P256.double E a) (2 • Q) := by
  rw [P256.double]
  by_cases h1 : Q = 0
  · rw [if_pos ((hQ.isZero_iff).2 h1), h1, smul_zero]; exact rep_infinity
  · rw [if_neg (fun hz => h1 ((hQ.isZero_iff).1 hz)), two_nsmul]
    have fa := hQ.fin h1
    exact hE.double_fin _ _ _ (by rw [← fa.eq_mk]; exact fa)

theorem stringO_run (σ : PtHeap) (q : Option Cell) : stringO q σ = .ok (decimal (q.map σ.big.mem), σ) := by
  cases q <;> rfl

theorem p256_isOnCurve_finite {σ : PtHeap} {p : Nat} {Q : Secp} (h : Rep (σ.val p) Q) {x y : Cell} (e : σ.pt p = (some x, some y)) :
    ((σ.big.mem x * σ.big.mem x * σ.big.mem x + 7) % secpP = (σ.big.mem y * σ.big.mem y) % secpP) ↔ Q ≠ 0 := by
  have hv : σ.val p = ⟨some (σ.big.mem x), some (σ.big.mem y)⟩ := by simp [PtHeap.val, e]
  rw [hv] at h
  constructor
  · rintro h1 rfl
    have hz := (h.isZero_iff).2 rfl
    have : σ.big.mem x = 0 ∧ σ.big.mem y = 0 := by simpa [P256.isZero] using hz
    rw [this.1, this.2] at h1
    revert h1; decide
  · intro hQ
    obtain ⟨x', y', e', _, _, _, _, hp⟩ := h.fin hQ
    cases e'
    have he := hp.eqn
    have : (((σ.big.mem x * σ.big.mem x * σ.big.mem x + 7 : Int) : SF)) = ((σ.big.mem y * σ.big.mem y : Int) : SF) := by
      push_cast
      linear_combination -he
    exact (sf_eq_iff _ _).1 this

/-- The point a string is mapped to. -/
noncomputable def hashPt (E : Ext) (m : List UInt8) : Option Secp :=
  match mapToGroup E m with
  | .ok (some v) => open Classical in if h : ∃ Q, RepFin v Q then some h.choose else none
  | _ => none

theorem hashPt_spec {E : Ext} (hE : E.Ok) (m : List UInt8) : (hashPt E m = none ∧ mapToGroup E m = .ok none) ∨
    ∃ Q v, hashPt E m = some Q ∧ mapToGroup E m = .ok (some v) ∧ RepFin v Q := by
  obtain ⟨o, ho⟩ := mapToGroup_ok hE m
  unfold hashPt
  rw [ho]
  cases o with
  | none => exact .inl ⟨rfl, rfl⟩
  | some v =>
    have h := mapToGroup_isPoint hE ho
    exact .inr ⟨h.choose, v, dif_pos h, rfl, h.choose_spec⟩

theorem p256_exec_step {E : Ext} (hE : E.Ok) (s : P256Stmt) {σ : PtHeap} {α : Nat → Secp} (hσ : σ.Ok) (hα : σ.Have α)
    (hc : ∀ p, s = .isOnCurve p → α p ≠ 0) : ∃ o σ', s.exec E σ = .ok (o, σ') ∧ PtEffect σ σ' s.target (s.source (hashPt E) α) ∧
      σ'.Have (s.mean (hashPt E) α) ∧ s.Answers α o := by
  cases s with
  | add p a b =>
    obtain ⟨σ', h1, h2⟩ := addO_run hσ p a b
    simp only [(hα a).isZero_iff, (hα b).isZero_iff] at h2
    refine ⟨_, σ', (PtM.bind_of h1).trans rfl, .inr ⟨_, _, rfl, h2⟩, p256_have_step hσ h2 hα ?_, rfl⟩
    have := add_rep (hα a) (hα b)
    convert this using 1
    by_cases h1 : α a = 0
    · simp [h1]
    · by_cases h2 : α b = 0
      · simp [h1, h2]
      · by_cases h3 : α a = α b
        · have h1' := h1
          rw [h3] at h1'
          simp [h1', h3]
        · simp [h1, h2, h3]
  | multiply p a b =>
    obtain ⟨σ', h1, h2⟩ := multiplyO_run hσ E p a b
    simp only [(hα a).isZero_iff, (hα b).isZero_iff] at h2
    exact ⟨_, σ', (PtM.bind_of h1).trans rfl, .inr ⟨_, _, rfl, h2⟩, p256_have_step hσ h2 hα (multiply_rep hE (hα a) (hα b)), rfl⟩
  | double p a =>
    obtain ⟨σ', h1, h2⟩ := doubleO_run hσ E p a
    exact ⟨_, σ', (PtM.bind_of h1).trans rfl, .inr ⟨_, _, rfl, h2⟩, p256_have_step hσ h2 hα (p256_double_rep hE (hα a)), rfl⟩
  | scalarMult p a n =>
    obtain ⟨q, σ1, k1, k2, k3, k4⟩ := newInt_run σ (some n)
    cases q with
    | none => cases k3
    | some c =>
      have k3 : σ1.big.mem c = n := by simpa using k3
      obtain ⟨σ', h1, h2⟩ := scalarMultO_run (k2.ok hσ) E p a (n := c) (k4 c rfl).2
      refine ⟨_, σ', (PtM.bind_of k1).trans ((PtM.bind_of h1).trans rfl), .inr ⟨_, _, rfl, h2.after k2⟩, ?_, rfl⟩
      refine p256_have_step hσ (h2.after k2) hα ?_
      rw [k3, k2.val hσ]
      exact scalarMult_rep hE (hα a) n
  | scalarBaseMult p n =>
    obtain ⟨q, σ1, k1, k2, k3, k4⟩ := newInt_run σ (some n)
    cases q with
    | none => cases k3
    | some c =>
      have k3 : σ1.big.mem c = n := by simpa using k3
      obtain ⟨σ', h1, h2⟩ := scalarBaseMultO_run (k2.ok hσ) E p (n := c) (k4 c rfl).2
      refine ⟨_, σ', (PtM.bind_of k1).trans ((PtM.bind_of h1).trans rfl), .inr ⟨_, _, rfl, h2.after k2⟩, ?_, rfl⟩
      refine p256_have_step hσ (h2.after k2) hα ?_
      rw [k3]
      exact scalarBaseMult_rep hE n
  | neg p a =>
    obtain ⟨σ', h1, h2⟩ := negO_run hσ E p a
    exact ⟨_, σ', (PtM.bind_of h1).trans rfl, .inr ⟨_, _, rfl, h2⟩, p256_have_step hσ h2 hα (C16_neg_other hE (hα p) (hα a)), rfl⟩
  | setInfinity p =>
    obtain ⟨σ', h1, h2⟩ := setInfinity_run (σ := σ) p
    exact ⟨_, σ', (PtM.bind_of h1).trans rfl, .inr ⟨_, _, rfl, h2⟩, p256_have_step hσ h2 hα rep_infinity, rfl⟩
  | mapToGroup p m =>
    rcases hashPt_spec hE m with ⟨e1, e2⟩ | ⟨Q, v, e1, e2, e3⟩
    · obtain ⟨σ', h1, h2⟩ := mapToGroupO_run hσ E p e2
      refine ⟨_, σ', (PtM.bind_of h1).trans rfl, .inr ⟨_, σ.val p, rfl, (?_ : PtStep σ σ' p _ (if (hashPt E m).isSome then _ else _))⟩,
        p256_have_step hσ h2 hα ?_, rfl⟩
      · rw [e1]; exact h2
      · rw [e1]; exact hα p
    · obtain ⟨σ', h1, h2⟩ := mapToGroupO_run hσ E p e2
      refine ⟨_, σ', (PtM.bind_of h1).trans rfl, .inr ⟨_, v, rfl, (?_ : PtStep σ σ' p _ (if (hashPt E m).isSome then _ else _))⟩,
        p256_have_step hσ h2 hα ?_, rfl⟩
      · rw [e1]; exact h2
      · rw [e1]; exact Or.inr e3
  | isZero p =>
    obtain ⟨σ', h1, h2⟩ := isZeroO_run hσ p
    refine ⟨_, σ', (PtM.bind_of h1).trans rfl, .inl ⟨rfl, h2⟩, p256_have_quiet hσ h2 hα, ?_⟩
    show P256Out.bool _ = .bool _
    congr 1
    rw [Bool.eq_iff_iff, (hα p).isZero_iff, decide_eq_true_iff]
  | isOnCurve p =>
    have h0 := hc p rfl
    obtain ⟨x, y, e, _, _⟩ := fields_of_finite (σ := σ) (p := p) fun h => h0 (((hα p).isZero_iff).1 h)
    obtain ⟨σ', h1, h2⟩ := isOnCurveO_run hσ (hσ.x p x (by rw [e])) (hσ.y p y (by rw [e]))
    refine ⟨.bool (decide ((σ.big.mem x * σ.big.mem x * σ.big.mem x + 7) % secpP = (σ.big.mem y * σ.big.mem y) % secpP)), σ', ?_, .inl ⟨rfl, h2⟩,
      p256_have_quiet hσ h2 hα, ?_⟩
    · refine (PtM.bind_of (PtM.fields_run p σ)).trans ?_
      rw [e]
      exact (PtM.bind_of h1).trans rfl
    · show P256Out.bool _ = .bool _
      congr 1
      rw [decide_eq_decide]
      exact p256_isOnCurve_finite (hα p) e
  | string p =>
    refine ⟨.bytes (σ.val p).string, σ, ?_, .inl ⟨rfl, .rfl⟩, hα, ?_⟩
    · refine (PtM.bind_of (PtM.fields_run p σ)).trans ?_
      refine (PtM.bind_of (stringO_run σ _)).trans ?_
      refine (PtM.bind_of (stringO_run σ _)).trans ?_
      rfl
    · intro h0
      obtain ⟨x, y, e, h1, h2, h3, h4, h5⟩ := (hα p).fin h0
      refine ⟨x, y, h1, h2, h3, h4, h5, ?_⟩
      rw [C86_p256, e]
      rfl

/-- `IsOnCurve` with a nil coordinate. -/
theorem isOnCurveO_nil {q : Option Cell × Option Cell} (h : q.1 = none ∨ q.2 = none) (σ : PtHeap) : isOnCurveO q σ = .panic := by
  have dead : ∀ {α β : Type} (m : PtM α) (k : α → Cell → PtM β), (m >>= fun a => deref none >>= k a) = fun _ => .panic := by
    intro α β m k
    funext τ
    show Res.bind (m τ) _ = _
    cases m τ <;> rfl
  obtain ⟨_ | x, _ | y⟩ := q
  · rfl
  · unfold isOnCurveO
    dsimp only
    simp only [dead]
    rfl
  · rfl
  · rcases h with h | h <;> cases h

/-- `IsOnCurve` of infinity, if it returns. -/
theorem p256_exec_isOnCurve_zero {E : Ext} {p : Nat} {σ σ' : PtHeap} {α : Nat → Secp} {o : P256Out} (hσ : σ.Ok) (hα : σ.Have α) (h0 : α p = 0)
    (h : P256Stmt.exec E (.isOnCurve p) σ = .ok (o, σ')) : Quiet σ σ' ∧ o = .bool false := by
  have h := (PtM.bind_of (PtM.fields_run p σ)).symm.trans h
  rcases e : σ.pt p with ⟨_ | x, _ | y⟩
  · rw [e] at h; cases h
  · rw [e] at h
    have := (isOnCurveO_nil (.inl rfl) σ : isOnCurveO (none, some y) σ = .panic)
    have h : Res.panic = Res.ok (o, σ') := (congrArg (fun r => Res.bind r fun r => (pure (P256Out.bool r.1) : PtM P256Out) r.2) this).symm.trans h
    cases h
  · rw [e] at h; cases h
  · rw [e] at h
    obtain ⟨σ1, h1, h2⟩ := isOnCurveO_run hσ (hσ.x p x (by rw [e])) (hσ.y p y (by rw [e]))
    have h := (PtM.bind_of h1).symm.trans h
    have hf := p256_isOnCurve_finite (hα p) e
    rw [h0] at hf
    have : ¬ (σ.big.mem x * σ.big.mem x * σ.big.mem x + 7) % secpP = (σ.big.mem y * σ.big.mem y) % secpP := fun hh => hf.1 hh rfl
    cases h
    exact ⟨h2, by simp [this]⟩

theorem p256_exec_ok {E : Ext} (hE : E.Ok) (s : P256Stmt) {σ σ' : PtHeap} {α : Nat → Secp} {o : P256Out} (hσ : σ.Ok) (hα : σ.Have α)
    (h : s.exec E σ = .ok (o, σ')) : PtEffect σ σ' s.target (s.source (hashPt E) α) ∧
      σ'.Have (s.mean (hashPt E) α) ∧ s.Answers α o := by
  by_cases hc : ∀ p, s = .isOnCurve p → α p ≠ 0
  · obtain ⟨o', σ'', e, r⟩ := p256_exec_step hE s hσ hα hc
    rw [h] at e
    cases e
    exact r
  · push Not at hc
    obtain ⟨p, rfl, h0⟩ := hc
    obtain ⟨q, rfl⟩ := p256_exec_isOnCurve_zero hσ hα h0 h
    exact ⟨.inl ⟨rfl, q⟩, p256_have_quiet hσ q hα, by simp [P256Stmt.Answers, h0]⟩

/-! ### Programs -/

theorem p256Run_ok {E : Ext} (hE : E.Ok) : ∀ (prog : List P256Stmt) {σ σ' : PtHeap} {α : Nat → Secp} {os : List P256Out}, σ.Ok → σ.Have α →
    p256Run E prog σ = .ok (os, σ') → Grown σ.big σ'.big ∧ σ'.Ok ∧ (σ.Apart → σ'.Apart) ∧ σ'.Have (p256Mean (hashPt E) prog α) ∧
      p256Answers (hashPt E) prog α os
  | [], σ, σ', α, os, hσ, hα, h => by
    cases h
    exact ⟨.rfl, hσ, id, hα, rfl⟩
  | s :: prog, σ, σ', α, os, hσ, hα, h => by
    cases h1 : s.exec E σ with
    | panic =>
      have h : (s.exec E σ >>= fun r => _) = _ := h
      rw [h1] at h
      cases h
    | ok r =>
      obtain ⟨o, σ1⟩ := r
      have h := (PtM.bind_of h1).symm.trans h
      obtain ⟨k1, k2, k3⟩ := p256_exec_ok hE s hσ hα h1
      cases h2 : p256Run E prog σ1 with
      | panic =>
        have h : (p256Run E prog σ1 >>= fun r => _) = _ := h
        rw [h2] at h
        cases h
      | ok r =>
        obtain ⟨os', σ2⟩ := r
        have h := (PtM.bind_of h2).symm.trans h
        cases h
        obtain ⟨r1, r2, r3, r4, r5⟩ := p256Run_ok hE prog (k1.ok hσ) k2 h2
        exact ⟨k1.big.trans r1, r2, fun ha => r3 (k1.apart hσ ha), r4, k3, r5⟩

theorem p256Run_runs {E : Ext} (hE : E.Ok) : ∀ (prog : List P256Stmt) {σ : PtHeap} {α : Nat → Secp}, σ.Ok → σ.Have α →
    p256Careful (hashPt E) prog α → ∃ os σ', p256Run E prog σ = .ok (os, σ')
  | [], σ, _, _, _, _ => ⟨[], σ, rfl⟩
  | s :: prog, σ, α, hσ, hα, hc => by
    obtain ⟨o, σ1, h1, k1, k2, _⟩ := p256_exec_step hE s hσ hα hc.1
    obtain ⟨os, σ2, h2⟩ := p256Run_runs hE prog (k1.ok hσ) k2 hc.2
    exact ⟨o :: os, σ2, (PtM.bind_of h1).trans ((PtM.bind_of h2).trans rfl)⟩

end Verif

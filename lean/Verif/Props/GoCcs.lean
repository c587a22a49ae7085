import Verif.Lemmas.GoCcs
import Verif.Lemmas.GoVerify
import Verif.Props.CcsRace

/-!
# ccs08: incomplete proofs (C93) and JSON (C94)
-/

namespace Verif

/-! ### `VerifySet` -/

/-- C93: `VerifySet` panics exactly when an argument is nil or something it needs is missing. -/
theorem C93_set (q : Option GoProofSet) (p : Option GoParamsSet) :
    goVerifySet q p ≠ .panic ↔ ∃ q' p', q = some q' ∧ p = some p' ∧ q'.Usable p' := by
  rw [Res.ne_panic]
  cases q with
  | none => simp [goVerifySet]
  | some q =>
    cases p with
    | none =>
      refine ⟨fun ⟨r, h⟩ => ?_, fun ⟨_, _, _, h, _⟩ => by cases h⟩
      simp only [goVerifySet, Res.bind_eq_ok, Res.ofOption_eq_ok] at h
      obtain ⟨_, _, _, _, _, h, _⟩ := h
      cases h
    | some p =>
      rw [goVerifySet_ok]
      exact ⟨fun h => ⟨q, p, rfl, rfl, h⟩, fun ⟨_, _, h1, h2, h⟩ => by cases h1; cases h2; exact h⟩

/-- C93: otherwise its verdict is that of `verifySet` for the values it reads; `D` and `a` get new values, nothing else. -/
theorem C93_set_value {q : GoProofSet} {p : GoParamsSet} {v : ProofSet} {w : ParamsSet} (h : q.Shows p v w) :
    goVerifySet (some q) (some p) =
      (verifySet v w >>= fun r => .ok (r.1, { q with D := some (some r.2.D), a := some (some r.2.a) })) :=
  goVerifySet_shows h

/-- A proof whose `C` has no value and is multiplied by zero. -/
example (q : ProofSet) (p : ParamsSet) (hc : q.c = 0) :=
  C93_set_value (q := { q.toGo with C := some none }) (p := p.toGo) ⟨.inr ⟨rfl, hc⟩, .inl rfl, rfl, rfl, rfl, rfl, rfl, rfl, rfl, rfl⟩

private theorem multOf {a : GoG2} {k : Option Int} (h : CanMult a k) : ∃ A n, k = some n ∧ MultOf a A n := by
  obtain ⟨h1, n, rfl, h2⟩ := h
  cases a with
  | none => exact absurd rfl h1
  | some a =>
    cases a with
    | none =>
      by_cases hn : n = 0
      · exact ⟨.gen, n, rfl, .inr ⟨rfl, hn⟩⟩
      · obtain ⟨v, hv⟩ := h2 hn
        cases hv
    | some a => exact ⟨a, n, rfl, .inl rfl⟩

private theorem MultOf.can {a : GoG2} {A : TwistPoint} {n : Int} (h : MultOf a A n) : CanMult a (some n) := by
  rcases h with rfl | ⟨rfl, rfl⟩
  · exact ⟨by simp, n, rfl, fun _ => ⟨A, rfl⟩⟩
  · exact ⟨by simp, 0, rfl, fun h => absurd rfl h⟩

/-- C93: there are such values exactly when everything needed is there. -/
theorem C93_set_usable (q : GoProofSet) (p : GoParamsSet) : q.Usable p ↔ ∃ v w, q.Shows p v w ∧ w.kp.pubk ≠ none := by
  constructor
  · rintro ⟨h1, h2, ⟨D, h3⟩, ⟨V, h4⟩, ⟨a, h5⟩, ⟨pk, h6⟩, h7, h8⟩
    obtain ⟨C, c, hc, h1⟩ := multOf h1
    obtain ⟨H, zr, hz, h2⟩ := multOf h2
    obtain ⟨zsig, h7⟩ := Option.ne_none_iff_exists'.1 h7
    obtain ⟨zv, h8⟩ := Option.ne_none_iff_exists'.1 h8
    exact ⟨⟨V, D, C, a, 0, 0, zsig, zv, c, 0, zr⟩, ⟨[], H, ⟨some pk, none, false⟩⟩, ⟨h1, h2, h3, h4, h5, h6, hc, hz, h7, h8⟩, by simp⟩
  · rintro ⟨v, w, ⟨h1, h2, h3, h4, h5, h6, h7, h8, h9, h10⟩, hk⟩
    obtain ⟨pk, hk⟩ := Option.ne_none_iff_exists'.1 hk
    exact ⟨h7 ▸ h1.can, h8 ▸ h2.can, ⟨_, h3⟩, ⟨_, h4⟩, ⟨_, h5⟩, ⟨pk, by rw [h6, hk]; rfl⟩, by simp [h9], by simp [h10]⟩

/-- C93: the fields `s`, `t` and `m` are not read. -/
theorem C93_set_ignored (q : GoProofSet) (p : Option GoParamsSet) (s t m : Option Int) :
    (goVerifySet (some { q with s := s, t := t, m := m }) p >>= fun r => .ok r.1) = (goVerifySet (some q) p >>= fun r => .ok r.1) := by
  cases p with
  | none =>
    have h : ∀ q, goVerifySet (some q) none = .panic := fun q => by
      by_contra hc
      obtain ⟨_, _, _, h, _⟩ := (C93_set _ _).1 hc
      cases h
    rw [h, h]
  | some p =>
    by_cases hu : q.Usable p
    · obtain ⟨v, w, hs, -⟩ := (C93_set_usable q p).1 hu
      have hs' : ({ q with s := s, t := t, m := m } : GoProofSet).Shows p v w :=
        ⟨hs.C, hs.H, hs.D, hs.V, hs.a, hs.Pubk, hs.c, hs.zr, hs.zsig, hs.zv⟩
      rw [C93_set_value hs, C93_set_value hs']
      cases verifySet v w <;> rfl
    · have h1 : goVerifySet (some q) (some p) = .panic := by
        by_contra hc
        obtain ⟨_, _, e1, e2, h⟩ := (C93_set _ _).1 hc
        cases e1; cases e2
        exact hu h
      have h2 : goVerifySet (some { q with s := s, t := t, m := m }) (some p) = .panic := by
        by_contra hc
        obtain ⟨_, _, e1, e2, h⟩ := (C93_set _ _).1 hc
        cases e1; cases e2
        exact hu ⟨h.C, h.H, h.D, h.V, h.a, h.Pubk, h.zsig, h.zv⟩
      rw [h1, h2]

/-- C93: a complete proof. -/
theorem C93_set_complete (q : ProofSet) (p : ParamsSet) :
    goVerifySet (some q.toGo) (some p.toGo) = (verifySet q p >>= fun r => .ok (r.1, r.2.toGo)) := by
  have h : q.toGo.Shows p.toGo q p := ⟨.inl rfl, .inl rfl, rfl, rfl, rfl, rfl, rfl, rfl, rfl, rfl⟩
  rw [C93_set_value h]
  cases hv : verifySet q p with
  | panic => rfl
  | ok r =>
    unfold verifySet at hv
    simp only [Res.bind_eq_ok, Res.ok.injEq] at hv
    obtain ⟨_, -, rfl⟩ := hv
    rfl

/-- C93: the proof which `ProveSet` returns together with an error makes `VerifySet` panic; without an error it is complete. -/
theorem C93_prove (sha : List UInt8 → List UInt8) (x r : Int) (p : ParamsSet) (m v s t : Int) {q : GoProofSet} {err : Bool}
    (h : goProveSetOut sha x r p m v s t = .ok (q, err)) :
    (err = true → proveSet sha x r p m v s t = .ok none ∧ ∀ p', goVerifySet (some q) p' = .panic) ∧
    (err = false → ∃ q', proveSet sha x r p m v s t = .ok (some q') ∧ q = q'.toGo) := by
  unfold goProveSetOut at h
  simp only [Res.bind_eq_ok] at h
  obtain ⟨o, h1, h2⟩ := h
  cases o with
  | none =>
    cases h2
    refine ⟨fun _ => ⟨h1, fun p' => ?_⟩, fun h => by cases h⟩
    by_contra hc
    obtain ⟨_, _, e1, _, h⟩ := (C93_set _ _).1 hc
    cases e1
    exact h.C.1 rfl
  | some o =>
    cases h2
    exact ⟨nofun, fun _ => ⟨o, h1, rfl⟩⟩

/-- 5 is in the set, and its proof is complete; 2 is not, and what is returned with the error makes `VerifySet` panic. -/
example : ∃ p q e, setupSet [1, 5, 9] (some 1234) = .ok p ∧
    goProveSetOut (fun _ => List.replicate 32 77) 5 3 p 11 13 17 19 = .ok (q, false) ∧
    (∃ q', proveSet (fun _ => List.replicate 32 77) 5 3 p 11 13 17 19 = .ok (some q') ∧ q = q'.toGo) ∧
    goProveSetOut (fun _ => List.replicate 32 77) 2 3 p 11 13 17 19 = .ok (e, true) ∧ ∀ p', goVerifySet (some e) p' = .panic := by
  obtain ⟨p, q, q', Q, h1, h2, -⟩ := setExample_race
  have h3 : goProveSetOut (fun _ => List.replicate 32 77) 5 3 p 11 13 17 19 = .ok (q.toGo, false) := by
    rw [goProveSetOut, h2]
    rfl
  have h4 : proveSet (fun _ => List.replicate 32 77) 2 3 p 11 13 17 19 = .ok none := by
    obtain ⟨p', e1, e2⟩ := C51_outside (fun _ => List.replicate 32 77) [1, 5, 9] 2 3 1234 11 13 17 19 (by decide +kernel) (by simp)
    cases h1.symm.trans e1
    exact e2
  refine ⟨p, q.toGo, _, h1, h3, (C93_prove _ _ _ _ _ _ _ _ h3).2 rfl, by rw [goProveSetOut, h4]; rfl, ?_⟩
  exact ((C93_prove _ 2 3 p 11 13 17 19 (by rw [goProveSetOut, h4]; rfl)).1 rfl).2

/-! ### `VerifyUL` and `Verify` -/

/-- C93: `VerifyUL` panics exactly when an argument is nil or something it needs is missing. -/
theorem C93_ul (q : Option GoProofUL) (p : Option GoParamsUL) :
    goVerifyUL q p ≠ .panic ↔ ∃ q' p', q = some q' ∧ p = some p' ∧ q'.Usable p' := by
  rw [Res.ne_panic]
  cases q with
  | none => simp [goVerifyUL]
  | some q =>
    cases p with
    | none =>
      refine ⟨fun ⟨r, h⟩ => ?_, fun ⟨_, _, _, h, _⟩ => by cases h⟩
      simp only [goVerifyUL, Res.bind_eq_ok, Res.ofOption_eq_ok] at h
      obtain ⟨_, _, _, _, _, h, _⟩ := h
      cases h
    | some p =>
      rw [goVerifyUL_ok]
      exact ⟨fun h => ⟨q, p, rfl, rfl, h⟩, fun ⟨_, _, h1, h2, h⟩ => by cases h1; cases h2; exact h⟩

/-- C93: otherwise its verdict is that of `verifyUL` for the values it reads; `D` and the first `l` entries of `a` get new values. -/
theorem C93_ul_value {q : GoProofUL} {p : GoParamsUL} {v : ProofUL} {w : ParamsUL} (h : q.Shows p v w) :
    goVerifyUL (some q) (some p) = (verifyUL v w >>= fun r => .ok (r.1, { q with
      D := some (some r.2.D)
      a := (r.2.a.take p.l.toNat).map (fun x => some (some x)) ++ q.a.drop p.l.toNat })) :=
  goVerifyUL_shows h

/-- A proof whose `C` has no value and is multiplied by zero. -/
example (q : ProofUL) (p : ParamsUL) (hc : q.c = 0) :=
  C93_ul_value (q := { q.toGo with C := some none }) (p := p.toGo) ⟨.inr ⟨rfl, hc⟩, .inl rfl, rfl, fun i _ => by simp [ProofUL.toGo],
    fun i _ => by simp [ProofUL.toGo], rfl, rfl, rfl, fun i _ => by simp [ProofUL.toGo], fun i _ => by simp [ProofUL.toGo], rfl, rfl⟩

/-- C93: lists which are shorter than `l`. -/
theorem C93_ul_short {q : GoProofUL} {p : GoParamsUL}
    (h : (q.V.length : Int) < p.l ∨ (q.a.length : Int) < p.l ∨ (q.zsig.length : Int) < p.l ∨ (q.zv.length : Int) < p.l) :
    goVerifyUL (some q) (some p) = .panic := by
  by_contra hc
  obtain ⟨_, _, e1, e2, hu⟩ := (C93_ul _ _).1 hc
  cases e1; cases e2
  rcases h with h | h | h | h
  · obtain ⟨_, h1, _⟩ := (hu.entries _ h).V
    simp at h1
  · obtain ⟨_, h1, _⟩ := (hu.entries _ h).a
    simp at h1
  · obtain ⟨_, h1⟩ := (hu.entries _ h).zsig
    simp at h1
  · obtain ⟨_, h1⟩ := (hu.entries _ h).zv
    simp at h1

/-- One digit of three is missing in `zv`. -/
example (q : GoProofUL) (p : GoParamsUL) (h : q.zv = [some 1, some 2]) (hl : p.l = 3) : goVerifyUL (some q) (some p) = .panic :=
  C93_ul_short (.inr (.inr (.inr (by rw [h, hl]; decide))))

/-- C93: a complete proof, for a proof with any number of entries. -/
theorem C93_ul_complete (q : ProofUL) (p : ParamsUL) :
    (goVerifyUL (some q.toGo) (some p.toGo) >>= fun r => .ok r.1) = (verifyUL q p >>= fun r => .ok r.1) := by
  have h : q.toGo.Shows p.toGo q p := ⟨.inl rfl, .inl rfl, rfl, fun i _ => by simp [ProofUL.toGo], fun i _ => by simp [ProofUL.toGo], rfl,
    rfl, rfl, fun i _ => by simp [ProofUL.toGo], fun i _ => by simp [ProofUL.toGo], rfl, rfl⟩
  rw [C93_ul_value h]
  cases verifyUL q p <;> rfl

/-- C93: `Verify` panics exactly when the receiver or its parameters are nil, or something is missing in one of the two halves, also
if the other half is rejected. -/
theorem C93_range (z : Option GoCcs) :
    goCcsVerify z ≠ .panic ↔ ∃ z' P p, z = some z' ∧ z'.p = some P ∧ P.p = some p ∧ z'.p1.Usable p ∧ z'.p2.Usable p := by
  rw [Res.ne_panic]
  constructor
  · rintro ⟨r, h⟩
    simp only [goCcsVerify, Res.bind_eq_ok, Res.ofOption_eq_ok] at h
    obtain ⟨z', rfl, P, h1, r1, h2, r2, h3, -⟩ := h
    obtain ⟨_, p, e1, e2, h4⟩ := (C93_ul _ _).1 (Res.ne_panic.2 ⟨_, h2⟩)
    obtain ⟨_, p', e3, e4, h5⟩ := (C93_ul _ _).1 (Res.ne_panic.2 ⟨_, h3⟩)
    cases e1; cases e3
    rw [e2] at e4
    cases e4
    exact ⟨z', P, p, rfl, h1, e2, h4, h5⟩
  · rintro ⟨z', P, p, rfl, h1, h2, h3, h4⟩
    obtain ⟨r1, h5⟩ := Res.ne_panic.1 ((C93_ul (some z'.p1) (some p)).2 ⟨_, _, rfl, rfl, h3⟩)
    obtain ⟨r2, h6⟩ := Res.ne_panic.1 ((C93_ul (some z'.p2) (some p)).2 ⟨_, _, rfl, rfl, h4⟩)
    simp only [goCcsVerify, Res.ofOption_some, Res.ok_bind, h1, h2, h5, h6]
    exact ⟨_, rfl⟩

/-- C93: its verdict is the conjunction. -/
theorem C93_range_value (z : GoCcs) (P : GoCcsParams) (h : z.p = some P) :
    (goCcsVerify (some z) >>= fun r => .ok r.1) = (goVerifyUL (some z.p1) P.p >>= fun a => goVerifyUL (some z.p2) P.p >>= fun b =>
      .ok (a.1 && b.1)) := by
  simp only [goCcsVerify, Res.ofOption_some, Res.ok_bind, h]
  cases goVerifyUL (some z.p1) P.p with
  | panic => rfl
  | ok a => cases goVerifyUL (some z.p2) P.p <;> rfl

/-- C93: `Verify` before `Setup`, after a `Setup` with an error, or before `Prove`. -/
theorem C93_too_early (z : GoCcs) (h : z.p = none ∨ z.p1 = .zero ∨ z.p2 = .zero) : goCcsVerify (some z) = .panic := by
  by_contra hc
  obtain ⟨_, P, p, e, h1, h2, h3, h4⟩ := (C93_range _).1 hc
  cases e
  rcases h with h | h | h
  · rw [h] at h1
    cases h1
  · rw [h] at h3
    exact h3.C.1 rfl
  · rw [h] at h4
    exact h4.C.1 rfl

example (z : GoCcs) : goCcsVerify (some { z with p2 := .zero }) = .panic := C93_too_early _ (.inr (.inr rfl))

/-- `new(ccs).Verify()`. -/
example : goCcsVerify (some .zero) = .panic := C93_too_early _ (.inl rfl)

/-- C93: the proofs and parameters of `Model/Ccs.lean`, a half whose `ProveUL` failed having no `C`. -/
theorem C93_range_complete (p : Option CcsParams) (q : CcsProof) (e1 e2 : GoProofUL) (h1 : e1.C = none) (h2 : e2.C = none) :
    (goCcsVerify (some (goCcs p q e1 e2)) >>= fun r => .ok r.1) = (ccsVerify q p >>= fun r => .ok r.1) := by
  have hbad : ∀ {e : GoProofUL} {p : Option GoParamsUL}, e.C = none → goVerifyUL (some e) p = .panic := by
    intro e p he
    by_contra hc
    obtain ⟨_, _, e1, _, h⟩ := (C93_ul _ _).1 hc
    cases e1
    exact h.C.1 he
  cases p with
  | none => rfl
  | some p =>
    rw [C93_range_value _ ⟨some p.p.toGo, p.a, p.b⟩ rfl]
    obtain ⟨q1, q2⟩ := q
    cases q1 with
    | none =>
      show (goVerifyUL (some e1) _ >>= _) = _
      rw [hbad h1]
      rfl
    | some q1 =>
      have k1 := C93_ul_complete q1 p.p
      show (goVerifyUL (some q1.toGo) (some p.p.toGo) >>= _) = _
      unfold ccsVerify
      simp only [Res.ofOption_some, Res.ok_bind]
      cases hv : goVerifyUL (some q1.toGo) (some p.p.toGo) with
      | panic =>
        rw [hv] at k1
        cases hw : verifyUL q1 p.p with
        | panic => rfl
        | ok r => rw [hw] at k1; cases k1
      | ok r =>
        rw [hv] at k1
        cases hw : verifyUL q1 p.p with
        | panic => rw [hw] at k1; cases k1
        | ok r' =>
          rw [hw] at k1
          have k1 : r.1 = r'.1 := Res.ok.inj k1
          cases q2 with
          | none =>
            show (goVerifyUL (some e2) _ >>= _) = _
            rw [hbad h2]
            rfl
          | some q2 =>
            have k2 := C93_ul_complete q2 p.p
            show (goVerifyUL (some q2.toGo) (some p.p.toGo) >>= _) = _
            simp only [Res.ofOption_some, Res.ok_bind]
            cases hx : goVerifyUL (some q2.toGo) (some p.p.toGo) with
            | panic =>
              rw [hx] at k2
              cases hy : verifyUL q2 p.p with
              | panic => rfl
              | ok r => rw [hy] at k2; cases k2
            | ok s =>
              rw [hx] at k2
              cases hy : verifyUL q2 p.p with
              | panic => rw [hy] at k2; cases k2
              | ok s' =>
                rw [hy] at k2
                have k2 : s.1 = s'.1 := Res.ok.inj k2
                simp only [Res.ok_bind, k1, k2]

/-- An honest proof is accepted; without its secrets `s`, `t` and `m` too; without `zv` `VerifySet` panics. -/
example : ∃ q p, (goVerifySet (some q) (some p) >>= fun r => .ok r.1) = .ok true ∧
    (goVerifySet (some { q with s := none, t := none, m := none }) (some p) >>= fun r => .ok r.1) = .ok true ∧
    goVerifySet (some { q with zv := none }) (some p) = .panic := by
  obtain ⟨p, q, q', Q, h1, h2, h3, -⟩ := setExample_race
  have h : (goVerifySet (some q.toGo) (some p.toGo) >>= fun r => .ok r.1) = .ok true := by
    rw [C93_set_complete, h3]
    rfl
  refine ⟨q.toGo, p.toGo, h, by rw [C93_set_ignored]; exact h, ?_⟩
  by_contra hc
  obtain ⟨_, _, e1, e2, hu⟩ := (C93_set _ _).1 hc
  cases e1; cases e2
  exact hu.zv rfl

/-- With `c = 0` the element `C` needs no value. -/
example (q : GoProofSet) (p : GoParamsSet) (h : q.Usable p) (hc : q.c = some 0) :
    goVerifySet (some { q with C := some none }) (some p) ≠ .panic :=
  (C93_set _ _).2 ⟨_, _, rfl, rfl, ⟨⟨by simp, 0, hc, fun h => absurd rfl h⟩, h.H, h.D, h.V, h.a, h.Pubk, h.zsig, h.zv⟩⟩

/-! ### JSON -/

private theorem encOpaque_some {T : Type} {x : Option (Option T)} (h : x ≠ none) : encOpaque x = .obj .nil := by
  cases x with
  | none => exact absurd rfl h
  | some x => rfl

/-- C94: the JSON text of a proof of set membership is the same for all proofs without nil pointers. -/
theorem C94_set_text {q : GoProofSet} (hV : q.V ≠ none) (hD : q.D ≠ none) (hC : q.C ≠ none) :
    marshalProofSet q = ascii "{\"V\":{},\"D\":{},\"C\":{}}" := by
  rw [marshalProofSet, encProofSet, encOpaque_some hV, encOpaque_some hD, encOpaque_some hC]
  decide

example (q : ProofSet) := C94_set_text (q := q.toGo) nofun nofun nofun

/-- C94: whatever is missing: a nil pointer is written as `null`, and an element as `{}`. -/
theorem C94_set_text_nil (q : GoProofSet) : marshalProofSet q =
    ascii "{\"V\":" ++ (if q.V = none then ascii "null" else ascii "{}") ++ ascii ",\"D\":" ++ (if q.D = none then ascii "null" else ascii "{}") ++
      ascii ",\"C\":" ++ (if q.C = none then ascii "null" else ascii "{}") ++ ascii "}" := by
  have h : ∀ {T : Type} (x : Option (Option T)), encOpaque x = if x = none then .null else .obj .nil := by
    intro T x
    cases x <;> rfl
  rw [marshalProofSet, encProofSet, h, h, h]
  by_cases h1 : q.V = none <;> by_cases h2 : q.D = none <;> by_cases h3 : q.C = none <;> simp only [h1, h2, h3, if_true, if_false] <;> decide

/-- C94: read into a zero value it gives elements without values and nothing else. -/
theorem C94_set_decoded {q : GoProofSet} (hV : q.V ≠ none) (hD : q.D ≠ none) (hC : q.C ≠ none) :
    unmarshalProofSet (marshalProofSet q) .zero = some { GoProofSet.zero with V := some none, D := some none, C := some none } := by
  rw [C94_set_text hV hD hC]
  decide +kernel

example (q : ProofSet) := C94_set_decoded (q := q.toGo) nofun nofun nofun

private theorem field_keep {T A B : Type} {get : T → A} {set : A → T → T} {dec : Json → A → Option A} {g : T → B}
    (h : ∀ a t, g (set a t) = g t) (v : Json) (t t' : T) (hf : fieldOf get set dec v t = some t') : g t' = g t := by
  obtain ⟨a, _, rfl⟩ := fieldOf_some hf
  exact h a t

private theorem decFields_keep {T B : Type} {fs : List (List UInt8 × (Json → T → Option T))} (g : T → B)
    (h : ∀ f ∈ fs, ∀ v t t', f.2 v t = some t' → g t' = g t) : ∀ (m : JsonMembers) (t t' : T), decFields fs m t = some t' → g t' = g t
  | .nil, t, t', hd => by cases hd; rfl
  | .cons k v m, t, t', hd => by
    rw [decFields] at hd
    split at hd
    · exact decFields_keep g h m t t' hd
    · rename_i f hf
      simp only [Option.bind_eq_bind, Option.bind_eq_some_iff] at hd
      obtain ⟨t1, h1, h2⟩ := hd
      rw [decFields_keep g h m t1 t' h2]
      unfold findField at hf
      split at hf
      · rename_i x hx
        cases hf
        exact h x (List.mem_of_find?_eq_some hx) v t t1 h1
      · rw [Option.map_eq_some_iff] at hf
        obtain ⟨x, hx, rfl⟩ := hf
        exact h x (List.mem_of_find?_eq_some hx) v t t1 h1

private theorem decStruct_keep {T B : Type} {fs : List (List UInt8 × (Json → T → Option T))} (g : T → B)
    (h : ∀ f ∈ fs, ∀ v t t', f.2 v t = some t' → g t' = g t) {j : Json} {t t' : T} (hd : decStruct fs j t = some t') : g t' = g t := by
  cases j with
  | null => cases hd; rfl
  | obj m => exact decFields_keep g h m t t' hd
  | bool => cases hd
  | num => cases hd
  | str => cases hd
  | arr => cases hd

/-- C94: whatever text is read, the numbers and `a` of the target keep their values. -/
theorem C94_set_keeps {text : List UInt8} {old q : GoProofSet} (h : unmarshalProofSet text old = some q) :
    q.a = old.a ∧ q.s = old.s ∧ q.t = old.t ∧ q.zsig = old.zsig ∧ q.zv = old.zv ∧ q.c = old.c ∧ q.m = old.m ∧ q.zr = old.zr := by
  simp only [unmarshalProofSet, Option.bind_eq_bind, Option.bind_eq_some_iff] at h
  obtain ⟨j, -, h⟩ := h
  have hk : ∀ {B : Type} (g : GoProofSet → B), (∀ a t, g { t with V := a } = g t) → (∀ a t, g { t with D := a } = g t) →
      (∀ a t, g { t with C := a } = g t) → g q = g old := by
    intro B g h1 h2 h3
    refine decStruct_keep g ?_ h
    simp only [List.forall_mem_cons, List.not_mem_nil, false_implies, implies_true, and_true]
    exact ⟨field_keep h1, field_keep h2, field_keep h3⟩
  exact ⟨hk (·.a) (fun _ _ => rfl) (fun _ _ => rfl) fun _ _ => rfl, hk (·.s) (fun _ _ => rfl) (fun _ _ => rfl) fun _ _ => rfl,
    hk (·.t) (fun _ _ => rfl) (fun _ _ => rfl) fun _ _ => rfl, hk (·.zsig) (fun _ _ => rfl) (fun _ _ => rfl) fun _ _ => rfl,
    hk (·.zv) (fun _ _ => rfl) (fun _ _ => rfl) fun _ _ => rfl, hk (·.c) (fun _ _ => rfl) (fun _ _ => rfl) fun _ _ => rfl,
    hk (·.m) (fun _ _ => rfl) (fun _ _ => rfl) fun _ _ => rfl, hk (·.zr) (fun _ _ => rfl) (fun _ _ => rfl) fun _ _ => rfl⟩

/-- The numbers in this text are ignored. -/
example (old : ProofSet) : ∀ q, unmarshalProofSet (ascii "{\"V\":{},\"zr\":7,\"C\":5}") old.toGo = some q → q.zr = some old.zr :=
  fun _ h => (C94_set_keeps h).2.2.2.2.2.2.2

/-- C94: so a proof decoded from any text into a zero value makes `VerifySet` panic. -/
theorem C94_set_panics {text : List UInt8} {q : GoProofSet} (h : unmarshalProofSet text .zero = some q) (p : Option GoParamsSet) :
    goVerifySet (some q) p = .panic := by
  obtain ⟨-, -, -, -, -, hc, -, -⟩ := C94_set_keeps h
  by_contra hne
  obtain ⟨_, _, e, _, hu⟩ := (C93_set _ _).1 hne
  cases e
  obtain ⟨-, n, hn, -⟩ := hu.C
  rw [hc] at hn
  cases hn

example (q : ProofSet) := C94_set_panics (C94_set_decoded (q := q.toGo) nofun nofun nofun) none

/-- C94: and read into a variable which holds a proof it leaves that proof: the receiver verifies the old proof. -/
theorem C94_set_stale {q old : GoProofSet} (hV : q.V ≠ none) (hD : q.D ≠ none) (hC : q.C ≠ none) (oV : old.V ≠ none)
    (oD : old.D ≠ none) (oC : old.C ≠ none) : unmarshalProofSet (marshalProofSet q) old = some old := by
  rw [C94_set_text hV hD hC]
  have hp : parseJson (ascii "{\"V\":{},\"D\":{},\"C\":{}}") = some (.obj (encObj [(ascii "V", .obj .nil), (ascii "D", .obj .nil),
      (ascii "C", .obj .nil)])) := by
    have h := parseJson_print (j := encProofSet { GoProofSet.zero with V := some none, D := some none, C := some none }) (by
      refine encObj_wf ?_
      simp only [List.forall_mem_cons, List.not_mem_nil, false_implies, implies_true, and_true]
      exact ⟨⟨by decide, trivial⟩, ⟨by decide, trivial⟩, by decide, trivial⟩)
    rw [show ascii "{\"V\":{},\"D\":{},\"C\":{}}" =
      (encProofSet { GoProofSet.zero with V := some none, D := some none, C := some none }).print by decide]
    exact h
  have hk : ∀ {T : Type} {x : Option (Option T)}, x ≠ none → decOpaque (.obj .nil) x = some x := by
    intro T x hx
    cases x with
    | none => exact absurd rfl hx
    | some x => rfl
  rw [unmarshalProofSet, hp]
  show decFields _ _ old = _
  simp only [encObj]
  iterate 3
    rw [decFields_cons rfl]
    simp only [fieldOf, hk oV, hk oD, hk oC, Option.bind_eq_bind, Option.bind_some]
  rfl

/-- Decoding the proof `q` into the proof `old`. -/
example (q old : ProofSet) : unmarshalProofSet (marshalProofSet q.toGo) old.toGo = some old.toGo :=
  C94_set_stale nofun nofun nofun nofun nofun nofun

/-- C94: the text of a proof for [0, u^l) depends on the number of its elements `V` only. -/
theorem C94_ul_text {q q' : GoProofUL} (hl : q.V.length = q'.V.length) (hV : none ∉ q.V) (hD : q.D ≠ none) (hC : q.C ≠ none)
    (hV' : none ∉ q'.V) (hD' : q'.D ≠ none) (hC' : q'.C ≠ none) : marshalProofUL q = marshalProofUL q' := by
  have h : ∀ {l l' : List GoG2}, l.length = l'.length → none ∉ l → none ∉ l' → encElems encOpaque l = encElems encOpaque l' := by
    intro l
    induction l with
    | nil =>
      intro l' h _ _
      cases l' with
      | nil => rfl
      | cons => simp at h
    | cons a l ih =>
      intro l' h h1 h2
      cases l' with
      | nil => simp at h
      | cons b l' =>
        rw [encElems, encElems, ih (by simpa using h) (fun hc => h1 (List.mem_cons_of_mem _ hc)) fun hc => h2 (List.mem_cons_of_mem _ hc),
          encOpaque_some (fun e => h1 (e ▸ List.mem_cons_self)), encOpaque_some (fun e => h2 (e ▸ List.mem_cons_self))]
  rw [marshalProofUL, marshalProofUL, encProofUL, encProofUL, encOpaque_some hD, encOpaque_some hC, encOpaque_some hD',
    encOpaque_some hC', encSlice, encSlice, h hl hV hV']

example (q q' : ProofUL) (h : q.V.length = q'.V.length) : marshalProofUL q.toGo = marshalProofUL q'.toGo :=
  C94_ul_text (by simpa [ProofUL.toGo] using h) (by simp [ProofUL.toGo]) nofun nofun (by simp [ProofUL.toGo]) nofun nofun

/-- C94: the text itself: a `{}` or `null` for each element. -/
theorem C94_ul_text_nil (q : GoProofUL) : marshalProofUL q =
    ascii "{\"V\":[" ++ (ascii ",").intercalate (q.V.map fun x => if x = none then ascii "null" else ascii "{}") ++
      ascii "],\"D\":" ++ (if q.D = none then ascii "null" else ascii "{}") ++
      ascii ",\"C\":" ++ (if q.C = none then ascii "null" else ascii "{}") ++ ascii "}" := by
  have he : ∀ {T : Type} (x : Option (Option T)), (encOpaque x).print = if x = none then ascii "null" else ascii "{}" := by
    intro T x
    cases x
    · exact (show Json.null.print = ascii "null" by decide)
    · exact (show (Json.obj .nil).print = ascii "{}" by decide)
  have hl : ∀ l : List GoG2, (encSlice encOpaque (some l)).print =
      91 :: ((ascii ",").intercalate (l.map fun x => if x = none then ascii "null" else ascii "{}") ++ [93]) := by
    have h2 : ∀ (l : List GoG2) (x : GoG2), (encOpaque x).print ++ (encElems encOpaque l).print =
        (ascii ",").intercalate ((x :: l).map fun x => if x = none then ascii "null" else ascii "{}") ++ [93] := by
      intro l
      induction l with
      | nil => intro x; simp [he, encElems, JsonList.print, List.intercalate]
      | cons y l ih =>
        intro x
        have h3 : ∀ a b c, (ascii ",").intercalate (a :: b :: c) = a ++ 44 :: (ascii ",").intercalate (b :: c) := by
          intro a b c
          rw [show ascii "," = [44] by decide]
          simp [List.intercalate, List.intersperse]
        rw [encElems, JsonList.print, List.cons_append, ih, List.map_cons, List.map_cons, List.map_cons, h3, he]
        simp
    intro l
    cases l with
    | nil => rfl
    | cons x l =>
      rw [← h2]
      rfl
  have hp : ∀ a b c : Json, (Json.obj (encObj [(ascii "V", a), (ascii "D", b), (ascii "C", c)])).print =
      ascii "{\"V\":" ++ a.print ++ ascii ",\"D\":" ++ b.print ++ ascii ",\"C\":" ++ c.print ++ ascii "}" := by
    intro a b c
    have e1 : ascii "{\"V\":" = [123, 34, 86, 34, 58] := by decide
    have e2 : ascii ",\"D\":" = [44, 34, 68, 34, 58] := by decide
    have e3 : ascii ",\"C\":" = [44, 34, 67, 34, 58] := by decide
    have e4 : ascii "}" = [125] := by decide
    have e5 : ascii "V" = [86] := by decide
    have e6 : ascii "D" = [68] := by decide
    have e7 : ascii "C" = [67] := by decide
    simp [encObj, Json.print, JsonMembers.print, e1, e2, e3, e4, e5, e6, e7]
  rw [marshalProofUL, encProofUL, hp, hl, he, he,
    show ascii "{\"V\":[" = ascii "{\"V\":" ++ [91] by decide, show ascii "],\"D\":" = [93] ++ ascii ",\"D\":" by decide]
  simp only [List.append_assoc, List.cons_append, List.nil_append]

/-- Two elements, one missing. -/
example : marshalProofUL { GoProofUL.zero with V := [some none, none], C := some none } =
    ascii "{\"V\":[{},null],\"D\":null,\"C\":{}}" := by
  rw [C94_ul_text_nil]
  decide

/-- C94: read back it gives elements without values where there were elements, and nothing else. -/
theorem C94_ul_decoded (q : GoProofUL) : unmarshalProofUL (marshalProofUL q) =
    some { GoProofUL.zero with
      V := q.V.map fun x => x.map fun _ => none
      D := q.D.map fun _ => none
      C := q.C.map fun _ => none } := by
  have hw : ∀ {T : Type} (x : Option (Option T)), (encOpaque x).WF := by
    intro T x
    cases x <;> trivial
  have hd : ∀ {T : Type} (x : Option (Option T)), decOpaque (encOpaque x) none = some (x.map fun _ => (none : Option T)) := by
    intro T x
    cases x <;> rfl
  have hwl : ∀ l : List GoG2, (encElems encOpaque l).WF := by
    intro l
    induction l with
    | nil => trivial
    | cons x l ih => exact ⟨hw x, ih⟩
  have hdl : ∀ l : List GoG2, decElems (fun j => decOpaque j none) (encElems encOpaque l) =
      some (l.map fun x => x.map fun _ => (none : Option TwistPoint)) := by
    intro l
    induction l with
    | nil => rfl
    | cons x l ih => simp [encElems, decElems, hd, ih]
  have h := parseJson_print (j := encProofUL q) (by
    refine encObj_wf ?_
    simp only [List.forall_mem_cons, List.not_mem_nil, false_implies, implies_true, and_true]
    exact ⟨⟨by decide, hwl q.V⟩, ⟨by decide, hw _⟩, by decide, hw _⟩)
  rw [unmarshalProofUL, marshalProofUL, h]
  show decFields _ _ GoProofUL.zero = _
  simp only [encObj]
  rw [decFields_cons rfl]
  simp only [fieldOf, encSlice, decSlice, hdl, Option.map_some, Option.bind_eq_bind, Option.bind_some]
  iterate 2
    rw [decFields_cons rfl]
    simp only [fieldOf, GoProofUL.zero, hd, Option.bind_eq_bind, Option.bind_some]
  rfl

/-- A proof of the program loses all values, so that `VerifyUL` panics on what was read. -/
example (q : ProofUL) : ∃ q', unmarshalProofUL (marshalProofUL q.toGo) = some q' ∧ q'.V.length = q.V.length ∧ q'.D = some none ∧ q'.c = none :=
  ⟨_, C94_ul_decoded _, by simp [ProofUL.toGo], rfl, rfl⟩

/-- C94: a proof for [0, u^l) decoded from any text makes `VerifyUL` panic. -/
theorem C94_ul_panics {text : List UInt8} {q : GoProofUL} (h : unmarshalProofUL text = some q) (p : Option GoParamsUL) :
    goVerifyUL (some q) p = .panic := by
  simp only [unmarshalProofUL, Option.bind_eq_bind, Option.bind_eq_some_iff] at h
  obtain ⟨j, -, h⟩ := h
  have hc : q.c = none := by
    refine decStruct_keep GoProofUL.c ?_ h
    simp only [List.forall_mem_cons, List.not_mem_nil, false_implies, implies_true, and_true]
    exact ⟨field_keep (g := GoProofUL.c) fun _ _ => rfl, field_keep (g := GoProofUL.c) fun _ _ => rfl,
      field_keep (g := GoProofUL.c) fun _ _ => rfl⟩
  by_contra hne
  obtain ⟨_, _, e, _, hu⟩ := (C93_ul _ _).1 hne
  cases e
  obtain ⟨-, n, hn, -⟩ := hu.C
  rw [hc] at hn
  cases hn

/-- A text with two elements `V`. -/
example : ∃ q, unmarshalProofUL (ascii "{\"V\":[{},{}],\"D\":{},\"C\":{}}") = some q ∧ q.V = [some none, some none] ∧ ∀ p, goVerifyUL (some q) p = .panic := by
  have h : (match unmarshalProofUL (ascii "{\"V\":[{},{}],\"D\":{},\"C\":{}}") with
    | some q => decide (q.V = [some none, some none])
    | none => false) = true := by decide +kernel
  split at h
  · next q hq => exact ⟨q, hq, by simpa using h, C94_ul_panics hq⟩
  · cases h

/-- C94: a key pair loses its public key, which becomes an element without a value, and keeps its private key. -/
theorem C94_keypair {k : GoKeypair} (h : k.Pubk ≠ none) :
    unmarshalKeypair (marshalKeypair k) .zero = some ⟨some none, k.Privk⟩ := by
  rw [unmarshalKeypair, marshalKeypair, parseJson_print (j := encKeypair k) ?_]
  · show decFields _ _ GoKeypair.zero = _
    simp only [encObj, encOpaque_some h]
    rw [decFields_cons rfl]
    simp only [fieldOf, Option.bind_eq_bind]
    rw [show decOpaque (.obj .nil) GoKeypair.zero.Pubk = some (some none) from rfl]
    simp only [Option.bind_some]
    rw [decFields_cons rfl]
    simp only [fieldOf, decBig_enc, Option.bind_eq_bind, Option.bind_some]
    rfl
  · refine encObj_wf ?_
    simp only [List.forall_mem_cons, List.not_mem_nil, false_implies, implies_true, and_true, encBig_wf]
    refine ⟨⟨by decide, ?_⟩, by decide⟩
    rw [encOpaque_some h]
    trivial

example := C94_keypair (k := ⟨some (some CurvePoint.gen), some 1234⟩) nofun

/-- C94: with nil pointers or without: a nil pointer stays one, an element loses its value. -/
theorem C94_decoded_nil (q : GoProofSet) (k : GoKeypair) :
    unmarshalProofSet (marshalProofSet q) .zero = some { GoProofSet.zero with
      V := q.V.map fun _ => none
      D := q.D.map fun _ => none
      C := q.C.map fun _ => none } ∧
    unmarshalKeypair (marshalKeypair k) .zero = some ⟨k.Pubk.map fun _ => none, k.Privk⟩ := by
  have hw : ∀ {T : Type} (x : Option (Option T)), (encOpaque x).WF := by
    intro T x
    cases x <;> trivial
  have hd : ∀ {T : Type} (x : Option (Option T)), decOpaque (encOpaque x) none = some (x.map fun _ => (none : Option T)) := by
    intro T x
    cases x <;> rfl
  constructor
  · rw [unmarshalProofSet, marshalProofSet, parseJson_print (j := encProofSet q) ?_]
    · show decFields _ _ GoProofSet.zero = _
      simp only [encObj]
      iterate 3
        rw [decFields_cons rfl]
        simp only [fieldOf, GoProofSet.zero, hd, Option.bind_eq_bind, Option.bind_some]
      rfl
    · refine encObj_wf ?_
      simp only [List.forall_mem_cons, List.not_mem_nil, false_implies, implies_true, and_true]
      exact ⟨⟨by decide, hw _⟩, ⟨by decide, hw _⟩, by decide, hw _⟩
  · rw [unmarshalKeypair, marshalKeypair, parseJson_print (j := encKeypair k) ?_]
    · show decFields _ _ GoKeypair.zero = _
      simp only [encObj]
      iterate 2
        rw [decFields_cons rfl]
        simp only [fieldOf, GoKeypair.zero, hd, decBig_enc, Option.bind_eq_bind, Option.bind_some]
      rfl
    · refine encObj_wf ?_
      simp only [List.forall_mem_cons, List.not_mem_nil, false_implies, implies_true, and_true, encBig_wf]
      exact ⟨⟨by decide, hw _⟩, by decide⟩

/-- A key pair without public key comes back unchanged. -/
example : unmarshalKeypair (marshalKeypair ⟨none, some 1234⟩) .zero = some ⟨none, some 1234⟩ := (C94_decoded_nil .zero _).2

/-- C94: verification with such a key panics. -/
theorem C94_keypair_panics (q : Option GoProofSet) (p : GoParamsSet) (h : p.kp.Pubk = some none) : goVerifySet q (some p) = .panic := by
  by_contra hne
  obtain ⟨_, _, _, e, hu⟩ := (C93_set _ _).1 hne
  cases e
  obtain ⟨v, hv⟩ := hu.Pubk
  rw [h] at hv
  cases hv

/-- A key pair; the private key 1234 is in the text. -/
example : marshalKeypair ⟨some (some CurvePoint.gen), some 1234⟩ = ascii "{\"Pubk\":{},\"Privk\":1234}" ∧
    unmarshalKeypair (ascii "{\"Pubk\":{},\"Privk\":1234}") .zero = some ⟨some none, some 1234⟩ := by decide +kernel

/-- The honest proof of `setExample_race` and any other proof have the same text, and the text does not verify. -/
example (other : ProofSet) : ∃ p q w, verifySet q p = .ok (true, w) ∧ marshalProofSet q.toGo = marshalProofSet other.toGo ∧
    ∃ q', unmarshalProofSet (marshalProofSet q.toGo) .zero = some q' ∧ goVerifySet (some q') (some p.toGo) = .panic := by
  obtain ⟨p, q, q', Q, h1, h2, h3, -⟩ := setExample_race
  have hd := C94_set_decoded (q := q.toGo) (by simp [ProofSet.toGo]) (by simp [ProofSet.toGo]) (by simp [ProofSet.toGo])
  refine ⟨p, q, q', h3, ?_, _, hd, C94_set_panics hd _⟩
  rw [C94_set_text (by simp [ProofSet.toGo]) (by simp [ProofSet.toGo]) (by simp [ProofSet.toGo]),
    C94_set_text (by simp [ProofSet.toGo]) (by simp [ProofSet.toGo]) (by simp [ProofSet.toGo])]

end Verif

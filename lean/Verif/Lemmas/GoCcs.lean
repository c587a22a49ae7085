import Verif.Spec.GoCcs
import Verif.Lemmas.BnCurve
import Verif.Lemmas.Json

/-!
# Lemmas for `Model/GoCcs.lean`
-/

namespace Verif

theorem Res.ofOption_eq_ok {α : Type} {o : Option α} {a : α} : Res.ofOption o = .ok a ↔ o = some a := by
  cases o <;> simp [Res.ofOption]

theorem Res.ne_panic {α : Type} {r : Res α} : r ≠ .panic ↔ ∃ a, r = .ok a := by
  cases r <;> simp

theorem goTwistMulLoop_some (a : TwistPoint) (k : Int) : ∀ (n : Nat) (sum t : TwistPoint),
    goTwistMulLoop (some a) k n sum t = .ok (TwistPoint.mulLoop a k n sum t)
  | 0, _, _ => rfl
  | n + 1, sum, t => by
    rw [goTwistMulLoop, TwistPoint.mulLoop]
    split
    · rw [Res.ofOption_some, Res.ok_bind, goTwistMulLoop_some a k n]
    · rw [goTwistMulLoop_some a k n]

theorem goTwistMul_some (a : TwistPoint) (k : Int) : goTwistMul (some a) k = .ok (a.mul k) := goTwistMulLoop_some _ _ _ _ _

theorem goTwistMulLoop_none (a : TwistPoint) (k : Int) : ∀ (n : Nat) (sum t : TwistPoint),
    goTwistMulLoop none k n sum t = if (k % 2 ^ n).toNat = 0 then .ok (TwistPoint.mulLoop a k n sum t) else .panic
  | 0, _, _ => by simp [goTwistMulLoop, TwistPoint.mulLoop]
  | n + 1, sum, t => by
    have hp : 0 < 2 ^ n := Nat.two_pow_pos n
    rw [goTwistMulLoop, TwistPoint.mulLoop, emod_two_pow_succ]
    by_cases hb : intBit k n = true
    · rw [if_pos hb, if_pos hb, if_neg (by omega)]
      rfl
    · rw [if_neg hb, if_neg hb, if_neg hb, goTwistMulLoop_none a k n, Nat.zero_add]

theorem goTwistMul_none (a : TwistPoint) {k : Int} (hk : 0 ≤ k) :
    goTwistMul none k = if k = 0 then .ok (a.mul k) else .panic := by
  rw [goTwistMul, goTwistMulLoop_none a, emod_bitLen_succ hk]
  have : k.toNat = 0 ↔ k = 0 := by omega
  simp only [this]
  rfl

/-- `ScalarMult` of an element with a value. -/
theorem GoG2.scalarMult_some (a : TwistPoint) (k : Int) : GoG2.scalarMult (some (some a)) (some k) = .ok (G2.scalarMult a k) := by
  rw [GoG2.scalarMult, G2.scalarMult]
  simp only [Res.ofOption_some, Res.ok_bind, goTwistMul_some]
  split <;> rfl

/-- `ScalarMult` of an element without a value. -/
theorem GoG2.scalarMult_none (a : TwistPoint) (k : Int) :
    GoG2.scalarMult (some none) (some k) = if k = 0 then .ok (G2.scalarMult a 0) else .panic := by
  rw [GoG2.scalarMult, G2.scalarMult]
  simp only [Res.ofOption_some, Res.ok_bind]
  by_cases hk : k ≥ 0
  · rw [if_pos hk, goTwistMul_none a hk]
    by_cases h0 : k = 0
    · subst h0; rfl
    · rw [if_neg h0, if_neg h0]
  · rw [if_neg hk, goTwistMul_none a (by omega), if_neg (by omega), if_neg (by omega)]
    rfl

theorem GoG2.scalarMult_ok {a : GoG2} {k : Option Int} : (∃ r, GoG2.scalarMult a k = .ok r) ↔ CanMult a k := by
  cases k with
  | none => simp [CanMult, GoG2.scalarMult]
  | some k =>
    cases a with
    | none => simp [CanMult, GoG2.scalarMult]
    | some a =>
      cases a with
      | none =>
        rw [GoG2.scalarMult_none .gen]
        by_cases hk : k = 0
        · simp [CanMult, hk]
        · simp [CanMult, hk, IsSet]
      | some a =>
        rw [GoG2.scalarMult_some]
        simp [CanMult, IsSet]

theorem isSet_iff {T : Type} {x : Option (Option T)} : IsSet x ↔ ∃ a, x = some a ∧ ∃ b, a = some b := by
  simp [IsSet]

theorem GoG2.marshal_ok {a : GoG2} {r} : a.marshal = .ok r ↔ ∃ v, a = some (some v) ∧ r = G2.marshal v := by
  cases a with
  | none => simp [GoG2.marshal]
  | some a => cases a <;> simp [GoG2.marshal, eq_comm]

theorem GoGT.marshal_ok {a : GoGT} {r} : a.marshal = .ok r ↔ ∃ v, a = some (some v) ∧ r = GT.marshal v := by
  cases a with
  | none => simp [GoGT.marshal]
  | some a => cases a <;> simp [GoGT.marshal, eq_comm]

theorem goPair_ok {a : GoG1} {b : GoG2} {r} : goPair a b = .ok r ↔ ∃ p q, a = some (some p) ∧ b = some (some q) ∧ r = pair p q := by
  cases a with
  | none => cases b <;> simp [goPair]
  | some a =>
    cases b with
    | none => simp [goPair]
    | some b => cases a <;> cases b <;> simp [goPair, eq_comm]

theorem goGTScalarMult_ok {a : GfP12} {k : Option Int} {r} : goGTScalarMult a k = .ok r ↔ ∃ n, k = some n ∧ r = GT.scalarMult a n := by
  cases k <;> simp [goGTScalarMult, eq_comm]

theorem goCcsRhs_some (pubk : CurvePoint) (V : TwistPoint) (c zsig zv : Int) :
    goCcsRhs (some (some pubk)) (some (some V)) (some c) (some zsig) (some zv) = .ok (ccsRhs pubk V c zsig zv) := rfl

theorem goCcsRhs_ok {pubk : GoG1} {V : GoG2} {c zsig zv : Option Int} {r} (h : goCcsRhs pubk V c zsig zv = .ok r) :
    IsSet pubk ∧ IsSet V ∧ c ≠ none ∧ zsig ≠ none ∧ zv ≠ none := by
  simp only [goCcsRhs, Res.bind_eq_ok, goPair_ok, goGTScalarMult_ok] at h
  obtain ⟨_, ⟨p, q, rfl, rfl, -⟩, _, ⟨_, rfl, -⟩, _, -, _, ⟨_, rfl, -⟩, _, ⟨_, rfl, -⟩, -⟩ := h
  simp [IsSet]

theorem goVerifySet_ok {q : GoProofSet} {p : GoParamsSet} : (∃ r, goVerifySet (some q) (some p) = .ok r) ↔ q.Usable p := by
  constructor
  · rintro ⟨r, h⟩
    simp only [goVerifySet, Res.ofOption_some, Res.ok_bind, Res.bind_eq_ok, GoG2.marshal_ok, GoGT.marshal_ok] at h
    obtain ⟨D, h1, hz, h2, _, -, pD, ⟨d, h3, -⟩, p1, h4, aM, ⟨a, h5, -⟩, -⟩ := h
    obtain ⟨k1, k2, k3, k4, k5⟩ := goCcsRhs_ok h4
    exact ⟨GoG2.scalarMult_ok.1 ⟨_, h1⟩, GoG2.scalarMult_ok.1 ⟨_, h2⟩, ⟨d, h3⟩, k2, ⟨a, h5⟩, k1, k4, k5⟩
  · rintro ⟨h1, h2, ⟨d, h3⟩, ⟨v, h4⟩, ⟨a, h5⟩, ⟨pk, h6⟩, h7, h8⟩
    obtain ⟨zsig, h7⟩ := Option.ne_none_iff_exists'.1 h7
    obtain ⟨zv, h8⟩ := Option.ne_none_iff_exists'.1 h8
    obtain ⟨D, k1⟩ := GoG2.scalarMult_ok.2 h1
    obtain ⟨z, k2⟩ := GoG2.scalarMult_ok.2 h2
    obtain ⟨-, c, k3, -⟩ := h1
    have e1 : GoG2.scalarBaseMult q.zsig = .ok (G2.scalarBaseMult zsig) := by rw [h7]; rfl
    have e2 : q.D.marshal = .ok (G2.marshal d) := by rw [h3]; rfl
    have e3 : q.a.marshal = .ok (GT.marshal a) := by rw [h5]; rfl
    have e4 : goCcsRhs p.kp.Pubk q.V q.c q.zsig q.zv = .ok (ccsRhs pk v c zsig zv) := by rw [h6, h4, k3, h7, h8]; exact goCcsRhs_some ..
    simp only [goVerifySet, Res.ofOption_some, Res.ok_bind, k1, k2, e1, e2, e3, e4, Res.ok.injEq, exists_eq']

theorem GoG2.scalarMult_of {a : GoG2} {A : TwistPoint} {k : Int} (h : MultOf a A k) :
    GoG2.scalarMult a (some k) = .ok (G2.scalarMult A k) := by
  rcases h with rfl | ⟨rfl, rfl⟩
  · exact GoG2.scalarMult_some A k
  · exact GoG2.scalarMult_none A 0

theorem goVerifySet_shows {q : GoProofSet} {p : GoParamsSet} {v : ProofSet} {w : ParamsSet} (h : q.Shows p v w) :
    goVerifySet (some q) (some p) = (verifySet v w >>= fun r => .ok (r.1, { q with D := some (some r.2.D), a := some (some r.2.a) })) := by
  rw [goVerifySet, verifySet]
  have e1 : q.C.scalarMult q.c = .ok (G2.scalarMult v.C v.c) := by rw [h.c]; exact GoG2.scalarMult_of h.C
  have e2 : p.H.scalarMult q.zr = .ok (G2.scalarMult w.H v.zr) := by rw [h.zr]; exact GoG2.scalarMult_of h.H
  have e3 : q.D.marshal = .ok (G2.marshal v.D) := by rw [h.D]; rfl
  have e4 : GoG2.scalarBaseMult q.zsig = .ok (G2.scalarBaseMult v.zsig) := by rw [h.zsig]; rfl
  have e5 : q.a.marshal = .ok (GT.marshal v.a) := by rw [h.a]; rfl
  simp only [Res.ofOption_some, Res.ok_bind, e1, e2, e3, e4, e5]
  have e6 := h.Pubk
  cases hk : w.kp.pubk with
  | none =>
    rw [hk, Option.map_none] at e6
    have e7 : goCcsRhs p.kp.Pubk q.V q.c q.zsig q.zv = .panic := by rw [e6, h.V]; rfl
    rw [e7]
    rfl
  | some pk =>
    rw [hk, Option.map_some] at e6
    have e7 : goCcsRhs p.kp.Pubk q.V q.c q.zsig q.zv = .ok (ccsRhs pk v.V v.c v.zsig v.zv) := by
      rw [e6, h.V, h.c, h.zsig, h.zv]; exact goCcsRhs_some ..
    simp only [Res.ofOption_some, Res.ok_bind, e7]

/-! ### The interval `[0, u^l)` -/

theorem goVerifyULD_ok (u : Int) (zsig : List (Option Int)) : ∀ (n i : Nat) (D : TwistPoint),
    (∃ r, goVerifyULD u zsig n i D = .ok r) ↔ ∀ j, i ≤ j → j < i + n → ∃ z : Int, zsig[j]? = some (some z)
  | 0, i, D => ⟨fun _ j h1 h2 => by omega, fun _ => ⟨D, rfl⟩⟩
  | n + 1, i, D => by
    rw [goVerifyULD]
    simp only [Res.bind_eq_ok, idx, Res.ofOption_eq_ok]
    constructor
    · rintro ⟨r, z, h1, z', rfl, h2⟩ j hj hj'
      rcases Nat.eq_or_lt_of_le hj with rfl | hlt
      · exact ⟨z', h1⟩
      · exact (goVerifyULD_ok u zsig n (i + 1) _).1 ⟨r, h2⟩ j hlt (by omega)
    · intro h
      obtain ⟨z, hz⟩ := h i le_rfl (by omega)
      obtain ⟨r, hr⟩ := (goVerifyULD_ok u zsig n (i + 1) (D.addSelf (G2.scalarBaseMult ((z * u ^ i) % bnOrder)))).2
        fun j h1 h2 => h j (by omega) (by omega)
      exact ⟨r, _, hz, z, rfl, hr⟩

theorem goVerifyULA_ok {p : GoParamsUL} {q : GoProofUL} (hc : q.c ≠ none) : ∀ (n i : Nat) (b : Bool),
    (∃ r, goVerifyULA p.kp.Pubk q n i b = .ok r) ↔ ∀ j, i ≤ j → j < i + n → q.UsableAt p j
  | 0, i, b => ⟨fun _ j h1 h2 => by omega, fun _ => ⟨_, rfl⟩⟩
  | n + 1, i, b => by
    rw [goVerifyULA]
    simp only [Res.bind_eq_ok, idx, Res.ofOption_eq_ok, GoGT.marshal_ok]
    constructor
    · rintro ⟨r, V, h1, zsig, h2, zv, h3, p1, h4, a, h5, aM, ⟨v, rfl, rfl⟩, rest, h6, -⟩ j hj hj'
      rcases Nat.eq_or_lt_of_le hj with rfl | hlt
      · obtain ⟨k1, k2, k3, k4, k5⟩ := goCcsRhs_ok h4
        obtain ⟨_, rfl⟩ := Option.ne_none_iff_exists'.1 k4
        obtain ⟨_, rfl⟩ := Option.ne_none_iff_exists'.1 k5
        exact ⟨⟨_, h1, k2⟩, ⟨_, h5, v, rfl⟩, k1, ⟨_, h2⟩, ⟨_, h3⟩⟩
      · exact (goVerifyULA_ok hc n (i + 1) _).1 ⟨rest, h6⟩ j hlt (by omega)
    · intro h
      obtain ⟨⟨_, h1, v, rfl⟩, ⟨_, h2, a, rfl⟩, ⟨pk, h3⟩, ⟨z, h4⟩, ⟨z', h5⟩⟩ := h i le_rfl (by omega)
      obtain ⟨c, h6⟩ := Option.ne_none_iff_exists'.1 hc
      obtain ⟨r, hr⟩ := (goVerifyULA_ok hc n (i + 1) (b && (GT.marshal (ccsRhs pk v c z z')).1 == (GT.marshal a).1)).2
        fun j h1 h2 => h j (by omega) (by omega)
      exact ⟨_, _, h1, _, h4, _, h5, _, by rw [h3, h6]; exact goCcsRhs_some pk v c z z', _, h2, _, ⟨a, rfl, rfl⟩, _, hr, rfl⟩

theorem goVerifyUL_ok {q : GoProofUL} {p : GoParamsUL} : (∃ r, goVerifyUL (some q) (some p) = .ok r) ↔ q.Usable p := by
  constructor
  · rintro ⟨r, h⟩
    simp only [goVerifyUL, Res.ofOption_some, Res.ok_bind, Res.bind_eq_ok, GoG2.marshal_ok] at h
    obtain ⟨D, h1, hz, h2, D', h3, pD, ⟨d, h4, -⟩, res, h5, -⟩ := h
    have hC := GoG2.scalarMult_ok.1 ⟨_, h1⟩
    have hc : q.c ≠ none := by
      obtain ⟨-, c, hc, -⟩ := hC
      simp [hc]
    exact ⟨hC, GoG2.scalarMult_ok.1 ⟨_, h2⟩, ⟨d, h4⟩, fun i hi => (goVerifyULA_ok hc _ _ _).1 ⟨_, h5⟩ i (by omega) (by omega)⟩
  · rintro ⟨h1, h2, ⟨d, h3⟩, h4⟩
    obtain ⟨D, k1⟩ := GoG2.scalarMult_ok.2 h1
    obtain ⟨z, k2⟩ := GoG2.scalarMult_ok.2 h2
    have hc : q.c ≠ none := by
      obtain ⟨-, c, hc, -⟩ := h1
      simp [hc]
    obtain ⟨D', k3⟩ := (goVerifyULD_ok p.u q.zsig p.l.toNat 0 (D.addSelf z)).2 fun j _ hj => (h4 j (by omega)).zsig
    obtain ⟨res, k4⟩ := (goVerifyULA_ok (p := p) hc p.l.toNat 0 true).2 fun j _ hj => h4 j (by omega)
    simp only [goVerifyUL, Res.ofOption_some, Res.ok_bind, k1, k2, k3, k4, h3]
    exact ⟨_, rfl⟩

theorem goVerifyULD_shows (u : Int) {l : Int} {zsig : List (Option Int)} {z : List Int} (h : SameFirst some l zsig z) :
    ∀ (n i : Nat) (D : TwistPoint), i + n ≤ l.toNat → goVerifyULD u zsig n i D = verifyULD u z n i D
  | 0, _, _, _ => rfl
  | n + 1, i, D, hn => by
    rw [goVerifyULD, verifyULD]
    simp only [idx]
    rw [h i (by omega)]
    cases hz : z[i]? with
    | none => rfl
    | some z' => exact goVerifyULD_shows u h n (i + 1) _ (by omega)

theorem goVerifyULA_shows {q : GoProofUL} {p : GoParamsUL} {v : ProofUL} {w : ParamsUL} (h : q.Shows p v w) :
    ∀ (n i : Nat) (b : Bool), i + n ≤ p.l.toNat →
      goVerifyULA p.kp.Pubk q n i b = (verifyULA w.kp.pubk v n i b >>= fun r => .ok (r.1, r.2.map fun v => some (some v)))
  | 0, _, _, _ => rfl
  | n + 1, i, b, hn => by
    have hi : (i : Int) < p.l := by omega
    have ih := fun b => goVerifyULA_shows h n (i + 1) b (by omega)
    have e6 := h.Pubk
    rw [goVerifyULA, verifyULA]
    simp only [idx]
    rw [h.V i hi, h.zsig i hi, h.zv i hi, h.a i hi, h.c]
    cases hV : v.V[i]? with
    | none => rfl
    | some V =>
      cases hz : v.zsig[i]? with
      | none => cases w.kp.pubk <;> rfl
      | some z =>
        cases hz' : v.zv[i]? with
        | none => cases w.kp.pubk <;> rfl
        | some z' =>
          cases hk : w.kp.pubk with
          | none =>
            rw [hk, Option.map_none] at e6
            rw [e6]
            rfl
          | some pk =>
            rw [hk, Option.map_some] at e6
            rw [hk] at ih
            have e7 : goCcsRhs p.kp.Pubk (some (some V)) (some v.c) (some z) (some z') = .ok (ccsRhs pk V v.c z z') := by
              rw [e6]; exact goCcsRhs_some ..
            simp only [Option.map_some, Res.ofOption_some, Res.ok_bind, e7]
            cases ha : v.a[i]? with
            | none => rfl
            | some a =>
              have e8 : GoGT.marshal (some (some a)) = .ok (GT.marshal a) := rfl
              simp only [Option.map_some, Res.ofOption_some, Res.ok_bind, e8, ih]
              cases verifyULA (some pk) v n (i + 1) (b && (GT.marshal (ccsRhs pk V v.c z z')).1 == (GT.marshal a).1) with
              | panic => rfl
              | ok r => simp only [Res.ok_bind, List.map_cons]

theorem verifyULA_length {pk : Option CurvePoint} {v : ProofUL} : ∀ {n i : Nat} {b : Bool} {r : Bool × List GfP12},
    verifyULA pk v n i b = .ok r → r.2.length = n
  | 0, _, _, _, h => by cases h; rfl
  | n + 1, i, b, r, h => by
    rw [verifyULA] at h
    simp only [Res.bind_eq_ok] at h
    obtain ⟨_, -, _, -, _, -, _, -, _, -, rest, h1, h2⟩ := h
    have := verifyULA_length h1
    cases h2
    simp [this]

theorem goVerifyUL_shows {q : GoProofUL} {p : GoParamsUL} {v : ProofUL} {w : ParamsUL} (h : q.Shows p v w) :
    goVerifyUL (some q) (some p) = (verifyUL v w >>= fun r => .ok (r.1, { q with
      D := some (some r.2.D)
      a := (r.2.a.take p.l.toNat).map (fun x => some (some x)) ++ q.a.drop p.l.toNat })) := by
  rw [goVerifyUL, verifyUL]
  have e1 : q.C.scalarMult q.c = .ok (G2.scalarMult v.C v.c) := by rw [h.c]; exact GoG2.scalarMult_of h.C
  have e2 : p.H.scalarMult q.zr = .ok (G2.scalarMult w.H v.zr) := by rw [h.zr]; exact GoG2.scalarMult_of h.H
  have e3 : q.D.marshal = .ok (G2.marshal v.D) := by rw [h.D]; rfl
  have e4 := fun D => goVerifyULD_shows w.u h.zsig p.l.toNat 0 D (by omega)
  have e5 := goVerifyULA_shows h p.l.toNat 0 true (by omega)
  simp only [Res.ofOption_some, Res.ok_bind, e1, e2, e3]
  rw [h.u, e4, e5, h.l]
  cases verifyULD w.u v.zsig w.l.toNat 0 ((G2.scalarMult v.C v.c).addSelf (G2.scalarMult w.H v.zr)) with
  | panic => rfl
  | ok D =>
    cases hA : verifyULA w.kp.pubk v w.l.toNat 0 true with
    | panic => rfl
    | ok r =>
      have hl := verifyULA_length hA
      simp only [Res.ok_bind]
      rw [List.take_append_of_le_length (by omega), ← hl, List.take_length]

end Verif

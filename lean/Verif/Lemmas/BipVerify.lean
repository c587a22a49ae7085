import Verif.Lemmas.Bip

/-! # Behaviour of the inner-product verifier on arbitrary proof objects -/

namespace Verif

/-- `a` represents some point of the curve. -/
def IsPoint (a : P256) : Prop := ∃ Q : Secp, Rep a Q

/-- All entries represent points of the curve. -/
def ArePoints (a : List P256) : Prop := ∀ p ∈ a, IsPoint p

theorem ArePoints.reps {a : List P256} (h : ArePoints a) : ∃ Q, Reps a Q := by
  induction a with
  | nil => exact ⟨[], .nil⟩
  | cons p a ih =>
    obtain ⟨Q, hQ⟩ := ih (fun q hq => h q (List.mem_cons_of_mem _ hq))
    obtain ⟨R, hR⟩ := h p List.mem_cons_self
    exact ⟨R :: Q, .cons hR hQ⟩

theorem Reps.arePoints {a : List P256} {Q : List Secp} (h : Reps a Q) : ArePoints a := by
  induction h with
  | nil => intro p hp; cases hp
  | cons h _ ih =>
    intro p hp
    rcases List.mem_cons.1 hp with rfl | hp
    · exact ⟨_, h⟩
    · exact ih p hp

theorem arePoints_take {a : List P256} (h : ArePoints a) (k : Nat) : ArePoints (a.take k) :=
  fun p hp => h p (List.mem_of_mem_take hp)

theorem arePoints_drop {a : List P256} (h : ArePoints a) (k : Nat) : ArePoints (a.drop k) :=
  fun p hp => h p (List.mem_of_mem_drop hp)

theorem arePoints_fold {E : Ext} (hE : E.Ok) {a b : List P256} (ha : ArePoints a) (hb : ArePoints b)
    (x y : Int) :
    ArePoints ((vectorECAdd E (vectorScalarExp E a x) (vectorScalarExp E b y)).getD []) := by
  by_cases hl : a.length = b.length
  · obtain ⟨Q, hQ⟩ := ha.reps
    obtain ⟨R, hR⟩ := hb.reps
    exact (foldPoints_rep hE hQ hR hl x y).arePoints
  · rw [vectorECAdd, if_pos (by simpa [vectorScalarExp] using hl)]
    intro p hp; cases hp

theorem arePoints_sliceTo {a b : List P256} (ha : ArePoints a) {n : Int} (h : sliceTo a n = .ok b) :
    ArePoints b := by
  rw [sliceTo] at h
  split at h
  · cases h
  · injection h with h; subst h; exact arePoints_take ha _

theorem arePoints_sliceFrom {a b : List P256} (ha : ArePoints a) {n : Int} (h : sliceFrom a n = .ok b) :
    ArePoints b := by
  rw [sliceFrom] at h
  split at h
  · cases h
  · injection h with h; subst h; exact arePoints_drop ha _

/-- The loop adds to `P` a point which does not depend on `P`. -/
theorem ipVerifyLoop_shift {E : Ext} (hE : E.Ok) (Ls : List P256) :
    ∀ (Rs g h : List P256) (n : Int), ArePoints Ls → ArePoints Rs → ArePoints g → ArePoints h →
      (∀ P, ipVerifyLoop E Ls Rs g h P n = .panic) ∨
      ∃ g1 h1 W, ArePoints g1 ∧ ArePoints h1 ∧ ∀ P Q, Rep P Q →
        ∃ P1, ipVerifyLoop E Ls Rs g h P n = .ok (g1, h1, P1) ∧ Rep P1 (Q + W) := by
  induction Ls with
  | nil =>
    intro Rs g h n _ _ hg hh
    right
    exact ⟨g, h, 0, hg, hh, fun P Q hP => ⟨P, by simp [ipVerifyLoop], by rw [add_zero]; exact hP⟩⟩
  | cons L Ls ih =>
    intro Rs g h n hL hR hg hh
    cases Rs with
    | nil => left; intro P; rfl
    | cons R Rs =>
      obtain ⟨QL, hQL⟩ := hL L List.mem_cons_self
      obtain ⟨QR, hQR⟩ := hR R List.mem_cons_self
      have hL' : ArePoints Ls := fun p hp => hL p (List.mem_cons_of_mem _ hp)
      have hR' : ArePoints Rs := fun p hp => hR p (List.mem_cons_of_mem _ hp)
      simp only [ipVerifyLoop]
      cases hxi : modInverse (hashBP E L R).1 ORDER with
      | none => left; intro P; rfl
      | some xinv =>
      cases hgL : sliceTo g (n.tdiv 2) with
      | panic => left; intro P; rfl
      | ok gL =>
      cases hgR : sliceFrom g (n.tdiv 2) with
      | panic => left; intro P; rfl
      | ok gR =>
      cases hhL : sliceTo h (n.tdiv 2) with
      | panic => left; intro P; rfl
      | ok hLl =>
      cases hhR : sliceFrom h (n.tdiv 2) with
      | panic => left; intro P; rfl
      | ok hRr =>
      cases hx2 : modInverse ((hashBP E L R).1 * (hashBP E L R).1 % ORDER) ORDER with
      | none => left; intro P; rfl
      | some x2inv =>
        simp only [Res.ok_bind, Res.ofOption_some]
        have pg := arePoints_fold hE (arePoints_sliceTo hg hgL) (arePoints_sliceFrom hg hgR) xinv (hashBP E L R).1
        have ph := arePoints_fold hE (arePoints_sliceTo hh hhL) (arePoints_sliceFrom hh hhR) (hashBP E L R).1 xinv
        rcases ih Rs _ _ (n.tdiv 2) hL' hR' pg ph with hp | ⟨g1, h1, W, pg1, ph1, hW⟩
        · left; intro P; exact hp _
        · right
          refine ⟨g1, h1, (((hashBP E L R).1 * (hashBP E L R).1 % ORDER : Int) : Fn) • QL +
            (((x2inv : Fn) • QR) + W), pg1, ph1, fun P Q hP => ?_⟩
          obtain ⟨P1, e1, e2⟩ := hW _ _ (multiply_rep hE (multiply_rep hE hP
            (scalarMult_fn hE hQL ((hashBP E L R).1 * (hashBP E L R).1 % ORDER))) (scalarMult_fn hE hQR x2inv))
          refine ⟨P1, e1, ?_⟩
          rw [add_assoc, add_assoc] at e2
          exact e2

/-- The parts of a proof object that `Verify` reads are points of the curve. -/
structure IPProof.WellFormed (proof : IPProof) : Prop where
  Ls : ArePoints proof.Ls
  Rs : ArePoints proof.Rs
  U : IsPoint proof.U
  Gg : ArePoints proof.Params.Gg
  Hh : ArePoints proof.Params.Hh
  P : IsPoint proof.Params.P

theorem idx_zero {a : List P256} {p : P256} (h : idx a 0 = .ok p) : p ∈ a := by
  cases a with
  | nil => simp [idx] at h
  | cons q a =>
    simp only [idx, List.getElem?_cons_zero, Res.ofOption_some, Res.ok.injEq] at h
    subst h; exact List.mem_cons_self

/-- For every proof object `Verify` either panics whatever `P` is, or there is a target point `T`,
independent of `P`, such that it accepts exactly if `P = T`, and leaves `T - P` in place of `P`. -/
theorem ipVerify_target {E : Ext} (hE : E.Ok) (proof : IPProof) (hp : proof.WellFormed) :
    (∀ P, IsPoint P → ipVerify E (proof.afterVerify P) = .panic) ∨
    ∃ T : Secp, ∀ P Q, Rep P Q → ∃ v P', ipVerify E (proof.afterVerify P) = .ok (v, P') ∧
      (v = true ↔ Q = T) ∧ Rep P' (T - Q) := by
  simp only [ipVerify, IPProof.afterVerify]
  rcases ipVerifyLoop_shift hE proof.Ls proof.Rs proof.Params.Gg proof.Params.Hh proof.N
    hp.Ls hp.Rs hp.Gg hp.Hh with h | ⟨g1, h1, W, pg1, ph1, hW⟩
  · left; intro P _; rw [h P]; rfl
  · cases hg : idx g1 0 with
    | panic =>
      left
      rintro P ⟨Q, hP⟩
      obtain ⟨P1, e1, _⟩ := hW P Q hP
      rw [e1]
      simp only [Res.ok_bind, hg, Res.panic_bind]
    | ok g0 =>
    cases hh : idx h1 0 with
    | panic =>
      left
      rintro P ⟨Q, hP⟩
      obtain ⟨P1, e1, _⟩ := hW P Q hP
      rw [e1]
      simp only [Res.ok_bind, hg, hh, Res.panic_bind]
    | ok h0 =>
      right
      obtain ⟨G0, hG0⟩ := pg1 g0 (idx_zero hg)
      obtain ⟨H0, hH0⟩ := ph1 h0 (idx_zero hh)
      obtain ⟨U, hU⟩ := hp.U
      refine ⟨((proof.A : Fn) • G0 + (proof.B : Fn) • H0 + ((proof.A * proof.B % ORDER : Int) : Fn) • U) - W,
        fun P Q hP => ?_⟩
      obtain ⟨P1, e1, e2⟩ := hW P Q hP
      have hr := multiply_rep hE (neg_in_place hE e2) (multiply_rep hE (multiply_rep hE
        (scalarMult_fn hE hG0 proof.A) (scalarMult_fn hE hH0 proof.B))
        (scalarMult_fn hE hU (proof.A * proof.B % ORDER)))
      rw [e1]
      simp only [Res.ok_bind, hg, hh]
      refine ⟨_, _, rfl, ?_, ?_⟩
      · rw [hr.isZero_iff, neg_add_eq_zero, eq_sub_iff_add_eq]
      · convert hr using 1; abel

/-- Verdicts of repeated calls. -/
theorem ipVerifyMany_target {E : Ext} {proof : IPProof} {T : Secp}
    (hT : ∀ P Q, Rep P Q → ∃ v P', ipVerify E (proof.afterVerify P) = .ok (v, P') ∧
      (v = true ↔ Q = T) ∧ Rep P' (T - Q)) (k : Nat) :
    ∀ P Q, Rep P Q → ∃ vs, ipVerifyMany E k (proof.afterVerify P) = .ok vs ∧ vs.length = k ∧
      ∀ i, (hi : i < vs.length) → (vs[i] = true ↔ if i % 2 = 0 then Q = T else Q = 0) := by
  induction k with
  | zero => intro P Q _; exact ⟨[], rfl, rfl, fun i hi => absurd hi (by simp)⟩
  | succ k ih =>
    intro P Q hP
    obtain ⟨v, P', e1, e2, e3⟩ := hT P Q hP
    obtain ⟨vs, f1, f2, f3⟩ := ih P' (T - Q) e3
    refine ⟨v :: vs, ?_, by simp [f2], ?_⟩
    · rw [ipVerifyMany, e1]
      have : (proof.afterVerify P).afterVerify P' = proof.afterVerify P' := rfl
      simp only [Res.ok_bind, this, f1]
    · intro i hi
      cases i with
      | zero => simpa using e2
      | succ i =>
        have := f3 i (by simpa using hi)
        rw [List.getElem_cons_succ, this]
        rcases Nat.mod_two_eq_zero_or_one i with h | h
        · rw [if_pos h, if_neg (by omega), sub_eq_self]
        · rw [if_neg (by omega), if_pos (by omega), sub_eq_zero, eq_comm]

/-! ### Success of the prover -/

theorem hashBP_value (E : Ext) (a s : P256) :
    (hashBP E a s).1 = ((setBytes (E.sha256 (decimal a.X ++ decimal a.Y ++ decimal s.X ++ decimal s.Y)) : Nat) : Int) := rfl

theorem not_dvd_mul_self {x : Int} (h : ¬ ORDER ∣ x) : ¬ ORDER ∣ x * x % ORDER := by
  rw [← fn_eq_zero] at h ⊢
  rw [fn_emod, Int.cast_mul]
  exact mul_ne_zero h h

/-- If no hash value is divisible by `ORDER` the recursion returns. -/
theorem computeBip_returns {E : Ext} (hinv : ∀ s, ¬ ORDER ∣ ((setBytes (E.sha256 s) : Nat) : Int))
    (params : IPParams) (k : Nat) :
    ∀ (fuel : Nat) (a b : List Int) (g h : List P256) (u P : P256) (Ls Rs : List P256),
      2 ^ k ≤ fuel → a.length = 2 ^ k → b.length = 2 ^ k → g.length = 2 ^ k → h.length = 2 ^ k →
      ∃ proof, computeBip E params fuel a b g h u P (2 ^ k) Ls Rs = .ok proof := by
  induction k with
  | zero =>
    intro fuel a b g h u P Ls Rs hf la lb lg lh
    obtain ⟨a0, rfl⟩ := List.length_eq_one_iff.1 la
    obtain ⟨b0, rfl⟩ := List.length_eq_one_iff.1 lb
    obtain ⟨g0, rfl⟩ := List.length_eq_one_iff.1 lg
    obtain ⟨h0, rfl⟩ := List.length_eq_one_iff.1 lh
    cases fuel with
    | zero => simp at hf
    | succ fuel =>
      simp only [computeBip, pow_zero, if_true, idx, List.getElem?_cons_zero,
        Res.ofOption_some, Res.ok_bind]
      exact ⟨_, rfl⟩
  | succ k ih =>
    intro fuel a b g h u P Ls Rs hf la lb lg lh
    have hpos := Nat.one_le_two_pow (n := k)
    have h2 : 2 ^ (k + 1) = 2 ^ k + 2 ^ k := by rw [pow_succ]; omega
    cases fuel with
    | zero => omega
    | succ fuel =>
      have hd : 2 ^ (k + 1) / 2 = 2 ^ k := by omega
      have lga : (g.take (2 ^ k)).length = (g.drop (2 ^ k)).length := by simp [lg]; omega
      have lha : (h.take (2 ^ k)).length = (h.drop (2 ^ k)).length := by simp [lh]; omega
      have laa : (a.take (2 ^ k)).length = (a.drop (2 ^ k)).length := by simp [la]; omega
      have lba : (b.take (2 ^ k)).length = (b.drop (2 ^ k)).length := by simp [lb]; omega
      have tk : ∀ {α : Type} (l : List α), l.length = 2 ^ (k + 1) → (l.take (2 ^ k)).length = 2 ^ k := by
        intro α l hl; rw [List.length_take]; omega
      have dp : ∀ {α : Type} (l : List α), l.length = 2 ^ (k + 1) → (l.drop (2 ^ k)).length = 2 ^ k := by
        intro α l hl; rw [List.length_drop]; omega
      obtain ⟨cL, hcL⟩ : ∃ c, scalarProduct (a.take (2 ^ k)) (b.drop (2 ^ k)) = some c :=
        ⟨_, scalarProduct_eq _ _ (by rw [tk a la, dp b lb])⟩
      obtain ⟨cR, hcR⟩ : ∃ c, scalarProduct (a.drop (2 ^ k)) (b.take (2 ^ k)) = some c :=
        ⟨_, scalarProduct_eq _ _ (by rw [dp a la, tk b lb])⟩
      obtain ⟨L, hL⟩ := vectorExp_some (E := E) (a := g.drop (2 ^ k)) (b := a.take (2 ^ k)) (by rw [dp g lg, tk a la])
      obtain ⟨Lh, hLh⟩ := vectorExp_some (E := E) (a := h.take (2 ^ k)) (b := b.drop (2 ^ k)) (by rw [tk h lh, dp b lb])
      obtain ⟨R, hR⟩ := vectorExp_some (E := E) (a := g.take (2 ^ k)) (b := a.drop (2 ^ k)) (by rw [tk g lg, dp a la])
      obtain ⟨Rh, hRh⟩ := vectorExp_some (E := E) (a := h.drop (2 ^ k)) (b := b.take (2 ^ k)) (by rw [dp h lh, tk b lb])
      rw [computeBip, if_neg (by omega)]
      simp only [hd]
      rw [sliceTo_ok (by omega), sliceFrom_ok (by omega), sliceTo_ok (by omega), sliceFrom_ok (by omega),
        sliceTo_ok (by omega), sliceFrom_ok (by omega), sliceTo_ok (by omega), sliceFrom_ok (by omega)]
      simp only [Res.ok_bind, hcL, hcR, hL, hLh, hR, hRh, Res.ofOption_some]
      set x := (hashBP E ((L.multiply E Lh).multiply E (u.scalarMult E cL))
        ((R.multiply E Rh).multiply E (u.scalarMult E cR))).1 with hx
      have hxd : ¬ ORDER ∣ x := hinv _
      obtain ⟨xinv, hxi⟩ := modInverse_order_exists hxd
      obtain ⟨x2inv, hx2⟩ := modInverse_order_exists (not_dvd_mul_self hxd)
      rw [hxi, hx2]
      simp only [Res.ofOption_some, Res.ok_bind]
      obtain ⟨pr, hpr⟩ := ih fuel _ _ _ _ u _ _ _ (by omega)
        ((foldScalars_length _ _ laa _ _).trans (tk a la))
        ((foldScalars_length _ _ lba _ _).trans (tk b lb))
        ((foldPoints_length _ _ lga _ _).trans (tk g lg))
        ((foldPoints_length _ _ lha _ _).trans (tk h lh))
      rw [hpr]
      exact ⟨_, rfl⟩

theorem hashIPLoop_returns (g h : List P256) (fuel i : Nat) (hg : i + fuel ≤ g.length)
    (hh : i + fuel ≤ h.length) : ∃ s, hashIPLoop g h fuel i = .ok s := by
  induction fuel generalizing i with
  | zero => exact ⟨[], rfl⟩
  | succ fuel ih =>
    obtain ⟨s, hs⟩ := ih (i + 1) (by omega) (by omega)
    rw [hashIPLoop, idx, idx, List.getElem?_eq_getElem (by omega), List.getElem?_eq_getElem (by omega), hs]
    exact ⟨_, rfl⟩

theorem hashIP_returns {E : Ext} (hE : E.Ok) (g h : List P256) (P : P256) (c n : Int)
    (hg : n.toNat ≤ g.length) (hh : n.toNat ≤ h.length) : ∃ x, hashIP E g h P c n = .ok (some x) := by
  obtain ⟨s, hs⟩ := hashIPLoop_returns g h n.toNat 0 (by omega) (by omega)
  rw [hashIP, hashIPInput, hs]
  simp only [Res.ok_bind]
  have hl := hE.sha_len (P.string ++ s ++ decimal (some c))
  cases hsh : E.sha256 (P.string ++ s ++ decimal (some c)) with
  | nil => rw [hsh] at hl; simp at hl
  | cons b bs => exact ⟨_, fromByteArray_cons b bs⟩

/-! ### Prover followed by verifier -/

theorem msm_castL_zsmul (a : List Int) (G : List Secp) :
    msm (castL a) G = (List.zipWith (fun (n : Int) Q => n • Q) a G).sum := by
  rw [msm, castL, List.zipWith_map_left]
  simp only [zmod_smul_intCast]

theorem Reps.length_eq {a : List P256} {Q : List Secp} (h : Reps a Q) : a.length = Q.length :=
  List.Forall₂.length_eq h

theorem proveInnerProduct_spec {E : Ext} (hE : E.Ok) {k : Nat} {a b : List Int} {P : P256}
    {params : IPParams} {proof : IPProof} {G H : List Secp} {U Q : Secp}
    (la : a.length = 2 ^ k) (lb : b.length = 2 ^ k) (lg : params.Gg.length = 2 ^ k)
    (lh : params.Hh.length = 2 ^ k) (hG : Reps params.Gg G) (hH : Reps params.Hh H)
    (hU : Rep params.Uu U) (hP : Rep P Q)
    (hp : proveInnerProduct E a b P params = .ok (some proof)) :
    ∃ x v P', hashIP E params.Gg params.Hh P params.Cc params.N = .ok (some x) ∧
      proof.Ls.length = k ∧ proof.Rs.length = k ∧ proof.N = ((2 ^ k : Nat) : Int) ∧
      proof.Params = { params with P := proof.Params.P } ∧
      Rep proof.Params.P (Q + ((x : Fn) * (params.Cc : Fn)) • U) ∧ proof.WellFormed ∧
      ipVerify E proof = .ok (v, P') ∧
      (v = true ↔ Q + ((x : Fn) * (params.Cc : Fn)) • U =
        msm (castL a) G + msm (castL b) H + ((x : Fn) * msm (castL a) (castL b)) • U) := by
  rw [proveInnerProduct, if_neg (by rw [la, lb]; simp)] at hp
  simp only [Res.bind_eq_ok, res_ofOption_ok, Res.ok.injEq, Option.some.injEq] at hp
  obtain ⟨x', hx, x, rfl, pr, hc, rfl⟩ := hp
  rw [la] at hc
  have hux := scalarMult_fn hE hU x
  have huxc := scalarMult_fn hE hux params.Cc
  have hPP := multiply_rep hE hP huxc
  obtain ⟨Ls', Rs', e1, e2, e3, e4, e5, e6, e7, e8, e9, e10⟩ := computeBip_spec hE _ k _ _ _ _ _ _ _ _ _ _ G H
    _ _ la lb lg lh hG hH hux hPP hc
  rw [List.nil_append] at e1 e2
  obtain ⟨g0, h0, P1, G0, H0, Q1, f1, f2, f3, f4, f5⟩ := e10 _ _ hPP
  have hr := multiply_rep hE (neg_in_place hE f4) (multiply_rep hE (multiply_rep hE
    (scalarMult_fn hE f2 pr.A) (scalarMult_fn hE f3 pr.B))
    (scalarMult_fn hE hux (pr.A * pr.B % ORDER)))
  have hsm : (params.Cc : Fn) • (x : Fn) • U = ((x : Fn) * (params.Cc : Fn)) • U := by
    rw [smul_smul, mul_comm]
  let nP := (P256.neg E P1 P1).multiply E (((g0.scalarMult E pr.A).multiply E (h0.scalarMult E pr.B)).multiply E
    ((params.Uu.scalarMult E x).scalarMult E (pr.A * pr.B % ORDER)))
  have hv : ipVerify E pr = .ok (nP.isZero, nP) := by
    simp only [ipVerify, e1, e2, e6, e7, f1, Res.ok_bind, idx, List.getElem?_cons_zero,
      Res.ofOption_some, e5, nP]
  refine ⟨x, _, _, hx, by rw [e1]; exact e3, by rw [e2]; exact e4, e6, by rw [e7], ?_, ?_, hv, ?_⟩
  · rw [e7, ← hsm]; exact hPP
  · constructor
    · rw [e1]; exact e8
    · rw [e2]; exact e9
    · rw [e5]; exact ⟨_, hux⟩
    · rw [e7]; exact hG.arePoints
    · rw [e7]; exact hH.arePoints
    · rw [e7]; exact ⟨_, hPP⟩
  · rw [hr.isZero_iff, neg_add_eq_zero, ← sub_eq_zero]
    have : ((pr.A * pr.B % ORDER : Int) : Fn) = (pr.A : Fn) * (pr.B : Fn) := by
      rw [fn_emod, Int.cast_mul]
    rw [this, f5, discrepancy, sub_eq_zero, hsm, smul_smul, mul_comm (msm (castL a) (castL b))]

theorem commitInnerProduct_spec {E : Ext} (hE : E.Ok) {g h : List P256} {G H : List Secp}
    (hG : Reps g G) (hH : Reps h H) {a b : List Int} {P : P256}
    (hP : commitInnerProduct E g h a b = .ok P) : Rep P (msm (castL a) G + msm (castL b) H) := by
  simp only [commitInnerProduct, Res.bind_eq_ok, res_ofOption_ok, Res.ok.injEq] at hP
  obtain ⟨ga, h1, hb, h2, rfl⟩ := hP
  exact multiply_rep hE (vectorExp_fn hE hG h1) (vectorExp_fn hE hH h2)

end Verif

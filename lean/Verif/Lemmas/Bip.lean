import Verif.Lemmas.GroupVec
import Verif.Lemmas.Msm
import Verif.Lemmas.Arith
import Verif.Model.Bip

/-! # The inner-product argument -/

namespace Verif

/-- The scalar field. -/
abbrev Fn := ZMod secpNn

/-- Residues of a list of integers. -/
def castL (a : List Int) : List Fn := List.map (Int.cast : Int → Fn) a

@[simp] theorem castL_length (a : List Int) : (castL a).length = a.length := by simp [castL]
@[simp] theorem castL_nil : castL [] = [] := rfl
@[simp] theorem castL_cons (x : Int) (a : List Int) : castL (x :: a) = (x : Fn) :: castL a := rfl
theorem castL_append (a b : List Int) : castL (a ++ b) = castL a ++ castL b := by simp [castL]
theorem castL_take (a : List Int) (k : Nat) : castL (a.take k) = (castL a).take k := by
  simp [castL, List.map_take]
theorem castL_drop (a : List Int) (k : Nat) : castL (a.drop k) = (castL a).drop k := by
  simp [castL, List.map_drop]

@[simp] theorem fn_emod (a : Int) : ((a % ORDER : Int) : Fn) = (a : Fn) := by
  rw [ORDER_eq]; exact ZMod.intCast_mod a secpNn

theorem fn_eq_zero (a : Int) : (a : Fn) = 0 ↔ ORDER ∣ a := by
  rw [ZMod.intCast_zmod_eq_zero_iff_dvd, ORDER_eq]

theorem modInverse_order {x r : Int} (h : modInverse x ORDER = some r) : (x : Fn) * (r : Fn) = 1 := by
  obtain ⟨h1, h2⟩ := modInverse_spec x ORDER (by decide)
  by_cases hg : Int.gcd x ORDER = 1
  · obtain ⟨r', hr, _, _, hd⟩ := h1 hg
    rw [h] at hr
    injection hr with hr
    subst hr
    rw [← fn_eq_zero] at hd
    push_cast at hd
    linear_combination hd
  · rw [h2 hg] at h; cases h

theorem modInverse_order_exists {x : Int} (h : ¬ ORDER ∣ x) : ∃ r, modInverse x ORDER = some r := by
  obtain ⟨h1, _⟩ := modInverse_spec x ORDER (by decide)
  have hg : Int.gcd x ORDER = 1 := by
    rw [← Int.isCoprime_iff_gcd_eq_one, isCoprime_comm]
    refine (Prime.coprime_iff_not_dvd ?_).2 h
    rw [ORDER_eq]; exact Nat.prime_iff_prime_int.1 Fact.out
  obtain ⟨r, hr, _⟩ := h1 hg
  exact ⟨r, hr⟩

theorem modInverse_order_none {x : Int} : modInverse x ORDER = none ↔ ORDER ∣ x := by
  constructor
  · intro h
    by_contra hc
    obtain ⟨r, hr⟩ := modInverse_order_exists hc
    rw [h] at hr; cases hr
  · intro h
    cases hm : modInverse x ORDER with
    | none => rfl
    | some r =>
      have := modInverse_order hm
      rw [(fn_eq_zero x).2 h, zero_mul] at this
      exact absurd this zero_ne_one

theorem scalarMult_fn {E : Ext} (hE : E.Ok) {a : P256} {Q : Secp} (ha : Rep a Q) (n : Int) :
    Rep (a.scalarMult E n) ((n : Fn) • Q) := by
  rw [zmod_smul_intCast]; exact scalarMult_rep hE ha n

theorem neg_in_place {E : Ext} (hE : E.Ok) {a : P256} {Q : Secp} (ha : Rep a Q) :
    Rep (P256.neg E a a) (-Q) := by
  rw [P256.neg]
  split
  · rename_i h; rw [(ha.isZero_iff).1 h, neg_zero]; exact rep_infinity
  · rw [← order_sub_one_smul]; exact scalarMult_rep hE ha _

theorem vectorExp_fn {E : Ext} (hE : E.Ok) {a : List P256} {Q : List Secp} (h : Reps a Q)
    {b : List Int} {r : P256} (hr : vectorExp E a b = some r) : Rep r (msm (castL b) Q) := by
  have hl : a.length = b.length := by
    by_contra hc
    rw [vectorExp, if_pos hc] at hr; cases hr
  obtain ⟨r', h1, h2⟩ := vectorExp_rep hE h b hl
  rw [hr] at h1
  injection h1 with h1
  subst h1
  convert h2 using 1
  rw [msm, castL, List.zipWith_map_left]
  simp only [zmod_smul_intCast]

theorem vectorExp_some {E : Ext} {a : List P256} {b : List Int} (h : a.length = b.length) :
    ∃ r, vectorExp E a b = some r := by
  rw [vectorExp, if_neg (by simpa using h)]; exact ⟨_, rfl⟩

theorem foldPoints_rep {E : Ext} (hE : E.Ok) {g₁ g₂ : List P256} {G₁ G₂ : List Secp}
    (h₁ : Reps g₁ G₁) (h₂ : Reps g₂ G₂) (hl : g₁.length = g₂.length) (x y : Int) :
    Reps ((vectorECAdd E (vectorScalarExp E g₁ x) (vectorScalarExp E g₂ y)).getD [])
      (lin (x : Fn) (y : Fn) G₁ G₂) := by
  obtain ⟨r, hr, hrep⟩ := vectorECAdd_rep hE (vectorScalarExp_rep hE h₁ x) (vectorScalarExp_rep hE h₂ y)
    (by simp [vectorScalarExp, hl])
  rw [hr, Option.getD_some]
  convert hrep using 1
  rw [lin, List.zipWith_map]
  simp only [zmod_smul_intCast]

theorem foldScalars_cast (a₁ a₂ : List Int) (hl : a₁.length = a₂.length) (x y : Int) :
    castL ((vectorAdd (vectorScalarMul a₁ x) (vectorScalarMul a₂ y)).getD []) =
      lin (x : Fn) (y : Fn) (castL a₁) (castL a₂) := by
  rw [vectorAdd, if_neg (by simp [vectorScalarMul, hl]), Option.getD_some]
  simp only [castL, vectorScalarMul, lin, List.map_zipWith, List.zipWith_map, fn_emod, Int.cast_add,
    Int.cast_mul, smul_eq_mul, mul_comm]

theorem foldScalars_length (a₁ a₂ : List Int) (hl : a₁.length = a₂.length) (x y : Int) :
    ((vectorAdd (vectorScalarMul a₁ x) (vectorScalarMul a₂ y)).getD []).length = a₁.length := by
  rw [vectorAdd, if_neg (by simp [vectorScalarMul, hl]), Option.getD_some]
  simp [vectorScalarMul, hl]

theorem foldPoints_length {E : Ext} (a₁ a₂ : List P256) (hl : a₁.length = a₂.length) (x y : Int) :
    ((vectorECAdd E (vectorScalarExp E a₁ x) (vectorScalarExp E a₂ y)).getD []).length = a₁.length := by
  rw [vectorECAdd, if_neg (by simp [vectorScalarExp, hl]), Option.getD_some]
  simp [vectorScalarExp, hl]

theorem msm_castL_dot (a b : List Int) : msm (castL a) (castL b) = ((Spec.dot a b : Int) : Fn) := by
  induction a generalizing b with
  | nil => cases b <;> simp [Spec.dot]
  | cons x a ih => cases b with
    | nil => simp [Spec.dot]
    | cons y b => simp [dot_cons, ih]

theorem scalarProduct_cast {a b : List Int} {c : Int} (h : scalarProduct a b = some c) :
    (c : Fn) = msm (castL a) (castL b) := by
  by_cases hl : a.length = b.length
  · rw [scalarProduct_eq a b hl] at h
    injection h with h
    rw [← h, fn_emod, msm_castL_dot]
  · rw [scalarProduct, if_pos hl] at h; cases h

theorem sliceTo_ok {α : Type} {s : List α} {n : Nat} (h : n ≤ s.length) :
    sliceTo s n = .ok (s.take n) := by
  rw [sliceTo, if_neg (by omega)]; simp

theorem sliceFrom_ok {α : Type} {s : List α} {n : Nat} (h : n ≤ s.length) :
    sliceFrom s n = .ok (s.drop n) := by
  rw [sliceFrom, if_neg (by omega)]; simp

theorem Reps.take {a : List P256} {Q : List Secp} (h : Reps a Q) (k : Nat) :
    Reps (a.take k) (Q.take k) := List.forall₂_take k h

theorem Reps.drop {a : List P256} {Q : List Secp} (h : Reps a Q) (k : Nat) :
    Reps (a.drop k) (Q.drop k) := List.forall₂_drop k h

theorem res_ofOption_ok {α : Type} {o : Option α} {a : α} : Res.ofOption o = .ok a ↔ o = some a := by
  cases o <;> simp [Res.ofOption]

/-- Any run of the prover's recursion on vectors of length `2^k`, followed by the verifier's
loop from a point `Q'`: the loop ends in single generators, and the final discrepancy is the
initial one. -/
theorem computeBip_spec {E : Ext} (hE : E.Ok) (params : IPParams) (k : Nat) :
    ∀ (fuel : Nat) (a b : List Int) (g h : List P256) (u P : P256) (Ls Rs : List P256) (proof : IPProof)
      (G H : List Secp) (U : Secp) (Q : Secp),
      a.length = 2 ^ k → b.length = 2 ^ k → g.length = 2 ^ k → h.length = 2 ^ k →
      Reps g G → Reps h H → Rep u U → Rep P Q →
      computeBip E params fuel a b g h u P (2 ^ k) Ls Rs = .ok proof →
      ∃ Ls' Rs', proof.Ls = Ls ++ Ls' ∧ proof.Rs = Rs ++ Rs' ∧ Ls'.length = k ∧ Rs'.length = k ∧
        proof.U = u ∧ proof.N = ((2 ^ k : Nat) : Int) ∧ proof.Params = params ∧
        (∀ L ∈ Ls', ∃ X, Rep L X) ∧ (∀ L ∈ Rs', ∃ X, Rep L X) ∧
        ∀ (P' : P256) (Q' : Secp), Rep P' Q' → ∃ g0 h0 P1 G0 H0 Q1,
          ipVerifyLoop E Ls' Rs' g h P' ((2 ^ k : Nat) : Int) = .ok ([g0], [h0], P1) ∧
          Rep g0 G0 ∧ Rep h0 H0 ∧ Rep P1 Q1 ∧
          Q1 - ((proof.A : Fn) • G0 + (proof.B : Fn) • H0 + ((proof.A : Fn) * (proof.B : Fn)) • U) =
            discrepancy (castL a) (castL b) G H U Q' := by
  induction k with
  | zero =>
    intro fuel a b g h u P Ls Rs proof G H U Q la lb lg lh hg hh hu hP hc
    obtain ⟨a0, rfl⟩ := List.length_eq_one_iff.1 la
    obtain ⟨b0, rfl⟩ := List.length_eq_one_iff.1 lb
    obtain ⟨g0, rfl⟩ := List.length_eq_one_iff.1 lg
    obtain ⟨h0, rfl⟩ := List.length_eq_one_iff.1 lh
    cases fuel with
    | zero => simp [computeBip] at hc
    | succ fuel =>
      simp only [computeBip, pow_zero, if_true, idx, List.getElem?_cons_zero, Res.ofOption_some,
        Res.ok_bind, Res.ok.injEq] at hc
      subst hc
      refine ⟨[], [], by simp, by simp, rfl, rfl, rfl, rfl, rfl, by simp, by simp, ?_⟩
      intro P' Q' hP'
      cases hg with | cons hg hg' => cases hg'; cases hh with | cons hh hh' =>
        cases hh'
        refine ⟨g0, h0, P', _, _, Q', rfl, hg, hh, hP', ?_⟩
        simp [discrepancy]
  | succ k ih =>
    intro fuel a b g h u P Ls Rs proof G H U Q la lb lg lh hg hh hu hP hc
    cases fuel with
    | zero => simp [computeBip] at hc
    | succ fuel =>
      have h2 : 2 ^ (k + 1) / 2 = 2 ^ k := by rw [pow_succ]; omega
      have hle : 2 ^ k ≤ 2 ^ (k + 1) := by rw [pow_succ]; omega
      have hne : ¬ 2 ^ (k + 1) = 1 := by
        have := Nat.one_le_two_pow (n := k)
        rw [pow_succ]; omega
      have hm : 2 ^ (k + 1) - 2 ^ k = 2 ^ k := by rw [pow_succ]; omega
      rw [computeBip, if_neg hne] at hc
      simp only [h2] at hc
      rw [sliceTo_ok (by omega), sliceFrom_ok (by omega), sliceTo_ok (by omega), sliceFrom_ok (by omega),
        sliceTo_ok (by omega), sliceFrom_ok (by omega), sliceTo_ok (by omega), sliceFrom_ok (by omega)] at hc
      simp only [Res.ok_bind, Res.bind_eq_ok, res_ofOption_ok, Res.ok.injEq] at hc
      obtain ⟨cL, hcL, cR, hcR, L, hL, Lh, hLh, R, hR, Rh, hRh, xinv, hxinv, x2inv, hx2inv, pr, hpr, rfl⟩ := hc
      set L' := (L.multiply E Lh).multiply E (u.scalarMult E cL) with hL'
      set R' := (R.multiply E Rh).multiply E (u.scalarMult E cR) with hR'
      set x := (hashBP E L' R').1 with hx
      have lG : G.length = 2 ^ (k + 1) := by rw [← hg.length_eq, lg]
      have lH : H.length = 2 ^ (k + 1) := by rw [← hh.length_eq, lh]
      have repL : Rep L' (msm (castL (a.take (2 ^ k))) (G.drop (2 ^ k)) + msm (castL (b.drop (2 ^ k))) (H.take (2 ^ k))
          + (msm (castL (a.take (2 ^ k))) (castL (b.drop (2 ^ k)))) • U) := by
        rw [← scalarProduct_cast hcL]
        exact multiply_rep hE (multiply_rep hE (vectorExp_fn hE (hg.drop _) hL)
          (vectorExp_fn hE (hh.take _) hLh)) (scalarMult_fn hE hu cL)
      have repR : Rep R' (msm (castL (a.drop (2 ^ k))) (G.take (2 ^ k)) + msm (castL (b.take (2 ^ k))) (H.drop (2 ^ k))
          + (msm (castL (a.drop (2 ^ k))) (castL (b.take (2 ^ k)))) • U) := by
        rw [← scalarProduct_cast hcR]
        exact multiply_rep hE (multiply_rep hE (vectorExp_fn hE (hg.take _) hR)
          (vectorExp_fn hE (hh.drop _) hRh)) (scalarMult_fn hE hu cR)
      have hxi := modInverse_order hxinv
      have hx2 := modInverse_order hx2inv
      rw [fn_emod, Int.cast_mul] at hx2
      have hx2' : (x2inv : Fn) = (xinv : Fn) * (xinv : Fn) := by
        linear_combination (-(x2inv : Fn)) * (x * xinv + 1) * hxi + ((xinv : Fn) * xinv) * hx2
      have lga : (g.take (2 ^ k)).length = (g.drop (2 ^ k)).length := by simp [lg]; omega
      have lha : (h.take (2 ^ k)).length = (h.drop (2 ^ k)).length := by simp [lh]; omega
      have laa : (a.take (2 ^ k)).length = (a.drop (2 ^ k)).length := by simp [la]; omega
      have lba : (b.take (2 ^ k)).length = (b.drop (2 ^ k)).length := by simp [lb]; omega
      have repg := foldPoints_rep hE (hg.take (2 ^ k)) (hg.drop (2 ^ k)) lga xinv x
      have reph := foldPoints_rep hE (hh.take (2 ^ k)) (hh.drop (2 ^ k)) lha x xinv
      have repP' : ∃ Q₀, Rep (((L'.scalarMult E (x * x % ORDER)).multiply E P).multiply E
          (R'.scalarMult E x2inv)) Q₀ :=
        ⟨_, multiply_rep hE (multiply_rep hE (scalarMult_fn hE repL _) hP) (scalarMult_fn hE repR _)⟩
      obtain ⟨Q₀, hQ₀⟩ := repP'
      obtain ⟨Ls', Rs', e1, e2, e3, e4, e5, e6, e7, e8, e9, hv⟩ := ih fuel _ _ _ _ u _ _ _ pr _ _ U _
        (by rw [foldScalars_length _ _ laa]; simp [la]; omega)
        (by rw [foldScalars_length _ _ lba]; simp [lb]; omega)
        (by rw [foldPoints_length _ _ lga]; simp [lg]; omega)
        (by rw [foldPoints_length _ _ lha]; simp [lh]; omega)
        repg reph hu hQ₀ hpr
      refine ⟨L' :: Ls', R' :: Rs', by simp [e1], by simp [e2], by simp [e3], by simp [e4], e5, rfl, e7,
        ?_, ?_, ?_⟩
      · intro p hp
        rcases List.mem_cons.1 hp with rfl | hp
        · exact ⟨_, repL⟩
        · exact e8 p hp
      · intro p hp
        rcases List.mem_cons.1 hp with rfl | hp
        · exact ⟨_, repR⟩
        · exact e9 p hp
      intro P' Q' hP'
      obtain ⟨g0, h0, P1, G0, H0, Q1, hloop, hg0, hh0, hP1, hd⟩ := hv _ _
        (multiply_rep hE (multiply_rep hE hP' (scalarMult_fn hE repL (x * x % ORDER)))
          (scalarMult_fn hE repR x2inv))
      refine ⟨g0, h0, P1, G0, H0, Q1, ?_, hg0, hh0, hP1, ?_⟩
      · rw [ipVerifyLoop]
        have ht : (((2 ^ (k + 1) : Nat) : Int)).tdiv 2 = ((2 ^ k : Nat) : Int) := by
          rw [pow_succ]; push_cast
          rw [Int.mul_tdiv_cancel _ (by decide)]
        simp only [ht]
        rw [← hx, hxinv, hx2inv, sliceTo_ok (by omega), sliceFrom_ok (by omega), sliceTo_ok (by omega),
          sliceFrom_ok (by omega)]
        simpa only [Res.ok_bind, Res.ofOption_some] using hloop
      · show Q1 - ((pr.A : Fn) • G0 + (pr.B : Fn) • H0 + ((pr.A : Fn) * (pr.B : Fn)) • U) = _
        rw [hd, foldScalars_cast _ _ laa, foldScalars_cast _ _ lba, fn_emod, Int.cast_mul, hx2']
        rw [discrepancy_fold (x : Fn) (xinv : Fn) hxi _ _ _ _ _ _ _ _ U Q' (2 ^ k)
          (by simp [la]; omega) (by simp [la]; omega) (by simp [lb]; omega) (by simp [lb]; omega)
          (by simp [lG]; omega) (by simp [lG]; omega) (by simp [lH]; omega) (by simp [lH]; omega)]
        rw [← castL_append, ← castL_append, List.take_append_drop, List.take_append_drop,
          List.take_append_drop, List.take_append_drop]

end Verif

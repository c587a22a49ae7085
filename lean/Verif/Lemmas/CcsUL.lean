import Verif.Lemmas.Ccs
import Verif.Props.Bytes

/-! # Lemmas for the loops of `ProveUL` and `VerifyUL` -/

namespace Verif

open Spec

/-- `f i · u^i, …, f (i+n-1) · u^(i+n-1)`. -/
def wts (u : Int) (f : Nat → Int) : Nat → Nat → List Int
  | _, 0 => []
  | i, n + 1 => f i * u ^ i :: wts u f (i + 1) n

theorem addSelf_exp2_emod {a : TwistPoint} {k e : Int} (ha : Rep2 a (k • bnG2))
    (h : k ≡ 0 [ZMOD bnOrder] ∨ ¬ k ≡ e [ZMOD bnOrder]) :
    Rep2 (a.addSelf (G2.scalarBaseMult (e % bnOrder))) ((k + e) • bnG2) :=
  addSelf_exp2 ha (rep2_congr (Int.mod_modEq e bnOrder) (C36_scalarBaseMult _ (emod_order_nonneg e))) h

theorem proveULLoop_spec (p : ParamsUL) (sk : Int) (v s t : Nat → Int) (hv : ∀ j, 0 ≤ v j)
    (hs : ∀ j, 0 ≤ s j) (ht : ∀ j, 0 ≤ t j) :
    ∀ (ds : List Int) (i : Nat) (D : TwistPoint) (k : Int), Rep2 D (k • bnG2) →
      (∀ d ∈ ds, ∃ o, p.signatures.lookup d = some o ∧ SigOk sk d o) →
      NoClash k (wts p.u s i ds.length) →
      ∃ D' Vs as, proveULLoop p v s t i ds D = .ok (some (D', Vs, as)) ∧
        Rep2 D' ((k + (wts p.u s i ds.length).sum) • bnG2) ∧
        Vs.length = ds.length ∧ as.length = ds.length ∧
        ∀ (j : Nat) (d : Int), ds[j]? = some d → ∃ (e : Int) (V : TwistPoint) (a : GfP12), Vs[j]? = some V ∧ as[j]? = some a ∧
          e * (d + sk) ≡ 1 [ZMOD bnOrder] ∧ Rep2 V ((e * v (i + j)) • bnG2) ∧
          (PairOk V → GExp a (t (i + j) - e * v (i + j) * s (i + j)))
  | [], i, D, k, hD, _, _ => ⟨D, [], [], rfl, by simpa [wts] using hD, rfl, rfl, by simp⟩
  | d :: ds, i, D, k, hD, hsig, hn => by
    obtain ⟨o, ho, sig, e, rfl, hr, hok, he⟩ := hsig d List.mem_cons_self
    obtain ⟨hn1, hn2⟩ := hn
    obtain ⟨D', Vs, as, h1, h2, h3, h4, h5⟩ := proveULLoop_spec p sk v s t hv hs ht ds (i + 1) _ _
      (addSelf_exp2_emod hD hn1) (fun d' hd => hsig d' (List.mem_cons_of_mem _ hd)) hn2
    have hV := scalarMult_exp2 hr (v i) (hv i)
    refine ⟨D', G2.scalarMult sig (v i) :: Vs, ccsA (G2.scalarMult sig (v i)) (s i) (t i) :: as, ?_, ?_,
      by simp [h3], by simp [h4], ?_⟩
    · rw [proveULLoop, ho]
      simp only [Res.ofOption_some, Res.ok_bind, h1]
    · rw [List.length_cons, wts, List.sum_cons, ← add_assoc]; exact h2
    · intro j d' hj
      cases j with
      | zero =>
        obtain rfl : d = d' := by simpa using hj
        exact ⟨e, _, _, rfl, rfl, he, hV, fun hok => ccsA_exp hV hok (hs i) (ht i)⟩
      | succ j =>
        obtain ⟨e', V, a, g1, g2, g3, g4, g5⟩ := h5 j d' (by simpa using hj)
        have ej : i + 1 + j = i + (j + 1) := by omega
        rw [ej] at g4 g5
        exact ⟨e', V, a, by simpa using g1, by simpa using g2, g3, g4, g5⟩

theorem verifyULD_spec (u : Int) (zs : List Int) (z : Nat → Int) :
    ∀ (n i : Nat) (D : TwistPoint) (k : Int), Rep2 D (k • bnG2) →
      (∀ j, i ≤ j → j < i + n → zs[j]? = some (z j)) → NoClash k (wts u z i n) →
      ∃ D', verifyULD u zs n i D = .ok D' ∧ Rep2 D' ((k + (wts u z i n).sum) • bnG2)
  | 0, i, D, k, hD, _, _ => ⟨D, rfl, by simpa [wts] using hD⟩
  | n + 1, i, D, k, hD, hz, hn => by
    obtain ⟨hn1, hn2⟩ := hn
    obtain ⟨D', h1, h2⟩ := verifyULD_spec u zs z n (i + 1) _ _ (addSelf_exp2_emod hD hn1)
      (fun j h1 h2 => hz j (by omega) (by omega)) hn2
    refine ⟨D', ?_, by rw [wts, List.sum_cons, ← add_assoc]; exact h2⟩
    rw [verifyULD]
    simp only [idx, hz i (le_refl i) (by omega), Res.ofOption_some, Res.ok_bind, h1]

/-- The points `(zᵢ uⁱ mod Order)·g₂` added by the first loop of `VerifyUL`. -/
def ulPoints (u : Int) (z : Nat → Int) (i n : Nat) : List TwistPoint :=
  (wts u z i n).map fun k => G2.scalarBaseMult (k % bnOrder)

theorem verifyULD_foldl (u : Int) (zs : List Int) (z : Nat → Int) :
    ∀ (n i : Nat) (D : TwistPoint), (∀ j, i ≤ j → j < i + n → zs[j]? = some (z j)) →
      verifyULD u zs n i D = .ok ((ulPoints u z i n).foldl TwistPoint.addSelf D)
  | 0, _, _, _ => rfl
  | n + 1, i, D, hz => by
    rw [verifyULD]
    simp only [idx, hz i (le_refl i) (by omega), Res.ofOption_some, Res.ok_bind]
    rw [verifyULD_foldl u zs z n (i + 1) _ (fun j h1 h2 => hz j (by omega) (by omega))]
    rfl

theorem verifyULA_total (pk : CurvePoint) (pr : ProofUL) : ∀ (n i : Nat) (r2 : Bool),
    (∀ j, i ≤ j → j < i + n → ∃ V a z w, pr.V[j]? = some V ∧ pr.a[j]? = some a ∧ pr.zsig[j]? = some z ∧
      pr.zv[j]? = some w) → ∃ b as, verifyULA (some pk) pr n i r2 = .ok (b, as)
  | 0, _, r2, _ => ⟨r2, [], rfl⟩
  | n + 1, i, r2, h => by
    obtain ⟨V, a, z, w, h1, h2, h3, h4⟩ := h i (le_refl i) (by omega)
    obtain ⟨b, as, g⟩ := verifyULA_total pk pr n (i + 1)
      (r2 && (GT.marshal (ccsRhs pk V pr.c z w)).1 == (GT.marshal a).1) (fun j h1 h2 => h j (by omega) (by omega))
    refine ⟨b, (GT.marshal a).2 :: as, ?_⟩
    rw [verifyULA]
    simp only [idx, h1, h2, h3, h4, Res.ofOption_some, Res.ok_bind, g]

theorem verifyULA_spec (pk : CurvePoint) (pr : ProofUL) (sk : Int) (v z w α : Nat → Int)
    (hy : Rep1 pk (sk • bnG1)) (hc : 0 ≤ pr.c) :
    ∀ (n i : Nat) (r2 : Bool),
      (∀ j, i ≤ j → j < i + n → ∃ V a, pr.V[j]? = some V ∧ pr.a[j]? = some a ∧ pr.zsig[j]? = some (z j) ∧
        pr.zv[j]? = some (w j) ∧ 0 ≤ z j ∧ 0 ≤ w j ∧ Rep2 V (v j • bnG2) ∧ PairOk V ∧ GExp a (α j)) →
      ∃ b as, verifyULA (some pk) pr n i r2 = .ok (b, as) ∧
        (b = true ↔ r2 = true ∧ ∀ j, i ≤ j → j < i + n →
          sk * v j * pr.c - v j * z j + w j ≡ α j [ZMOD bnOrder])
  | 0, i, r2, _ => ⟨r2, [], rfl, by
      constructor
      · exact fun h => ⟨h, fun j h1 h2 => absurd h2 (by omega)⟩
      · exact fun h => h.1⟩
  | n + 1, i, r2, h => by
    obtain ⟨V, a, h1, h2, h3, h4, h5, h6, h7, h8, h9⟩ := h i (le_refl i) (by omega)
    obtain ⟨b, as, g1, g2⟩ := verifyULA_spec pk pr sk v z w α hy hc n (i + 1)
      (r2 && (GT.marshal (ccsRhs pk V pr.c (z i) (w i))).1 == (GT.marshal a).1)
      (fun j h1 h2 => h j (by omega) (by omega))
    refine ⟨b, (GT.marshal a).2 :: as, ?_, g2.trans ?_⟩
    · rw [verifyULA]
      simp only [idx, h1, h2, h3, h4, Res.ofOption_some, Res.ok_bind, g1]
    · rw [Bool.and_eq_true, beq_iff_eq, (ccsRhs_exp hy h7 h8 hc h5 h6).marshal_eq h9, and_assoc]
      refine and_congr_right fun _ => ⟨fun hh j hj1 hj2 => ?_, fun hh => ⟨hh i (le_refl i) (by omega), fun j hj1 hj2 => hh j (by omega) (by omega)⟩⟩
      rcases Nat.eq_or_lt_of_le hj1 with e | e
      · exact e ▸ hh.1
      · exact hh.2 j e (by omega)

theorem wts_congr (u : Int) {f g : Nat → Int} {c : Int} {d : Nat → Int} :
    ∀ (n i : Nat), (∀ j, i ≤ j → j < i + n → g j ≡ f j - d j * c [ZMOD bnOrder]) →
      (wts u g i n).sum ≡ (wts u f i n).sum - c * (wts u d i n).sum [ZMOD bnOrder]
  | 0, i, _ => by simp [wts]
  | n + 1, i, h => by
    have h1 := wts_congr u n (i + 1) (fun j h1 h2 => h j (by omega) (by omega))
    have h2 := ((h i (le_refl i) (by omega)).mul_right (u ^ i)).add h1
    simp only [wts, List.sum_cons]
    refine h2.trans ?_
    ring_nf
    rfl

theorem wts_weighted (u : Int) : ∀ (ds : List Int) (i : Nat) (d : Nat → Int),
    (∀ j, j < ds.length → ds[j]? = some (d (i + j))) →
    (wts u d i ds.length).sum = u ^ i * weighted u ds
  | [], i, d, _ => by simp [wts, weighted]
  | a :: ds, i, d, h => by
    have h0 : a = d i := by simpa using h 0 (by simp)
    have h1 := wts_weighted u ds (i + 1) d (fun j hj => by
      have := h (j + 1) (by simpa using hj)
      rw [show i + 1 + j = i + (j + 1) by omega]
      simpa using this)
    rw [List.length_cons, wts, List.sum_cons, h1, weighted, h0]
    ring

end Verif

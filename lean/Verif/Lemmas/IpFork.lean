import Verif.Lemmas.BipPanic
import Verif.Lemmas.IpExtract

/-! # The inner-product verifier decides the equation of a transcript -/

namespace Verif
open Spec

open Classical in
/-- The point represented by a value of type `P256`. -/
noncomputable def valOf (p : P256) : Secp := if h : IsPoint p then h.choose else 0

theorem rep_valOf {p : P256} (h : IsPoint p) : Rep p (valOf p) := by
  rw [valOf, dif_pos h]; exact h.choose_spec

theorem valOf_eq {p : P256} {Q : Secp} (h : Rep p Q) : valOf p = Q := (rep_valOf ⟨Q, h⟩).unique h

/-- The points of a list of values. -/
noncomputable def valsOf (l : List P256) (i : Nat) : Secp := valOf (l.getD i P256.infinity)

theorem valsOf_fold {E : Ext} (hE : E.Ok) {g : List P256} (hg : ArePoints g) {m : Nat} (hl : g.length = 2 * m) (x y : Int) :
    ∀ i < m, valsOf ((vectorECAdd E (vectorScalarExp E (g.take m) x) (vectorScalarExp E (g.drop m) y)).getD []) i =
      fold m (x : Fn) (y : Fn) (valsOf g) i := by
  intro i hi
  obtain ⟨G, hG⟩ := hg.reps
  have hlG : G.length = 2 * m := hG.length_eq ▸ hl
  have hr := foldPoints_rep hE (List.forall₂_take m hG) (List.forall₂_drop m hG) (by simp [hl]; omega) x y
  have get : ∀ {a : List P256} {Q : List Secp}, Reps a Q → ∀ i, (h : i < Q.length) → valsOf a i = Q[i] := by
    intro a Q h i hi
    have hi' : i < a.length := h.length_eq ▸ hi
    rw [valsOf, List.getD_eq_getElem?_getD, List.getElem?_eq_getElem hi', Option.getD_some]
    exact valOf_eq ((List.forall₂_iff_get.1 h).2 i hi' hi)
  rw [get hr i (by simp [hlG]; omega), fold, get hG i (by omega), get hG (i + m) (by omega)]
  simp [lin, add_comm m i]

/-- The loop computes the folded state. -/
theorem ipVerifyLoop_accepts {E : Ext} (hE : E.Ok) (r : List (P256 × P256 × Fn)) :
    ∀ (g h : List P256) (P : P256) (n : Int), (∀ q ∈ r, IsPoint q.1 ∧ IsPoint q.2.1) →
      (∀ q ∈ r, ((hashBP E q.1 q.2.1).1 : Fn) = q.2.2 ∧ q.2.2 ≠ 0) → ArePoints g → ArePoints h → IsPoint P →
      g.length = 2 ^ r.length → h.length = 2 ^ r.length → (r ≠ [] → n.tdiv 2 = ((2 ^ (r.length - 1) : Nat) : Int)) →
      ∃ g0 h0 P1, ipVerifyLoop E (r.map (·.1)) (r.map (·.2.1)) g h P n = .ok ([g0], [h0], P1) ∧
        IsPoint g0 ∧ IsPoint h0 ∧ IsPoint P1 ∧
        ∀ (u : Secp) (a b : Fn), Accepts (r.map fun q => (valOf q.1, valOf q.2.1, q.2.2)) (valsOf g) (valsOf h) u (valOf P) a b ↔
          valOf P1 = a • valOf g0 + b • valOf h0 + (a * b) • u := by
  induction r with
  | nil =>
    intro g h P n _ _ pg ph pP lg lh _
    obtain ⟨g0, rfl⟩ := List.length_eq_one_iff.1 lg
    obtain ⟨h0, rfl⟩ := List.length_eq_one_iff.1 lh
    exact ⟨g0, h0, P, rfl, pg _ List.mem_cons_self, ph _ List.mem_cons_self, pP, fun u a b => Iff.rfl⟩
  | cons q r ih =>
    intro g h P n hpt hch pg ph pP lg lh hn
    obtain ⟨L, R, x⟩ := q
    obtain ⟨hL, hR⟩ := hpt (L, R, x) List.mem_cons_self
    obtain ⟨hx, hx0⟩ := hch (L, R, x) List.mem_cons_self
    have hn' : n.tdiv 2 = ((2 ^ r.length : Nat) : Int) := hn (by simp)
    set m := 2 ^ r.length with hm
    rw [List.length_cons, pow_succ, mul_comm] at lg lh
    simp only at hL hR hx hx0
    obtain ⟨xinv, hxi⟩ := modInverse_order_exists (x := (hashBP E L R).1)
      (fun hd => hx0 (by rw [← hx]; exact (fn_eq_zero _).2 hd))
    obtain ⟨x2inv, hx2⟩ := modInverse_order_exists (x := (hashBP E L R).1 * (hashBP E L R).1 % ORDER)
      (fun hd => by
        have := (fn_eq_zero _).2 hd
        rw [fn_emod, Int.cast_mul, hx, mul_self_eq_zero] at this
        exact hx0 this)
    have exi : (xinv : Fn) = x⁻¹ := by
      have := modInverse_order hxi
      rw [hx] at this
      exact (eq_inv_of_mul_eq_one_right this)
    have ex2 : (((hashBP E L R).1 * (hashBP E L R).1 % ORDER : Int) : Fn) = x ^ 2 := by
      rw [fn_emod, Int.cast_mul, hx, sq]
    have ex2i : (x2inv : Fn) = (x ^ 2)⁻¹ := by
      have := modInverse_order hx2
      rw [ex2] at this
      exact (eq_inv_of_mul_eq_one_right this)
    have sTo : ∀ {l : List P256}, l.length = 2 * m → sliceTo l (n.tdiv 2) = .ok (l.take m) := by
      intro l hl
      rw [hn', sliceTo, if_neg (by omega)]; rfl
    have frm : ∀ {l : List P256}, l.length = 2 * m → sliceFrom l (n.tdiv 2) = .ok (l.drop m) := by
      intro l hl
      rw [hn', sliceFrom, if_neg (by omega)]; rfl
    have half : ∀ {l : List P256}, l.length = 2 * m → (l.take m).length = (l.drop m).length := by
      intro l hl; simp [hl]; omega
    have rP := multiply_rep hE (multiply_rep hE (rep_valOf pP)
      (scalarMult_fn hE (rep_valOf hL) ((hashBP E L R).1 * (hashBP E L R).1 % ORDER))) (scalarMult_fn hE (rep_valOf hR) x2inv)
    rw [ex2, ex2i] at rP
    obtain ⟨g0, h0, P1, e1, i1, i2, i3, e2⟩ := ih
      ((vectorECAdd E (vectorScalarExp E (g.take m) xinv) (vectorScalarExp E (g.drop m) (hashBP E L R).1)).getD [])
      ((vectorECAdd E (vectorScalarExp E (h.take m) (hashBP E L R).1) (vectorScalarExp E (h.drop m) xinv)).getD [])
      _ (n.tdiv 2)
      (fun q hq => hpt q (List.mem_cons_of_mem _ hq)) (fun q hq => hch q (List.mem_cons_of_mem _ hq))
      (arePoints_fold hE (arePoints_take pg _) (arePoints_drop pg _) _ _)
      (arePoints_fold hE (arePoints_take ph _) (arePoints_drop ph _) _ _)
      ⟨_, rP⟩
      (by rw [foldPoints_length _ _ (half lg), List.length_take, lg]; omega)
      (by rw [foldPoints_length _ _ (half lh), List.length_take, lh]; omega)
      (by
        intro hr
        obtain ⟨j, hj⟩ := Nat.exists_eq_add_one_of_ne_zero (fun h0 => hr (List.length_eq_zero_iff.1 h0))
        rw [hn', hm, hj, pow_succ, mul_comm, tdiv_two, Nat.add_sub_cancel])
    refine ⟨g0, h0, P1, ?_, i1, i2, i3, fun u a b => ?_⟩
    · simp only [List.map_cons, ipVerifyLoop, hxi, hx2, sTo lg, frm lg, sTo lh, frm lh, Res.ok_bind, Res.ofOption_some]
      exact e1
    · rw [← e2 u a b, List.map_cons, Accepts, and_iff_right hx0, List.length_map, valOf_eq rP]
      refine Accepts.congr _ ?_ ?_
      · intro i hi
        rw [List.length_map] at hi
        rw [valsOf_fold hE pg lg xinv _ i hi, exi, hx]
      · intro i hi
        rw [List.length_map] at hi
        rw [valsOf_fold hE ph lh _ xinv i hi, exi, hx]

/-- The verdict is the equation of the transcript. -/
theorem ipVerify_accepts {E : Ext} (hE : E.Ok) {proof : IPProof} {k : Nat} {r : List (P256 × P256 × Fn)} (hw : proof.WellFormed)
    (hL : proof.Ls = r.map (·.1)) (hR : proof.Rs = r.map (·.2.1))
    (hch : ∀ q ∈ r, ((hashBP E q.1 q.2.1).1 : Fn) = q.2.2) (hr : r.length = k)
    (lg : proof.Params.Gg.length = 2 ^ k) (lh : proof.Params.Hh.length = 2 ^ k) :
    (∃ P', ipVerify E proof = .ok (true, P')) ↔ (1 ≤ k → proof.N.tdiv 2 = ((2 ^ (k - 1) : Nat) : Int)) ∧
      Accepts (r.map fun q => (valOf q.1, valOf q.2.1, q.2.2)) (valsOf proof.Params.Gg) (valsOf proof.Params.Hh)
        (valOf proof.U) (valOf proof.Params.P) (proof.A : Fn) (proof.B : Fn) := by
  have nz_of_acc : ∀ (r : List (P256 × P256 × Fn)) {g h : Nat → Secp} {u P : Secp} {a b : Fn},
      Accepts (r.map fun q => (valOf q.1, valOf q.2.1, q.2.2)) g h u P a b → ∀ q ∈ r, q.2.2 ≠ 0 := by
    intro r
    induction r with
    | nil => intro g h u P a b _ q hq; cases hq
    | cons q r ih =>
      intro g h u P a b ha q' hq'
      rw [List.map_cons, Accepts] at ha
      rcases List.mem_cons.1 hq' with rfl | hq'
      · exact ha.1
      · exact ih ha.2 q' hq'
  have hpt : ∀ q ∈ r, IsPoint q.1 ∧ IsPoint q.2.1 := by
    intro q hq
    exact ⟨hw.Ls _ (hL ▸ List.mem_map_of_mem hq), hw.Rs _ (hR ▸ List.mem_map_of_mem hq)⟩
  have main : (∀ q ∈ r, q.2.2 ≠ 0) → (1 ≤ k → proof.N.tdiv 2 = ((2 ^ (k - 1) : Nat) : Int)) →
      ((∃ P', ipVerify E proof = .ok (true, P')) ↔
        Accepts (r.map fun q => (valOf q.1, valOf q.2.1, q.2.2)) (valsOf proof.Params.Gg) (valsOf proof.Params.Hh)
        (valOf proof.U) (valOf proof.Params.P) (proof.A : Fn) (proof.B : Fn)) := by
    intro hnz hn
    obtain ⟨g0, h0, P1, e1, i1, i2, i3, e2⟩ := ipVerifyLoop_accepts hE r proof.Params.Gg proof.Params.Hh proof.Params.P proof.N
      hpt (fun q hq => ⟨hch q hq, hnz q hq⟩) hw.Gg hw.Hh hw.P (by rw [hr, lg]) (by rw [hr, lh])
      (fun hne => by rw [hr]; exact hn (hr ▸ List.length_pos_iff.2 hne))
    rw [e2]
    rw [ipVerify, hL, hR, e1]
    simp only [Res.ok_bind, idx, List.getElem?_cons_zero, Res.ofOption_some, Res.ok.injEq, Prod.mk.injEq, exists_eq_right']
    have hr' := multiply_rep hE (neg_in_place hE (rep_valOf i3)) (multiply_rep hE (multiply_rep hE
        (scalarMult_fn hE (rep_valOf i1) proof.A) (scalarMult_fn hE (rep_valOf i2) proof.B))
        (scalarMult_fn hE (rep_valOf hw.U) (proof.A * proof.B % ORDER)))
    rw [hr'.isZero_iff, neg_add_eq_zero, fn_emod, Int.cast_mul]
  constructor
  · rintro ⟨P', hv⟩
    have hp := (ipVerify_ok_iff (E := E) proof).1 (by rw [hv]; simp)
    obtain ⟨_, hinv, hs⟩ := hp
    have hlen : proof.Ls.length = k := by rw [hL, List.length_map, hr]
    have hnz : ∀ q ∈ r, q.2.2 ≠ 0 := by
      intro q hq h0
      obtain ⟨i, hi, rfl⟩ := List.mem_iff_getElem.1 hq
      refine hinv i r[i].1 r[i].2.1 (by simp [hL, hi]) (by simp [hR, hi]) ?_
      rw [← fn_eq_zero, hch _ hq, h0]
    have hn : 1 ≤ k → proof.N.tdiv 2 = ((2 ^ (k - 1) : Nat) : Int) := by
      intro hk
      rw [SizesOk, hlen, if_neg (by omega)] at hs
      obtain ⟨m, _, h1, _, h3⟩ := hs
      rw [lg] at h1
      have : m = 1 := by
        have h2 : 2 ^ k * m = 2 ^ k * 1 := by rw [← h1, mul_one]
        exact Nat.eq_of_mul_eq_mul_left (Nat.two_pow_pos k) h2
      rw [h3, this, mul_one]
    exact ⟨hn, (main hnz hn).1 ⟨P', hv⟩⟩
  · rintro ⟨hn, ha⟩
    exact (main (nz_of_acc r ha) hn).2 ha

end Verif

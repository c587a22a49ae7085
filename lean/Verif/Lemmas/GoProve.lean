import Verif.Spec.GoProve
import Verif.Lemmas.GoVerify

/-! # The provers on a randomness source that can fail -/

namespace Verif
open Spec

theorem mapM_id_map_some : ∀ a : List Int, (a.map some).mapM id = some a
  | [] => rfl
  | x :: a => by simp [List.mapM_cons, mapM_id_map_some a]

theorem mapM_id_eq_some : ∀ {l : List (Option Int)} {a : List Int}, l.mapM id = some a → l = a.map some
  | [], a, h => by simp at h; simp [← h]
  | o :: l, a, h => by
    simp only [List.mapM_cons, id, Option.bind_eq_bind, Option.bind_eq_some_iff, Option.pure_def, Option.some.injEq] at h
    obtain ⟨x, rfl, b, hb, rfl⟩ := h
    rw [mapM_id_eq_some hb, List.map_cons]

@[simp] theorem derefInts_some (a : List Int) : derefInts (a.map some) = .ok a := by
  rw [derefInts, mapM_id_map_some]; rfl

theorem derefInts_ok {l : List (Option Int)} {a : List Int} (h : derefInts l = .ok a) : l = a.map some :=
  mapM_id_eq_some (res_ofOption_isSome h)

theorem goCommitVectorLoop_some (E : Ext) (aL aR : List Int) (g h : List P256) : ∀ (fuel i : Nat) (R : P256),
    goCommitVectorLoop E (aL.map some) (aR.map some) g h fuel i R = commitVectorLoop E aL aR g h fuel i R
  | 0, _, _ => rfl
  | fuel + 1, i, R => by
    simp only [goCommitVectorLoop, commitVectorLoop, idx, List.getElem?_map]
    cases g[i]? with
    | none => rfl
    | some gi =>
    cases aL[i]? with
    | none => rfl
    | some ai =>
    cases h[i]? with
    | none => rfl
    | some hi =>
    cases aR[i]? with
    | none => rfl
    | some bi =>
      simp only [Option.map_some, Res.ofOption_some, Res.ok_bind, goScalarMult_some]
      exact goCommitVectorLoop_some E aL aR g h fuel (i + 1) _

theorem goCommitVector_some (E : Ext) (aL aR : List Int) (alpha : Int) (H : P256) (g h : List P256) (n : Int) :
    goCommitVector E (aL.map some) (aR.map some) (some alpha) H g h n = commitVector E aL aR alpha H g h n := by
  simp only [goCommitVector, commitVector, goScalarMult_some, Res.ok_bind, goCommitVectorLoop_some]

theorem goCommitG1_some (E : Ext) (x r : Int) (h : P256) :
    goCommitG1 E (some x) (some r) (some h) = .ok (commitG1 E x r h) := by
  simp only [goCommitG1, goScalarBaseMult, Res.ofOption_some, Res.ok_bind, goScalarMult_some]
  rfl

theorem goVectorMul_some (a b : List Int) : goVectorMul a (b.map some) = .ok (vectorMul a b) := by
  rw [goVectorMul, List.length_map, derefInts_some]
  split
  · rename_i h; rw [vectorMul, if_pos h]
  · rfl

theorem goScalarProduct_some (a b : List Int) : goScalarProduct (a.map some) b = .ok (scalarProduct a b) := by
  rw [goScalarProduct, List.length_map, derefInts_some]
  split
  · rename_i h; rw [scalarProduct, if_pos h]
  · rfl

theorem goVectorScalarMul_some (a : List Int) (b : Int) : goVectorScalarMul (a.map some) b = .ok (vectorScalarMul a b) := by
  rw [goVectorScalarMul, derefInts_some]; rfl

/-- Entries of the list of draws. -/
theorem bpDrawn_at {rd : Draws} {n : Nat} {rnd : BPRand} (h : BPDrawn rd n rnd) :
    rd 0 = some rnd.gamma ∧ rd 1 = some rnd.alpha ∧ (∀ i < n, rd (2 + i) = rnd.sL[i]?) ∧
    (∀ i < n, rd (2 + n + i) = rnd.sR[i]?) ∧ rd (2 + 2 * n) = some rnd.rho ∧ rd (3 + 2 * n) = some rnd.tau1 ∧
    rd (4 + 2 * n) = some rnd.tau2 := by
  obtain ⟨hL, hR, h⟩ := h
  have e : ∀ j, (bpOrder rnd)[2 + j]? = (rnd.sL ++ (rnd.sR ++ [rnd.rho, rnd.tau1, rnd.tau2]))[j]? := by
    intro j
    rw [bpOrder, List.append_assoc, List.append_assoc, List.getElem?_append_right (by simp)]
    simp
  have e2 : ∀ j, (bpOrder rnd)[2 + n + j]? = (rnd.sR ++ [rnd.rho, rnd.tau1, rnd.tau2])[j]? := by
    intro j
    rw [Nat.add_assoc, e, List.getElem?_append_right (by omega)]
    congr 1; omega
  have e3 : ∀ j, (bpOrder rnd)[2 + n + (n + j)]? = [rnd.rho, rnd.tau1, rnd.tau2][j]? := by
    intro j
    rw [e2, List.getElem?_append_right (by omega)]
    congr 1; omega
  refine ⟨by rw [h 0 (by omega)]; rfl, by rw [h 1 (by omega)]; rfl, fun i hi => ?_, fun i hi => ?_, ?_, ?_, ?_⟩
  · rw [h _ (by omega), e, List.getElem?_append_left (by omega)]
  · rw [h _ (by omega), e2, List.getElem?_append_left (by omega)]
  · rw [h _ (by omega), show 2 + 2 * n = 2 + n + (n + 0) by omega, e3]; rfl
  · rw [h _ (by omega), show 3 + 2 * n = 2 + n + (n + 1) by omega, e3]; rfl
  · rw [h _ (by omega), show 4 + 2 * n = 2 + n + (n + 2) by omega, e3]; rfl

/-- The converse of `bpDrawn_at`. -/
theorem bpDrawn_of {rd : Draws} {n : Nat} {rnd : BPRand} (hL : rnd.sL.length = n) (hR : rnd.sR.length = n)
    (h0 : rd 0 = some rnd.gamma) (h1 : rd 1 = some rnd.alpha) (hl : ∀ i < n, rd (2 + i) = rnd.sL[i]?)
    (hr : ∀ i < n, rd (2 + n + i) = rnd.sR[i]?) (h2 : rd (2 + 2 * n) = some rnd.rho)
    (h3 : rd (3 + 2 * n) = some rnd.tau1) (h4 : rd (4 + 2 * n) = some rnd.tau2) : BPDrawn rd n rnd := by
  refine ⟨hL, hR, fun i hi => ?_⟩
  have e : ∀ j, (bpOrder rnd)[2 + j]? = (rnd.sL ++ (rnd.sR ++ [rnd.rho, rnd.tau1, rnd.tau2]))[j]? := by
    intro j
    rw [bpOrder, List.append_assoc, List.append_assoc, List.getElem?_append_right (by simp)]
    simp
  have e2 : ∀ j, (bpOrder rnd)[2 + n + j]? = (rnd.sR ++ [rnd.rho, rnd.tau1, rnd.tau2])[j]? := by
    intro j
    rw [Nat.add_assoc, e, List.getElem?_append_right (by omega)]
    congr 1; omega
  have e3 : ∀ j, (bpOrder rnd)[2 + n + (n + j)]? = [rnd.rho, rnd.tau1, rnd.tau2][j]? := by
    intro j
    rw [e2, List.getElem?_append_right (by omega)]
    congr 1; omega
  by_cases c0 : i = 0
  · subst c0; rw [h0]; rfl
  by_cases c1 : i = 1
  · subst c1; rw [h1]; rfl
  by_cases c2 : i < 2 + n
  · obtain ⟨j, rfl⟩ : ∃ j, i = 2 + j := ⟨i - 2, by omega⟩
    rw [hl j (by omega), e, List.getElem?_append_left (by omega)]
  by_cases c3 : i < 2 + 2 * n
  · obtain ⟨j, rfl⟩ : ∃ j, i = 2 + n + j := ⟨i - (2 + n), by omega⟩
    rw [hr j (by omega), e2, List.getElem?_append_left (by omega)]
  have : i = 2 + 2 * n ∨ i = 3 + 2 * n ∨ i = 4 + 2 * n := by omega
  rcases this with rfl | rfl | rfl
  · rw [h2, show 2 + 2 * n = 2 + n + (n + 0) by omega, e3]; rfl
  · rw [h3, show 3 + 2 * n = 2 + n + (n + 1) by omega, e3]; rfl
  · rw [h4, show 4 + 2 * n = 2 + n + (n + 2) by omega, e3]; rfl

theorem range_map_eq {f : Nat → Option Int} {n : Nat} {a : List Int} (hl : a.length = n) (h : ∀ i < n, f i = a[i]?) :
    (List.range n).map f = a.map some := by
  apply List.ext_getElem?
  intro i
  rw [List.getElem?_map, List.getElem?_map]
  by_cases hi : i < n
  · rw [List.getElem?_range hi, Option.map_some, h i hi, List.getElem?_eq_getElem (by omega)]; rfl
  · rw [List.getElem?_eq_none (by simp; omega), List.getElem?_eq_none (by omega)]; rfl

theorem range_map_at {f : Nat → Option Int} {n : Nat} {a : List Int} (h : (List.range n).map f = a.map some) :
    a.length = n ∧ ∀ i < n, f i = a[i]? := by
  have hl : a.length = n := by simpa using (congrArg List.length h).symm
  refine ⟨hl, fun i hi => ?_⟩
  have := congrArg (fun l => l[i]?) h
  simp only [List.getElem?_map, List.getElem?_range hi, Option.map_some] at this
  rw [List.getElem?_eq_getElem (by omega)] at this ⊢
  simpa using this

theorem goProve_drawn (E : Ext) {rd : Draws} {rnd : BPRand} (secret : Int) (params : BPParams)
    (h : BPDrawn rd params.N.toNat rnd) : goProve E rd secret params = prove E rnd secret params := by
  obtain ⟨h0, h1, hl, hr, h2, h3, h4⟩ := bpDrawn_at h
  simp only [goProve, prove, h0, h1, h2, h3, h4, goCommitG1_some, Res.ok_bind, goSampleRandomVector,
    range_map_eq h.1 hl, range_map_eq h.2.1 hr, Res.ofOption_some]
  by_cases hN : params.N < 0
  · cases hd : decompose secret 2 params.N with
    | panic => rfl
    | ok aL =>
      simp only [Res.ok_bind, goCommitVector_some]
      cases commitVector E aL _ _ _ _ _ _ <;>
      simp only [Res.ok_bind, Res.panic_bind, if_pos hN]
      cases commitVector E rnd.sL _ _ _ _ _ _ <;>
      simp only [Res.ok_bind, Res.panic_bind, vectorCopy, if_pos hN]
  · simp only [if_neg hN, Res.ok_bind, goCommitVector_some, goVectorMul_some, goScalarProduct_some,
      goVectorScalarMul_some]
    rfl

theorem goProve_ok {E : Ext} {rd : Draws} {secret : Int} {params : BPParams} {o : Option BPProof}
    (h : goProve E rd secret params = .ok o) : ∃ rnd, BPDrawn rd params.N.toNat rnd := by
  simp only [goProve, Res.bind_eq_ok] at h
  obtain ⟨_, _, _, _, _, _, sL, hsL, sR, hsR, _, _, _, _, _, _, _, _, _, _, _, _, _, _, _, _, _, _, _, _, _, _, _, _, _, _,
    _, _, sLx, hsLx, sRx, hsRx, _, _, tau2, h4, tau1, h3, gamma, h0, rho, h2, alpha, h1, _⟩ := h
  rw [goSampleRandomVector] at hsL hsR
  split at hsL
  · cases hsL
  rename_i hN
  rw [if_neg hN] at hsR
  cases hsL; cases hsR
  simp only [goVectorScalarMul, Res.bind_eq_ok] at hsLx hsRx
  obtain ⟨sL, hl, _⟩ := hsLx
  obtain ⟨sR, hr, _⟩ := hsRx
  obtain ⟨l1, l2⟩ := range_map_at (derefInts_ok hl)
  obtain ⟨r1, r2⟩ := range_map_at (derefInts_ok hr)
  exact ⟨⟨gamma, alpha, sL, sR, rho, tau1, tau2⟩, bpDrawn_of l1 r1 (res_ofOption_isSome h0) (res_ofOption_isSome h1) l2 r2
    (res_ofOption_isSome h2) (res_ofOption_isSome h3) (res_ofOption_isSome h4)⟩

/-! ### `ccs08` -/

theorem decomposeLoop_length {u : Int} : ∀ {n : Nat} {x : Int} {ds : List Int}, decomposeLoop u n x = .ok ds → ds.length = n
  | 0, _, ds, h => by cases h; rfl
  | n + 1, x, ds, h => by
    rw [decomposeLoop] at h
    split at h
    · cases h
    · simp only [Res.bind_eq_ok] at h
      obtain ⟨r, hr, h⟩ := h
      cases h
      rw [List.length_cons, decomposeLoop_length hr]

theorem decompose_length {x u l : Int} {ds : List Int} (h : decompose x u l = .ok ds) : ds.length = l.toNat := by
  rw [decompose] at h
  split at h
  · cases h
  · exact decomposeLoop_length h

theorem goScalar_some {α : Type} (f : Int → α) (k : Int) : goScalar f (some k) = .ok (f k) := rfl

theorem goCcsA_some (V : TwistPoint) (s t : Int) : goCcsA V (some s) (some t) = .ok (ccsA V s t) := rfl

theorem goProveULLoop_drawn (p : ParamsUL) {rd : Draws} {w : ULRandom} : ∀ (i : Nat) (ds : List Int) (D : TwistPoint),
    (∀ j, i ≤ j → j < i + ds.length → rd (3 * j + 1) = some (w.v j) ∧ rd (3 * j + 2) = some (w.s j) ∧
      rd (3 * j + 3) = some (w.t j)) → goProveULLoop p rd i ds D = proveULLoop p w.v w.s w.t i ds D
  | _, [], _, _ => rfl
  | i, d :: ds, D, h => by
    rw [goProveULLoop, proveULLoop]
    cases p.signatures.lookup d with
    | none => rfl
    | some A =>
      obtain ⟨h1, h2, h3⟩ := h i (Nat.le_refl _) (by simp)
      rw [Nat.add_comm 1, Nat.add_comm 2, Nat.add_comm 3, h1, h2, h3]
      simp only [goScalar_some, goCcsA_some, Res.ok_bind, Res.ofOption_some]
      cases A with
      | none => rfl
      | some A =>
        simp only [Res.ok_bind, Res.ofOption_some]
        rw [goProveULLoop_drawn p (i + 1) ds _ (fun j h1 h2 => h j (by omega) (by rw [List.length_cons]; omega))]
        rfl

theorem goProveSet_drawn (sha : List UInt8 → List UInt8) {rd : Draws} (x r : Int) (p : ParamsSet) {m v s t : Int}
    (h : SetDrawn rd m v s t) : goProveSet sha rd x r p = proveSet sha x r p m v s t := by
  have h0 : rd 0 = some m := h 0 (by omega)
  have h1 : rd 1 = some v := h 1 (by omega)
  have h2 : rd 2 = some s := h 2 (by omega)
  have h3 : rd 3 = some t := h 3 (by omega)
  rw [goProveSet, proveSet, h0, h1, h2, h3]
  cases p.signatures.lookup x with
  | none => rfl
  | some A => simp only [goScalar_some, goCcsA_some, Res.ok_bind, Res.ofOption_some]

theorem goScalar_ok {α : Type} {f : Int → α} {k : Option Int} {a : α} (h : goScalar f k = .ok a) : ∃ n, k = some n := by
  simp only [goScalar, Res.bind_eq_ok] at h
  obtain ⟨n, hn, _⟩ := h
  exact ⟨n, res_ofOption_isSome hn⟩

theorem goProveSet_ok {sha : List UInt8 → List UInt8} {rd : Draws} {x r : Int} {p : ParamsSet} {o : ProofSet}
    (h : goProveSet sha rd x r p = .ok (some o)) : ∃ m v s t, SetDrawn rd m v s t := by
  rw [goProveSet] at h
  cases hx : p.signatures.lookup x with
  | none => rw [hx] at h; cases h
  | some A =>
    rw [hx] at h
    simp only [Res.bind_eq_ok] at h
    obtain ⟨_, _, _, _, _, _, _, _, _, _, _, _, _, _, m, hm, s, hs, t, ht, v, hv, _⟩ := h
    refine ⟨m, v, s, t, fun i hi => ?_⟩
    have : i = 0 ∨ i = 1 ∨ i = 2 ∨ i = 3 := by omega
    rcases this with rfl | rfl | rfl | rfl
    · exact res_ofOption_isSome hm
    · exact res_ofOption_isSome hv
    · exact res_ofOption_isSome hs
    · exact res_ofOption_isSome ht

theorem goProveUL_drawn (sha : List UInt8 → List UInt8) {rd : Draws} (x r : Int) (p : ParamsUL) {w : ULRandom}
    (h : ∀ ds, decompose x p.u p.l = .ok ds → ULDrawn rd ds.length w) :
    goProveUL sha rd x r p = proveUL sha x r p w.m w.v w.s w.t := by
  rw [goProveUL, proveUL]
  cases hd : decompose x p.u p.l with
  | panic => rfl
  | ok ds =>
    obtain ⟨h0, h⟩ := h ds hd
    simp only [Res.ok_bind, h0, goScalar_some]
    rw [goProveULLoop_drawn p 0 ds _ (fun j _ hj => h j (by omega))]
    have e : ∀ (c : Nat) (f : Nat → Int), (∀ i < ds.length, rd (c + 3 * i) = some (f i)) →
        (List.range ds.length).map (fun i => rd (c + 3 * i)) = (firsts f ds.length).map some := by
      intro c f hf
      refine range_map_eq (by simp [firsts]) fun i hi => ?_
      rw [hf i hi, firsts, List.getElem?_map, List.getElem?_range hi]; rfl
    cases proveULLoop p w.v w.s w.t 0 ds _ with
    | panic => rfl
    | ok res =>
      simp only [Res.ok_bind]
      cases res with
      | none => rfl
      | some q =>
        obtain ⟨D, V, a⟩ := q
        simp only [Res.ofOption_some, Res.ok_bind, e 1 w.v (fun i hi => by rw [Nat.add_comm]; exact (h i hi).1),
          e 2 w.s (fun i hi => by rw [Nat.add_comm]; exact (h i hi).2.1),
          e 3 w.t (fun i hi => by rw [Nat.add_comm]; exact (h i hi).2.2), derefInts_some]

theorem goProveUL_ok {sha : List UInt8 → List UInt8} {rd : Draws} {x r : Int} {p : ParamsUL} {o : ProofUL}
    (h : goProveUL sha rd x r p = .ok (some o)) :
    ∃ w, ∀ ds, decompose x p.u p.l = .ok ds → ULDrawn rd ds.length w := by
  simp only [goProveUL, Res.bind_eq_ok] at h
  obtain ⟨ds, hd, _, _, res, _, h⟩ := h
  cases res with
  | none => cases h
  | some q =>
    obtain ⟨D, V, a⟩ := q
    simp only [Res.bind_eq_ok] at h
    obtain ⟨_, _, _, _, m, hm, v, hv, s, hs, t, ht, _⟩ := h
    have e : ∀ (c : Nat) (f : List Int), derefInts ((List.range ds.length).map (fun i => rd (c + 3 * i))) = .ok f →
        ∀ i < ds.length, rd (3 * i + c) = some (f[i]?.getD 0) := by
      intro c f hf i hi
      obtain ⟨l, a⟩ := range_map_at (derefInts_ok hf)
      rw [Nat.add_comm, a i hi, List.getElem?_eq_getElem (by omega)]; rfl
    refine ⟨⟨m, fun i => v[i]?.getD 0, fun i => s[i]?.getD 0, fun i => t[i]?.getD 0⟩, fun ds' hd' => ?_⟩
    cases hd.symm.trans hd'
    exact ⟨res_ofOption_isSome hm, fun i hi => ⟨e 1 v hv i hi, e 2 s hs i hi, e 3 t ht i hi⟩⟩

end Verif

import Verif.Lemmas.JsonSize
import Verif.Lemmas.BpHide
import Verif.Lemmas.BipVerify

/-!
# The length of the text of proofs whose numbers have at most 256 bits
-/

namespace Verif

/-! ### The results of the group functions have coordinates of at most 256 bits -/

/-- A point of the curve with bounded coordinates. -/
def Tidy (p : P256) : Prop := IsPoint p ∧ p.Bounded

theorem tidy_infinity : Tidy P256.infinity :=
  ⟨⟨0, rep_infinity⟩, by constructor <;> intro v hv <;> simp [P256.infinity] at hv⟩

theorem secpP_lt : secpP < 2 ^ 256 := by decide +kernel

theorem tidy_of_fin {p : P256} {Q : Secp} (h : RepFin p Q) : Tidy p := by
  refine ⟨⟨Q, Or.inr h⟩, ?_⟩
  obtain ⟨x, y, rfl, h1, h2, h3, h4, _⟩ := h
  have := secpP_lt
  constructor
  · intro v hv
    simp only [Option.mem_def, Option.some.injEq] at hv
    omega
  · intro v hv
    simp only [Option.mem_def, Option.some.injEq] at hv
    omega

theorem tidy_scalarMult {E : Ext} (hE : E.Ok) {a : P256} (ha : IsPoint a) (n : Int) : Tidy (a.scalarMult E n) := by
  obtain ⟨Q, ha⟩ := ha
  by_cases h0 : n • Q = 0
  · rw [P256.scalarMult]
    by_cases h1 : Q = 0
    · rw [if_pos ((ha.isZero_iff).2 h1)]; exact tidy_infinity
    · rw [if_neg (fun h => h1 ((ha.isZero_iff).1 h))]
      split
      · exact tidy_infinity
      · rw [← zmod_smul_intCast, smul_eq_zero, ZMod.intCast_zmod_eq_zero_iff_dvd, ← ORDER_eq] at h0
        have h2 := h0.resolve_right h1
        rw [Int.emod_eq_zero_of_dvd h2, Int.toNat_zero, hE.scalarMult_zero]
        exact tidy_infinity
  · exact tidy_of_fin ((scalarMult_rep hE ha n).fin h0)

theorem curveAdd_bounded (x y x' y' : Int) : (P256.ofPair (curveAdd x y x' y')).Bounded := by
  have hp := secpP_lt
  have h0 : (0 : Int) < secpP := by decide +kernel
  have h : ∀ q : Int × Int × Int, (P256.ofPair (affineFromJacobian q)).Bounded := by
    rintro ⟨a, b, c⟩
    rw [affineFromJacobian]
    simp only
    split
    · constructor <;> intro v hv <;> simp only [P256.ofPair, Option.mem_def, Option.some.injEq] at hv <;> omega
    · split
      · constructor <;> intro v hv <;> simp only [P256.ofPair, Option.mem_def, Option.some.injEq] at hv <;> omega
      · constructor <;> intro v hv <;> simp only [P256.ofPair, Option.mem_def, Option.some.injEq] at hv <;> rw [← hv] <;>
          exact ⟨Int.emod_nonneg _ h0.ne', (Int.emod_lt_of_pos _ h0).trans hp⟩
  exact h _

theorem tidy_add {a b : P256} (ha : Tidy a) (hb : Tidy b) : Tidy (a.add b) := by
  obtain ⟨⟨Q, h1⟩, h2⟩ := ha
  obtain ⟨⟨R, h3⟩, h4⟩ := hb
  refine ⟨⟨_, add_rep h1 h3⟩, ?_⟩
  rw [P256.add]
  split
  · exact h4
  · split
    · exact h4
    · exact curveAdd_bounded _ _ _ _

theorem tidy_multiply {E : Ext} (hE : E.Ok) {a b : P256} (ha : Tidy a) (hb : Tidy b) : Tidy (a.multiply E b) := by
  obtain ⟨⟨Q, h1⟩, h2⟩ := ha
  obtain ⟨⟨R, h3⟩, h4⟩ := hb
  by_cases hz : Q + R = 0
  · refine ⟨⟨_, multiply_rep hE h1 h3⟩, ?_⟩
    rw [P256.multiply]
    by_cases e1 : Q = 0
    · rw [if_pos ((h1.isZero_iff).2 e1)]; exact h4
    · rw [if_neg (fun h => e1 ((h1.isZero_iff).1 h))]
      by_cases e2 : R = 0
      · rw [if_pos ((h3.isZero_iff).2 e2)]; exact h2
      · rw [if_neg (fun h => e2 ((h3.isZero_iff).1 h))]
        have fa := h1.fin e1
        have fb := h3.fin e2
        by_cases e3 : Q = R
        · subst e3
          exact absurd hz (two_smul_ne_zero e1)
        · rw [if_neg (fun h => e3 ((fa.coords_eq_iff fb).1 h))]
          exact curveAdd_bounded _ _ _ _
  · exact tidy_of_fin ((multiply_rep hE h1 h3).fin hz)

theorem tidy_scalarBaseMult {E : Ext} (hE : E.Ok) (n : Int) : Tidy (P256.scalarBaseMult E n) := by
  have h := tidy_scalarMult hE (a := ⟨some secpGx, some secpGy⟩) ⟨_, Or.inr repFin_base⟩ n
  rwa [P256.scalarMult, if_neg (by decide)] at h

theorem tidy_commitG1 {E : Ext} (hE : E.Ok) (x r : Int) {h : P256} (hh : IsPoint h) : Tidy (commitG1 E x r h) :=
  tidy_add (tidy_scalarBaseMult hE x) (tidy_scalarMult hE hh r)

theorem idx_mem {T : Type} {l : List T} {i : Nat} {a : T} (h : idx l i = .ok a) : a ∈ l := by
  rw [idx, res_ofOption_ok] at h
  exact List.mem_of_getElem? h

theorem tidy_commitVectorLoop {E : Ext} (hE : E.Ok) {aL aR : List Int} {g h : List P256} (hg : ArePoints g)
    (hh : ArePoints h) : ∀ {fuel i : Nat} {R S : P256}, Tidy R → commitVectorLoop E aL aR g h fuel i R = .ok S → Tidy S
  | 0, _, _, _, hR, e => by
    rw [commitVectorLoop, Res.ok.injEq] at e
    rwa [← e]
  | fuel + 1, i, R, S, hR, e => by
    simp only [commitVectorLoop, Res.bind_eq_ok] at e
    obtain ⟨gi, h1, ai, h2, hi, h3, bi, h4, e⟩ := e
    exact tidy_commitVectorLoop hE hg hh (tidy_multiply hE (tidy_multiply hE hR (tidy_scalarMult hE (hg _ (idx_mem h1)) _))
      (tidy_scalarMult hE (hh _ (idx_mem h3)) _)) e

theorem tidy_commitVector {E : Ext} (hE : E.Ok) {aL aR : List Int} {al : Int} {H : P256} {g h : List P256} {n : Int}
    {S : P256} (hH : IsPoint H) (hg : ArePoints g) (hh : ArePoints h)
    (e : commitVector E aL aR al H g h n = .ok S) : Tidy S :=
  tidy_commitVectorLoop hE hg hh (tidy_scalarMult hE hH _) e

theorem tidy_vectorExpLoop {E : Ext} (hE : E.Ok) : ∀ {g : List P256} {b : List Int} {R : P256}, ArePoints g → Tidy R →
    Tidy (vectorExpLoop E g b R)
  | p :: g, n :: b, R, hg, hR => by
    rw [vectorExpLoop]
    exact tidy_vectorExpLoop hE (fun q hq => hg q (List.mem_cons_of_mem _ hq))
      (tidy_multiply hE hR (tidy_scalarMult hE (hg p List.mem_cons_self) n))
  | [], _, R, _, hR => by rw [vectorExpLoop]; exact hR; simp
  | _ :: _, [], R, _, hR => by rw [vectorExpLoop]; exact hR; simp

theorem tidy_vectorExp {E : Ext} (hE : E.Ok) {g : List P256} {b : List Int} {R : P256} (hg : ArePoints g)
    (h : vectorExp E g b = some R) : Tidy R := by
  rw [vectorExp] at h
  split at h
  · cases h
  · injection h with h
    rw [← h]
    exact tidy_vectorExpLoop hE hg tidy_infinity

theorem tidy_vectorECAdd {E : Ext} (hE : E.Ok) {g h : List P256} (hg : ∀ p ∈ g, Tidy p) (hh : ∀ p ∈ h, Tidy p) :
    ∀ p ∈ (vectorECAdd E g h).getD [], Tidy p := by
  intro p hp
  rw [vectorECAdd] at hp
  split at hp
  · cases hp
  · rw [Option.getD_some] at hp
    obtain ⟨i, hi, rfl⟩ := List.mem_iff_getElem.1 hp
    rw [List.getElem_zipWith]
    exact tidy_multiply hE (hg _ (List.getElem_mem _)) (hh _ (List.getElem_mem _))

theorem tidy_vectorScalarExp {E : Ext} (hE : E.Ok) {g : List P256} (hg : ∀ p ∈ g, Tidy p) (b : Int) :
    ∀ p ∈ vectorScalarExp E g b, Tidy p := by
  intro p hp
  rw [vectorScalarExp, List.mem_map] at hp
  obtain ⟨q, hq, rfl⟩ := hp
  exact tidy_scalarMult hE (hg q hq).1 b

theorem sliceTo_mem {T : Type} {l r : List T} {n : Int} (h : sliceTo l n = .ok r) : ∀ a ∈ r, a ∈ l := by
  rw [sliceTo] at h
  split at h
  · cases h
  · injection h with h
    intro a ha
    rw [← h] at ha
    exact List.mem_of_mem_take ha

theorem sliceFrom_mem {T : Type} {l r : List T} {n : Int} (h : sliceFrom l n = .ok r) : ∀ a ∈ r, a ∈ l := by
  rw [sliceFrom] at h
  split at h
  · cases h
  · injection h with h
    intro a ha
    rw [← h] at ha
    exact List.mem_of_mem_drop ha

/-- What is known about the fields of an inner-product proof. -/
structure IPTidy (p : IPProof) : Prop where
  Ls : ∀ q ∈ p.Ls, Tidy q
  Rs : ∀ q ∈ p.Rs, Tidy q
  U : Tidy p.U
  P : Tidy p.P
  Gg : Tidy p.Gg
  Hh : Tidy p.Hh
  A : 0 ≤ p.A ∧ p.A < 2 ^ 256
  B : 0 ≤ p.B ∧ p.B < 2 ^ 256

theorem ORDER_lt : ORDER < 2 ^ 256 := by decide +kernel

theorem vectorAdd_small (a b : List Int) : ∀ c ∈ (vectorAdd a b).getD [], 0 ≤ c ∧ c < 2 ^ 256 := fun c hc =>
  ⟨(vectorAdd_range a b c hc).1, (vectorAdd_range a b c hc).2.trans ORDER_lt⟩

theorem tidy_computeBip {E : Ext} (hE : E.Ok) {params : IPParams} : ∀ {fuel : Nat} {a b : List Int} {g h : List P256}
    {u P : P256} {n : Nat} {Ls Rs : List P256} {proof : IPProof},
    (∀ c ∈ a, 0 ≤ c ∧ c < 2 ^ 256) → (∀ c ∈ b, 0 ≤ c ∧ c < 2 ^ 256) →
    (∀ q ∈ g, Tidy q) → (∀ q ∈ h, Tidy q) → Tidy u → Tidy P → (∀ q ∈ Ls, Tidy q) → (∀ q ∈ Rs, Tidy q) →
    computeBip E params fuel a b g h u P n Ls Rs = .ok proof → IPTidy proof
  | 0, _, _, _, _, _, _, _, _, _, _, _, _, _, _, _, _, _, _, hc => by simp [computeBip] at hc
  | fuel + 1, a, b, g, h, u, P, n, Ls, Rs, proof, ha, hb, hg, hh, hu, hP, hL, hR, hc => by
    rw [computeBip] at hc
    split at hc
    · simp only [Res.bind_eq_ok, Res.ok.injEq] at hc
      obtain ⟨a0, h1, b0, h2, g0, h3, h0, h4, rfl⟩ := hc
      exact ⟨hL, hR, hu, hP, hg _ (idx_mem h3), hh _ (idx_mem h4), ha _ (idx_mem h1), hb _ (idx_mem h2)⟩
    · simp only [Res.bind_eq_ok, Res.ok.injEq, res_ofOption_ok] at hc
      obtain ⟨aL, q1, aR, q2, bL, q3, bR, q4, gL, q5, gR, q6, hL', q7, hR', q8, cL, q9, cR, q10, L, q11, Lh, q12,
        R, q13, Rh, q14, xinv, q15, x2inv, q16, pr, q17, rfl⟩ := hc
      have tg1 : ∀ q ∈ gL, Tidy q := fun q hq => hg q (sliceTo_mem q5 q hq)
      have tg2 : ∀ q ∈ gR, Tidy q := fun q hq => hg q (sliceFrom_mem q6 q hq)
      have th1 : ∀ q ∈ hL', Tidy q := fun q hq => hh q (sliceTo_mem q7 q hq)
      have th2 : ∀ q ∈ hR', Tidy q := fun q hq => hh q (sliceFrom_mem q8 q hq)
      have tL := tidy_multiply hE (tidy_multiply hE (tidy_vectorExp hE (fun q hq => (tg2 q hq).1) q11)
        (tidy_vectorExp hE (fun q hq => (th1 q hq).1) q12)) (tidy_scalarMult hE hu.1 cL)
      have tR := tidy_multiply hE (tidy_multiply hE (tidy_vectorExp hE (fun q hq => (tg1 q hq).1) q13)
        (tidy_vectorExp hE (fun q hq => (th2 q hq).1) q14)) (tidy_scalarMult hE hu.1 cR)
      have := tidy_computeBip hE (vectorAdd_small _ _) (vectorAdd_small _ _)
        (tidy_vectorECAdd hE (tidy_vectorScalarExp hE tg1 _) (tidy_vectorScalarExp hE tg2 _))
        (tidy_vectorECAdd hE (tidy_vectorScalarExp hE th1 _) (tidy_vectorScalarExp hE th2 _)) hu
        (tidy_multiply hE (tidy_multiply hE (tidy_scalarMult hE tL.1 _) hP) (tidy_scalarMult hE tR.1 _))
        (by
          intro q hq
          rcases List.mem_append.1 hq with hq | hq
          · exact hL q hq
          · rw [List.mem_singleton.1 hq]; exact tL)
        (by
          intro q hq
          rcases List.mem_append.1 hq with hq | hq
          · exact hR q hq
          · rw [List.mem_singleton.1 hq]; exact tR) q17
      exact ⟨this.Ls, this.Rs, this.U, this.P, this.Gg, this.Hh, this.A, this.B⟩

theorem computeBip_params {E : Ext} {params : IPParams} : ∀ {fuel : Nat} {a b : List Int} {g h : List P256}
    {u P : P256} {n : Nat} {Ls Rs : List P256} {proof : IPProof},
    computeBip E params fuel a b g h u P n Ls Rs = .ok proof → proof.Params = params ∧ proof.N = n
  | 0, _, _, _, _, _, _, _, _, _, _, hc => by simp [computeBip] at hc
  | fuel + 1, a, b, g, h, u, P, n, Ls, Rs, proof, hc => by
    rw [computeBip] at hc
    split at hc
    · simp only [Res.bind_eq_ok, Res.ok.injEq] at hc
      obtain ⟨_, _, _, _, _, _, _, _, rfl⟩ := hc
      exact ⟨rfl, rfl⟩
    · simp only [Res.bind_eq_ok, Res.ok.injEq] at hc
      obtain ⟨_, _, _, _, _, _, _, _, _, _, _, _, _, _, _, _, _, _, _, _, _, _, _, _, _, _, _, _, _, _, _, _, pr, hr, rfl⟩ := hc
      exact ⟨(computeBip_params hr).1, rfl⟩

theorem tidy_updateGenerators {E : Ext} (hE : E.Ok) {Hh r : List P256} {y n : Int} (hh : ∀ q ∈ Hh, Tidy q)
    (h : updateGenerators E Hh y n = .ok r) : ∀ q ∈ r, Tidy q := by
  have loop : ∀ {fuel i : Nat} {e yinv : Int} {r : List P256}, updateGeneratorsLoop E Hh yinv fuel i e = .ok r →
      ∀ q ∈ r, Tidy q := by
    intro fuel
    induction fuel with
    | zero =>
      intro i e yinv r h
      rw [updateGeneratorsLoop, Res.ok.injEq] at h
      rw [← h]
      simp
    | succ fuel ih =>
      intro i e yinv r h
      simp only [updateGeneratorsLoop, Res.bind_eq_ok, Res.ok.injEq] at h
      obtain ⟨hi, h1, r', h2, rfl⟩ := h
      intro q hq
      rcases List.mem_cons.1 hq with rfl | hq
      · exact tidy_scalarMult hE (hh _ (idx_mem h1)).1 _
      · exact ih h2 q hq
  rw [updateGenerators] at h
  split at h
  · cases h
  · simp only [Res.bind_eq_ok] at h
    obtain ⟨h0, h1, h⟩ := h
    split at h
    · injection h with h
      rw [← h]
      intro q hq
      rw [List.mem_singleton.1 hq]
      exact hh _ (idx_mem h1)
    · simp only [Res.bind_eq_ok, Res.ok.injEq] at h
      obtain ⟨yinv, _, r', h2, rfl⟩ := h
      intro q hq
      rcases List.mem_cons.1 hq with rfl | hq
      · exact hh _ (idx_mem h1)
      · exact loop h2 q hq

/-! ### Lengths -/

theorem decimalNat_length {n : Nat} (h : n < 2 ^ 256) : (decimalNat n).length ≤ 78 := by
  rw [decimalNat]
  split
  · simp
  · rw [List.length_map, List.length_reverse, Nat.digits_length_le_iff (by decide)]
    exact h.trans (by decide)

theorem encInt_length {v : Int} (h : 0 ≤ v ∧ v < 2 ^ 256) : (encInt v).print.length ≤ 78 := by
  rw [encInt, Json.print, decimal, if_neg (by omega)]
  exact decimalNat_length (by omega)

theorem encPtrInt_length {v : Option Int} (h : ∀ w ∈ v, 0 ≤ w ∧ w < 2 ^ 256) : (encPtr encInt v).print.length ≤ 78 := by
  cases v with
  | none => simp [encPtr, Json.print]
  | some v => exact encInt_length (h v rfl)

theorem encPoint_length {p : P256} (h : p.Bounded) : (encPoint (some p)).print.length ≤ 167 := by
  have h1 := encPtrInt_length h.1
  have h2 := encPtrInt_length h.2
  have e1 : (ascii "X").length = 1 := by decide +kernel
  have e2 : (ascii "Y").length = 1 := by decide +kernel
  simp only [encPoint, encPtr, encP256, encObj, Json.print, JsonMembers.print, List.length_cons, List.length_append, e1, e2,
    List.length_nil]
  simp only [encPtr] at h1 h2
  omega

theorem encElems_length {l : List P256} (h : ∀ p ∈ l, p.Bounded) :
    (encElems encPoint (l.map some)).print.length ≤ 168 * l.length + 1 := by
  induction l with
  | nil => simp [encElems, JsonList.print]
  | cons p l ih =>
    have h1 := encPoint_length (h p List.mem_cons_self)
    have h2 := ih (fun q hq => h q (List.mem_cons_of_mem _ hq))
    simp only [List.map_cons, encElems, JsonList.print, List.length_cons, List.length_append]
    omega

theorem encPoints_length {l : List P256} (h : ∀ p ∈ l, p.Bounded) :
    (encPoints (points l)).print.length ≤ 168 * l.length + 4 := by
  rw [points]
  split
  · rename_i e; rw [e]; simp [encPoints, encSlice, Json.print]
  · cases l with
    | nil => contradiction
    | cons p l =>
      have h1 := encPoint_length (h p List.mem_cons_self)
      have h2 := encElems_length (l := l) (fun q hq => h q (List.mem_cons_of_mem _ hq))
      simp only [encPoints, encSlice, List.map_cons, encElems, Json.print, List.length_cons, List.length_append]
      omega

/-- The numbers of the parameters are of at most 256 bits. -/
structure IPPTidy (p : IPParams) : Prop where
  N : 0 ≤ p.N ∧ p.N < 2 ^ 256
  Cc : 0 ≤ p.Cc ∧ p.Cc < 2 ^ 256
  Uu : p.Uu.Bounded
  H : p.H.Bounded
  Gg : ∀ q ∈ p.Gg, q.Bounded
  Hh : ∀ q ∈ p.Hh, q.Bounded
  P : p.P.Bounded

theorem encPtrInt_length' {v : Int} (h : 0 ≤ v ∧ v < 2 ^ 256) : (encPtr encInt (some v)).print.length ≤ 78 :=
  encInt_length h

theorem encIPParams_length {p : IPParams} (h : IPPTidy p) :
    (encIPParams p.toGo).print.length ≤ 168 * (p.Gg.length + p.Hh.length) + 706 := by
  have h1 := encInt_length h.N
  have h2 := encPtrInt_length' h.Cc
  have h3 := encPoint_length h.Uu
  have h4 := encPoint_length h.H
  have h5 := encPoints_length h.Gg
  have h6 := encPoints_length h.Hh
  have h7 := encPoint_length h.P
  have e1 : (ascii "N").length = 1 := by decide +kernel
  have e2 : (ascii "Cc").length = 2 := by decide +kernel
  have e3 : (ascii "Uu").length = 2 := by decide +kernel
  have e4 : (ascii "H").length = 1 := by decide +kernel
  have e5 : (ascii "Gg").length = 2 := by decide +kernel
  have e6 : (ascii "Hh").length = 2 := by decide +kernel
  have e7 : (ascii "P").length = 1 := by decide +kernel
  simp only [encIPParams, IPParams.toGo, encObj, Json.print, JsonMembers.print, List.length_cons, List.length_append,
    List.length_nil, e1, e2, e3, e4, e5, e6, e7]
  generalize (encInt p.N).print.length = a1 at *
  generalize (encPtr encInt (some p.Cc)).print.length = a2 at *
  generalize (encPoint (some p.Uu)).print.length = a3 at *
  generalize (encPoint (some p.H)).print.length = a4 at *
  generalize (encPoints (points p.Gg)).print.length = a5 at *
  generalize (encPoints (points p.Hh)).print.length = a6 at *
  generalize (encPoint (some p.P)).print.length = a7 at *
  clear * - h1 h2 h3 h4 h5 h6 h7
  omega

theorem encIPProof_length {p : IPProof} (h : IPTidy p) (hp : IPPTidy p.Params) (hN : 0 ≤ p.N ∧ p.N < 2 ^ 256) :
    (encIPProof p.toGo).print.length ≤
      168 * (p.Ls.length + p.Rs.length + p.Params.Gg.length + p.Params.Hh.length) + 1682 := by
  have h1 := encInt_length hN
  have h2 := encPoints_length (fun q hq => (h.Ls q hq).2)
  have h3 := encPoints_length (fun q hq => (h.Rs q hq).2)
  have h4 := encPoint_length h.U.2
  have h5 := encPoint_length h.P.2
  have h6 := encPoint_length h.Gg.2
  have h7 := encPoint_length h.Hh.2
  have h8 := encPtrInt_length' h.A
  have h9 := encPtrInt_length' h.B
  have h10 := encIPParams_length hp
  have e1 : (ascii "N").length = 1 := by decide +kernel
  have e2 : (ascii "Ls").length = 2 := by decide +kernel
  have e3 : (ascii "Rs").length = 2 := by decide +kernel
  have e4 : (ascii "U").length = 1 := by decide +kernel
  have e5 : (ascii "P").length = 1 := by decide +kernel
  have e6 : (ascii "Gg").length = 2 := by decide +kernel
  have e7 : (ascii "Hh").length = 2 := by decide +kernel
  have e8 : (ascii "A").length = 1 := by decide +kernel
  have e9 : (ascii "B").length = 1 := by decide +kernel
  have e10 : (ascii "Params").length = 6 := by decide +kernel
  simp only [encIPProof, IPProof.toGo, encObj, Json.print, JsonMembers.print, List.length_cons, List.length_append,
    List.length_nil, e1, e2, e3, e4, e5, e6, e7, e8, e9, e10]
  generalize (encInt p.N).print.length = a1 at *
  generalize (encPoints (points p.Ls)).print.length = a2 at *
  generalize (encPoints (points p.Rs)).print.length = a3 at *
  generalize (encPoint (some p.U)).print.length = a4 at *
  generalize (encPoint (some p.P)).print.length = a5 at *
  generalize (encPoint (some p.Gg)).print.length = a6 at *
  generalize (encPoint (some p.Hh)).print.length = a7 at *
  generalize (encPtr encInt (some p.A)).print.length = a8 at *
  generalize (encPtr encInt (some p.B)).print.length = a9 at *
  generalize (encIPParams p.Params.toGo).print.length = a10 at *
  clear * - h1 h2 h3 h4 h5 h6 h7 h8 h9 h10
  omega

/-- The numbers of a proof are of at most 256 bits. -/
structure BPTidy (p : BPProof) : Prop where
  V : p.V.Bounded
  A : p.A.Bounded
  S : p.S.Bounded
  T1 : p.T1.Bounded
  T2 : p.T2.Bounded
  Taux : 0 ≤ p.Taux ∧ p.Taux < 2 ^ 256
  Mu : 0 ≤ p.Mu ∧ p.Mu < 2 ^ 256
  Tprime : 0 ≤ p.Tprime ∧ p.Tprime < 2 ^ 256
  IP : IPTidy p.IP
  IPP : IPPTidy p.IP.Params
  IPN : 0 ≤ p.IP.N ∧ p.IP.N < 2 ^ 256
  Commit : p.Commit.Bounded
  N : 0 ≤ p.Params.N ∧ p.Params.N < 2 ^ 256
  G : p.Params.G.Bounded
  H : p.Params.H.Bounded
  Gg : ∀ q ∈ p.Params.Gg, q.Bounded
  Hh : ∀ q ∈ p.Params.Hh, q.Bounded
  ParamsIP : IPPTidy p.ParamsIP

theorem encBPProof_length {p : BPProof} (h : BPTidy p) : (encBPProof p.toGo).print.length ≤
    168 * (p.IP.Ls.length + p.IP.Rs.length + p.IP.Params.Gg.length + p.IP.Params.Hh.length +
      p.Params.Gg.length + p.Params.Hh.length + p.ParamsIP.Gg.length + p.ParamsIP.Hh.length) + 4200 := by
  have h1 := encPoint_length h.V
  have h2 := encPoint_length h.A
  have h3 := encPoint_length h.S
  have h4 := encPoint_length h.T1
  have h5 := encPoint_length h.T2
  have h6 := encPtrInt_length' h.Taux
  have h7 := encPtrInt_length' h.Mu
  have h8 := encPtrInt_length' h.Tprime
  have h9 := encIPProof_length h.IP h.IPP h.IPN
  have h10 := encPoint_length h.Commit
  have h11 := encInt_length h.N
  have h12 := encPoint_length h.G
  have h13 := encPoint_length h.H
  have h14 := encPoints_length h.Gg
  have h15 := encPoints_length h.Hh
  have h16 := encIPParams_length h.ParamsIP
  have e1 : (ascii "V").length = 1 := by decide +kernel
  have e2 : (ascii "A").length = 1 := by decide +kernel
  have e3 : (ascii "S").length = 1 := by decide +kernel
  have e4 : (ascii "T1").length = 2 := by decide +kernel
  have e5 : (ascii "T2").length = 2 := by decide +kernel
  have e6 : (ascii "Taux").length = 4 := by decide +kernel
  have e7 : (ascii "Mu").length = 2 := by decide +kernel
  have e8 : (ascii "Tprime").length = 6 := by decide +kernel
  have e9 : (ascii "InnerProductProof").length = 17 := by decide +kernel
  have e10 : (ascii "Commit").length = 6 := by decide +kernel
  have e11 : (ascii "Params").length = 6 := by decide +kernel
  have e12 : (ascii "N").length = 1 := by decide +kernel
  have e13 : (ascii "G").length = 1 := by decide +kernel
  have e14 : (ascii "H").length = 1 := by decide +kernel
  have e15 : (ascii "Gg").length = 2 := by decide +kernel
  have e16 : (ascii "Hh").length = 2 := by decide +kernel
  have e17 : (ascii "InnerProductParams").length = 18 := by decide +kernel
  simp only [encBPProof, encBPParams, BPProof.toGo, encObj, Json.print, JsonMembers.print, List.length_cons, List.length_append,
    List.length_nil, e1, e2, e3, e4, e5, e6, e7, e8, e9, e10, e11, e12, e13, e14, e15, e16, e17]
  generalize (encPoint (some p.V)).print.length = a1 at *
  generalize (encPoint (some p.A)).print.length = a2 at *
  generalize (encPoint (some p.S)).print.length = a3 at *
  generalize (encPoint (some p.T1)).print.length = a4 at *
  generalize (encPoint (some p.T2)).print.length = a5 at *
  generalize (encPtr encInt (some p.Taux)).print.length = a6 at *
  generalize (encPtr encInt (some p.Mu)).print.length = a7 at *
  generalize (encPtr encInt (some p.Tprime)).print.length = a8 at *
  generalize (encIPProof p.IP.toGo).print.length = a9 at *
  generalize (encPoint (some p.Commit)).print.length = a10 at *
  generalize (encInt p.Params.N).print.length = a11 at *
  generalize (encPoint (some p.Params.G)).print.length = a12 at *
  generalize (encPoint (some p.Params.H)).print.length = a13 at *
  generalize (encPoints (points p.Params.Gg)).print.length = a14 at *
  generalize (encPoints (points p.Params.Hh)).print.length = a15 at *
  generalize (encIPParams p.ParamsIP.toGo).print.length = a16 at *
  clear * - h1 h2 h3 h4 h5 h6 h7 h8 h9 h10 h11 h12 h13 h14 h15 h16
  omega

/-! ### The output of `Prove` -/

theorem tidy_prove {E : Ext} (hE : E.Ok) {rnd : BPRand} {secret : Int} {params : BPParams} {n : Nat}
    (hN : params.N = n) (hn : (n : Int) < 2 ^ 63) (hG : params.G.Bounded) (hH : Tidy params.H)
    (hg : ∀ q ∈ params.Gg, Tidy q) (hh : ∀ q ∈ params.Hh, Tidy q)
    {proof : BPProof} (hp : prove E rnd secret params = .ok (some proof)) (lip : proof.IP.N < 2 ^ 256) : BPTidy proof := by
  have iN : 0 ≤ params.N ∧ params.N < 2 ^ 256 := by rw [hN]; omega
  have o0 := ORDER_pos
  have o1 := ORDER_lt
  have hm : ∀ v : Int, 0 ≤ v % ORDER ∧ v % ORDER < 2 ^ 256 := fun v =>
    ⟨Int.emod_nonneg _ o0.ne', (Int.emod_lt_of_pos _ o0).trans o1⟩
  have pg : ArePoints params.Gg := fun q hq => (hg q hq).1
  have ph : ArePoints params.Hh := fun q hq => (hh q hq).1
  simp only [prove, Res.bind_eq_ok, res_ofOption_ok] at hp
  obtain ⟨aL, d1, A, d2, S, d3, vz, d4, vy, d5, naL, d6, sp1, d7, naR, d8, p2n, d9, sp2, d10, t2, d11, tp, d12, h', d13,
    oipp, d14, hp⟩ := hp
  have tA := tidy_commitVector hE hH.1 pg ph d2
  have tS := tidy_commitVector hE hH.1 pg ph d3
  have th := tidy_updateGenerators hE hh d13
  have itp : 0 ≤ tp ∧ tp < 2 ^ 256 := ⟨(scalarProduct_range d12).1, (scalarProduct_range d12).2.trans o1⟩
  rw [setupInnerProduct] at d14
  split at d14
  · injection d14 with d14
    subst d14
    cases hp
  · simp only [Res.bind_eq_ok, res_ofOption_ok, Res.ok.injEq] at d14
    obtain ⟨ou, m1, u, rfl, rfl⟩ := d14
    obtain ⟨U, hU⟩ := mapToGroup_isPoint hE m1
    simp only [Res.bind_eq_ok, res_ofOption_ok, Res.ok.injEq, Option.some.injEq] at hp
    obtain ⟨commit, c1, oip, i1, ip, rfl, rfl⟩ := hp
    simp only [commitInnerProduct, Res.bind_eq_ok, res_ofOption_ok, Res.ok.injEq] at c1
    obtain ⟨ga, c2, hb, c3, rfl⟩ := c1
    have tc := tidy_multiply hE (tidy_vectorExp hE pg c2) (tidy_vectorExp hE (fun q hq => (th q hq).1) c3)
    rw [proveInnerProduct] at i1
    split at i1
    · cases i1
    · simp only [Res.bind_eq_ok, res_ofOption_ok, Res.ok.injEq, Option.some.injEq] at i1
      obtain ⟨ox, _, x, _, pr, i2, rfl⟩ := i1
      have tu := tidy_scalarMult hE (tidy_of_fin hU).1 x
      have tPP := tidy_multiply hE tc (tidy_scalarMult hE tu.1 tp)
      have tip := tidy_computeBip hE (vectorAdd_small _ _) (vectorAdd_small _ _) hg th tu tPP
        (by simp) (by simp) i2
      obtain ⟨e, e'⟩ := computeBip_params i2
      refine ⟨(tidy_commitG1 hE _ _ hH.1).2, tA.2, tS.2, (tidy_commitG1 hE _ _ hH.1).2, (tidy_commitG1 hE _ _ hH.1).2,
        hm _, hm _, itp, tip, ?_, ?_, tc.2, iN, hG, hH.2, fun q hq => (hg q hq).2, fun q hq => (hh q hq).2, ?_⟩
      · show IPPTidy pr.Params
        rw [e]
        exact ⟨iN, itp, (tidy_of_fin hU).2, hH.2, fun q hq => (hg q hq).2, fun q hq => (th q hq).2, tPP.2⟩
      · refine ⟨?_, lip⟩
        show 0 ≤ pr.N
        rw [e']; omega
      · exact ⟨iN, itp, (tidy_of_fin hU).2, hH.2, fun q hq => (hg q hq).2, fun q hq => (th q hq).2, tidy_infinity.2⟩

/-! ### The output of `Setup` -/

theorem mapM_id_mem {T : Type} : ∀ {l : List (Option T)} {r : List T}, l.mapM id = some r → ∀ a ∈ r, some a ∈ l
  | [], r, h => by
    simp only [List.mapM_nil, Option.pure_def, Option.some.injEq] at h
    rw [← h]; simp
  | o :: l, r, h => by
    simp only [List.mapM_cons, Option.bind_eq_bind, Option.bind_eq_some_iff, id, Option.pure_def, Option.some.injEq] at h
    obtain ⟨a, rfl, r', h1, rfl⟩ := h
    intro b hb
    rcases List.mem_cons.1 hb with rfl | hb
    · exact List.mem_cons_self
    · exact List.mem_cons_of_mem _ (mapM_id_mem h1 b hb)

theorem mapM_id_length {T : Type} : ∀ {l : List (Option T)} {r : List T}, l.mapM id = some r → r.length = l.length
  | [], r, h => by
    simp only [List.mapM_nil, Option.pure_def, Option.some.injEq] at h
    rw [← h]; rfl
  | o :: l, r, h => by
    simp only [List.mapM_cons, Option.bind_eq_bind, Option.bind_eq_some_iff, id, Option.pure_def, Option.some.injEq] at h
    obtain ⟨a, rfl, r', h1, rfl⟩ := h
    rw [List.length_cons, List.length_cons, mapM_id_length h1]

theorem mapM_id_exists {T : Type} : ∀ {l : List (Option T)}, (∀ o ∈ l, o ≠ none) → ∃ r, l.mapM id = some r
  | [], _ => ⟨[], rfl⟩
  | none :: _, h => absurd rfl (h none List.mem_cons_self)
  | some a :: l, h => by
    obtain ⟨r, hr⟩ := mapM_id_exists (l := l) (fun o ho => h o (List.mem_cons_of_mem _ ho))
    refine ⟨a :: r, ?_⟩
    rw [List.mapM_cons, hr]; rfl

theorem tidy_setupLoop {E : Ext} (hE : E.Ok) : ∀ {fuel i : Nat} {r : List (Option P256) × List (Option P256)},
    setupLoop E fuel i = .ok r → (∀ q, some q ∈ r.1 → Tidy q) ∧ (∀ q, some q ∈ r.2 → Tidy q)
  | 0, _, r, h => by
    rw [setupLoop, Res.ok.injEq] at h
    rw [← h]; simp
  | fuel + 1, i, r, h => by
    simp only [setupLoop, Res.bind_eq_ok, Res.ok.injEq] at h
    obtain ⟨g, h1, h', h2, r', h3, rfl⟩ := h
    have ih := tidy_setupLoop hE h3
    constructor
    · intro q hq
      rcases List.mem_cons.1 hq with hq | hq
      · subst hq
        obtain ⟨Q, hQ⟩ := mapToGroup_isPoint hE h1
        exact tidy_of_fin hQ
      · exact ih.1 q hq
    · intro q hq
      rcases List.mem_cons.1 hq with hq | hq
      · subst hq
        obtain ⟨Q, hQ⟩ := mapToGroup_isPoint hE h2
        exact tidy_of_fin hQ
      · exact ih.2 q hq

theorem tidy_setup {E : Ext} (hE : E.Ok) {nan : Int} {b : BitVec 64} {s : BPSetup} {params : BPParams}
    (h1 : setup E nan b = .ok (some s)) (h2 : s.deref = .ok params) :
    params.G.Bounded ∧ Tidy params.H ∧ (∀ q ∈ params.Gg, Tidy q) ∧ (∀ q ∈ params.Hh, Tidy q) ∧ params.N ≤ 32 := by
  rw [setup] at h1
  split at h1
  · cases h1
  · simp only [Res.bind_eq_ok] at h1
    obtain ⟨H, m1, h1⟩ := h1
    split at h1
    · cases h1
    · split at h1
      · cases h1
      · split at h1
        · cases h1
        · rename_i n32 _
          simp only [Res.bind_eq_ok, Res.ok.injEq, Option.some.injEq] at h1
          obtain ⟨r, m2, rfl⟩ := h1
          simp only [BPSetup.deref, Res.bind_eq_ok, res_ofOption_ok, Res.ok.injEq] at h2
          obtain ⟨H, rfl, Gg, e1, Hh, e2, rfl⟩ := h2
          have t := tidy_setupLoop hE m2
          obtain ⟨Q, hQ⟩ := mapToGroup_isPoint hE m1
          exact ⟨(tidy_scalarBaseMult hE 1).2, tidy_of_fin hQ, fun q hq => t.1 q (mapM_id_mem e1 q hq),
            fun q hq => t.2 q (mapM_id_mem e2 q hq), not_lt.1 n32⟩

end Verif

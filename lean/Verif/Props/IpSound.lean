import Verif.Lemmas.IpFork
import Verif.Props.Bip

/-!
# Soundness of the inner-product argument

C71: from runs with fresh challenges an opening can be computed; with the challenges of the code this says nothing,
because `P` can be chosen last.
-/

namespace Verif
open Spec Finset

/-- `InnerProductProof.Verify` accepts, for some hash function, a proof with the generators `gs`, `hs`, `U`, the point
`P`, the rounds `(L, R, x)` of `r` (where `x` is the hash of `L` and `R`) and the numbers `a`, `b`. -/
def IPAccepted (gs hs : List P256) (U P : P256) (r : List (P256 × P256 × Fn)) (a b : Fn) : Prop :=
  ∃ (E : Ext) (proof : IPProof) (P' : P256), E.Ok ∧ proof.Ls = r.map (·.1) ∧ proof.Rs = r.map (·.2.1) ∧
    (∀ q ∈ r, ((hashBP E q.1 q.2.1).1 : Fn) = q.2.2) ∧ proof.U = U ∧ proof.Params.Gg = gs ∧ proof.Params.Hh = hs ∧
    proof.Params.P = P ∧ (proof.A : Fn) = a ∧ (proof.B : Fn) = b ∧ ipVerify E proof = .ok (true, P')

/-- The tree of a prover that was run again and again is valid. -/
theorem forked_valid {k : Nat} {gs hs : List P256} {U P : P256} (lg : gs.length = 2 ^ k) (lh : hs.length = 2 ^ k)
    (hG : ArePoints gs) (hH : ArePoints hs) (hU : IsPoint U) (hP : IsPoint P) {t : Tree Fn k}
    (ht : t.Forked IsPoint (IPAccepted gs hs U P)) : t.Valid (valsOf gs) (valsOf hs) (valOf U) (valOf P) := by
  refine Tree.Forked.valid (val := valOf) t ?_ ht
  rintro r a b hl hpt ⟨E, proof, P', hE, h1, h2, h3, h4, h5, h6, h7, h8, h9, hv⟩
  have hw : proof.WellFormed := by
    refine ⟨?_, ?_, h4 ▸ hU, h5 ▸ hG, h6 ▸ hH, h7 ▸ hP⟩
    · rw [h1]
      intro p hp
      obtain ⟨q, hq, rfl⟩ := List.mem_map.1 hp
      exact (hpt q hq).1
    · rw [h2]
      intro p hp
      obtain ⟨q, hq, rfl⟩ := List.mem_map.1 hp
      exact (hpt q hq).2
  have := ((ipVerify_accepts hE (k := k) hw h1 h2 h3 hl (by rw [h5, lg]) (by rw [h6, lh])).1 ⟨P', hv⟩).2
  rw [h4, h5, h6, h7, h8, h9] at this
  exact this

theorem sum_valsOf {gs : List P256} {G : List Secp} (hG : Reps gs G) {n : Nat} (hl : gs.length = n) (a : Nat → Fn) :
    ∑ i ∈ range n, a i • valsOf gs i = ∑ i ∈ range n, a i • G.getD i 0 := by
  refine sum_congr rfl fun i hi => ?_
  have hi : i < gs.length := hl ▸ mem_range.1 hi
  have hi' : i < G.length := hG.length_eq ▸ hi
  rw [valsOf, List.getD_eq_getElem?_getD, List.getElem?_eq_getElem hi, Option.getD_some,
    List.getD_eq_getElem?_getD, List.getElem?_eq_getElem hi', Option.getD_some,
    show valOf gs[i] = G[i] from valOf_eq ((List.forall₂_iff_get.1 hG).2 i hi hi')]

/-- C71: suppose a prover, for fixed generators, `U` and `P`, was run with four challenges of different squares in each
of `k` rounds (`L` and `R` of a round being sent before the challenge), and `Verify` accepts all `4^k` proofs.  Then
`Tree.extract` computes from the challenges and the numbers `a`, `b` of these proofs either vectors `a`, `b` with
`P = g^a·h^b·U^<a,b>`, or a non-trivial relation between the generators.  The extractor never sees the group. -/
theorem C71_extract {k : Nat} {gs hs : List P256} {U P : P256} {G H : List Secp} {u Q : Secp}
    (lg : gs.length = 2 ^ k) (lh : hs.length = 2 ^ k) (hG : Reps gs G) (hH : Reps hs H) (hU : Rep U u) (hP : Rep P Q)
    {t : Tree Fn k} (ht : t.Forked IsPoint (IPAccepted gs hs U P)) :
    match t.extract with
    | .opening a b => Q = ∑ i ∈ range (2 ^ k), a i • G.getD i 0 + ∑ i ∈ range (2 ^ k), b i • H.getD i 0 +
        (∑ i ∈ range (2 ^ k), a i * b i) • u
    | .relation v => (∃ i < 2 ^ k, v.1 i ≠ 0 ∨ v.2.1 i ≠ 0) ∧
        ∑ i ∈ range (2 ^ k), v.1 i • G.getD i 0 + ∑ i ∈ range (2 ^ k), v.2.1 i • H.getD i 0 + v.2.2 • u = 0 := by
  have hv := Tree.extract_valid t (forked_valid lg lh hG.arePoints hH.arePoints ⟨u, hU⟩ ⟨Q, hP⟩ ht)
  cases he : t.extract with
  | opening a b =>
    rw [he, Found.Valid, sum_valsOf hG lg, sum_valsOf hH lh, valOf_eq hU, valOf_eq hP] at hv
    exact hv
  | relation v =>
    rw [he, Found.Valid, sum_valsOf hG lg, sum_valsOf hH lh, valOf_eq hU] at hv
    exact hv

/-- C71: the statement that `ProveInnerProduct` proves is about `P`, `Uu` and a number `c`; the argument is run for
`U = Uu^x` and `P·U^c` with the transcript hash `x`.  Two trees for different `x` yield vectors with `P = g^a·h^b` and
`<a,b> = c`, or a non-trivial relation between the generators and `Uu`. -/
theorem C71_product {k : Nat} {gs hs : List P256} {U₁ U₂ P₁ P₂ : P256} {G H : List Secp} {u Q : Secp} {c x₁ x₂ : Fn}
    (lg : gs.length = 2 ^ k) (lh : hs.length = 2 ^ k) (hG : Reps gs G) (hH : Reps hs H) (hx : x₁ ≠ x₂)
    (hU₁ : Rep U₁ (x₁ • u)) (hU₂ : Rep U₂ (x₂ • u)) (hP₁ : Rep P₁ (Q + (x₁ * c) • u)) (hP₂ : Rep P₂ (Q + (x₂ * c) • u))
    {t₁ t₂ : Tree Fn k} (ht₁ : t₁.Forked IsPoint (IPAccepted gs hs U₁ P₁))
    (ht₂ : t₂.Forked IsPoint (IPAccepted gs hs U₂ P₂)) :
    match extractProduct c x₁ x₂ t₁ t₂ with
    | .opening a b => Q = ∑ i ∈ range (2 ^ k), a i • G.getD i 0 + ∑ i ∈ range (2 ^ k), b i • H.getD i 0 ∧
        ∑ i ∈ range (2 ^ k), a i * b i = c
    | .relation v => ((∃ i < 2 ^ k, v.1 i ≠ 0 ∨ v.2.1 i ≠ 0) ∨ v.2.2 ≠ 0) ∧
        ∑ i ∈ range (2 ^ k), v.1 i • G.getD i 0 + ∑ i ∈ range (2 ^ k), v.2.1 i • H.getD i 0 + v.2.2 • u = 0 := by
  have h₁ := forked_valid lg lh hG.arePoints hH.arePoints ⟨_, hU₁⟩ ⟨_, hP₁⟩ ht₁
  have h₂ := forked_valid lg lh hG.arePoints hH.arePoints ⟨_, hU₂⟩ ⟨_, hP₂⟩ ht₂
  rw [valOf_eq hU₁, valOf_eq hP₁] at h₁
  rw [valOf_eq hU₂, valOf_eq hP₂] at h₂
  have hv := extractProduct_valid hx h₁ h₂
  cases he : extractProduct c x₁ x₂ t₁ t₂ with
  | opening a b =>
    simp only [he, sum_valsOf hG lg, sum_valsOf hH lh] at hv
    exact hv
  | relation v =>
    simp only [he, sum_valsOf hG lg, sum_valsOf hH lh] at hv
    exact hv

/-- C71: no such conclusion is possible for single proofs.  The challenges depend on `L` and `R` only, so for every proof
object whose verification does not panic (whatever `L`, `R`, `A`, `B` are) there is a point `T` which makes it accepted
when it is put in place of `P`, and no other point does. -/
theorem C71_chosen_last {E : Ext} (hE : E.Ok) (proof : IPProof) (hp : proof.WellFormed)
    (hn : ipVerify E proof ≠ .panic) :
    ∃ T : Secp, ∀ P Q, Rep P Q →
      ((∃ P', ipVerify E { proof with Params := { proof.Params with P := P } } = .ok (true, P')) ↔ Q = T) := by
  rcases ipVerify_target hE proof hp with h | ⟨T, hT⟩
  · exact absurd (h _ hp.P) hn
  · refine ⟨T, fun P Q hP => ?_⟩
    obtain ⟨v, P', e1, e2, _⟩ := hT P Q hP
    rw [show ({ proof with Params := { proof.Params with P := P } } : IPProof) = proof.afterVerify P from rfl, e1, ← e2]
    simp

/-- The hypotheses of C71_chosen_last hold for every proof object with one round, two generators of each kind and a
hash value which is no multiple of the order. -/
example (E : Ext) (proof : IPProof) (L R : P256) (hL : proof.Ls = [L]) (hR : proof.Rs = [R])
    (hg : proof.Params.Gg.length = 2) (hh : proof.Params.Hh.length = 2) (hN : proof.N = 2)
    (hx : ¬ ORDER ∣ (hashBP E L R).1) : ipVerify E proof ≠ .panic := by
  refine C32_well_sized proof 1 (by rw [hL]; rfl) (by rw [hR]; rfl) hg hh hN ?_
  intro i L' R' h1 h2
  rw [hL] at h1
  rw [hR] at h2
  cases i with
  | zero =>
    simp only [List.getElem?_cons_zero, Option.some.injEq] at h1 h2
    subst h1 h2
    exact hx
  | succ i => simp at h1

/-! ### Instances -/

/-- A hash function with a constant value. -/
def hashConst (j : UInt8) : List UInt8 → List UInt8 := fun _ => List.replicate 31 0 ++ [j]

theorem hashBP_hashConst (j : UInt8) (a s : P256) : (hashBP (idealExt (hashConst j)) a s).1 = (j.toNat : Int) := by
  have h : ∀ j : UInt8, setBytes (List.replicate 31 0 ++ [j]) = j.toNat := by
    intro j
    simp [setBytes]
  simp only [hashBP, idealExt, hashConst, h]

section
/-- The answers of an honest prover with one round and `a = (1,2)`, `b = (3,4)`. -/
def exTree : Tree Fn 1 :=
  .node ![1, 2, 3, 4] (fun i => .leaf ((![1, 2, 3, 4] : Fin 4 → Fn) i + ((![1, 2, 3, 4] : Fin 4 → Fn) i)⁻¹ * 2)
    (((![1, 2, 3, 4] : Fin 4 → Fn) i)⁻¹ * 3 + (![1, 2, 3, 4] : Fin 4 → Fn) i * 4))

theorem exTree_forked (g₁ g₂ h₁ h₂ u : Secp) :
    exTree.Forked IsPoint (IPAccepted [canonP g₁, canonP g₂] [canonP h₁, canonP h₂] (canonP u)
      (canonP (g₁ + (2 : Fn) • g₂ + (3 : Fn) • h₁ + (4 : Fn) • h₂ + (11 : Fn) • u))) := by
  refine ⟨by decide +kernel, canonP (g₂ + (4 : Fn) • h₁ + (4 : Fn) • u),
    canonP ((2 : Fn) • g₁ + (3 : Fn) • h₂ + (6 : Fn) • u), ⟨_, rep_canonP _⟩, ⟨_, rep_canonP _⟩, fun i => ?_⟩
  obtain ⟨j, hj, hj0⟩ : ∃ j : UInt8, ((j.toNat : Int) : Fn) = (![1, 2, 3, 4] : Fin 4 → Fn) i ∧
      (![1, 2, 3, 4] : Fin 4 → Fn) i ≠ 0 := by
    have : ∀ i : Fin 4, (((![1, 2, 3, 4] : Fin 4 → UInt8) i).toNat : Fn) = (![1, 2, 3, 4] : Fin 4 → Fn) i ∧
        (![1, 2, 3, 4] : Fin 4 → Fn) i ≠ 0 := by decide +kernel
    exact ⟨(![1, 2, 3, 4] : Fin 4 → UInt8) i, by rw [Int.cast_natCast]; exact (this i).1, (this i).2⟩
  change IPAccepted _ _ _ _ [(_, _, (![1, 2, 3, 4] : Fin 4 → Fn) i)]
    ((![1, 2, 3, 4] : Fin 4 → Fn) i + ((![1, 2, 3, 4] : Fin 4 → Fn) i)⁻¹ * 2)
    (((![1, 2, 3, 4] : Fin 4 → Fn) i)⁻¹ * 3 + (![1, 2, 3, 4] : Fin 4 → Fn) i * 4)
  generalize (![1, 2, 3, 4] : Fin 4 → Fn) i = x at hj hj0 ⊢
  have hE := idealExt_ok (hashConst j) (fun _ => rfl)
  have cst : ∀ y : Fn, (((y.val : Nat) : Int) : Fn) = y := by intro y; rw [Int.cast_natCast, ZMod.natCast_zmod_val]
  set L := canonP (g₂ + (4 : Fn) • h₁ + (4 : Fn) • u) with hL
  set R := canonP ((2 : Fn) • g₁ + (3 : Fn) • h₂ + (6 : Fn) • u) with hR
  set P := canonP (g₁ + (2 : Fn) • g₂ + (3 : Fn) • h₁ + (4 : Fn) • h₂ + (11 : Fn) • u) with hP
  have pt : ∀ Q : Secp, IsPoint (canonP Q) := fun Q => ⟨Q, rep_canonP Q⟩
  let proof : IPProof := ⟨2, [L], [R], canonP u, P, P256.infinity, P256.infinity, ((x + x⁻¹ * 2 : Fn).val : Nat),
    ((x⁻¹ * 3 + x * 4 : Fn).val : Nat),
    { exParams 11 with Gg := [canonP g₁, canonP g₂], Hh := [canonP h₁, canonP h₂], P := P }⟩
  have hw : proof.WellFormed := by
    refine ⟨?_, ?_, pt _, ?_, ?_, pt _⟩ <;> intro p hp
    · rw [List.mem_singleton.1 hp]; exact pt _
    · rw [List.mem_singleton.1 hp]; exact pt _
    · rcases List.mem_cons.1 hp with rfl | hp
      · exact pt _
      · rw [List.mem_singleton.1 hp]; exact pt _
    · rcases List.mem_cons.1 hp with rfl | hp
      · exact pt _
      · rw [List.mem_singleton.1 hp]; exact pt _
  have hch : ∀ q ∈ [(L, R, x)], ((hashBP (idealExt (hashConst j)) q.1 q.2.1).1 : Fn) = q.2.2 := by
    intro q hq
    rw [List.mem_singleton.1 hq, hashBP_hashConst]
    exact hj
  obtain ⟨P', hv⟩ := (ipVerify_accepts hE (k := 1) (r := [(L, R, x)]) hw rfl rfl hch rfl rfl rfl).2 (by
    refine ⟨fun _ => rfl, ?_⟩
    simp only [List.map_cons, List.map_nil, Accepts, Spec.fold]
    refine ⟨hj0, ?_⟩
    simp only [proof, valsOf, List.length_nil, pow_zero, zero_add, List.getD_cons_zero, cst, hL, hR, hP,
      valOf_eq (rep_canonP _)]
    have i1 : x * x⁻¹ = 1 := mul_inv_cancel₀ hj0
    have e1 : ∀ p q : P256, [p, q].getD 1 P256.infinity = q := fun _ _ => rfl
    simp only [e1, valOf_eq (rep_canonP _)]
    linear_combination (norm := module) -(i1 • (g₁ + (2 : Fn) • g₂ + (3 : Fn) • h₁ + (4 : Fn) • h₂ + (11 : Fn) • u)))
  exact ⟨_, proof, P', hE, rfl, rfl, hch, rfl, rfl, rfl, rfl, cst _, cst _, hv⟩

/-- C71 applies to this tree, for any generators. -/
example (g₁ g₂ h₁ h₂ u : Secp) : exTree.Valid (valsOf [canonP g₁, canonP g₂]) (valsOf [canonP h₁, canonP h₂])
    (valOf (canonP u)) (valOf (canonP (g₁ + (2 : Fn) • g₂ + (3 : Fn) • h₁ + (4 : Fn) • h₂ + (11 : Fn) • u))) := by
  have pt : ∀ Q : Secp, IsPoint (canonP Q) := fun Q => ⟨Q, rep_canonP Q⟩
  have pts : ∀ Q R : Secp, ArePoints [canonP Q, canonP R] := by
    intro Q R p hp
    rcases List.mem_cons.1 hp with rfl | hp
    · exact pt _
    · rw [List.mem_singleton.1 hp]; exact pt _
  exact forked_valid rfl rfl (pts _ _) (pts _ _) (pt _) (pt _) (exTree_forked g₁ g₂ h₁ h₂ u)

/-- From this tree the extractor computes the prover's vectors. -/
example : (match exTree.extract with
    | .opening a b => a 0 == 1 && a 1 == 2 && b 0 == 3 && b 1 == 4
    | .relation _ => false) = true := by decide +kernel

/-- If the fourth answer does not fit the others it computes a relation. -/
example : (match (Spec.Tree.node (k := 0) (![1, 2, 3, 4] : Fin 4 → Fn) (fun i => .leaf (if i = 3 then 1 else 0) 0)).extract with
    | .opening _ _ => false
    | .relation v => v.1 0 != 0 && v.2.1 0 == 0) = true := by decide +kernel

/-- The hypotheses of C71_product: two trees for the generators `u` and `2·u`. -/
example (g₁ g₂ h₁ h₂ u : Secp) : ∃ (Q : Secp) (U₁ U₂ P₁ P₂ : P256), Rep U₁ ((1 : Fn) • u) ∧ Rep U₂ ((2 : Fn) • u) ∧
    Rep P₁ (Q + ((1 : Fn) * 11) • u) ∧ Rep P₂ (Q + ((2 : Fn) * 11) • u) ∧
    exTree.Forked IsPoint (IPAccepted [canonP g₁, canonP g₂] [canonP h₁, canonP h₂] U₁ P₁) ∧
    exTree.Forked IsPoint (IPAccepted [canonP g₁, canonP g₂] [canonP h₁, canonP h₂] U₂ P₂) := by
  refine ⟨g₁ + (2 : Fn) • g₂ + (3 : Fn) • h₁ + (4 : Fn) • h₂, _, _, _, _, rep_canonP _, rep_canonP _, ?_, ?_,
    exTree_forked g₁ g₂ h₁ h₂ _, exTree_forked g₁ g₂ h₁ h₂ _⟩
  · convert rep_canonP _ using 2; module
  · convert rep_canonP _ using 2; module

end

end Verif

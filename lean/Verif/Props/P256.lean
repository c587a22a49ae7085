import Verif.Lemmas.GroupVec
import Verif.Props.Arith

/-!
# C13-C20, C33: secp256k1 points, commitments and group vectors

`Rep a Q` (Spec/Secp.lean) relates a Go point to a point of Mathlib's elliptic curve group.
-/

namespace Verif

/-- `G` and known multiples of it, as literal Go points. -/
def exG : P256 := ⟨some secpGx, some secpGy⟩
def ex2G : P256 := ⟨some 89565891926547004231252920425935692360644145829622209833684329913297188986597,
  some 12158399299693830322967808612713398636155367887041628176798871954788371653930⟩
def ex3G : P256 := ⟨some 112711660439710606056748659173929673102114977341539408544630613555209775888121,
  some 25583027980570883691656905877401976406448868254816295069919888960541586679410⟩

/-- C13. -/
theorem C13_multiply {E : Ext} (hE : E.Ok) {a b : P256} {Q R : Secp} (ha : Rep a Q) (hb : Rep b R) :
    Rep (a.multiply E b) (Q + R) := multiply_rep hE ha hb

/-- The assumptions are satisfiable, `G` is a finite point, and on literals (where no external
function is involved) `G + 2G` has the published coordinates of `3G`, and `G + (-G)` is infinity. -/
example : (idealExt (fun _ => List.replicate 32 0)).Ok ∧ Rep exG secpG ∧
    (∀ E, exG.multiply E ex2G = ex3G) ∧
    (∀ E, (exG.multiply E ⟨some secpGx, some (secpP - secpGy)⟩).isZero = true) := by
  refine ⟨idealExt_ok _ (by simp), Or.inr repFin_base, fun E => ?_, fun E => ?_⟩
  · rw [P256.multiply, if_neg (by decide +kernel), if_neg (by decide +kernel),
      if_neg (by decide +kernel)]
    decide +kernel
  · rw [P256.multiply, if_neg (by decide +kernel), if_neg (by decide +kernel),
      if_neg (by decide +kernel)]
    decide +kernel

/-- C14: the exact group element returned by `Add`. -/
theorem C14_add {a b : P256} {Q R : Secp} (ha : Rep a Q) (hb : Rep b R) :
    Rep (a.add b) (if Q = 0 then R else if R = 0 then 0 else if Q = R then 0 else Q + R) :=
  add_rep ha hb

/-- C14: `Add` is correct except on exactly the two bad cases. -/
theorem C14_correct_iff {a b : P256} {Q R : Secp} (ha : Rep a Q) (hb : Rep b R) :
    Rep (a.add b) (Q + R) ↔ ¬ (Q ≠ 0 ∧ (R = 0 ∨ Q = R)) := by
  have h := C14_add ha hb
  have h2 : Q ≠ 0 → Q + Q ≠ 0 := by
    intro hQ hc
    apply hQ
    have h := secp_nsmul Q
    have hodd : secpNn = 2 * (secpNn / 2) + 1 := by decide +kernel
    rw [hodd, succ_nsmul, mul_nsmul, two_nsmul, hc, nsmul_zero, zero_add] at h
    exact h
  constructor
  · rintro hs ⟨hQ, hR⟩
    have := h.unique hs
    rw [if_neg hQ] at this
    rcases hR with hR | hR
    · rw [if_pos hR, hR, add_zero] at this
      exact hQ this.symm
    · subst hR
      rw [if_neg hQ, if_pos rfl] at this
      exact h2 hQ this.symm
  · intro hs
    convert h using 1
    by_cases hQ : Q = 0
    · simp [hQ]
    · push Not at hs
      obtain ⟨h1, h2⟩ := hs hQ
      rw [if_neg hQ, if_neg h1, if_neg h2]

/-- Both wrong cases occur, `G + ∞` and `G + G`; on literals `G + 2G = 3G`. -/
example : ¬ Rep (exG.add P256.infinity) (secpG + 0) ∧ ¬ Rep (exG.add exG) (secpG + secpG) ∧
    Rep (P256.infinity.add exG) (0 + secpG) ∧ exG.add ex2G = ex3G := by
  have hG : Rep exG secpG := Or.inr repFin_base
  refine ⟨?_, ?_, ?_, by decide +kernel⟩
  · rw [C14_correct_iff hG rep_infinity]; simp [secpG_ne_zero]
  · rw [C14_correct_iff hG hG]; simp [secpG_ne_zero]
  · rw [C14_correct_iff rep_infinity hG]; simp

/-- C15: the group order. -/
theorem C15_order : Nat.card Secp = secpNn ∧ secpNn.Prime ∧ ORDER = (secpNn : Int) ∧
    (∀ Q : Secp, secpNn • Q = 0) ∧ (∀ Q : Secp, Q ≠ 0 → ∀ R : Secp, ∃ k : Int, k • Q = R) := by
  refine ⟨secp_card, Fact.out, ORDER_eq, secp_nsmul, fun Q hQ R => ?_⟩
  obtain ⟨k, hk⟩ := secp_generator Q hQ R
  exact ⟨k.val, by rw [← hk, natCast_zsmul, ← zmod_smul_natCast, ZMod.natCast_zmod_val]⟩

/-- C15: scalar multiplication, for every integer scalar. -/
theorem C15_scalarMult {E : Ext} (hE : E.Ok) {a : P256} {Q : Secp} (ha : Rep a Q) (n : Int) :
    Rep (a.scalarMult E n) (n • Q) := scalarMult_rep hE ha n

/-- C15: base point multiplication. -/
theorem C15_scalarBaseMult {E : Ext} (hE : E.Ok) (n : Int) :
    Rep (P256.scalarBaseMult E n) (n • secpG) := scalarBaseMult_rep hE n

/-- `-1`, `ORDER` and `ORDER + 1` times `G`; `G` is not infinity. -/
example {E : Ext} (hE : E.Ok) : Rep (exG.scalarMult E (-1)) (-secpG) ∧
    (exG.scalarMult E ORDER).isZero = true ∧ exG.scalarMult E (ORDER + 1) = exG := by
  have hG : Rep exG secpG := Or.inr repFin_base
  refine ⟨?_, ?_, ?_⟩
  · simpa using C15_scalarMult hE hG (-1)
  · have := C15_scalarMult hE hG ORDER
    rw [this.isZero_iff, ORDER_eq, natCast_zsmul, secp_nsmul]
  · have := C15_scalarMult hE hG (ORDER + 1)
    rw [add_zsmul, ORDER_eq, natCast_zsmul, secp_nsmul, zero_add, one_zsmul] at this
    rw [ORDER_eq]
    exact (this.fin secpG_ne_zero).eq repFin_base

/-- C16: in place negation. -/
theorem C16_neg_in_place {E : Ext} (hE : E.Ok) {a : P256} {Q : Secp} (ha : Rep a Q) :
    Rep (P256.neg E a a) (-Q) := by
  rw [P256.neg]
  split
  · rename_i h; rw [(ha.isZero_iff).1 h, neg_zero]; exact rep_infinity
  · rw [← order_sub_one_smul]; exact scalarMult_rep hE ha _

/-- C16: with a different receiver the argument is only tested for infinity. -/
theorem C16_neg_other {E : Ext} (hE : E.Ok) {p a : P256} {Q R : Secp} (hp : Rep p Q) (ha : Rep a R) :
    Rep (P256.neg E p a) (if R = 0 then 0 else -Q) := by
  rw [P256.neg]
  split
  · rename_i h; rw [if_pos ((ha.isZero_iff).1 h)]; exact rep_infinity
  · rename_i h
    rw [if_neg (fun hR => h ((ha.isZero_iff).2 hR)), ← order_sub_one_smul]
    exact scalarMult_rep hE hp _

/-- `new(P256).Neg(G)` is infinity, not `-G`. -/
example {E : Ext} (hE : E.Ok) : (P256.neg E P256.infinity exG).isZero = true ∧ -secpG ≠ 0 ∧
    Rep (P256.neg E exG exG) (-secpG) := by
  have hG : Rep exG secpG := Or.inr repFin_base
  refine ⟨?_, neg_ne_zero.2 secpG_ne_zero, C16_neg_in_place hE hG⟩
  rw [(C16_neg_other hE rep_infinity hG).isZero_iff]; simp

/-- The abscissa tried by `MapToGroup(m)` in round `i`: the hash of the decimal number `i`
followed by `m`, read as a two's-complement integer and reduced modulo `p`. -/
def candidateX (E : Ext) (m : List UInt8) (i : Nat) : Int :=
  Spec.twos (E.sha256 (Spec.decNat i ++ m)) % secpP

/-- Some point of the curve has abscissa `x`. -/
def OnCurveX (x : Int) : Prop := ∃ y : Int, y ^ 2 ≡ x ^ 3 + 7 [ZMOD secpP]

theorem onCurveX_iff (x : Int) : OnCurveX x ↔ ∃ y : SF, y ^ 2 = (x : SF) ^ 3 + 7 := by
  constructor
  · rintro ⟨y, hy⟩
    rw [← sf_eq_iff] at hy
    exact ⟨y, by push_cast at hy; exact hy⟩
  · rintro ⟨y, hy⟩
    refine ⟨y.val, ?_⟩
    rw [← sf_eq_iff, Int.cast_pow, sf_val]; push_cast; exact hy

/-- C17: `MapToGroup` never panics; it returns an error exactly if no candidate is on the
curve, otherwise a canonical finite curve point whose abscissa is the first suitable candidate. -/
theorem C17_mapToGroup {E : Ext} (hE : E.Ok) (m : List UInt8) :
    (mapToGroup E m = .ok none ∧ ∀ i < 256, ¬ OnCurveX (candidateX E m i)) ∨
    (∃ i p y, i < 256 ∧ mapToGroup E m = .ok (some p) ∧
      p = ⟨some (candidateX E m i), some y⟩ ∧ 0 ≤ candidateX E m i ∧ candidateX E m i < secpP ∧
      0 ≤ y ∧ y < secpP ∧ y ^ 2 ≡ candidateX E m i ^ 3 + 7 [ZMOD secpP] ∧
      p.isZero = false ∧ (∃ Q, RepFin p Q) ∧ ∀ k < i, ¬ OnCurveX (candidateX E m k)) := by
  rcases mapToGroupLoop_spec hE m 256 0 (candidateX E m) (fun _ => rfl) with
    ⟨h1, h2⟩ | ⟨i, p, _, h2, h3, h4, ⟨Q, h5⟩, h6⟩
  · left
    exact ⟨h1, fun i hi => by rw [onCurveX_iff]; exact h2 i (Nat.zero_le _) (by omega)⟩
  · right
    have hz := h5.isZero
    have h5' := h5
    obtain ⟨x, y, rfl, x0, x1, y0, y1, hp⟩ := h5
    have hx : x = candidateX E m i := by simpa using h4
    subst hx
    refine ⟨i, _, y, by omega, h3, rfl, x0, x1, y0, y1, ?_, hz, ⟨Q, h5'⟩, fun k hk => ?_⟩
    · rw [← sf_eq_iff]; push_cast; exact hp.eqn
    · rw [onCurveX_iff]; exact h6 k (Nat.zero_le _) hk

/-- Both outcomes occur: with the constant hash `00..01` (x = 1, 8 is a square) and the constant
hash `00..05` (132 is not a square modulo p). -/
example : OnCurveX 1 ∧ ¬ OnCurveX 5 := by
  constructor
  · exact ⟨29896722852569046015560700294576055776214335159245303116488692907525646231534, by
      show _ % secpP = _ % secpP; decide +kernel⟩
  · rw [onCurveX_iff]
    rintro ⟨y, hy⟩
    have h132 : y ^ 2 = ((132 : Nat) : SF) := by rw [hy]; norm_num
    have hy0 : y ≠ 0 := by
      rintro rfl
      have hc : ((132 : Nat) : SF) = 0 := by rw [← h132]; ring
      rw [ZMod.natCast_eq_zero_iff] at hc
      exact absurd hc (by decide +kernel)
    have h1 := ZMod.pow_card_sub_one_eq_one hy0
    have he : secpPn - 1 = 2 * ((secpPn - 1) / 2) := by decide +kernel
    rw [he, pow_mul, h132] at h1
    have hs := powMod_spec secpPn 256 132 ((secpPn - 1) / 2) 1 (by decide +kernel)
    rw [Nat.cast_one, one_mul, h1, ← Nat.cast_one (R := ZMod secpPn), ZMod.natCast_eq_natCast_iff] at hs
    exact absurd hs (by show ¬ (_ % _ = _ % _); decide +kernel)

/-- C18. -/
theorem C18_isOnCurve (x y : Int) :
    P256.isOnCurve ⟨some x, some y⟩ = .ok (decide (y ^ 2 ≡ x ^ 3 + 7 [ZMOD secpP])) := by
  simp only [P256.isOnCurve]
  congr 2
  simp only [Int.ModEq, eq_comm (a := y ^ 2 % secpP)]
  ring_nf

/-- `(Gx, Gy)` is on the curve, also with non-reduced coordinates; `(1, 1)` is not. -/
example : P256.isOnCurve exG = .ok true ∧ P256.isOnCurve ⟨some (secpGx - secpP), some (-secpGy)⟩ = .ok true ∧
    P256.isOnCurve ⟨some 1, some 1⟩ = .ok false := by decide +kernel

/-- C19: exact value of `CommitG1`. -/
theorem C19_commitG1 {E : Ext} (hE : E.Ok) (x r : Int) {h : P256} {H : Secp} (hh : Rep h H) :
    ((r • H = 0 ∧ x • secpG ≠ 0) ∨ (x • secpG = r • H ∧ x • secpG ≠ 0) →
      (commitG1 E x r h).isZero = true) ∧
    (¬ ((r • H = 0 ∧ x • secpG ≠ 0) ∨ (x • secpG = r • H ∧ x • secpG ≠ 0)) →
      Rep (commitG1 E x r h) (x • secpG + r • H)) := by
  have hc := commitG1_rep hE x r hh
  constructor
  · rintro (⟨h1, h2⟩ | ⟨h1, h2⟩)
    · rw [if_neg h2, if_pos h1] at hc
      exact (hc.isZero_iff).2 rfl
    · rw [if_neg h2, if_neg (h1 ▸ h2), if_pos h1] at hc
      exact (hc.isZero_iff).2 rfl
  · intro hn
    push Not at hn
    obtain ⟨h1, h2⟩ := hn
    by_cases hx : x • secpG = 0
    · rw [if_pos hx] at hc
      rw [hx, zero_add]; exact hc
    · rw [if_neg hx, if_neg (fun h => hx (h1 h)), if_neg (fun h => hx (h2 h))] at hc
      exact hc

/-- C19: with `r = 0` every commitment is infinity (so different `x` collide). -/
theorem C19_zero_randomness {E : Ext} (hE : E.Ok) (x : Int) {h : P256} {H : Secp} (hh : Rep h H) :
    (commitG1 E x 0 h).isZero = true := by
  have hc := commitG1_rep hE x 0 hh
  rw [zero_zsmul] at hc
  rw [hc.isZero_iff]
  split_ifs <;> simp_all

/-- A commitment to 1 with randomness 2 and `h = G` is `3G`, with randomness 1 it is infinity. -/
example {E : Ext} (hE : E.Ok) : Rep (commitG1 E 1 2 exG) ((3 : Int) • secpG) ∧
    (commitG1 E 1 1 exG).isZero = true := by
  have hG : Rep exG secpG := Or.inr repFin_base
  have h2G : (2 : Int) • secpG ≠ 0 := by
    intro h
    rw [← zmod_smul_intCast, smul_eq_zero] at h
    exact h.elim (by decide +kernel) secpG_ne_zero
  refine ⟨?_, (C19_commitG1 hE 1 1 hG).1 (Or.inr ⟨rfl, by rw [one_zsmul]; exact secpG_ne_zero⟩)⟩
  have := (C19_commitG1 hE 1 2 hG).2 ?_
  · rw [← add_zsmul] at this; exact this
  · rintro (⟨h, _⟩ | ⟨h, _⟩)
    · exact h2G h
    · rw [one_zsmul, two_zsmul] at h
      exact secpG_ne_zero (left_eq_add.1 h)

/-- C20: `VectorExp`. -/
theorem C20_vectorExp {E : Ext} (hE : E.Ok) {a : List P256} {Q : List Secp} (h : Reps a Q)
    (b : List Int) :
    (a.length ≠ b.length → vectorExp E a b = none) ∧
    (a.length = b.length → ∃ r, vectorExp E a b = some r ∧
      Rep r (List.zipWith (fun (n : Int) P => n • P) b Q).sum) :=
  ⟨fun hl => by rw [vectorExp, if_pos hl], vectorExp_rep hE h b⟩

/-- C20: the componentwise helpers. -/
theorem C20_vectorECAdd {E : Ext} (hE : E.Ok) {a b : List P256} {Q R : List Secp} (h : Reps a Q)
    (h' : Reps b R) :
    (a.length ≠ b.length → vectorECAdd E a b = none) ∧
    (a.length = b.length → ∃ r, vectorECAdd E a b = some r ∧ Reps r (List.zipWith (· + ·) Q R)) :=
  ⟨fun hl => by rw [vectorECAdd, if_pos hl], vectorECAdd_rep hE h h'⟩

example {E : Ext} (hE : E.Ok) := C20_vectorECAdd hE (a := [exG, P256.infinity]) (b := [exG, exG])
  (.cons (Or.inr repFin_base) (.cons rep_infinity .nil)) (.cons (Or.inr repFin_base) (.cons (Or.inr repFin_base) .nil))

theorem C20_vectorScalarExp {E : Ext} (hE : E.Ok) {a : List P256} {Q : List Secp} (h : Reps a Q)
    (n : Int) : Reps (vectorScalarExp E a n) (Q.map (fun P => n • P)) := vectorScalarExp_rep hE h n

/-- `2·G + (-2)·G + 5·∞` is infinity. -/
example {E : Ext} (hE : E.Ok) : ∃ r, vectorExp E [exG, exG, P256.infinity] [2, -2, 5] = some r ∧
    r.isZero = true := by
  have hG : Rep exG secpG := Or.inr repFin_base
  obtain ⟨r, h1, h2⟩ := (C20_vectorExp hE (.cons hG (.cons hG (.cons rep_infinity .nil))) [2, -2, 5]).2 rfl
  refine ⟨r, h1, (h2.isZero_iff).2 ?_⟩
  simp [zsmul_zero]

/-- C33 (i): the ideal Pedersen commitment is a bijection in the randomness. -/
theorem C33_ideal_hiding (x : Int) {H : Secp} (hH : H ≠ 0) :
    Function.Bijective (fun r : ZMod secpNn => x • secpG + r • H) := by
  constructor
  · intro r s h
    have h : r • H = s • H := add_left_cancel h
    rw [← sub_eq_zero, ← sub_smul, smul_eq_zero] at h
    exact sub_eq_zero.1 (h.resolve_right hH)
  · intro Q
    obtain ⟨k, hk⟩ := secp_generator H hH (Q - x • secpG)
    exact ⟨k, by show x • secpG + k • H = Q; rw [hk]; abel⟩

example := C33_ideal_hiding 5 secpG_ne_zero

/-- C33 (ii): for `x ≢ 0` the code deviates from the ideal commitment on exactly two residues
`r` (0 and the one with `r·h = x·G`); for `x ≡ 0` never. -/
theorem C33_code_hiding {E : Ext} (hE : E.Ok) (x : Int) {h : P256} {H : Secp} (hh : Rep h H)
    (hH : H ≠ 0) :
    {r : ZMod secpNn | ¬ Rep (commitG1 E x r.val h) (x • secpG + r • H)}.ncard =
      if ORDER ∣ x then 0 else 2 := by
  have hval : ∀ r : ZMod secpNn, ((r.val : Nat) : Int) • H = r • H := fun r => by
    rw [natCast_zsmul, ← zmod_smul_natCast, ZMod.natCast_zmod_val]
  have hx : x • secpG = 0 ↔ ORDER ∣ x := by
    rw [← zmod_smul_intCast, smul_eq_zero, or_iff_left secpG_ne_zero,
      ZMod.intCast_zmod_eq_zero_iff_dvd, ORDER_eq]
  have key : ∀ r : ZMod secpNn, ¬ Rep (commitG1 E x r.val h) (x • secpG + r • H) ↔
      x • secpG ≠ 0 ∧ (r = 0 ∨ x • secpG = r • H) := by
    intro r
    rw [← hval, commitG1, C14_correct_iff (scalarBaseMult_rep hE x) (scalarMult_rep hE hh _), not_not,
      hval, smul_eq_zero, or_iff_left hH]
  split
  · rename_i hd
    have : {r : ZMod secpNn | ¬ Rep (commitG1 E x r.val h) (x • secpG + r • H)} = ∅ :=
      Set.eq_empty_of_forall_notMem fun r hr => ((key r).1 hr).1 (hx.2 hd)
    rw [this, Set.ncard_empty]
  · rename_i hd
    have hne : x • secpG ≠ 0 := fun h => hd (hx.1 h)
    obtain ⟨k, hk⟩ := secp_generator H hH (x • secpG)
    have hk0 : k ≠ 0 := by rintro rfl; exact hne (hk.symm.trans (zmod_zero_smul H))
    have : {r : ZMod secpNn | ¬ Rep (commitG1 E x r.val h) (x • secpG + r • H)} = {0, k} := by
      ext r
      simp only [Set.mem_ofPred_eq, key, Set.mem_insert_iff, Set.mem_singleton_iff]
      refine ⟨fun ⟨_, h⟩ => h.imp_right fun h => ?_, fun h => ⟨hne, h.imp_right fun h => ?_⟩⟩
      · rw [← hk, ← sub_eq_zero, ← sub_smul, smul_eq_zero, or_iff_left hH, sub_eq_zero] at h
        exact h.symm
      · rw [h, hk]
    rw [this, Set.ncard_pair hk0.symm]

/-- The hypotheses hold for `h = G`; with `x = 5` there are two bad residues. -/
example {E : Ext} (hE : E.Ok) :
    {r : ZMod secpNn | ¬ Rep (commitG1 E 5 r.val exG) ((5 : Int) • secpG + r • secpG)}.ncard = 2 := by
  rw [C33_code_hiding hE 5 (h := exG) (Or.inr repFin_base) secpG_ne_zero, if_neg (by decide +kernel)]

end Verif

import Verif.Lemmas.BnInplace
import Verif.Lemmas.Bytes
import Verif.Props.BnGroup

/-!
# 32-byte words, and the encodings of `G1`, `G2`, `GT`
-/

namespace Verif
open Spec

theorem be32_length {n : Int} (h0 : 0 ≤ n) (h : n < 2 ^ 256) : (G1.be32 n).length = 32 := by
  have : (natBytes n.natAbs).length ≤ 32 := by
    rw [natBytes_length]
    have : (n.natAbs : Int) < 2 ^ 256 := by omega
    have e : (256 : Nat) ^ 32 = 2 ^ 256 := by norm_num
    rw [e]; exact_mod_cast this
  simp only [G1.be32, List.length_append, List.length_replicate]; omega

theorem unsigned_replicate_zero (k : Nat) (l : List UInt8) : unsigned (List.replicate k 0 ++ l) = unsigned l := by
  induction k with
  | zero => rfl
  | succ k ih =>
    rw [List.replicate_succ, List.cons_append, unsigned, ih]; simp

theorem setBytes_be32 {n : Int} (h0 : 0 ≤ n) : ((setBytes (G1.be32 n) : Nat) : Int) = n := by
  rw [setBytes_eq, G1.be32, unsigned_replicate_zero, unsigned_natBytes]; omega

theorem be32_setBytes {m : List UInt8} (h : m.length = 32) : G1.be32 (setBytes m : Nat) = m := by
  have hlt : setBytes m < 2 ^ 256 := by
    rw [setBytes_eq]
    have := unsigned_lt m
    rw [h] at this
    have e : (256 : Nat) ^ 32 = 2 ^ 256 := by norm_num
    rwa [e] at this
  apply unsigned_injective
  · rw [be32_length (by omega) (by exact_mod_cast hlt), h]
  · rw [← setBytes_eq, ← setBytes_eq]
    have := setBytes_be32 (n := (setBytes m : Nat)) (by omega)
    exact_mod_cast this

theorem setBytes_lt {m : List UInt8} (h : m.length = 32) : ((setBytes m : Nat) : Int) < 2 ^ 256 := by
  rw [setBytes_eq]
  have := unsigned_lt m
  rw [h] at this
  have e : (256 : Nat) ^ 32 = 2 ^ 256 := by norm_num
  rw [e] at this
  exact_mod_cast this

theorem be32_inj {a b : Int} (ha : 0 ≤ a) (hb : 0 ≤ b) (h : G1.be32 a = G1.be32 b) : a = b := by
  rw [← setBytes_be32 ha, ← setBytes_be32 hb, h]

theorem emod_range (a : Int) : 0 ≤ a % bnP ∧ a % bnP < bnP ∧ a % bnP < 2 ^ 256 := by
  have h1 := Int.emod_nonneg a (ne_of_gt bnP_pos)
  have h2 := Int.emod_lt_of_pos a bnP_pos
  have h3 : bnP < 2 ^ 256 := by decide
  exact ⟨h1, h2, by omega⟩

/-! ## `G1` -/

theorem CurvePoint.isOnCurve_iff (c : CurvePoint) :
    c.isOnCurve = true ↔ (c.y : BF) ^ 2 = (c.x : BF) ^ 3 + 3 := by
  have key : ∀ m : Int, (if m < 0 ∨ m ≥ bnP then m % bnP else m) = m % bnP := by
    intro m
    split
    · rfl
    · rename_i h
      rw [Int.emod_eq_of_lt] <;> omega
  simp only [isOnCurve, key, beq_iff_eq]
  rw [← Int.dvd_iff_emod_eq_zero, ← bf_eq_zero]
  push_cast
  constructor
  · intro h; linear_combination h
  · intro h; linear_combination h

/-- The reading of a 64-byte string as two numbers. -/
theorem G1.unmarshal_words {x y : Int} (hx : 0 ≤ x) (hx' : x < 2 ^ 256) (hy : 0 ≤ y) (hy' : y < 2 ^ 256) :
    G1.unmarshal (G1.be32 x ++ G1.be32 y) =
      if (x = 0 ∧ y = 0) ∨ (x = 0 ∧ y = 1) then some ⟨x, 1, 0, 0⟩
      else if ¬ (⟨x, y, 1, 1⟩ : CurvePoint).isOnCurve then none else some ⟨x, y, 1, 1⟩ := by
  have l1 := be32_length hx hx'
  have l2 := be32_length hy hy'
  have e1 : (G1.be32 x ++ G1.be32 y).take 32 = G1.be32 x := by rw [← l1, List.take_left]
  have e2 : (G1.be32 x ++ G1.be32 y).drop 32 = G1.be32 y := by rw [← l1, List.drop_left]
  unfold G1.unmarshal
  rw [if_neg (by rw [List.length_append, l1, l2]; decide)]
  simp only [e1, e2, setBytes_be32 hx, setBytes_be32 hy]

theorem rep1_of_onCurve {x y : Int} (h : (y : BF) ^ 2 = (x : BF) ^ 3 + 3) :
    ∃ Q : BG1, Q ≠ 0 ∧ Rep1 ⟨x, y, 1, 1⟩ Q := by
  have hp : IsPt (.some _ _ (curve_nonsingular bf_two bf_three bf_three h) : (curve (3 : BF)).Point) (x : BF) (y : BF) := ⟨_, rfl⟩
  refine ⟨_, hp.ne_zero, ?_, Int.one_nonneg, fun h => absurd h (by simp)⟩
  simp only [Int.cast_one]
  exact Jac.of_affine hp

/-- Affine coordinates of a finite represented point. -/
theorem Rep1.affine {a : CurvePoint} {Q : BG1} (ha : Rep1 a Q) (hQ : Q ≠ 0) :
    IsPt Q (a.makeAffine.x : BF) (a.makeAffine.y : BF) := by
  have h := CurvePoint.makeAffine_rep ha
  have hz := CurvePoint.makeAffine_z ha hQ
  have := h.1.finite (h.z_ne hQ)
  rw [hz] at this
  exact this.congr (by simp) (by simp)

theorem CurvePoint.makeAffine_infinity {a : CurvePoint} (ha : Rep1 a 0) :
    a.makeAffine = ⟨0, 1, 0, 0⟩ := by
  have h := ha.isInfinity.2 rfl
  have hz : a.z = 0 := by simpa [isInfinity] using h
  rw [makeAffine, if_neg (by rw [hz]; decide), if_pos h]

theorem bf_one_ne_three : ((1 : Int) : BF) ^ 2 ≠ 0 ^ 3 + 3 := by
  intro h
  apply bf_two
  push_cast at h
  linear_combination -h

/-- The coordinates written by `Marshal` for a finite point are not an encoding of infinity. -/
theorem onCurve_not_infinity {x y : Int} (h : (y : BF) ^ 2 = (x : BF) ^ 3 + 3) :
    ¬ ((x = 0 ∧ y = 0) ∨ (x = 0 ∧ y = 1)) := by
  rintro (⟨rfl, rfl⟩ | ⟨rfl, rfl⟩)
  · apply bf_three
    push_cast at h
    linear_combination -h
  · apply bf_one_ne_three
    push_cast at h ⊢
    linear_combination h

/-! ## `G2` -/

theorem TwistPoint.isOnCurve_iff (c : TwistPoint) :
    c.isOnCurve = true ↔ c.y.val ^ 2 = c.x.val ^ 3 + 3 / F2.xi := by
  have : c.isOnCurve = ((((c.y.square).sub (c.x.square.mul c.x)).sub twistB).minimal).isZero := rfl
  rw [this, (GfP2.minimal_red _).isZero, GfP2.val_minimal, GfP2.val_sub, GfP2.val_sub, GfP2.val_mul,
    GfP2.val_square, GfP2.val_square, twistB_val]
  constructor
  · intro h; linear_combination h
  · intro h; linear_combination h

theorem rep2_of_onCurve {x y : GfP2} (h : y.val ^ 2 = x.val ^ 3 + 3 / F2.xi) :
    ∃ Q : BG2, Q ≠ 0 ∧ Rep2 ⟨x, y, .one, .one⟩ Q := by
  have hp : IsPt (.some _ _ (curve_nonsingular f2_two f2_three twist_ne h) : (curve (3 / F2.xi)).Point) x.val y.val := ⟨_, rfl⟩
  refine ⟨_, hp.ne_zero, ?_, Int.one_nonneg, fun h => absurd h (by simp)⟩
  simp only [GfP2.val_one]
  exact Jac.of_affine hp

theorem Rep2.affine {a : TwistPoint} {Q : BG2} (ha : Rep2 a Q) (hQ : Q ≠ 0) :
    IsPt Q a.makeAffine.x.val a.makeAffine.y.val := by
  have h := TwistPoint.makeAffine_rep ha hQ
  have hz := TwistPoint.makeAffine_z a ha
  have := h.1.finite (h.z_ne hQ)
  rw [hz] at this
  exact this.congr (by simp) (by simp)

theorem take32_append {a b : List UInt8} (h : a.length = 32) : (a ++ b).take 32 = a := by
  rw [← h, List.take_left]

theorem drop32_append {a b : List UInt8} (h : a.length = 32) : (a ++ b).drop 32 = b := by
  rw [← h, List.drop_left]

theorem G2.unmarshal_words {xx xy yx yy : Int} (h1 : 0 ≤ xx) (h1' : xx < 2 ^ 256) (h2 : 0 ≤ xy)
    (h2' : xy < 2 ^ 256) (h3 : 0 ≤ yx) (h3' : yx < 2 ^ 256) (h4 : 0 ≤ yy) (h4' : yy < 2 ^ 256) :
    G2.unmarshal (G1.be32 xx ++ G1.be32 xy ++ G1.be32 yx ++ G1.be32 yy) =
      if xx = 0 ∧ xy = 0 ∧ yx = 0 ∧ yy = 0 then some ⟨⟨xx, xy⟩, .one, .zero, .zero⟩
      else if ¬ (⟨⟨xx, xy⟩, ⟨yx, yy⟩, .one, .one⟩ : TwistPoint).isOnCurve then none
      else some ⟨⟨xx, xy⟩, ⟨yx, yy⟩, .one, .one⟩ := by
  have l1 := be32_length h1 h1'
  have l2 := be32_length h2 h2'
  have l3 := be32_length h3 h3'
  have l4 := be32_length h4 h4'
  rw [List.append_assoc, List.append_assoc]
  have d1 := drop32_append (b := G1.be32 xy ++ (G1.be32 yx ++ G1.be32 yy)) l1
  have d2 : (G1.be32 xx ++ (G1.be32 xy ++ (G1.be32 yx ++ G1.be32 yy))).drop 64 = G1.be32 yx ++ G1.be32 yy := by
    rw [show 64 = 32 + 32 from rfl, ← List.drop_drop, d1, drop32_append l2]
  have d3 : (G1.be32 xx ++ (G1.be32 xy ++ (G1.be32 yx ++ G1.be32 yy))).drop 96 = G1.be32 yy := by
    rw [show 96 = 64 + 32 from rfl, ← List.drop_drop, d2, drop32_append l3]
  unfold G2.unmarshal
  rw [if_neg (by simp only [List.length_append, l1, l2, l3, l4]; decide)]
  simp only [d1, d2, d3, take32_append l1, take32_append l2, take32_append l3, setBytes_be32 h1,
    setBytes_be32 h2, setBytes_be32 h3, setBytes_be32 h4]

/-! ## `GT` -/

/-- Concatenation of the 32-byte words. -/
def words (l : List Int) : List UInt8 := (l.map G1.be32).flatten

theorem words_length {l : List Int} (h : ∀ n ∈ l, 0 ≤ n ∧ n < 2 ^ 256) : (words l).length = 32 * l.length := by
  induction l with
  | nil => rfl
  | cons a l ih =>
    have := ih (fun n hn => h n (by simp [hn]))
    have ha := h a (by simp)
    simp only [words, List.map_cons, List.flatten_cons, List.length_append, List.length_cons] at this ⊢
    rw [this, be32_length ha.1 ha.2]; ring

theorem word_words {l : List Int} (h : ∀ n ∈ l, 0 ≤ n ∧ n < 2 ^ 256) (i : Nat) (hi : i < l.length) :
    GT.word (words l) i = l[i] := by
  induction l generalizing i with
  | nil => simp at hi
  | cons a l ih =>
    have ha := h a (by simp)
    have la := be32_length ha.1 ha.2
    have e : words (a :: l) = G1.be32 a ++ words l := rfl
    cases i with
    | zero =>
      rw [GT.word, e, Nat.mul_zero, List.drop_zero, take32_append la, setBytes_be32 ha.1]; rfl
    | succ i =>
      have := ih (fun n hn => h n (by simp [hn])) i (by simpa using hi)
      rw [GT.word] at this ⊢
      rw [e, Nat.mul_succ, Nat.add_comm, ← List.drop_drop, drop32_append la, this]; rfl

/-- The twelve coordinates in the order of `Marshal`. -/
def GfP12.coords (a : GfP12) : List Int :=
  [a.x.x.x, a.x.x.y, a.x.y.x, a.x.y.y, a.x.z.x, a.x.z.y, a.y.x.x, a.y.x.y, a.y.y.x, a.y.y.y, a.y.z.x, a.y.z.y]

theorem GT.marshal_eq (a : GfP12) : (GT.marshal a).1 = words a.minimal.coords := by
  simp [GT.marshal, words, GfP12.coords]

theorem GfP2.Red.range {a : GfP2} (h : a.Red) :
    (0 ≤ a.x ∧ a.x < 2 ^ 256) ∧ (0 ≤ a.y ∧ a.y < 2 ^ 256) := by
  obtain ⟨h1, h2, h3, h4⟩ := h
  have h5 : bnP < 2 ^ 256 := by decide
  exact ⟨⟨h1, by omega⟩, h3, by omega⟩

theorem GfP12.minimal_coords (a : GfP12) : ∀ n ∈ a.minimal.coords, 0 ≤ n ∧ n < 2 ^ 256 := by
  intro n hn
  simp only [coords, List.mem_cons, List.not_mem_nil, or_false] at hn
  rcases hn with rfl | rfl | rfl | rfl | rfl | rfl | rfl | rfl | rfl | rfl | rfl | rfl
  · exact (GfP2.minimal_red a.x.x).range.1
  · exact (GfP2.minimal_red a.x.x).range.2
  · exact (GfP2.minimal_red a.x.y).range.1
  · exact (GfP2.minimal_red a.x.y).range.2
  · exact (GfP2.minimal_red a.x.z).range.1
  · exact (GfP2.minimal_red a.x.z).range.2
  · exact (GfP2.minimal_red a.y.x).range.1
  · exact (GfP2.minimal_red a.y.x).range.2
  · exact (GfP2.minimal_red a.y.y).range.1
  · exact (GfP2.minimal_red a.y.y).range.2
  · exact (GfP2.minimal_red a.y.z).range.1
  · exact (GfP2.minimal_red a.y.z).range.2

theorem GT.unmarshal_coords (a : GfP12) (h : ∀ n ∈ a.coords, 0 ≤ n ∧ n < 2 ^ 256) :
    GT.unmarshal (words a.coords) = some a := by
  unfold GT.unmarshal
  rw [if_neg (by rw [words_length h]; simp [GfP12.coords])]
  have w : ∀ i (hi : i < 12), GT.word (words a.coords) i = a.coords[i]'(by simpa [GfP12.coords] using hi) :=
    fun i hi => word_words h i _
  rw [w 0 (by decide), w 1 (by decide), w 2 (by decide), w 3 (by decide), w 4 (by decide), w 5 (by decide),
    w 6 (by decide), w 7 (by decide), w 8 (by decide), w 9 (by decide), w 10 (by decide), w 11 (by decide)]
  rfl

theorem GfP12.minimal_eq_iff (a b : GfP12) : a.minimal = b.minimal ↔ a.val = b.val := by
  constructor
  · intro h
    rw [← val_minimal, h, val_minimal]
  · intro h
    obtain ⟨h1, h2⟩ := (val_eq_iff a b).1 h
    obtain ⟨a1, a2, a3⟩ := (GfP6.val_eq_iff _ _).1 h1
    obtain ⟨b1, b2, b3⟩ := (GfP6.val_eq_iff _ _).1 h2
    have key : ∀ {u v : GfP2}, u.val = v.val → u.minimal = v.minimal := fun {u v} e =>
      (GfP2.minimal_red u).eq (GfP2.minimal_red v) (by simpa using e)
    simp only [minimal, GfP6.minimal, key a1, key a2, key a3, key b1, key b2, key b3]

end Verif

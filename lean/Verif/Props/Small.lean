import Verif.Model.Small
import Verif.Model.Ccs
import Verif.Lemmas.Parse
import Verif.Lemmas.Gfp12
import Verif.Spec.Text
import Verif.Spec.BnHeap

/-! # C90: numbers written in the source, and functions that return parts of an element -/

namespace Verif

open Spec

private theorem isDec_iff (b : UInt8) : isDec b = true ↔ IsDigit b := by
  simp [isDec, IsDigit, UInt8.le_iff_toNat_le]

private theorem digitsOf_iff (s : List UInt8) (n : Int) :
    digitsOf s = some n ↔ s ≠ [] ∧ (∀ b ∈ s, IsDigit b) ∧ n = digitsVal s := by
  unfold digitsOf
  rw [foldl10]
  simp only [← isDec_iff]
  by_cases h : s = []
  · simp [h]
  · by_cases h' : ∀ b ∈ s, isDec b = true
    · have : s.all isDec = true := List.all_eq_true.2 h'
      have e : s.isEmpty = false := by simpa using h
      simp only [e, this, Bool.not_true, Bool.or_self, Bool.false_eq_true, if_false, Option.some.injEq, ne_eq, h, not_false_eq_true, true_and,
        zero_mul, zero_add]
      exact ⟨fun e => ⟨h', e.symm⟩, fun e => e.2.symm⟩
    · have : s.all isDec = false := by
        rw [← Bool.not_eq_true, List.all_eq_true]; exact h'
      simp only [this, h', ne_eq, false_and, and_false, iff_false]
      simp

/-- C90: `BigFromBase10` accepts a sign, which may be missing, followed by at least one digit, and nothing else. -/
theorem C90_accepts (s : List UInt8) (n : Int) :
    bigFromBase10 s = some n ↔
      ∃ ds, ds ≠ [] ∧ (∀ b ∈ ds, IsDigit b) ∧
        ((s = ds ∧ n = digitsVal ds) ∨ (s = 43 :: ds ∧ n = digitsVal ds) ∨ (s = 45 :: ds ∧ n = -digitsVal ds)) := by
  have d45 : ¬ IsDigit 45 := by simp [IsDigit]
  have d43 : ¬ IsDigit 43 := by simp [IsDigit]
  cases s with
  | nil => simp +contextual [bigFromBase10]
  | cons c s =>
    by_cases h : c = 45
    · subst h
      simp only [bigFromBase10, if_true, Option.map_eq_some_iff, digitsOf_iff, List.cons.injEq, true_and]
      constructor
      · rintro ⟨v, ⟨h0, h1, rfl⟩, rfl⟩
        exact ⟨s, h0, h1, .inr (.inr ⟨rfl, rfl⟩)⟩
      · rintro ⟨ds, h0, h1, h | h | h⟩
        · exact absurd (h1 45 (h.1 ▸ List.mem_cons_self)) d45
        · exact absurd h.1.1 (by decide)
        · exact ⟨_, ⟨h.1 ▸ h0, h.1 ▸ h1, rfl⟩, h.1 ▸ h.2.symm⟩
    · by_cases h' : c = 43
      · subst h'
        simp only [bigFromBase10, if_true, if_neg h, digitsOf_iff, List.cons.injEq, true_and]
        constructor
        · rintro ⟨h0, h1, rfl⟩
          exact ⟨s, h0, h1, .inr (.inl ⟨rfl, rfl⟩)⟩
        · rintro ⟨ds, h0, h1, h | h | h⟩
          · exact absurd (h1 43 (h.1 ▸ List.mem_cons_self)) d43
          · exact ⟨h.1 ▸ h0, h.1 ▸ h1, h.1 ▸ h.2⟩
          · exact absurd h.1.1 (by decide)
      · rw [bigFromBase10, if_neg h, if_neg h', digitsOf_iff]
        simp only [List.cons.injEq, h, h', false_and, or_false]
        constructor
        · rintro ⟨h0, h1, rfl⟩
          exact ⟨_, h0, h1, rfl, rfl⟩
        · rintro ⟨ds, h0, h1, h, h2⟩
          exact h ▸ ⟨h0, h1, h2⟩

/-- C90: the decimal digits of every integer give that integer. -/
theorem C90_roundtrip (n : Int) : bigFromBase10 (decInt n) = some n := by
  rw [C90_accepts]
  have h0 (m : Nat) : decNat m ≠ [] := by
    rw [decNat]; split
    · simp
    · rename_i h; simpa [Nat.digits_eq_nil_iff_eq_zero] using h
  refine ⟨decNat n.natAbs, h0 _, decNat_isDigit _, ?_⟩
  rw [digitsVal_decNat, decInt]
  split
  · exact .inr (.inr ⟨rfl, by omega⟩)
  · exact .inl ⟨rfl, by omega⟩

example : bigFromBase10 (ascii "+007") = some 7 ∧ bigFromBase10 (ascii "-0") = some 0 ∧ bigFromBase10 (ascii "1_000") = none ∧
    bigFromBase10 (ascii "0x10") = none ∧ bigFromBase10 (ascii "--1") = none ∧ bigFromBase10 (ascii " 1") = none ∧
    bigFromBase10 (ascii "-") = none ∧ bigFromBase10 [] = none := by decide +kernel

/-- The `gfP2` written with two numbers. -/
def gfP2Text (x y : String) : Option GfP2 := do return ⟨← bigFromBase10 (ascii x), ← bigFromBase10 (ascii y)⟩

/-- C90: the numbers of constants.go, twist.go and ccs08.go, as they are written there. -/
theorem C90_constants :
    bigFromBase10 (ascii "4965661367192848881") = some bnU ∧
    bigFromBase10 (ascii "21888242871839275222246405745257275088696311157297823662689037894645226208583") = some bnP ∧
    bigFromBase10 (ascii "21888242871839275222246405745257275088548364400416034343698204186575808495617") = some bnOrder ∧
    gfP2Text "16469823323077808223889137241176536799009286646108169935659301613961712198316"
      "8376118865763821496583973867626364092589906065868298776909617916018768340080" = some xiToPMinus1Over6 ∧
    gfP2Text "10307601595873709700152284273816112264069230130616436755625194854815875713954"
      "21575463638280843010398324269430826099269044274347216827212613867836435027261" = some xiToPMinus1Over3 ∧
    gfP2Text "3505843767911556378687030309984248845540243509899259641013678093033130930403"
      "2821565182194536844548159561693502659359617185244120367078079554186484126554" = some xiToPMinus1Over2 ∧
    bigFromBase10 (ascii "21888242871839275220042445260109153167277707414472061641714758635765020556616") = some xiToPSquaredMinus1Over3 ∧
    bigFromBase10 (ascii "2203960485148121921418603742825762020974279258880205651966") = some xiTo2PSquaredMinus2Over3 ∧
    bigFromBase10 (ascii "21888242871839275220042445260109153167277707414472061641714758635765020556617") = some xiToPSquaredMinus1Over6 ∧
    gfP2Text "19937756971775647987995932169929341994314640652964949448313374472400716661030"
      "2581911344467009335267311115468803099551665605076196740867805258568234346338" = some xiTo2PMinus2Over3 ∧
    gfP2Text "266929791119991161246907387137283842545076965332900288569378510910307636690"
      "19485874751759354771024239261021720505790618469301721065564631296452457478373" = some twistB ∧
    gfP2Text "11559732032986387107991004021392285783925812861821192530917403151452391805634"
      "10857046999023057135944570762232829481370756359578518086990519993285655852781" = some TwistPoint.gen.x ∧
    gfP2Text "4082367875863433681332203403145435568316851327593401208105741076214120093531"
      "8495653923123431417604973247489272438418190587263600148770280649306958101930" = some TwistPoint.gen.y ∧
    gfP2Text "0" "1" = some TwistPoint.gen.z ∧ gfP2Text "0" "1" = some TwistPoint.gen.t ∧
    bigFromBase10 (ascii "18560948149108576432482904553159745978835170526553990798435819795989606410925") = some ccsH := by
  decide +kernel

/-- C90: `P` and `Order` are the polynomials in `u` of the comments in constants.go; `u` is not the number of its comment. -/
theorem C90_polynomials :
    bnP = 36 * bnU ^ 4 + 36 * bnU ^ 3 + 24 * bnU ^ 2 + 6 * bnU + 1 ∧
    bnOrder = 36 * bnU ^ 4 + 36 * bnU ^ 3 + 18 * bnU ^ 2 + 6 * bnU + 1 ∧
    bnU ≠ 1868033 ^ 3 ∧ ∀ n : Int, bnU ≠ n ^ 3 := by
  refine ⟨by decide +kernel, by decide +kernel, by decide +kernel, fun n hn => ?_⟩
  have h1 : (1706052 : Int) < n := by
    by_contra h
    have : n ^ 3 ≤ 1706052 ^ 3 := (Odd.pow_le_pow (by decide : Odd 3)).2 (not_lt.1 h)
    rw [← hn] at this
    exact absurd this (by decide +kernel)
  have h2 : n < 1706053 := by
    by_contra h
    have : 1706053 ^ 3 ≤ n ^ 3 := (Odd.pow_le_pow (by decide : Odd 3)).2 (not_lt.1 h)
    rw [← hn] at this
    exact absurd this (by decide +kernel)
  omega

/-- C90: the arithmetic of util/bn; `Mod` gives the remainder in `[0, |m|)`, and panics for the modulus 0. -/
theorem C90_bn (x y : Int) :
    bnAdd x y = x + y ∧ bnSub x y = x - y ∧ bnMultiply x y = x * y ∧
    (bnMod x y = .panic ↔ y = 0) ∧
    (y ≠ 0 → ∃ r, bnMod x y = .ok r ∧ 0 ≤ r ∧ r < |y| ∧ y ∣ x - r) := by
  refine ⟨rfl, rfl, rfl, ?_, fun h => ⟨x % y, if_neg h, Int.emod_nonneg x h, Int.emod_lt_abs x h, Int.dvd_self_sub_emod⟩⟩
  unfold bnMod
  split <;> simp [*]

example : bnMod (-7) (-3) = .ok 2 ∧ bnMod 7 0 = .panic := by decide

/-- C90: `Real` returns the coefficient of `i` and `Imag` the other one. -/
theorem C90_real_imag (e : Gf2) (s : BigHeap) :
    ∃ r i : Cell, e.real s = .ok (r, s) ∧ e.imag s = .ok (i, s) ∧
      (HeapObj.val s.mem e : GfP2).val = algebraMap BF F2 (s.mem r : BF) * F2.i + algebraMap BF F2 (s.mem i : BF) :=
  ⟨e.x, e.y, rfl, rfl, rfl⟩

/-- C90: in particular the "real part" of a number of the base field is 0, and its "imaginary part" is the number. -/
theorem C90_real_swapped (e : Gf2) (s : BigHeap) (a : BF) (h : (HeapObj.val s.mem e : GfP2).val = algebraMap BF F2 a) :
    ∃ r i : Cell, e.real s = .ok (r, s) ∧ e.imag s = .ok (i, s) ∧ (s.mem r : BF) = 0 ∧ (s.mem i : BF) = a := by
  refine ⟨e.x, e.y, rfl, rfl, ?_⟩
  obtain ⟨n, rfl⟩ : ∃ n : Int, (n : BF) = a := ZMod.intCast_surjective a
  have : (HeapObj.val s.mem e : GfP2).val = GfP2.val ⟨0, n⟩ := by
    rw [h, GfP2.val]; simp
  rw [GfP2.val_eq_iff] at this
  have hp : ∀ a b : Int, a ≡ b [ZMOD bnP] → (a : BF) = b := fun a b h => (ZMod.intCast_eq_intCast_iff a b _).2 h
  exact ⟨by simpa using hp (s.mem e.x) 0 this.1, hp _ _ this.2⟩

/-- The number 7 as `0·i + 7`. -/
example := C90_real_swapped ⟨0, 1⟩ ⟨fun c => if c = 1 then 7 else 0, 2, some []⟩ 7 (by simp [HeapObj.val, GfP2.val])

/-- C90: `CurvePoints` hands out the objects of which the element consists: whoever writes to the first of them changes the element. -/
theorem C90_curvePoints (e : CurveP) (f : TwistP) (s : BigHeap) (v : Int) (he : Live s e) (hf : Live s f) :
    (∃ r, G1H.curvePoints e s = .ok (r, s) ∧
      (⟨s.mem r.1, s.mem r.2.1, s.mem r.2.2.1, s.mem r.2.2.2⟩ : CurvePoint) = HeapObj.val s.mem e ∧
      ∃ s', BigM.write r.1 v s = .ok ((), s') ∧ HeapObj.val s'.mem e = { HeapObj.val s.mem e with x := v }) ∧
    (∃ r, G2H.curvePoints f s = .ok (r, s) ∧
      (⟨HeapObj.val s.mem r.1, HeapObj.val s.mem r.2.1, HeapObj.val s.mem r.2.2.1, HeapObj.val s.mem r.2.2.2⟩ : TwistPoint) =
        HeapObj.val s.mem f ∧
      ∃ s', BigM.write r.1.x v s = .ok ((), s') ∧
        HeapObj.val s'.mem f = { HeapObj.val s.mem f with x := ⟨v, (HeapObj.val s.mem f : TwistPoint).x.y⟩ }) := by
  have h1 := he.1
  have h2 := hf.1
  simp [HeapObj.cells] at h1 h2
  refine ⟨⟨_, rfl, rfl, _, rfl, ?_⟩, ⟨_, rfl, rfl, _, rfl, ?_⟩⟩
  · simp only [HeapObj.val]
    simp [Ne.symm h1.1.1, Ne.symm h1.1.2.1, Ne.symm h1.1.2.2]
  · simp only [HeapObj.val]
    simp [eq_comm, h2]

/-- The coordinates returned are not those of the point: for twice the generator they differ modulo `p`. -/
example : let e := CurvePoint.gen.doubleSelf
    (e.makeAffine.x - e.x) % bnP ≠ 0 ∧ (e.makeAffine.y - e.y) % bnP ≠ 0 := by decide +kernel

end Verif

import Verif.Props.P256
import Verif.Props.BnGroup
import Verif.Props.Text

/-!
# The tests of the repository: the fixed values in them, and C87

The `example`s are single evaluations: they compare the model with the numbers in the `_test.go` files.
-/

namespace Verif

/-! ## util/byteconversion/conversion_test.go -/

private def negLarge : List UInt8 := [
  228, 20, 131, 38, 208, 100, 246, 105, 110, 11, 247, 198, 54, 252, 188, 185, 163, 179, 13, 6, 144, 164, 44, 232, 184,
  135, 147, 140, 88, 87, 191, 46, 22, 23, 252, 216, 72, 25, 5, 124, 29, 81, 56, 242, 199, 0, 68, 132, 102, 246, 34,
  203, 122, 8, 7, 44, 237, 1, 181, 36]

private def posLarge : List UInt8 := [
  25, 165, 147, 207, 93, 105, 151, 6, 97, 172, 17, 104, 255, 15, 255, 106, 246, 80, 123, 85, 231, 140, 213, 98, 148,
  126, 243, 177, 33, 73, 55, 165, 160, 240, 79, 198, 55, 253, 14, 55, 32, 177, 71, 135, 142, 229, 100, 102, 171, 66,
  115, 74, 137, 135, 74, 20, 127, 132, 155, 6, 126, 202, 57, 173, 72, 172, 226, 124, 34, 57, 156, 232, 3, 188, 209,
  157, 156, 145, 127, 253, 208, 219, 188, 171, 157, 155, 121, 59, 97, 242, 121, 187, 52, 222, 168, 83, 10, 89, 57, 83,
  109, 245, 248, 143, 16, 106, 224, 68, 176, 175, 132, 118, 253, 177, 20, 77, 123, 204, 224, 204, 16, 203, 207, 33,
  129, 105, 196, 100, 140, 179, 5, 167, 73, 146, 98, 210, 60, 247, 253, 95, 19, 210, 189, 122, 157, 89, 42, 65, 26, 4,
  123, 86, 255, 118, 188, 109, 65, 90, 164, 231, 37, 144, 52, 20, 123, 16, 24, 18, 139, 147, 149, 145, 241, 82, 242,
  163, 254, 236, 26, 205, 162, 208, 161, 145, 227, 15, 105, 61, 208, 29, 103, 4, 218, 177, 143, 148, 155, 160, 183,
  116, 93, 232, 140, 47, 48, 61, 167, 130, 135, 160, 67, 69, 13, 156, 78, 212, 45, 205, 139, 232, 173, 241, 235, 67,
  201, 117, 187, 231, 40, 246, 57, 235, 157, 45, 229, 218, 104, 4, 175, 202, 30, 9, 118, 237, 41, 227, 44, 60, 33, 29,
  66, 125, 181, 117, 249, 209, 154, 13, 92, 216, 249, 18, 150, 214, 108, 211, 214, 59, 34, 52, 63, 150, 67, 215, 35,
  217, 152, 26, 173, 129, 242, 101, 184, 80, 194, 17, 176, 100, 24, 211, 54, 2, 159, 254, 31, 137, 86, 185, 234, 126,
  108, 147, 241, 239, 80, 34, 146, 2, 184, 200, 238, 38, 34, 65, 208, 117, 124, 76, 120, 41, 18, 66, 174, 207, 163,
  163, 58, 70, 37, 1, 214, 52, 211, 66, 17, 226, 55, 205, 83, 147, 237, 76, 46, 224, 93, 80, 200, 233, 101, 137, 19,
  229, 70, 0, 89, 160, 174, 33, 120, 9, 151, 214, 187, 219, 171, 155, 233, 110, 236, 165, 232, 19, 233, 129, 194, 89,
  196, 79, 183, 137, 113, 31, 170, 107, 65, 45, 20, 29, 80, 177, 233, 186, 201, 208, 153, 137, 123, 18, 161, 116, 55,
  163, 29, 81, 160, 9, 86, 70, 168, 226, 79, 145, 40, 242, 140, 145, 65, 129, 140, 161, 173, 95, 240, 240, 179, 43,
  56, 108, 86, 222, 221, 121, 246, 154, 181, 96, 231, 173, 252, 87, 40, 46, 46, 226, 162, 158, 70, 148, 48, 147, 235,
  118, 139, 25, 232, 67, 233, 118, 68, 181, 196, 195, 39, 193, 65, 141, 97, 163, 204, 186, 57, 124, 96, 89, 123, 30,
  120, 210, 196, 89, 114, 43, 35, 39, 201, 210, 81, 93, 14, 53, 184, 55, 77, 239, 40, 15, 174, 50, 175, 84, 57, 222,
  239, 120, 197, 20, 84, 23, 192, 248, 65, 32]

/-- `TestFromBytes127`, `TestFromBytesNegLarge`. -/
example : fromByteArray [127] = .ok (some 127) ∧ fromByteArray negLarge =
    .ok (some (-340464162163097205079140881237168111312857774642240280736912613283519740602415131562281745277658128038564338505868351008385659638777486107364060)) := by
  decide +kernel

/-- `TestToBytesNeg1`, `TestToBytesZero`, `TestToBytesPos127`, `TestToBytesPos128`, `TestToBytesPos39568`. -/
example : toByteArray (-1) = [255] ∧ toByteArray 0 = [0] ∧ toByteArray 127 = [127] ∧ toByteArray 128 = [0, 128] ∧
    toByteArray 39568 = [0, 154, 144] := by decide +kernel

/-- `TestToBytesNegLarge`. -/
example : toByteArray
    (-340464162163097205079140881237168111312857774642240280736912613283519740602415131562281745277658128038564338505868351008385659638777486107364060) =
    negLarge := by decide +kernel

/-- `TestToBytesPosLarge`. -/
example : toByteArray
    104629761028213599805480925925790425959567049134816086059352755190570739745518666205937735343498567571920655134925379760277594103917074168324328020614304601458655903777672976689775490077688338107235672544860350622774919412889869264967814894367526323662860621314829844532302923598163101691161809563689257119439517772642328497948311622477782095358615210758790515715457810324166800501005841394919183757519983518882638580018812501425864890227616096353048530301822817514776417452329353267096156269934135291712469590753885382455774960306786815780130886957965944086429085979982216274733117683220681240533762036024585652327095570558251184159582343561742487484870623990453783273002077229085268928493917134578545501339771123831252046790356292192853434440371050718893013786884617886032764594150932952606679129922556451438850853950795322470594816924482063623508100143990257521028260138831741855201480669520432545573066469798604777686564518950203058887546628141972672996503838284845932369286957158959203830688307302165544372812778767992596780236523180938001711578036548650984477439658901737951530184210064832275649697658679190072031726344089085533172632374570201218311185378464524281671726449877984821159571188587422006373681926621549415758315808 =
    posLarge := by decide +kernel

/-! ## util/byteconversion/parse_test.go -/

/-- `TestConvertToBigIntEmpty`, `TestConvertToBigInt`, `…Small`, `…Negative`, `…Invalid`, `…Invalid2`, `…InvalidMinus`. -/
example : convertToBigInt [] = some 0 ∧
    convertToBigInt [0x39, 0x38, 0x37, 0x36, 0x35, 0x34, 0x33, 0x32, 0x31, 0x30] = some 9876543210 ∧
    convertToBigInt [0x31] = some 1 ∧ convertToBigInt [0x2d, 0x39, 0x30] = some (-90) ∧
    convertToBigInt [0x2d, 0x38, 0x29] = none ∧ convertToBigInt [0x38, 0x3a] = none ∧
    convertToBigInt [0x2d, 0x2d, 0x38] = none := by decide +kernel

/-! ## util/bn/bn_test.go -/

/-- `TestCalculateHash`, with SHA-256. -/
example : calculateHash Sha256.sha256
    20905485153255974750600830283139712767405035066172127447413526262122898097752829902691919420016794244099612526431387099905077116995490485444167190551980224865082320241670546533063409921082864323224863076823319894932240914571396941354556281385023649535909639921239646795929610627460276589386330363348840105387073757406261480377763345436612442076323102518362946991582624513737241437269968051355243751819094759669539075841991633425362795570590507959822047022497500292880734028347273355847985904992235033659931679254742902977502890883426551960403450937665750386501228142099266824028488862959626463948822181376617128628357
    (some 5711912074763938920844020768820827016918638588776093786691324830937965710562669998102969607754216881533101753509522661181935679768137553251696427895001308210043958162362474454915118307661021406997989560047755201343617470288619030784987198511772840498354380632474664457429003510207310347179884080000294301502325103527312780599913053243627156705417875172756769585807691558680079741149166677442267851492473670184071199725213912264373214980177804010561543807969309223405291240876888702197126709861726023144260487044339708816278182396486957437256069194438047922679665536060592545457448379589893428429445378466414731324407) =
    .ok (some (-19913561841364303941087968013056854925409568225408501509608065500928998362191)) := by decide +kernel

/-- `TestModPow1`, `TestModPow2`, `TestModPowNegativeExp1`, `TestModPowNegativeExp2`. -/
example : modPow 10 3 7 = some 6 ∧ modPow 30 2 7 = some 4 ∧ modPow 16 (-1) 7 = some 4 ∧ modPow 34 (-2) 9 = some 7 := by
  decide +kernel

/-- `TestModInverse1`, `TestModInverse2`. -/
example : modInverse 5 1 = some 0 ∧ modInverse 3 7 = some 5 := by decide +kernel

/-! ## bulletproofs -/

/-- `TestPowerOf`, `TestScalarProduct`, `TestIsPowerOfTwo`, bulletproofs/util_test.go. -/
example : powerOf 3 3 = .ok [1, 3, 9] ∧ scalarProduct [7, 7, 7] [3, 3, 3] = some 63 ∧ isPowerOfTwo 65536 = true ∧
    isPowerOfTwo 65537 = false := by decide +kernel

/-- `TestVectorCopy` to `TestVectorMul`, bulletproofs/vector_test.go. -/
example : vectorCopy 1 3 = .ok [1, 1, 1] ∧ vectorConvertToBig [3, 4, 5] 3 = .ok [3, 4, 5] ∧
    vectorAdd [7, 8, 9] [3, 30, 40] = some [10, 38, 49] ∧
    vectorSub [7, 8, 9] [3, 30, 40] = some [4,
      115792089237316195423570985008687907852837564279074904382605163141518161494315,
      115792089237316195423570985008687907852837564279074904382605163141518161494306] ∧
    vectorMul [7, 8, 9] [3, 30, 40] = some [21, 240, 360] := by decide +kernel

/-! ## ccs08 -/

/-- `TestDecompose`, ccs08/ccs08_test.go. -/
example : decompose 925 10 3 = .ok [5, 2, 9] := by decide +kernel

/-! ## C87: tests which pass because of defects -/

/-- The points of `TestHashBP` and `TestHashBPGx`, bulletproofs/util_test.go:44-74. -/
def testA : P256 :=
  ⟨some 110720467414728166769654679803728202169916280248550137472490865118702779748947,
   some 103949684536896233354287911519259186718323435572971865592336813380571928560949⟩
@[inherit_doc testA] def testS : P256 :=
  ⟨some 78662919066140655151560869958157053125629409725243565127658074141532489435921,
   some 114946280626097680211499478702679495377587739951564115086530426937068100343655⟩
@[inherit_doc testA] def testG : P256 :=
  ⟨some 0x79BE667EF9DCBBAC55A06295CE870B07029BFCDB2DCE28D959F2815B16F81798,
   some 0x483ADA7726A3C4655DA4FBFC0E1108A8FD17B448A68554199C47D08FFB10D4B8⟩

/-- The text `HashBP` puts together in `buffer2` (bulletproofs/util.go:67-72) and does not hash. -/
def intended (a s : P256) (result1 : Int) : String :=
  Spec.intText a.X ++ Spec.intText a.Y ++ Spec.intText s.X ++ Spec.intText s.Y ++ toString result1

/-- C87: `TestHashBP` and `TestHashBPGx` know the right second value — the hash of `buffer2` — and `HashBP` does not return it;
the tests pass nevertheless, because they report a failure only if both values are wrong. -/
theorem C87_hashBP {E : Ext} (hs : E.sha256 = Sha256.sha256) :
    ∃ r1 r2 : Int, r1 = 103823382860325249552741530200099120077084118788867728791742258217664299339569 ∧
      r2 = 8192372577089859289404358830067912230280991346287696886048261417244724213964 ∧
      hashBP E testA testS = (r1, r1) ∧ r2 = Spec.unsigned (Sha256.sha256 (Spec.ascii (intended testA testS r1))) ∧ r1 ≠ r2 := by
  refine ⟨_, _, rfl, rfl, ?_, by decide +kernel, by decide⟩
  rw [hashBP, hs]
  decide +kernel

example := C87_hashBP (E := idealExt Sha256.sha256) rfl

/-- C87: the same for `TestHashBPGx`. -/
theorem C87_hashBP_G {E : Ext} (hs : E.sha256 = Sha256.sha256) :
    ∃ r1 r2 : Int, r1 = 11897424191990306464486192136408618361228444529783223689021929580052970909263 ∧
      r2 = 22166487799255634251145870394406518059682307840904574298117500050508046799269 ∧
      hashBP E testG testG = (r1, r1) ∧ r2 = Spec.unsigned (Sha256.sha256 (Spec.ascii (intended testG testG r1))) ∧ r1 ≠ r2 := by
  refine ⟨_, _, rfl, rfl, ?_, by decide +kernel, by decide⟩
  rw [hashBP, hs]
  decide +kernel

/-- Primitives with this hash function. -/
example : (idealExt Sha256.sha256).sha256 = Sha256.sha256 := rfl

/-- C87: `TestAdd` of crypto/p256/p256_test.go with any numbers instead of 71 and 17: the test adds `kG`, `lG` and the point for
the bytes of `-(k+l)`.  The bytes of a `big.Int` do not have its sign, so the last point is `(k+l)G`; the sum is `2(k+l)G`, which
is not infinity.  `IsZero` is true because `Add` is wrong for equal points. -/
theorem C87_add {E : Ext} (hE : E.Ok) (k l : Nat) (hk : 0 < k) (hl : 0 < l) (hkl : k ≠ l) (ho : k + l < secpNn) :
    let p1 := E.scalarMult secpGx secpGy k
    let p2 := E.scalarMult secpGx secpGy l
    let sp := E.scalarMult secpGx secpGy (-((k + l : Nat) : Int)).natAbs
    Rep (p1.add p2) ((k + l) • secpG) ∧ Rep sp ((k + l) • secpG) ∧ ((p1.add p2).add sp).isZero = true ∧
      (k + l) • secpG + (k + l) • secpG ≠ 0 := by
  have hG : RepFin ⟨some secpGx, some secpGy⟩ secpG := repFin_base
  have hz : ∀ n : Nat, 0 < n → n < secpNn → n • secpG ≠ 0 := by
    intro n h0 h1 hc
    have ho : addOrderOf secpG = secpNn := addOrderOf_eq_prime (secp_nsmul secpG) secpG_ne_zero
    have := addOrderOf_dvd_iff_nsmul_eq_zero.2 hc
    rw [ho] at this
    exact absurd (Nat.le_of_dvd h0 this) (by omega)
  intro p1 p2 sp
  have h1 : Rep p1 (k • secpG) := hE.scalarMult_fin _ _ _ _ hG hk (by omega)
  have h2 : Rep p2 (l • secpG) := hE.scalarMult_fin _ _ _ _ hG hl (by omega)
  have h3 : Rep sp ((k + l) • secpG) := by
    have e : (-((k + l : Nat) : Int)).natAbs = k + l := by omega
    simp only [sp, e]
    exact hE.scalarMult_fin _ _ _ _ hG (by omega) ho
  have hne : k • secpG ≠ l • secpG := by
    intro h
    rcases Nat.lt_or_gt_of_ne hkl with hlt | hlt
    · refine hz (l - k) (by omega) (by omega) ?_
      have e : l • secpG = (l - k) • secpG + k • secpG := by rw [← add_nsmul]; congr 1; omega
      rw [e] at h
      exact left_eq_add.1 (h.trans (add_comm _ _))
    · refine hz (k - l) (by omega) (by omega) ?_
      have e : k • secpG = (k - l) • secpG + l • secpG := by rw [← add_nsmul]; congr 1; omega
      rw [e] at h
      exact add_eq_right.1 h
  have h4 : Rep (p1.add p2) ((k + l) • secpG) := by
    have := C14_add h1 h2
    rwa [if_neg (hz k hk (by omega)), if_neg (hz l hl (by omega)), if_neg hne, ← add_nsmul] at this
  refine ⟨h4, h3, ?_, ?_⟩
  · have := C14_add h4 h3
    rw [if_neg (hz _ (by omega) ho), if_neg (hz _ (by omega) ho), if_pos rfl] at this
    exact this.isZero_iff.2 rfl
  · intro hc
    rw [← add_nsmul] at hc
    have ho' : addOrderOf secpG = secpNn := addOrderOf_eq_prime (secp_nsmul secpG) secpG_ne_zero
    have hd := addOrderOf_dvd_iff_nsmul_eq_zero.2 hc
    rw [ho', ← two_mul] at hd
    have hp : secpNn.Prime := Fact.out
    rcases hp.dvd_mul.1 hd with h | h
    · exact absurd (Nat.le_of_dvd (by decide) h) (by decide +kernel)
    · exact absurd (Nat.le_of_dvd (by omega) h) (by omega)

/-- The numbers of the test. -/
example {E : Ext} (hE : E.Ok) :
    (((E.scalarMult secpGx secpGy 71).add (E.scalarMult secpGx secpGy 17)).add (E.scalarMult secpGx secpGy 88)).isZero = true :=
  (C87_add hE 71 17 (by decide) (by decide) (by decide) (by decide +kernel)).2.2.1

private theorem add_negSelf (c a : TwistPoint) : (TwistPoint.add c a a.negSelf).isInfinity = true := by
  rw [TwistPoint.add]
  split
  · rename_i h
    exact h
  split
  · rename_i h1 h2
    exact absurd h2 h1
  cases hx : TwistPoint.addXYZ a a.negSelf with
  | none =>
    have hy : ((a.negSelf.y.mul (a.z.mul a.z.square)).sub (a.y.mul (a.negSelf.z.mul a.negSelf.z.square))).isZero = true := by
      simp only [TwistPoint.addXYZ] at hx
      split at hx
      · rename_i h
        exact (Bool.and_eq_true _ _ ▸ h).2
      · cases hx
    rw [GfP2.isZero_sub (GfP2.mul_red _ _) (GfP2.mul_red _ _)] at hy
    simp only [GfP2.val_mul, GfP2.val_square, TwistPoint.negSelf, GfP2.val_sub, GfP2.val_zero, sub_self, zero_mul] at hy
    have hz : a.y.val * a.z.val = 0 := by
      rcases mul_eq_zero.1 hy.symm with h | h
      · rw [h, zero_mul]
      · have : a.z.val = 0 := by
          rcases mul_eq_zero.1 h with h | h
          · exact h
          · exact pow_eq_zero_iff (by decide) |>.1 h
        rw [this, mul_zero]
    have e : a.y.mul a.z = .zero := (GfP2.mul_red _ _).eq GfP2.zero_red (by rw [GfP2.val_mul, hz, GfP2.val_zero])
    simp only [TwistPoint.isInfinity, TwistPoint.double, e]
    rfl
  | some q =>
    simp only [TwistPoint.addXYZ] at hx
    split at hx
    · cases hx
    · cases hx
      rw [TwistPoint.isInfinity, (GfP2.mul_red _ _).isZero, GfP2.val_mul]
      simp [TwistPoint.negSelf]

/-- C87: `TestNegScalarBaseMulG2` of ccs08/ccs08_test.go passes for every random number `b`, although the result of
`ScalarBaseMult(-b)` is not on the curve unless `b` is a multiple of the order: `Add` gives infinity whenever the
x-coordinates agree and the y-coordinates do not. -/
theorem C87_negG2 (b : Int) (hb : 0 ≤ b) :
    (TwistPoint.add .new (G2.scalarBaseMult b) (G2.scalarBaseMult (-b))).isInfinity = true ∧
    (¬ bnOrder ∣ b → OffTwist (G2.scalarBaseMult (-b)) ∧ ∀ R : BG2, ¬ Rep2 (G2.scalarBaseMult (-b)) R) := by
  refine ⟨?_, fun h => ?_⟩
  · rcases hb.eq_or_lt with rfl | hb
    · decide +kernel
    · have e1 : G2.scalarBaseMult b = TwistPoint.gen.mul b := by rw [G2.scalarBaseMult, G2.scalarMult, if_pos (by omega)]
      have e2 : G2.scalarBaseMult (-b) = (TwistPoint.gen.mul b).negSelf := by
        rw [G2.scalarBaseMult, G2.scalarMult, if_neg (by omega), show ((-b).natAbs : Int) = b by omega]
      rw [e1, e2]
      exact add_negSelf _ _
  · have hb0 : 0 < b := by
      rcases hb.eq_or_lt with rfl | hb
      · exact absurd (dvd_zero _) h
      · exact hb
    exact (C36_scalarBaseMult_negative (-b) (by omega)).2 (by rwa [dvd_neg])

/-- A number for which both parts say something. -/
example : (TwistPoint.add .new (G2.scalarBaseMult 7) (G2.scalarBaseMult (-7))).isInfinity = true ∧
    ∀ R : BG2, ¬ Rep2 (G2.scalarBaseMult (-7)) R :=
  ⟨(C87_negG2 7 (by decide)).1, ((C87_negG2 7 (by decide)).2 (by decide +kernel)).2⟩

end Verif

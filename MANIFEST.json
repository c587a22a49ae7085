{
 "claims": [
  {
   "property": "C01",
   "status": "proved",
   "theorems": [
    "Verif.C01_roundtrip"
   ],
   "note": ""
  },
  {
   "property": "C02",
   "status": "proved",
   "theorems": [
    "Verif.C02_fromByteArray"
   ],
   "note": ""
  },
  {
   "property": "C03",
   "status": "proved",
   "theorems": [
    "Verif.C03_encodes",
    "Verif.C03_minimal",
    "Verif.C03_exception"
   ],
   "note": ""
  },
  {
   "property": "C04",
   "status": "proved",
   "theorems": [
    "Verif.C04_parse_join",
    "Verif.C04_parse_pieces",
    "Verif.C04_parse_count"
   ],
   "note": ""
  },
  {
   "property": "C05",
   "status": "proved",
   "theorems": [
    "Verif.C05_accepts"
   ],
   "note": ""
  },
  {
   "property": "C06",
   "status": "proved",
   "theorems": [
    "Verif.C06_modPow_nonneg",
    "Verif.C06_modPow_neg"
   ],
   "note": ""
  },
  {
   "property": "C07",
   "status": "proved",
   "theorems": [
    "Verif.C07_ambiguous",
    "Verif.C07_fixed_second"
   ],
   "note": ""
  },
  {
   "property": "C08",
   "status": "proved",
   "theorems": [
    "Verif.C08_decompose",
    "Verif.C08_exact",
    "Verif.C08_zero_base"
   ],
   "note": ""
  },
  {
   "property": "C09",
   "status": "proved",
   "theorems": [
    "Verif.C09_isPowerOfTwo"
   ],
   "note": ""
  },
  {
   "property": "C10",
   "status": "proved",
   "theorems": [
    "Verif.C10_accepts_iff",
    "Verif.C10_no_panic",
    "Verif.C10_result",
    "Verif.C10_minInt64"
   ],
   "note": "Relative to Ext.Ok (go-ethereum ScalarMult/Double on finite points, big.Int.ModSqrt, 32-byte hash); idealExt_ok shows the assumption is satisfiable. The conversion of NaN to int64 (range end -2^63) is a parameter."
  },
  {
   "property": "C11",
   "status": "proved",
   "theorems": [
    "Verif.C11_vectorAdd",
    "Verif.C11_vectorSub",
    "Verif.C11_vectorMul",
    "Verif.C11_vectorScalarMul"
   ],
   "note": ""
  },
  {
   "property": "C12",
   "status": "proved",
   "theorems": [
    "Verif.C12_scalarProduct",
    "Verif.C12_powerOf",
    "Verif.C12_delta"
   ],
   "note": ""
  },
  {
   "property": "C13",
   "status": "proved",
   "theorems": [
    "Verif.C13_multiply"
   ],
   "note": "Relative to Ext.Ok (go-ethereum ScalarMult/Double on finite points, big.Int.ModSqrt, 32-byte hash); idealExt_ok shows the assumption is satisfiable."
  },
  {
   "property": "C14",
   "status": "proved",
   "theorems": [
    "Verif.C14_add",
    "Verif.C14_correct_iff"
   ],
   "note": "No assumption on external code: addition is the repository's own Jacobian code."
  },
  {
   "property": "C15",
   "status": "proved",
   "theorems": [
    "Verif.C15_order",
    "Verif.C15_scalarMult",
    "Verif.C15_scalarBaseMult"
   ],
   "note": "Relative to Ext.Ok (go-ethereum ScalarMult/Double on finite points, big.Int.ModSqrt, 32-byte hash); idealExt_ok shows the assumption is satisfiable."
  },
  {
   "property": "C16",
   "status": "proved",
   "theorems": [
    "Verif.C16_neg_in_place",
    "Verif.C16_neg_other"
   ],
   "note": "Relative to Ext.Ok (go-ethereum ScalarMult/Double on finite points, big.Int.ModSqrt, 32-byte hash); idealExt_ok shows the assumption is satisfiable."
  },
  {
   "property": "C17",
   "status": "proved",
   "theorems": [
    "Verif.C17_mapToGroup"
   ],
   "note": "Relative to Ext.Ok (go-ethereum ScalarMult/Double on finite points, big.Int.ModSqrt, 32-byte hash); idealExt_ok shows the assumption is satisfiable."
  },
  {
   "property": "C18",
   "status": "proved",
   "theorems": [
    "Verif.C18_isOnCurve"
   ],
   "note": ""
  },
  {
   "property": "C19",
   "status": "proved",
   "theorems": [
    "Verif.C19_commitG1",
    "Verif.C19_zero_randomness"
   ],
   "note": "Relative to Ext.Ok (go-ethereum ScalarMult/Double on finite points, big.Int.ModSqrt, 32-byte hash); idealExt_ok shows the assumption is satisfiable."
  },
  {
   "property": "C20",
   "status": "proved",
   "theorems": [
    "Verif.C20_vectorExp",
    "Verif.C20_vectorECAdd",
    "Verif.C20_vectorScalarExp"
   ],
   "note": "Relative to Ext.Ok (go-ethereum ScalarMult/Double on finite points, big.Int.ModSqrt, 32-byte hash); idealExt_ok shows the assumption is satisfiable."
  },
  {
   "property": "C21",
   "status": "proved",
   "theorems": [
    "Verif.C21_returns",
    "Verif.C21_verdict",
    "Verif.C21_honest",
    "Verif.C21_complete",
    "Verif.C21_wrong_product"
   ],
   "note": ""
  },
  {
   "property": "C22",
   "status": "proved",
   "theorems": [
    "Verif.C22_size"
   ],
   "note": ""
  },
  {
   "property": "C23",
   "status": "proved",
   "theorems": [
    "Verif.C23_alternates",
    "Verif.C23_rejected",
    "Verif.C23_bulletproof_alternates"
   ],
   "note": ""
  },
  {
   "property": "C24",
   "status": "proved",
   "theorems": [
    "Verif.C24_verdict",
    "Verif.C24_in_range",
    "Verif.C24_out_of_range",
    "Verif.C24_gamma_zero",
    "Verif.C24_returns"
   ],
   "note": "Relative to Ext.Ok (go-ethereum ScalarMult/Double on finite points, big.Int.ModSqrt, 32-byte hash); idealExt_ok shows the assumption is satisfiable. NoExceptionalAdd lists the calls of P256.Add that must not hit an exceptional pair (see C14, C19)."
  },
  {
   "property": "C25",
   "status": "proved",
   "theorems": [
    "Verif.C25_generic_verdict",
    "Verif.C25_interval",
    "Verif.C25_setup"
   ],
   "note": "Relative to Ext.Ok (go-ethereum ScalarMult/Double on finite points, big.Int.ModSqrt, 32-byte hash); idealExt_ok shows the assumption is satisfiable. Non-degeneracy of each half as in C24 (HalfOk)."
  },
  {
   "property": "C26",
   "status": "proved",
   "theorems": [
    "Verif.C26_shift",
    "Verif.C26_not_bound"
   ],
   "note": "Unconditional."
  },
  {
   "property": "C27",
   "status": "proved",
   "theorems": [
    "Verif.C27_conjunction",
    "Verif.C27_mixed"
   ],
   "note": "Relative to Ext.Ok (go-ethereum ScalarMult/Double on finite points, big.Int.ModSqrt, 32-byte hash); idealExt_ok shows the assumption is satisfiable. Non-degeneracy of each half as in C24 (HalfOk)."
  },
  {
   "property": "C28",
   "status": "proved",
   "theorems": [
    "Verif.C28_shift",
    "Verif.C28_forgery"
   ],
   "note": "Relative to Ext.Ok (go-ethereum ScalarMult/Double on finite points, big.Int.ModSqrt, 32-byte hash); idealExt_ok shows the assumption is satisfiable. C28_shift: malleability of any accepted proof; C28_forgery: explicit forged proof for every value."
  },
  {
   "property": "C29",
   "status": "proved",
   "theorems": [
    "Verif.C29_challenges_equal",
    "Verif.C29_range"
   ],
   "note": "Equality unconditional; range for a 32-byte hash."
  },
  {
   "property": "C30",
   "status": "proved",
   "theorems": [
    "Verif.C30_hashIP_injective",
    "Verif.C30_hashBP_collision",
    "Verif.C30_hashBP_lengths"
   ],
   "note": ""
  },
  {
   "property": "C31",
   "status": "proved",
   "theorems": [
    "Verif.C31_verdict",
    "Verif.C31_sign_blind",
    "Verif.C31_negated"
   ],
   "note": "Relative to Ext.Ok (go-ethereum ScalarMult/Double on finite points, big.Int.ModSqrt, 32-byte hash); idealExt_ok shows the assumption is satisfiable."
  },
  {
   "property": "C32",
   "status": "proved",
   "theorems": [
    "Verif.C32_panics_iff",
    "Verif.C32_well_sized",
    "Verif.C32_bulletproof",
    "Verif.C32_generic"
   ],
   "note": ""
  },
  {
   "property": "C33",
   "status": "proved",
   "theorems": [
    "Verif.C33_ideal_hiding",
    "Verif.C33_code_hiding"
   ],
   "note": "Relative to Ext.Ok (go-ethereum ScalarMult/Double on finite points, big.Int.ModSqrt, 32-byte hash); idealExt_ok shows the assumption is satisfiable."
  },
  {
   "property": "C34",
   "status": "proved",
   "theorems": [
    "Verif.C34_add",
    "Verif.C34_neg",
    "Verif.C34_scalarMult",
    "Verif.C34_scalarBaseMult",
    "Verif.C34_rep",
    "Verif.C34_makeAffine"
   ],
   "note": ""
  },
  {
   "property": "C35",
   "status": "proved",
   "theorems": [
    "Verif.C35_distinct",
    "Verif.C35_distinct2",
    "Verif.C35_equal",
    "Verif.C35_equal2",
    "Verif.C35_rare",
    "Verif.C35_rare2",
    "Verif.C35_generators"
   ],
   "note": ""
  },
  {
   "property": "C36",
   "status": "proved",
   "theorems": [
    "Verif.C36_add",
    "Verif.C36_neg",
    "Verif.C36_scalarMult",
    "Verif.C36_scalarBaseMult",
    "Verif.C36_neg_inplace",
    "Verif.C36_scalarMult_negative",
    "Verif.C36_scalarBaseMult_negative",
    "Verif.C36_rep",
    "Verif.C36_makeAffine"
   ],
   "note": ""
  },
  {
   "property": "C37",
   "status": "proved",
   "theorems": [
    "Verif.C37_orders",
    "Verif.C37_cyclic",
    "Verif.C37_scalars"
   ],
   "note": ""
  },
  {
   "property": "C38",
   "status": "proved",
   "theorems": [
    "Verif.C38_length",
    "Verif.C38_roundtrip",
    "Verif.C38_injective",
    "Verif.C38_accepts",
    "Verif.C38_sound"
   ],
   "note": ""
  },
  {
   "property": "C39",
   "status": "proved",
   "theorems": [
    "Verif.C39_length",
    "Verif.C39_roundtrip",
    "Verif.C39_injective",
    "Verif.C39_off",
    "Verif.C39_accepts",
    "Verif.C39_sound"
   ],
   "note": ""
  },
  {
   "property": "C40",
   "status": "proved",
   "theorems": [
    "Verif.C40_marshal",
    "Verif.C40_accepts"
   ],
   "note": ""
  },
  {
   "property": "C41",
   "status": "proved",
   "theorems": [
    "Verif.C41_malleable",
    "Verif.C41_infinity"
   ],
   "note": ""
  },
  {
   "property": "C42",
   "status": "proved",
   "theorems": [
    "Verif.C42_fields",
    "Verif.C42_gfP2",
    "Verif.C42_gfP6",
    "Verif.C42_gfP12",
    "Verif.C42_exp",
    "Verif.C42_inverse"
   ],
   "note": ""
  },
  {
   "property": "C43",
   "status": "proved",
   "theorems": [
    "Verif.C43_scalarMult",
    "Verif.C43_scalarMult_neg",
    "Verif.C43_scalarMult_minus_one",
    "Verif.C43_scalarMult_neg_iff",
    "Verif.C43_exp",
    "Verif.C43_exp_witness"
   ],
   "note": ""
  },
  {
   "property": "C44",
   "status": "proved",
   "theorems": [
    "Verif.C44_frobenius",
    "Verif.C44_constants"
   ],
   "note": ""
  },
  {
   "property": "C45",
   "status": "proved",
   "theorems": [
    "Verif.C45_finalExponentiation",
    "Verif.C45_order",
    "Verif.C45_mul"
   ],
   "note": ""
  },
  {
   "property": "C46",
   "status": "proved",
   "theorems": [
    "Verif.C46_infinity",
    "Verif.C46_order",
    "Verif.C46_nonzero"
   ],
   "note": ""
  },
  {
   "property": "C47",
   "status": "proved",
   "theorems": [
    "Verif.C47_randomG1",
    "Verif.C47_randomG2",
    "Verif.C47_returns"
   ],
   "note": ""
  },
  {
   "property": "C48",
   "status": "proved",
   "theorems": [
    "Verif.C48_pool",
    "Verif.C48_double_put"
   ],
   "note": ""
  },
  {
   "property": "C49",
   "status": "proved",
   "theorems": [
    "Verif.C49_sign",
    "Verif.C49_panic",
    "Verif.C49_verify",
    "Verif.C49_sign_verify",
    "Verif.C49_complete",
    "Verif.C49_coincidence"
   ],
   "note": ""
  },
  {
   "property": "C50",
   "status": "proved",
   "theorems": [
    "Verif.C50_keygen",
    "Verif.C50_always"
   ],
   "note": ""
  },
  {
   "property": "C51",
   "status": "proved",
   "theorems": [
    "Verif.C51_setup",
    "Verif.C51_generator",
    "Verif.C51_setup_panic",
    "Verif.C51_error",
    "Verif.C51_proof",
    "Verif.C51_verdict",
    "Verif.C51_complete",
    "Verif.C51_verdict_off",
    "Verif.C51_negative",
    "Verif.C51_outside"
   ],
   "note": ""
  },
  {
   "property": "C52",
   "status": "proved",
   "theorems": [
    "Verif.C52_set",
    "Verif.C52_outside",
    "Verif.C52_ul",
    "Verif.C52_range"
   ],
   "note": ""
  },
  {
   "property": "C53",
   "status": "proved",
   "theorems": [
    "Verif.C53_set",
    "Verif.C53_exact",
    "Verif.C53_ul",
    "Verif.C53_digits"
   ],
   "note": ""
  },
  {
   "property": "C54",
   "status": "proved",
   "theorems": [
    "Verif.C54_setup",
    "Verif.C54_proof",
    "Verif.C54_verdict",
    "Verif.C54_verdict_off",
    "Verif.C54_honest",
    "Verif.C54_negative",
    "Verif.C54_bad_parameters",
    "Verif.C54_interval"
   ],
   "note": ""
  },
  {
   "property": "C55",
   "status": "proved",
   "theorems": [
    "Verif.C55_setup",
    "Verif.C55_honest",
    "Verif.C55_nonneg",
    "Verif.C55_negative",
    "Verif.C55_after_error"
   ],
   "note": ""
  },
  {
   "property": "C56",
   "status": "proved",
   "theorems": [
    "Verif.C56_table",
    "Verif.C56_prefix",
    "Verif.C56_seeds_distinct"
   ],
   "note": "Relative to Ext.Ok (go-ethereum ScalarMult/Double on finite points, big.Int.ModSqrt, 32-byte hash); idealExt_ok shows the assumption is satisfiable. The conversion of NaN to int64 (range end -2^63) is a parameter."
  },
  {
   "property": "C57",
   "status": "proved",
   "theorems": [
    "Verif.C57_bulletproof",
    "Verif.C57_generic",
    "Verif.C57_injective",
    "Verif.C57_verdict",
    "Verif.C57_generic_verdict",
    "Verif.C57_honest",
    "Verif.C57_after_verify",
    "Verif.C57_unknown_member",
    "Verif.C57_empty",
    "Verif.C57_overflow",
    "Verif.C57_grammar",
    "Verif.C57_unambiguous",
    "Verif.C57_not_json",
    "Verif.C57_strings",
    "Verif.C57_names",
    "Verif.C57_strings_all"
   ],
   "note": "encoding/json is modelled in Model/Json.lean (trusted reading; its parser is proved equal to the grammar of Spec/JsonText.lean); verdict theorems relative to Ext.Ok."
  },
  {
   "property": "C58",
   "status": "proved",
   "theorems": [
    "Verif.C58_invariant",
    "Verif.C58_neg_ok",
    "Verif.C58_neg_wrong",
    "Verif.C58_negative_scalar"
   ],
   "note": ""
  },
  {
   "property": "C59",
   "status": "proved",
   "theorems": [
    "Verif.C59_generic_period"
   ],
   "note": "Relative to Ext.Ok (go-ethereum ScalarMult/Double on finite points, big.Int.ModSqrt, 32-byte hash); idealExt_ok shows the assumption is satisfiable."
  },
  {
   "property": "C60",
   "status": "proved",
   "theorems": [
    "Verif.C60_no_subgroup_check"
   ],
   "note": ""
  },
  {
   "property": "C61",
   "status": "proved",
   "theorems": [
    "Verif.C61_product",
    "Verif.C61_panic",
    "Verif.C61_exponents"
   ],
   "note": ""
  },
  {
   "property": "C62",
   "status": "proved",
   "theorems": [
    "Verif.C62_pairing",
    "Verif.C62_scalars",
    "Verif.C62_sums"
   ],
   "note": ""
  },
  {
   "property": "C63",
   "status": "proved",
   "theorems": [
    "Verif.C63_equal",
    "Verif.C63_not_binding",
    "Verif.C63_hiding",
    "Verif.C63_coincidence"
   ],
   "note": ""
  },
  {
   "property": "C64",
   "status": "proved",
   "theorems": [
    "Verif.C64_set",
    "Verif.C64_set_after",
    "Verif.C64_ul_after",
    "Verif.C64_ul",
    "Verif.C64_range"
   ],
   "note": ""
  },
  {
   "property": "C65",
   "status": "proved",
   "theorems": [
    "Verif.C65_preimage",
    "Verif.C65_set",
    "Verif.C65_not_canonical"
   ],
   "note": ""
  },
  {
   "property": "C66",
   "status": "proved",
   "theorems": [
    "Verif.C66_infinity",
    "Verif.C66_ul",
    "Verif.C66_range"
   ],
   "note": ""
  },
  {
   "property": "C67",
   "status": "proved",
   "theorems": [
    "Verif.C67_tied",
    "Verif.C67_honest_tied",
    "Verif.C67_verdict",
    "Verif.C67_equal_challenges",
    "Verif.C67_returns",
    "Verif.C67_weak_fiat_shamir"
   ],
   "note": "Relative to Ext.Ok; the attack is stated with the prover proveBits, which is Prove with arbitrary vectors (prove_eq_proveBits)."
  },
  {
   "property": "C68",
   "status": "proved",
   "theorems": [
    "Verif.C68_found",
    "Verif.C68_distinct",
    "Verif.C68_setup",
    "Verif.C68_end_to_end",
    "Verif.C68_generic_end_to_end",
    "Verif.C68_u"
   ],
   "note": "Relative to Ext.Ok and E.sha256 = SHA-256 (FIPS 180-4, Spec/Sha256.lean, with test vectors). The 66 seeds are all seeds the code uses, evaluated by the kernel."
  },
  {
   "property": "C69",
   "status": "proved",
   "theorems": [
    "Verif.C69_total",
    "Verif.C69_hiding",
    "Verif.C69_setup",
    "Verif.C69_generic",
    "Verif.C69_many"
   ],
   "note": "Relative to Ext.Ok and H not the neutral element (C68 shows this for Setup). rand.Int is taken to be uniform on [0, ORDER)."
  },
  {
   "property": "C70",
   "status": "proved",
   "theorems": [
    "Verif.C70_agrees",
    "Verif.C70_agrees_ok",
    "Verif.C70_transport",
    "Verif.C70_ignored",
    "Verif.C70_required",
    "Verif.C70_required_ip",
    "Verif.C70_noninvertible",
    "Verif.C70_calls_ip",
    "Verif.C70_missing",
    "Verif.C70_missing_text",
    "Verif.C70_generic",
    "Verif.C70_generic_agrees",
    "Verif.C70_generic_transport",
    "Verif.C70_generic_missing"
   ],
   "note": ""
  },
  {
   "property": "C71",
   "status": "proved",
   "theorems": [
    "Verif.C71_extract",
    "Verif.C71_product",
    "Verif.C71_chosen_last"
   ],
   "note": ""
  },
  {
   "property": "C72",
   "status": "proved",
   "theorems": [
    "Verif.C72_verify_writes",
    "Verif.C72_ip_verify_writes",
    "Verif.C72_prove_writes",
    "Verif.C72_prove_fresh",
    "Verif.C72_verify_value",
    "Verif.C72_values",
    "Verif.C72_program",
    "Verif.C72_copy"
   ],
   "note": "The frame theorems and C72_values hold for every Ext; big.Int values are immutable in the model (no method of P256 writes through X or Y)."
  },
  {
   "property": "C73",
   "status": "proved",
   "theorems": [
    "Verif.C73_multiply",
    "Verif.C73_add",
    "Verif.C73_scalarMult",
    "Verif.C73_double",
    "Verif.C73_neg"
   ],
   "note": "Relative to Ext.Ok."
  },
  {
   "property": "C74",
   "status": "proved",
   "theorems": [
    "Verif.C74_g1_add",
    "Verif.C74_g1_neg",
    "Verif.C74_g1_scalarMult",
    "Verif.C74_g1_scalarBaseMult",
    "Verif.C74_g1_marshal",
    "Verif.C74_g1_unmarshal",
    "Verif.C74_g1_isZero",
    "Verif.C74_g1_infinity",
    "Verif.C74_g2_add",
    "Verif.C74_g2_neg",
    "Verif.C74_g2_scalarMult",
    "Verif.C74_g2_scalarBaseMult",
    "Verif.C74_g2_marshal",
    "Verif.C74_g2_unmarshal",
    "Verif.C74_g2_isZero",
    "Verif.C74_g2_infinity",
    "Verif.C74_gt_add",
    "Verif.C74_gt_scalarMult",
    "Verif.C74_gt_invert",
    "Verif.C74_gt_exp",
    "Verif.C74_gt_tests",
    "Verif.C74_gt_unmarshal",
    "Verif.C74_pair",
    "Verif.C74_pairingCheck",
    "Verif.C74_keeps",
    "Verif.C74_fresh",
    "Verif.C74_g1_group",
    "Verif.C74_g2_group"
   ],
   "note": "Objects of different types never share big.Int objects and two objects of one type are equal or disjoint (Go code in this package never builds others); hypotheses Live, SameOrDisj, Disj say so. big.Int operations are atomic reads and writes of integers."
  },
  {
   "property": "C75",
   "status": "proved",
   "theorems": [
    "Verif.C75_prove",
    "Verif.C75_failure",
    "Verif.C75_success",
    "Verif.C75_generic",
    "Verif.C75_set",
    "Verif.C75_set_error",
    "Verif.C75_set_failure",
    "Verif.C75_ul",
    "Verif.C75_ul_failure"
   ],
   "note": "The source is the sequence of results of rand.Int; that crypto/rand returns a nil number with every error is taken from its documentation."
  },
  {
   "property": "C76",
   "status": "proved",
   "theorems": [
    "Verif.C76_extract",
    "Verif.C76_same",
    "Verif.C76_complete"
   ],
   "note": "About a repaired verifier (Spec/BpFixed), which is not the code; C76_same relates it to the code. Special soundness: the tree of runs is a hypothesis, rewinding probabilities are outside the model. Non-trivial relations between the generators are assumed hard to find by the scheme, not excluded by the theorem."
  },
  {
   "property": "C77",
   "status": "proved",
   "theorems": [
    "Verif.C77_set",
    "Verif.C77_honest",
    "Verif.C77_ul",
    "Verif.C77_interval",
    "Verif.C77_infinity",
    "Verif.C77_equivocate"
   ],
   "note": "Special soundness: the two runs are a hypothesis; rewinding probabilities are outside the model, and unforgeability of the signatures is not claimed (the theorem says which signature is found). The condition NoClash excludes exceptional operands of the in-place Add, PairOk the cached coordinate of C58."
  },
  {
   "property": "C78",
   "status": "proved",
   "theorems": [
    "Verif.C78_bijection",
    "Verif.C78_set",
    "Verif.C78_ul_bijection",
    "Verif.C78_ul",
    "Verif.C78_challenge"
   ],
   "note": "The random numbers are arguments; equality of distributions is expressed by the bijection. PairOk and NoClash exclude the cached coordinate of C58 and exceptional operands of the in-place Add."
  },
  {
   "property": "C79",
   "status": "proved",
   "theorems": [
    "Verif.C79_ul",
    "Verif.C79_interval",
    "Verif.C79_range",
    "Verif.C79_set"
   ],
   "note": "Counts of exceptional values; turning them into a probability (dividing by the group order) is left to the reader since hash functions are arbitrary functions. PairOk excludes the cached coordinate of C58."
  },
  {
   "property": "C80",
   "status": "proved",
   "theorems": [
    "Verif.C80_key",
    "Verif.C80_set",
    "Verif.C80_ul"
   ],
   "note": "Attack by a prover that is given the parameters of Setup as they are. proveDigits is the attacker's program; proveUL_digits shows that ProveUL is the same program with the digits of x."
  },
  {
   "property": "C81",
   "status": "proved",
   "theorems": [
    "Verif.C81_alone",
    "Verif.C81_parallel",
    "Verif.C81_separate",
    "Verif.C81_race",
    "Verif.C81_race_prove"
   ],
   "note": "Model/Par.lean has the functions of Model/Heap.lean as trees of memory operations; Lemmas/ParRun.lean proves that uninterrupted runs are those of Model/Heap.lean. Each operation reads or writes whole coordinates atomically (sequential consistency); goroutines do not hand structs to each other after the start. The negative statement is a witness schedule for every such proof."
  },
  {
   "property": "C82",
   "status": "proved",
   "theorems": [
    "Verif.C82_group",
    "Verif.C82_zero"
   ],
   "note": "C82_group uses bilinearity and non-degeneracy of the pairing (C62) and the order of GT (C46); C82_zero shows the element outside the group that Unmarshal accepts (C40)."
  },
  {
   "property": "C83",
   "status": "proved",
   "theorems": [
    "Verif.C83_G1",
    "Verif.C83_G1_canonical",
    "Verif.C83_G1_witness",
    "Verif.C83_G2"
   ],
   "note": "C83_G1_canonical is the exact condition under which the text equals that of the element sent through Marshal and Unmarshal; C83_G1_witness gives the generator, which prints as (1, -2). For GT see C82."
  },
  {
   "property": "C84",
   "status": "proved",
   "theorems": [
    "Verif.C84_keygen",
    "Verif.C84_sign",
    "Verif.C84_bb_verify",
    "Verif.C84_commit",
    "Verif.C84_setupSet",
    "Verif.C84_setupUL",
    "Verif.C84_setup",
    "Verif.C84_key",
    "Verif.C84_proveSet",
    "Verif.C84_proveUL",
    "Verif.C84_prove",
    "Verif.C84_verifySet",
    "Verif.C84_verifyUL",
    "Verif.C84_verify",
    "Verif.C84_ready",
    "Verif.C84_others",
    "Verif.C84_run_set",
    "Verif.C84_run_bb",
    "Verif.C84_run_ul"
   ],
   "note": "Model/CcsHeap.lean repeats the call structure of the Go code on the heap of Model/BnHeap.lean; the theorems say that each call follows the function of Model/Ccs.lean (Follows: panics if that panics, otherwise an effect with the given result and set of changed cells). C84_ready and C84_others carry this through sequences of calls; C84_run_set, C84_run_ul and C84_run_bb are whole runs from Setup to Verify. C84_bb_verify has the hypothesis that MakeAffine succeeds on the sum of g^m and the public key (a point computed by the in-place Add, which is not on the curve when m is congruent to the key); C84_run_bb discharges it."
  },
  {
   "property": "C85",
   "status": "proved",
   "theorems": [
    "Verif.C85_session",
    "Verif.C85_from_setup",
    "Verif.C85_total"
   ],
   "note": "C85_session for parameters in memory, C85_from_setup with Setup as the first call, C85_total for the absence of panics. The verdict of an already verified proof is that of the original by C64_range."
  },
  {
   "property": "C86",
   "status": "proved",
   "theorems": [
    "Verif.C86_int",
    "Verif.C86_p256",
    "Verif.C86_G1",
    "Verif.C86_G2",
    "Verif.C86_GT",
    "Verif.C86_hashSet",
    "Verif.C86_hashUL",
    "Verif.C86_hashBP",
    "Verif.C86_hashIP",
    "Verif.C86_hashIP_short",
    "Verif.C86_hashToInt"
   ],
   "note": "The texts are written with Lean's toString in Spec/Text.lean, independently of the model's digit functions."
  },
  {
   "property": "C87",
   "status": "proved",
   "theorems": [
    "Verif.C87_hashBP",
    "Verif.C87_hashBP_G",
    "Verif.C87_add",
    "Verif.C87_negG2"
   ],
   "note": "The file also reproduces the fixed values of the repository's tests by evaluation (examples, not claims)."
  },
  {
   "property": "C88",
   "status": "proved",
   "theorems": [
    "Verif.C88_parts",
    "Verif.C88_race",
    "Verif.C88_honest",
    "Verif.C88_ul_parts",
    "Verif.C88_ul_race",
    "Verif.C88_ul_honest",
    "Verif.C88_range_race",
    "Verif.C88_range_honest"
   ],
   "note": "Code defect: VerifySet and VerifyUL write to the proof they verify without saying so. Two concurrent verifications of one valid proof can give a false rejection and destroy the proof. The schedule modelled is one of those that Go allows."
  },
  {
   "property": "C89",
   "status": "proved",
   "theorems": [
    "Verif.C89_gfP2",
    "Verif.C89_gfP6",
    "Verif.C89_gfP12",
    "Verif.C89_unary",
    "Verif.C89_scalars",
    "Verif.C89_frobenius",
    "Verif.C89_mulScalar",
    "Verif.C89_product"
   ],
   "note": ""
  },
  {
   "property": "C90",
   "status": "proved",
   "theorems": [
    "Verif.C90_accepts",
    "Verif.C90_roundtrip",
    "Verif.C90_constants",
    "Verif.C90_polynomials",
    "Verif.C90_bn",
    "Verif.C90_real_imag",
    "Verif.C90_real_swapped",
    "Verif.C90_curvePoints"
   ],
   "note": "Exact acceptance and round trip for all strings and integers; source literals tied to the model's constants. The swap of Real and Imag is proved as a deviation."
  },
  {
   "property": "C91",
   "status": "proved",
   "theorems": [
    "Verif.C91_gfP2",
    "Verif.C91_gfP6",
    "Verif.C91_gfP12",
    "Verif.C91_curvePoint",
    "Verif.C91_twistPoint",
    "Verif.C91_add",
    "Verif.C91_addTwist",
    "Verif.C91_mul",
    "Verif.C91_mulTwist",
    "Verif.C91_lost",
    "Verif.C91_add_any",
    "Verif.C91_pairing",
    "Verif.C91_pairingCheck"
   ],
   "note": "Exact counts; the leaks of Add and miller are characterised. For PairingCheck the number of pairs multiplied is bounded by the length of the list."
  },
  {
   "property": "C92",
   "status": "proved",
   "theorems": [
    "Verif.C92_alone",
    "Verif.C92_alone_bn256",
    "Verif.C92_alone_rest",
    "Verif.C92_writes_nothing",
    "Verif.C92_writes_proof",
    "Verif.C92_writes_bn256",
    "Verif.C92_task",
    "Verif.C92_tasks",
    "Verif.C92_shared_params",
    "Verif.C92_shared_verify",
    "Verif.C92_same_proof"
   ],
   "note": "Model/BnPar.lean has programs which make, read and write big.Int objects one at a time and a machine which interleaves goroutines; Model/BnParField, BnParPair and CcsPar repeat the text of BnHeap, BnHeapPair and CcsHeap over it. C92_alone: alone it is that code (C84). C92_writes_*: footprints. C92_tasks: goroutines with any mixture of tasks. C92_shared_params and C92_shared_verify: the two usual cases. C92_same_proof: the condition on the proofs is needed; a schedule of this machine gives the outcome of C88."
  },
  {
   "property": "C93",
   "status": "proved",
   "theorems": [
    "Verif.C93_set",
    "Verif.C93_set_value",
    "Verif.C93_set_usable",
    "Verif.C93_set_ignored",
    "Verif.C93_set_complete",
    "Verif.C93_prove",
    "Verif.C93_ul",
    "Verif.C93_ul_value",
    "Verif.C93_ul_short",
    "Verif.C93_ul_complete",
    "Verif.C93_range",
    "Verif.C93_range_value",
    "Verif.C93_too_early",
    "Verif.C93_range_complete"
   ],
   "note": "Exact sets of inputs on which VerifySet, VerifyUL and Verify panic, and the verdict on the others; deviation: no error for incomplete proofs."
  },
  {
   "property": "C94",
   "status": "proved",
   "theorems": [
    "Verif.C94_set_text",
    "Verif.C94_set_text_nil",
    "Verif.C94_set_decoded",
    "Verif.C94_set_keeps",
    "Verif.C94_set_panics",
    "Verif.C94_set_stale",
    "Verif.C94_ul_text",
    "Verif.C94_ul_text_nil",
    "Verif.C94_ul_decoded",
    "Verif.C94_ul_panics",
    "Verif.C94_keypair",
    "Verif.C94_decoded_nil",
    "Verif.C94_keypair_panics"
   ],
   "note": "encoding/json as read in Model/Json (C57); the text is a constant, decoding keeps every unexported field."
  },
  {
   "property": "C95",
   "status": "proved",
   "theorems": [
    "Verif.C95_bounds",
    "Verif.C95_mixed",
    "Verif.C95_outside",
    "Verif.C95_link",
    "Verif.C95_link_forged"
   ],
   "note": "Exact set of accepted combinations; the commitments can be made to match because the logarithm of H is public (C63)."
  },
  {
   "property": "C96",
   "status": "proved",
   "theorems": [
    "Verif.C96_exact",
    "Verif.C96_pairingCheck",
    "Verif.C96_step",
    "Verif.C96_programs",
    "Verif.C96_sum_g1",
    "Verif.C96_sum_g2",
    "Verif.C96_prod_gt",
    "Verif.C96_self",
    "Verif.C96_exp"
   ],
   "note": "Calls are exact about panics; the values are those of the models of C34-C47 (C74 ties them to memory). The inverse of the field element 0 is taken as 0; C91 states what the pool can make of it."
  },
  {
   "property": "C97",
   "status": "proved",
   "theorems": [
    "Verif.C97_programs",
    "Verif.C97_run",
    "Verif.C97_answers",
    "Verif.C97_from_start",
    "Verif.C97_lost"
   ],
   "note": "Spec/GoBnMean.lean gives the meaning of a call in the groups and its answers. C97_programs: every program which returns has computed it. C97_answers: and the calls return what the elements determine (reduced bytes, tests, PairingCheck: the sum of the pairings is 0). C97_from_start: a program which sets every variable before it reads it returns (C96). C97_run: returned values and effects fit together. C97_lost: in the exceptional cases of G2 there is no group element left."
  },
  {
   "property": "C98",
   "status": "proved",
   "theorems": [
    "Verif.C98_repeated",
    "Verif.C98_points",
    "Verif.C98_bytes",
    "Verif.C98_length",
    "Verif.C98_upper",
    "Verif.C98_setup",
    "Verif.C98_generic",
    "Verif.C98_generic_upper"
   ],
   "note": "Points are counted in the parsed text (objects with exactly the members X and Y, Spec/JsonSize.lean). C98_bytes holds for every JSON value; C98_upper assumes generators with coordinates below 2^256, C98_setup shows that Setup returns such."
  },
  {
   "property": "C99",
   "status": "proved",
   "theorems": [
    "Verif.C99_G1",
    "Verif.C99_G1_base",
    "Verif.C99_G2",
    "Verif.C99_G2_base",
    "Verif.C99_GT",
    "Verif.C99_GT_nonneg",
    "Verif.C99_GT_exp"
   ],
   "note": "The trace (Spec/BnTrace.lean) lists allocations, reads and writes of big.Int objects with their addresses, without values; what math/big does inside one operation (also not of constant time) is not modelled. P256 multiplies in the C code of go-ethereum and is not covered."
  },
  {
   "property": "C100",
   "status": "proved",
   "theorems": [
    "Verif.C100_programs",
    "Verif.C100_runs",
    "Verif.C100_panics",
    "Verif.C100_objects",
    "Verif.C100_shared",
    "Verif.C100_apart",
    "Verif.C100_write",
    "Verif.C100_jacobian"
   ],
   "note": "Model/P256Obj.lean follows every big.Int statement of p256.go and mycurve.go; the ScalarMult and Double of go-ethereum and math/big inside one operation are contracts (E.Ok, new objects for results). Deviation: coordinates are shared after Multiply and Add with an infinite argument (C100_shared, C100_write)."
  },
  {
   "property": "C101",
   "status": "proved",
   "theorems": [
    "Verif.C101_results",
    "Verif.C101_lengths",
    "Verif.C101_secret",
    "Verif.C101_count",
    "Verif.C101_zero",
    "Verif.C101_generic_results",
    "Verif.C101_generic"
   ],
   "note": "Model/BpCost.lean repeats Prove and Verify with a log of the calls of the curve and of make; C101_results proves that the results are those of the other model. The statement is about arguments of calls, not about the time of the C code behind them."
  },
  {
   "property": "C102",
   "status": "proved",
   "theorems": [
    "Verif.C102_calls",
    "Verif.C102_calls_text",
    "Verif.C102_honest",
    "Verif.C102_prove",
    "Verif.C102_generic_calls",
    "Verif.C102_generic_prove",
    "Verif.C102_first",
    "Verif.C102_memory",
    "Verif.C102_panics",
    "Verif.C102_text",
    "Verif.C102_linear"
   ],
   "note": "Counts calls of the curve and elements of make in Model/BpCost.lean; the time of one call and of the arithmetic of big.Int is not counted. Deviation: memory is determined by an unchecked number of the proof (C102_panics, C102_text)."
  },
  {
   "property": "C103",
   "status": "proved",
   "theorems": [
    "Verif.C103_sum",
    "Verif.C103_equal",
    "Verif.C103_many",
    "Verif.C103_scale",
    "Verif.C103_add",
    "Verif.C103_openings",
    "Verif.C103_ccs"
   ],
   "note": "Relative to Ext.Ok; exceptional additions are those of C19 and C63."
  },
  {
   "property": "C104",
   "status": "proved",
   "theorems": [
    "Verif.C104_residues",
    "Verif.C104_splice",
    "Verif.C104_rerandomize",
    "Verif.C104_texts"
   ],
   "note": "Finding; extends C28 (shift of the value) to all numbers of the proof. Relative to Ext.Ok."
  },
  {
   "property": "C105",
   "status": "proved",
   "theorems": [
    "Verif.C105_residues",
    "Verif.C105_shift",
    "Verif.C105_value",
    "Verif.C105_scale",
    "Verif.C105_ul",
    "Verif.C105_range"
   ],
   "note": "Finding; the challenge covers a and D only (C65), so C is not bound by it. The conditions are those of C51_verdict and C54_verdict."
  },
  {
   "property": "C106",
   "status": "proved",
   "theorems": [
    "Verif.C106_root",
    "Verif.C106_abscissa",
    "Verif.C106_inverse",
    "Verif.C106_count",
    "Verif.C106_image",
    "Verif.C106_domain",
    "Verif.C106_seeds",
    "Verif.C106_prefix",
    "Verif.C106_collision"
   ],
   "note": "The last part (messages beginning with a digit) is a finding without effect on the seeds of the repository. Relative to Ext.Ok."
  },
  {
   "property": "C107",
   "status": "proved",
   "theorems": [
    "Verif.C107_rune",
    "Verif.C107_default",
    "Verif.C107_given",
    "Verif.C107_complete",
    "Verif.C107_error",
    "Verif.C107_same",
    "Verif.C107_distinct",
    "Verif.C107_repeated",
    "Verif.C107_binding"
   ],
   "note": "Finding: string(i) repeats generators from N = 55298 on (Prove uses N <= 32, so only direct callers inside the package are affected). Memory for the tables is not modelled. Relative to Ext.Ok."
  },
  {
   "property": "C108",
   "status": "proved",
   "theorems": [
    "Verif.C108_same",
    "Verif.C108_products",
    "Verif.C108_bits",
    "Verif.C108_total",
    "Verif.C108_count",
    "Verif.C108_reduced",
    "Verif.C108_verify",
    "Verif.C108_text"
   ],
   "note": "Finding: performance defect, quadratic work; relevant for callers with many generators (Setup gives at most 32) and for a verifier of texts from others, since the number of generators comes from the text. C102 counts curve calls and slices only; this claim counts bits of products, not time."
  },
  {
   "property": "C109",
   "status": "proved",
   "theorems": [
    "Verif.C109_same",
    "Verif.C109_setupUL",
    "Verif.C109_setupSet",
    "Verif.C109_proveSet",
    "Verif.C109_proveUL",
    "Verif.C109_verifySet",
    "Verif.C109_verifyUL",
    "Verif.C109_count",
    "Verif.C109_bound",
    "Verif.C109_range",
    "Verif.C109_no_shortcut",
    "Verif.C109_secret"
   ],
   "note": "The comment in paramsSet and paramsUL overstates the pairings: E of util/util.go is computed once. Additions, encodings, hashing and integer arithmetic are not counted. What an observer of one scalar multiplication learns about the scalar is C99."
  },
  {
   "property": "C110",
   "status": "proved",
   "theorems": [
    "Verif.C110_program",
    "Verif.C110_sent",
    "Verif.C110_ages",
    "Verif.C110_shift",
    "Verif.C110_any_age",
    "Verif.C110_draws",
    "Verif.C110_zero"
   ],
   "note": "Composition of C25, C26, C57, C68, C70 and C75 along the program. If ProveGeneric or json.Unmarshal returns an error, the program goes on with what it has; the model stops there. The comment 'This information is shared between the prover and the verifier' does not hold for the verifier's part of the program."
  },
  {
   "property": "C111",
   "status": "proved",
   "theorems": [
    "Verif.C111_agrees",
    "Verif.C111_error",
    "Verif.C111_no_more",
    "Verif.C111_not_object",
    "Verif.C111_int64",
    "Verif.C111_big",
    "Verif.C111_point",
    "Verif.C111_point_members",
    "Verif.C111_slice",
    "Verif.C111_elements",
    "Verif.C111_with",
    "Verif.C111_saved",
    "Verif.C111_stop",
    "Verif.C111_rest"
   ],
   "note": "The decoder with errors is a reading of encoding/json: values of the wrong kind are skipped and remembered, errors of UnmarshalJSON end decoding. The value left in a big.Int by a failed UnmarshalJSON is an arbitrary function. Slices are decoded into fresh memory, as in C57."
  },
  {
   "property": "C112",
   "status": "proved",
   "theorems": [
    "Verif.C112_half",
    "Verif.C112_setup",
    "Verif.C112_text",
    "Verif.C112_repeat"
   ],
   "note": "Unconditional form of C28 along the README's program: the inner-product proof has no rounds and points at infinity, A, S, T1, T2 are infinity, and one of three blinding factors avoids the exceptional additions. One SHA-256 value is computed by the kernel. A verifier which compares the parameters with its own and the commitments with each other is deceived as well."
  },
  {
   "property": "C113",
   "status": "proved",
   "theorems": [
    "Verif.C113_no_test",
    "Verif.C113_complete",
    "Verif.C113_tied",
    "Verif.C113_sound",
    "Verif.C113_hiding"
   ],
   "note": "C27 says that Verify does not tie the halves together; C113_no_test says that it could not, because the halves are hiding (C69) and independent. proveTied, checkTied and proveMixed (Spec/BpTie.lean) are not in the repository. C113_sound needs trees of accepted runs of the repaired verifier as in C76; its instance has one bit."
  }
 ]
}
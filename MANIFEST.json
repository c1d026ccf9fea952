{
 "claims": [
  {
   "property": "C01",
   "status": "proved",
   "theorems": [
    "Verif.C01_add",
    "Verif.C01_add32"
   ],
   "note": ""
  },
  {
   "property": "C02",
   "status": "proved",
   "theorems": [
    "Verif.C02_sub"
   ],
   "note": ""
  },
  {
   "property": "C03",
   "status": "proved",
   "theorems": [
    "Verif.C03_mul",
    "Verif.C03_mulUnit"
   ],
   "note": ""
  },
  {
   "property": "C04",
   "status": "proved",
   "theorems": [
    "Verif.C04_div",
    "Verif.C04_div1"
   ],
   "note": ""
  },
  {
   "property": "C05",
   "status": "proved",
   "theorems": [
    "Verif.C05_shl",
    "Verif.C05_shr"
   ],
   "note": ""
  },
  {
   "property": "C06",
   "status": "proved",
   "theorems": [
    "Verif.C06_compare",
    "Verif.C06_isZero"
   ],
   "note": ""
  },
  {
   "property": "C07",
   "status": "proved",
   "theorems": [
    "Verif.C07_wellformed",
    "Verif.C07_values"
   ],
   "note": ""
  },
  {
   "property": "C08",
   "status": "proved",
   "theorems": [
    "Verif.C08_toString",
    "Verif.C08_round",
    "Verif.C08_stream"
   ],
   "note": ""
  },
  {
   "property": "C09",
   "status": "proved",
   "theorems": [
    "Verif.C09_toString",
    "Verif.C09_round",
    "Verif.C09_stream",
    "Verif.C09_base"
   ],
   "note": ""
  },
  {
   "property": "C10",
   "status": "proved",
   "theorems": [
    "Verif.C10_dec",
    "Verif.C10_hex",
    "Verif.C10_zero",
    "Verif.C10_reject",
    "Verif.C10_reject_hex",
    "Verif.C10_prefix_only",
    "Verif.C10_empty",
    "Verif.C10_lenient"
   ],
   "note": "some non-numerals are accepted, see C10_lenient"
  },
  {
   "property": "C11",
   "status": "proved",
   "theorems": [
    "Verif.C11_bitLen",
    "Verif.C11_bitLen_zero",
    "Verif.C11_bitLen_exact",
    "Verif.C11_bitLen_wrong",
    "Verif.C11_testBit",
    "Verif.C11_testBit_outside"
   ],
   "note": "bitLen deviates on a characterised set, see C11_bitLen, C11_bitLen_wrong"
  },
  {
   "property": "C12",
   "status": "proved",
   "theorems": [
    "Verif.C12_add",
    "Verif.C12_add32",
    "Verif.C12_sub",
    "Verif.C12_mulUnit",
    "Verif.C12_mul",
    "Verif.C12_div",
    "Verif.C12_shl",
    "Verif.C12_shr"
   ],
   "note": ""
  },
  {
   "property": "C13",
   "status": "proved",
   "theorems": [
    "Verif.C13_addN",
    "Verif.C13_subN",
    "Verif.C13_add1",
    "Verif.C13_mul1",
    "Verif.C13_div1",
    "Verif.C13_mod1",
    "Verif.C13_unique"
   ],
   "note": ""
  },
  {
   "property": "C14",
   "status": "proved",
   "theorems": [
    "Verif.C14_add",
    "Verif.C14_sub",
    "Verif.C14_mul",
    "Verif.C14_neg",
    "Verif.C14_shl",
    "Verif.C14_shr",
    "Verif.C14_compare",
    "Verif.C14_set",
    "Verif.C14_set_keeps_sign"
   ],
   "note": ""
  },
  {
   "property": "C15",
   "status": "proved",
   "theorems": [
    "Verif.C15_div",
    "Verif.C15_remainder",
    "Verif.C15_other"
   ],
   "note": ""
  },
  {
   "property": "C16",
   "status": "proved",
   "theorems": [
    "Verif.C16_add",
    "Verif.C16_sub",
    "Verif.C16_neg",
    "Verif.C16_mul",
    "Verif.C16_total",
    "Verif.C16_set",
    "Verif.C16_set_int",
    "Verif.C16_int_unreduced"
   ],
   "note": "non-negative int arguments are not reduced, see C16_int_unreduced"
  },
  {
   "property": "C17",
   "status": "proved",
   "theorems": [
    "Verif.C17_inv",
    "Verif.C17_prime",
    "Verif.C17_zero",
    "Verif.C17_not_coprime"
   ],
   "note": ""
  },
  {
   "property": "C18",
   "status": "proved",
   "theorems": [
    "Verif.C18_int",
    "Verif.C18_negative_iff",
    "Verif.C18_negative_wrong",
    "Verif.C18_power",
    "Verif.C18_powerBuiltin",
    "Verif.C18_powerZero"
   ],
   "note": "negative int exponents deviate, exact condition in C18_negative_iff"
  },
  {
   "property": "C19",
   "status": "proved",
   "theorems": [
    "Verif.C19_params",
    "Verif.C19_decimal",
    "Verif.C19_eval",
    "Verif.C19_consts",
    "Verif.C19_setModulo_again",
    "Verif.C19_init",
    "Verif.C19_unsupported",
    "Verif.C19_init_again"
   ],
   "note": ""
  },
  {
   "property": "C20",
   "status": "proved",
   "theorems": [
    "Verif.C20_add",
    "Verif.C20_sub",
    "Verif.C20_neg"
   ],
   "note": ""
  },
  {
   "property": "C21",
   "status": "proved",
   "theorems": [
    "Verif.C21_mul",
    "Verif.C21_square"
   ],
   "note": ""
  },
  {
   "property": "C22",
   "status": "proved",
   "theorems": [
    "Verif.C22_set",
    "Verif.C22_setInt",
    "Verif.C22_get",
    "Verif.C22_get_set",
    "Verif.C22_set_get",
    "Verif.C22_getLow",
    "Verif.C22_text",
    "Verif.C22_text_value"
   ],
   "note": ""
  },
  {
   "property": "C23",
   "status": "proved",
   "theorems": [
    "Verif.C23_eq"
   ],
   "note": ""
  },
  {
   "property": "C24",
   "status": "proved",
   "theorems": [
    "Verif.C24_inv",
    "Verif.C24_field"
   ],
   "note": ""
  },
  {
   "property": "C25",
   "status": "proved",
   "theorems": [
    "Verif.C25_div"
   ],
   "note": ""
  },
  {
   "property": "C26",
   "status": "proved",
   "theorems": [
    "Verif.C26_squareRoot"
   ],
   "note": ""
  },
  {
   "property": "C27",
   "status": "proved",
   "theorems": [
    "Verif.C27_mod",
    "Verif.C27_mul",
    "Verif.C27_addsub",
    "Verif.C27_NC",
    "Verif.C27_neg",
    "Verif.C27_neg_zero_not_reduced"
   ],
   "note": ""
  },
  {
   "property": "C28",
   "status": "proved",
   "theorems": [
    "Verif.C28_fast"
   ],
   "note": ""
  },
  {
   "property": "C29",
   "status": "proved",
   "theorems": [
    "Verif.C29_addsub",
    "Verif.C29_mul",
    "Verif.C29_square",
    "Verif.C29_scale",
    "Verif.C29_mul_u",
    "Verif.C29_inverse",
    "Verif.C29_eq"
   ],
   "note": ""
  },
  {
   "property": "C30",
   "status": "proved",
   "theorems": [
    "Verif.C30_addsub",
    "Verif.C30_mul",
    "Verif.C30_canon",
    "Verif.C30_lazy",
    "Verif.C30_square",
    "Verif.C30_inverse",
    "Verif.C30_eq"
   ],
   "note": ""
  },
  {
   "property": "C31",
   "status": "proved",
   "theorems": [
    "Verif.C31_addsub",
    "Verif.C31_mul",
    "Verif.C31_canon",
    "Verif.C31_square",
    "Verif.C31_inverse",
    "Verif.C31_eq",
    "Verif.C31_order"
   ],
   "note": ""
  },
  {
   "property": "C32",
   "status": "proved",
   "theorems": [
    "Verif.C32_mul024",
    "Verif.C32_mul024_024",
    "Verif.C32_canon"
   ],
   "note": ""
  },
  {
   "property": "C33",
   "status": "proved",
   "theorems": [
    "Verif.C33_twist",
    "Verif.C33_frobenius",
    "Verif.C33_frobenius2",
    "Verif.C33_frobenius3"
   ],
   "note": ""
  },
  {
   "property": "C34",
   "status": "proved",
   "theorems": [
    "Verif.C34_sqru",
    "Verif.C34_square_n",
    "Verif.C34_fixed_power",
    "Verif.C34_mapToCyclo",
    "Verif.C34_conj"
   ],
   "note": ""
  },
  {
   "property": "C35",
   "status": "proved",
   "theorems": [
    "Verif.C35_power",
    "Verif.C35_root",
    "Verif.C35_kernel",
    "Verif.C35_subfield",
    "Verif.C35_mul"
   ],
   "note": ""
  },
  {
   "property": "C36",
   "status": "proved",
   "theorems": [
    "Verif.C36_G1",
    "Verif.C36_G2",
    "Verif.C36_represents",
    "Verif.C36_hom"
   ],
   "note": ""
  },
  {
   "property": "C37",
   "status": "proved",
   "theorems": [
    "Verif.C37_dbl",
    "Verif.C37_add_G1",
    "Verif.C37_add_G2",
    "Verif.C37_valid"
   ],
   "note": ""
  },
  {
   "property": "C38",
   "status": "proved",
   "theorems": [
    "Verif.C38_vuint",
    "Verif.C38_builtin",
    "Verif.C38_negative_int",
    "Verif.C38_negative_int_wrong",
    "Verif.C38_negative_int_twist",
    "Verif.C38_negative_int_iff"
   ],
   "note": "negative int scalars deviate for every finite point, see C38_negative_int_iff"
  },
  {
   "property": "C39",
   "status": "proved",
   "theorems": [
    "Verif.C39_normalize",
    "Verif.C39_eq",
    "Verif.C39_scale",
    "Verif.C39_eq_scale"
   ],
   "note": ""
  },
  {
   "property": "C40",
   "status": "proved",
   "theorems": [
    "Verif.C40_set",
    "Verif.C40_history_G1",
    "Verif.C40_history_G2",
    "Verif.C40_throw_keeps_rejected"
   ],
   "note": ""
  },
  {
   "property": "C41",
   "status": "proved",
   "theorems": [
    "Verif.C41_round",
    "Verif.C41_canonical",
    "Verif.C41_unchecked"
   ],
   "note": ""
  },
  {
   "property": "C42",
   "status": "proved",
   "theorems": [
    "Verif.C42_alias",
    "Verif.C42_local",
    "Verif.C42_group",
    "Verif.C42_frob"
   ],
   "note": ""
  },
  {
   "property": "C43",
   "status": "proved",
   "theorems": [
    "Verif.C43_infinity"
   ],
   "note": ""
  },
  {
   "property": "C44",
   "status": "proved",
   "theorems": [
    "Verif.C44_scale",
    "Verif.C44_points"
   ],
   "note": ""
  },
  {
   "property": "C45",
   "status": "proved",
   "theorems": [
    "Verif.C45_torsion",
    "Verif.C45_invalid_zero"
   ],
   "note": ""
  },
  {
   "property": "C46",
   "status": "proved",
   "theorems": [
    "Verif.C46_precomputed",
    "Verif.C46_loop2",
    "Verif.C46_product",
    "Verif.C46_infinity_wrong",
    "Verif.Pairing.C46_infinity_P"
   ],
   "note": ""
  },
  {
   "property": "C47",
   "status": "proved",
   "theorems": [
    "Verif.C47_multiple",
    "Verif.C47_finish",
    "Verif.C47_dbl_line",
    "Verif.C47_add_line",
    "Verif.C47_eval"
   ],
   "note": ""
  },
  {
   "property": "C48",
   "status": "proved",
   "theorems": [
    "Verif.C48_neg"
   ],
   "note": ""
  },
  {
   "property": "C49",
   "status": "proved",
   "theorems": [
    "Verif.C49_bilinear",
    "Verif.C49_add"
   ],
   "note": ""
  },
  {
   "property": "C50",
   "status": "proved",
   "theorems": [
    "Verif.C50_base",
    "Verif.C50_nondegenerate"
   ],
   "note": ""
  },
  {
   "property": "C51",
   "status": "proved",
   "theorems": [
    "Verif.C51_binary",
    "Verif.C51_binary_ub",
    "Verif.C51_naf",
    "Verif.C51_adjacent",
    "Verif.C51_small",
    "Verif.C51_goodRepl",
    "Verif.C51_siTbl"
   ],
   "note": "not always non-adjacent, see C51_adjacent"
  },
  {
   "property": "C52",
   "status": "proved",
   "theorems": [
    "Verif.C52_calls",
    "Verif.C52_self",
    "Verif.C52_scalar",
    "Verif.C52_negative_ub",
    "Verif.C52_set_refs",
    "Verif.C52_set_own_coordinate"
   ],
   "note": "negative exponents and scalars are undefined behaviour, see C52_negative_ub; set with the object's own coordinate, see C52_set_own_coordinate"
  },
  {
   "property": "C53",
   "status": "proved",
   "theorems": [
    "Verif.Cpp.C53_fp2_un",
    "Verif.Cpp.C53_fp2_bin",
    "Verif.Cpp.C53_fp2dbl_bin",
    "Verif.Cpp.C53_fp2dbl_neg",
    "Verif.Cpp.C53_fp2dbl_square_mod",
    "Verif.Cpp.C53_fp2dbl_mulOpt",
    "Verif.Cpp.C53_fp2_mul_xi",
    "Verif.Cpp.C53_fp2_mul_Fp_0",
    "Verif.Cpp.C53_fp2_squareC_stores",
    "Verif.Cpp.C53_fp6_bin",
    "Verif.Cpp.C53_fp6dbl_mul",
    "Verif.Cpp.C53_dblLineWithoutP",
    "Verif.Cpp.C53_dblLine",
    "Verif.Cpp.C53_fp12_mul",
    "Verif.Cpp.C53_fp12_square",
    "Verif.Cpp.C53_fp12_mul024",
    "Verif.Cpp.C53_compress_square_n",
    "Verif.Cpp.C53_mul_xiC_in_place_wrong",
    "Verif.Cpp.C53_mul_Fp_0C_in_place_wrong",
    "Verif.C53_agree",
    "Verif.C53_subC_wrong",
    "Verif.C53_mulC_diverges",
    "Verif.C53_fp2_squareC_wrong"
   ],
   "note": "negative parts: Fp_subC, Fp_mulC, Fp2T::squareC, and mul_xiC/mul_Fp_0C on top of their operand; called routines are taken at the values of the generated ones"
  },
  {
   "property": "C54",
   "status": "proved",
   "theorems": [
    "Verif.C54_orders",
    "Verif.C54_G1",
    "Verif.C54_twist_cofactor"
   ],
   "note": ""
  },
  {
   "property": "C55",
   "status": "proved",
   "theorems": [
    "Verif.C55_round",
    "Verif.C55_accept",
    "Verif.C55_reject"
   ],
   "note": ""
  },
  {
   "property": "C56",
   "status": "proved",
   "theorems": [
    "Verif.C56_round",
    "Verif.C56_hex_exits"
   ],
   "note": ""
  },
  {
   "property": "C57",
   "status": "proved",
   "theorems": [
    "Verif.Jit.C57_add",
    "Verif.Jit.C57_sub",
    "Verif.Jit.C57_neg",
    "Verif.Jit.C57_mul",
    "Verif.Jit.C57_addNC",
    "Verif.Jit.C57_subNC",
    "Verif.Jit.C57_shr",
    "Verif.Jit.C57_preInv",
    "Verif.Jit.C57_tables"
   ],
   "note": ""
  },
  {
   "property": "C58",
   "status": "proved",
   "theorems": [
    "Verif.Jit.C58_add",
    "Verif.Jit.C58_sub",
    "Verif.Jit.C58_addNC",
    "Verif.Jit.C58_subNC",
    "Verif.Jit.C58_neg",
    "Verif.Jit.C58_neg_zero",
    "Verif.Jit.C58_mul",
    "Verif.Jit.C58_mod"
   ],
   "note": "neg of 0 stores p*2^256, see C58_neg_zero"
  },
  {
   "property": "C59",
   "status": "proved",
   "theorems": [
    "Verif.Jit.C59_add",
    "Verif.Jit.C59_sub",
    "Verif.Jit.C59_addNC",
    "Verif.Jit.C59_mul",
    "Verif.Jit.C59_square",
    "Verif.Jit.C59_mul_xi",
    "Verif.Jit.C59_divBy2",
    "Verif.Jit.C59_mul_Fp_0"
   ],
   "note": ""
  },
  {
   "property": "C60",
   "status": "proved",
   "theorems": [
    "Verif.Jit.C60_add",
    "Verif.Jit.C60_sub",
    "Verif.Jit.C60_addNC",
    "Verif.Jit.C60_subNC",
    "Verif.Jit.C60_neg",
    "Verif.Jit.C60_mul",
    "Verif.Jit.C60_mulOpt2_wide",
    "Verif.Jit.C60_square",
    "Verif.Jit.C60_mod",
    "Verif.Jit.C60_mul_xi"
   ],
   "note": ""
  },
  {
   "property": "C61",
   "status": "proved",
   "theorems": [
    "Verif.Jit.C61_add6",
    "Verif.Jit.C61_sub6",
    "Verif.Jit.C61_dmul6",
    "Verif.Jit.C61_mul6",
    "Verif.Jit.C61_mul12",
    "Verif.Jit.C61_square12",
    "Verif.Jit.C61_mul024"
   ],
   "note": ""
  },
  {
   "property": "C62",
   "status": "proved",
   "theorems": [
    "Verif.Jit.C62_dblLine",
    "Verif.Jit.C62_dblLineEval"
   ],
   "note": ""
  },
  {
   "property": "C63",
   "status": "proved",
   "theorems": [
    "Verif.Jit.C63_square_n",
    "Verif.Jit.C63_power"
   ],
   "note": "for the 64-bit count the code reads; see DESIGN.md on int n"
  },
  {
   "property": "C64",
   "status": "proved",
   "theorems": [
    "Verif.Jit.C64_unique",
    "Verif.Jit.C64_again",
    "Verif.Jit.C64_mul_xi_alias",
    "Verif.Jit.C64_dbl_mul_xi_alias",
    "Verif.Jit.C64_mul_Fp_0_alias"
   ],
   "note": "the aliasing claims are negative: three wrong aliased calls with witnesses"
  },
  {
   "property": "C65",
   "status": "proved",
   "theorems": [
    "Verif.Snark.C65_params",
    "Verif.Snark.C65_add_sub",
    "Verif.Snark.C65_mul",
    "Verif.Snark.C65_div",
    "Verif.Snark.C65_inv",
    "Verif.Snark.C65_set_get",
    "Verif.Snark.C65_dbl"
   ],
   "note": ""
  },
  {
   "property": "C66",
   "status": "proved",
   "theorems": [
    "Verif.Snark.C66_mul_xi",
    "Verif.Snark.C66_unreduced"
   ],
   "note": "the unreduced operand is a negative fact with a witness"
  },
  {
   "property": "C67",
   "status": "proved",
   "theorems": [
    "Verif.Snark.C67_mul",
    "Verif.Snark.C67_linear",
    "Verif.Snark.C67_inverse",
    "Verif.Snark.C67_dbl"
   ],
   "note": ""
  },
  {
   "property": "C68",
   "status": "proved",
   "theorems": [
    "Verif.Snark.C68_mul",
    "Verif.Snark.C68_canonical",
    "Verif.Snark.C68_unreduced"
   ],
   "note": "that the result is always canonical is false, see C68_unreduced"
  },
  {
   "property": "C69",
   "status": "proved",
   "theorems": [
    "Verif.Snark.C69_mul_fits",
    "Verif.Snark.C69_mul_small",
    "Verif.Snark.C69_mul_wrong",
    "Verif.Snark.C69_square_fits",
    "Verif.Snark.C69_square_wrong"
   ],
   "note": "that mul and square are right for all canonical operands is false: C69_mul_wrong, C69_square_wrong; the positive theorems carry the bounds"
  },
  {
   "property": "C70",
   "status": "proved",
   "theorems": [
    "Verif.Snark.C70_fast_modp",
    "Verif.Snark.C70_2z_add_3x",
    "Verif.Snark.C70_wrong"
   ],
   "note": "fast_modp is wrong for part of its input range with the SNARK modulus; the characterisation is exact"
  },
  {
   "property": "C71",
   "status": "proved",
   "theorems": [
    "Verif.Snark.C71_sparse",
    "Verif.Snark.C71_sq_Fp4",
    "Verif.Snark.C71_dbl",
    "Verif.Snark.C71_add"
   ],
   "note": ""
  },
  {
   "property": "C72",
   "status": "proved",
   "theorems": [
    "Verif.Snark.C72_factor",
    "Verif.Snark.C72_dbl"
   ],
   "note": "wrong after init(SNARK2) followed by init(SNARK1)"
  },
  {
   "property": "C73",
   "status": "proved",
   "theorems": [
    "Verif.Cpp.C73_addLineWithoutP",
    "Verif.Cpp.C73_addLine",
    "Verif.Cpp.C73_sqFp4",
    "Verif.Cpp.C73_mul024_024",
    "Verif.Cpp.C73_mul_x",
    "Verif.Cpp.C73_mul_Fp_1",
    "Verif.Cpp.C73_inverse",
    "Verif.Cpp.C73_fp6_square",
    "Verif.Cpp.C73_sqru",
    "Verif.Cpp.C73_frobenius",
    "Verif.Cpp.C73_mapToCyclo",
    "Verif.Cpp.C73_mapToCyclo_self",
    "Verif.Cpp.C73_compress",
    "Verif.Cpp.C73_beforeInv",
    "Verif.Cpp.C73_afterInv",
    "Verif.Cpp.C73_decompress",
    "Verif.Cpp.C73_fixedPower",
    "Verif.Cpp.C73_fixedPower_self",
    "Verif.Cpp.C73_finalExp",
    "Verif.Cpp.C73_fp6_square_self_wrong",
    "Verif.Cpp.C73_mapToCyclo_self_wrong",
    "Verif.Cpp.C73_fixedPower_self_wrong"
   ],
   "note": ""
  },
  {
   "property": "C74",
   "status": "proved",
   "theorems": [
    "Verif.Cpp.C74_twist",
    "Verif.Cpp.C74_table",
    "Verif.Cpp.C74_pairing",
    "Verif.Cpp.C74_points"
   ],
   "note": ""
  },
  {
   "property": "C75",
   "status": "proved",
   "theorems": [
    "Verif.Snark.C75_constants",
    "Verif.Snark.C75_digits",
    "Verif.Snark.C75_frobenius",
    "Verif.Snark.C75_fp6",
    "Verif.Snark.C75_sqru",
    "Verif.Snark.C75_checked",
    "Verif.Snark.C75_inverse",
    "Verif.Snark.C75_map_to_cyclo",
    "Verif.Snark.C75_pow_neg_t",
    "Verif.Snark.C75_final_exp",
    "Verif.Snark.C75_wrong"
   ],
   "note": "mapToCyclo and final_exp are wrong for some canonical operands; the positive theorems are about runs whose products stay in range"
  },
  {
   "property": "C76",
   "status": "proved",
   "theorems": [
    "Verif.Snark.C76_pairing",
    "Verif.Snark.C76_bilinear",
    "Verif.Snark.C76_order",
    "Verif.Snark.C76_digits",
    "Verif.Snark.C76_wrong_init",
    "Verif.Snark.C76_checked",
    "Verif.Snark.C76_frobenius",
    "Verif.Snark.C76_square_checked"
   ],
   "note": "wrong after init(SNARK2) followed by init(SNARK1) (C76_wrong_init); the positive theorems are about runs whose products stay in range"
  },
  {
   "property": "C77",
   "status": "proved",
   "theorems": [
    "Verif.Snark.C77_isValid",
    "Verif.Snark.C77_represents",
    "Verif.Snark.C77_ops_G1",
    "Verif.Snark.C77_ops_G2",
    "Verif.Snark.C77_scalar_G1",
    "Verif.Snark.C77_scalar_G2",
    "Verif.Snark.C77_r",
    "Verif.Snark.C77_same",
    "Verif.Snark.C77_pairing",
    "Verif.Snark.C77_bilinear"
   ],
   "note": "pairing part: runs whose products stay in range, and init sequences that use the right coefficient (C76); negative int scalars act as 2^32 + m"
  },
  {
   "property": "C78",
   "status": "proved",
   "theorems": [
    "Verif.Snark.C78_same_loop",
    "Verif.Snark.C78_run",
    "Verif.Snark.C78_precomputed",
    "Verif.Snark.C78_infinity_wrong",
    "Verif.Snark.C78_infinity_P"
   ],
   "note": "values: runs whose products stay in range, and init sequences that use the right coefficient (C76); equality of the runs is unconditional; wrong at infinity (C78_infinity_wrong)"
  },
  {
   "property": "C79",
   "status": "proved",
   "theorems": [
    "Verif.Snark.C79_squareRoot",
    "Verif.Snark.C79_text",
    "Verif.Snark.C79_text_value",
    "Verif.Snark.C79_numeral",
    "Verif.Snark.C79_streams",
    "Verif.Snark.C79_points",
    "Verif.Snark.C79_unchecked",
    "Verif.Snark.C79_set"
   ],
   "note": "the reader of points does not check the equation (C79_unchecked)"
  },
  {
   "property": "C80",
   "status": "proved",
   "theorems": [
    "Verif.Jit.C80_mul_xi",
    "Verif.Jit.C80_in_place",
    "Verif.Jit.C80_any",
    "Verif.Jit.C80_nine_minus_u",
    "Verif.Jit.C80_dbl"
   ],
   "note": "in place Fp2::mul_xi is wrong except for b = 8a (C80_in_place)"
  },
  {
   "property": "C81",
   "status": "proved",
   "theorems": [
    "Verif.C81_default",
    "Verif.Snark.C81_snark"
   ],
   "note": "SNARK build: for sequences whose checked run ends (see C76)"
  },
  {
   "property": "C82",
   "status": "proved",
   "theorems": [
    "Verif.C82_product",
    "Verif.C82_equation",
    "Verif.C82_infinity_wrong",
    "Verif.Snark.C82_snark"
   ],
   "note": "a Q at infinity gives 0 (C82_infinity_wrong); SNARK build: for runs with products in range (see C76)"
  },
  {
   "property": "C83",
   "status": "proved",
   "theorems": [
    "Verif.Jit.C83_copy",
    "Verif.Jit.C83_transparent_iff",
    "Verif.Jit.C83_rbx_wrong"
   ],
   "note": "the code does not restore rbx (C83_rbx_wrong); exact condition in C83_transparent_iff"
  },
  {
   "property": "C84",
   "status": "proved",
   "theorems": [
    "Verif.C84_round_trip",
    "Verif.C84_toMpz",
    "Verif.C84_toMpz_value_iff",
    "Verif.C84_fromMpz",
    "Verif.C84_fromMpz_element",
    "Verif.C84_sign",
    "Verif.C84_one_wrong"
   ],
   "note": "toMpz gives the Montgomery form, not the value (C84_toMpz_value_iff, C84_one_wrong); fromMpz loses the sign and is undefined from 2^256 on"
  },
  {
   "property": "C85",
   "status": "proved",
   "theorems": [
    "Verif.C85_sequences",
    "Verif.C85_fixed_power_self",
    "Verif.C85_sqru_other"
   ],
   "note": "default build; fixed_power(z, z), excluded by an assertion, gives x^(2^62 + 2^56) (C85_fixed_power_self)"
  },
  {
   "property": "C86",
   "status": "proved",
   "theorems": [
    "Verif.Jit.C86_mulx",
    "Verif.Jit.C86_needed",
    "Verif.Jit.C86_ext",
    "Verif.Jit.C86_interleave",
    "Verif.Jit.C86_tables"
   ],
   "note": "the processor is described by the answers to the three questions the code asks it"
  }
 ]
}
{
 "claims": [
  {
   "property": "C01",
   "status": "proved",
   "theorems": [
    "Libff.C01_add_exact",
    "Libff.C01_sub_exact",
    "Libff.C01_neg_exact",
    "Libff.C01_residues"
   ],
   "note": "addition/subtraction/negation for every modulus of n limbs; in-place and value forms share the code"
  },
  {
   "property": "C02",
   "status": "proved",
   "theorems": [
    "Libff.C02_mul_exact",
    "Libff.C02_sq_exact",
    "Libff.C02_mul_reduce",
    "Libff.C02_topBit_needed"
   ],
   "note": "portable path; C02_topBit_needed shows the top-bit condition is necessary"
  },
  {
   "property": "C03",
   "status": "proved",
   "theorems": [
    "Libff.C03_inverse_exact",
    "Libff.C03_inverse_zero"
   ],
   "note": "over every mpn_gcdext meeting GMP's documented contract"
  },
  {
   "property": "C04",
   "status": "proved",
   "theorems": [
    "Libff.C04_ring_iso",
    "Libff.C04_ops_are_code",
    "Libff.C04_field_inverse_is_code",
    "Libff.C04_eq_iff"
   ],
   "note": ""
  },
  {
   "property": "C05",
   "status": "proved",
   "theorems": [
    "Libff.C05_of_bigint",
    "Libff.C05_as_bigint",
    "Libff.C05_roundtrip",
    "Libff.C05_roundtrip_int",
    "Libff.C05_of_long",
    "Libff.C05_of_long_min",
    "Libff.C05_of_long_below",
    "Libff.C05_as_ulong",
    "Libff.C05_set_ulong"
   ],
   "note": "LONG_MIN is undefined behaviour (C05_of_long_min); |x|>p for negative x trips the assertion"
  },
  {
   "property": "C06",
   "status": "proved",
   "theorems": [
    "Libff.C06_compare",
    "Libff.C06_test_bit",
    "Libff.C06_clear_bit",
    "Libff.C06_num_bits",
    "Libff.C06_max_bits",
    "Libff.C06_conversions"
   ],
   "note": ""
  },
  {
   "property": "C07",
   "status": "proved",
   "theorems": [
    "Libff.C07_of_decimal",
    "Libff.C07_of_digits",
    "Libff.C07_non_digit",
    "Libff.C07_empty",
    "Libff.C07_stream_roundtrip"
   ],
   "note": "too long or empty decimal text is undefined behaviour (buffer overrun before the assertion; mpn_set_str on zero digits)"
  },
  {
   "property": "C08",
   "status": "proved",
   "theorems": [
    "Libff.C08_power_bigint",
    "Libff.C08_power_ulong",
    "Libff.C08_power_ull",
    "Libff.C08_power_vector",
    "Libff.C08_fp_power"
   ],
   "note": ""
  },
  {
   "property": "C09",
   "status": "proved",
   "theorems": [
    "Libff.C09_sqrt_of_square"
   ],
   "note": ""
  },
  {
   "property": "C10",
   "status": "proved",
   "theorems": [
    "Libff.C10_diverges_on_nonsquare",
    "Libff.C10_debug_aborts_on_nonsquare",
    "Libff.C10_returned_root_correct"
   ],
   "note": ""
  },
  {
   "property": "C11",
   "status": "proved",
   "theorems": [
    "Libff.C11_order",
    "Libff.C11_never_wrong_order",
    "Libff.C11_rejects",
    "Libff.C11_large_n_undefined"
   ],
   "note": ""
  },
  {
   "property": "C12",
   "status": "proved",
   "theorems": [
    "Libff.C12_roundtrip",
    "Libff.C12_plain_text"
   ],
   "note": "all four build configurations"
  },
  {
   "property": "C13",
   "status": "partial",
   "theorems": [
    "Libff.C13_roundtrip",
    "Libff.C13_from_words_value",
    "Libff.C13_flag_partial",
    "Libff.C13_flag_default_build_wrong"
   ],
   "note": "round trip and value part proved for both builds; the documented validity flag is false of the default build (C13_flag_default_build_wrong: it is always true), proved for MONTGOMERY_OUTPUT builds"
  },
  {
   "property": "C14",
   "status": "proved",
   "theorems": [
    "Libff.C14_canonical",
    "Libff.C14_reachable",
    "Libff.C14_unbiased",
    "Libff.C14_sha512_canonical",
    "Libff.C14_is_little_endian"
   ],
   "note": "randomness source taken as an arbitrary tape"
  },
  {
   "property": "C15",
   "status": "proved",
   "theorems": [
    "Libff.C15_fp2_arithmetic",
    "Libff.C15_fp2_inverse",
    "Libff.C15_fp2_over_fp",
    "Libff.C15_nonresidue_needed"
   ],
   "note": ""
  },
  {
   "property": "C16",
   "status": "proved",
   "theorems": [
    "Libff.C16_fp3_arithmetic",
    "Libff.C16_fp3_inverse",
    "Libff.C16_fp3_over_fp"
   ],
   "note": ""
  },
  {
   "property": "C17",
   "status": "proved",
   "theorems": [
    "Libff.C17_fp4_arithmetic",
    "Libff.C17_fp4_inverse",
    "Libff.C17_fp4_mul_by_non_residue"
   ],
   "note": ""
  },
  {
   "property": "C18",
   "status": "proved",
   "theorems": [
    "Libff.C18_fp6_2over3_arithmetic",
    "Libff.C18_fp6_2over3_inverse",
    "Libff.C18_fp6_2over3_mul_by_non_residue"
   ],
   "note": ""
  },
  {
   "property": "C19",
   "status": "proved",
   "theorems": [
    "Libff.C19_fp6_3over2_arithmetic",
    "Libff.C19_fp6_3over2_inverse"
   ],
   "note": ""
  },
  {
   "property": "C20",
   "status": "proved",
   "theorems": [
    "Libff.C20_fp12_arithmetic",
    "Libff.C20_fp12_inverse",
    "Libff.C20_fp12_mul_by_non_residue"
   ],
   "note": ""
  },
  {
   "property": "C21",
   "status": "proved",
   "theorems": [
    "Libff.C21_fp4_mul_by_023",
    "Libff.C21_fp6_mul_by_2345",
    "Libff.C21_fp12_mul_by_024",
    "Libff.C21_fp12_mul_by_045"
   ],
   "note": ""
  },
  {
   "property": "C22",
   "status": "proved",
   "theorems": [
    "Libff.C22_fp4_unitary_inverse",
    "Libff.C22_fp4_cyclotomic_squared",
    "Libff.C22_fp4_cyclotomic_exp",
    "Libff.C22_fp4_subgroup",
    "Libff.C22_fp6_2over3_unitary_inverse",
    "Libff.C22_fp6_2over3_cyclotomic_squared",
    "Libff.C22_fp6_2over3_cyclotomic_exp",
    "Libff.C22_fp6_2over3_subgroup",
    "Libff.C22_fp12_unitary_inverse",
    "Libff.C22_fp12_cyclotomic_squared",
    "Libff.C22_fp12_cyclotomic_exp",
    "Libff.C22_fp12_subgroup",
    "Libff.C22_fails_outside"
   ],
   "note": ""
  },
  {
   "property": "C23",
   "status": "proved",
   "theorems": [
    "Libff.C23_alt_bn128_Fq2",
    "Libff.C23_alt_bn128_Fq6",
    "Libff.C23_alt_bn128_Fq12",
    "Libff.C23_bls12_381_Fq2",
    "Libff.C23_bls12_381_Fq6",
    "Libff.C23_bls12_381_Fq12",
    "Libff.C23_edwards_Fq3",
    "Libff.C23_edwards_Fq6",
    "Libff.C23_mnt4_Fq2",
    "Libff.C23_mnt4_Fq4",
    "Libff.C23_mnt6_Fq3",
    "Libff.C23_mnt6_Fq6",
    "Libff.C23_fp2_frobenius",
    "Libff.C23_fp3_frobenius",
    "Libff.C23_fp4_frobenius",
    "Libff.C23_fp6_2over3_frobenius",
    "Libff.C23_fp6_3over2_frobenius",
    "Libff.C23_fp12_frobenius"
   ],
   "note": "generic in the tables, and instantiated with the stored tables of all five curves"
  },
  {
   "property": "C24",
   "status": "proved",
   "theorems": [
    "Libff.C24_fp",
    "Libff.C24_fp2",
    "Libff.C24_fp3",
    "Libff.C24_fp4",
    "Libff.C24_fp6_2over3",
    "Libff.C24_fp6_3over2",
    "Libff.C24_fp12",
    "Libff.C24_words_quad",
    "Libff.C24_words_cubic",
    "Libff.C24_from_words_quad",
    "Libff.C24_vector"
   ],
   "note": ""
  },
  {
   "property": "C25",
   "status": "proved",
   "theorems": [
    "Libff.C25_scalar_mul",
    "Libff.C25_leading_zeros"
   ],
   "note": ""
  },
  {
   "property": "C26",
   "status": "proved",
   "theorems": [
    "Libff.C26_find_wnaf",
    "Libff.C26_carry_lost",
    "Libff.C26_carry_lost_all",
    "Libff.C26_exact"
   ],
   "note": ""
  },
  {
   "property": "C27",
   "status": "proved",
   "theorems": [
    "Libff.C27_fixed_window",
    "Libff.C27_opt_window",
    "Libff.C27_top_scalar_wrong",
    "Libff.C27_exact"
   ],
   "note": ""
  },
  {
   "property": "C28",
   "status": "proved",
   "theorems": [
    "Libff.C28_naive",
    "Libff.C28_naive_plain",
    "Libff.C28_bdlo12",
    "Libff.C28_bdlo12_mixed",
    "Libff.C28_bos_coster",
    "Libff.C28_empty",
    "Libff.C28_headroom",
    "Libff.C28_sum_faithful"
   ],
   "note": ""
  },
  {
   "property": "C29",
   "status": "proved",
   "theorems": [
    "Libff.C29_chunks",
    "Libff.C29_schedule_independent",
    "Libff.C29_zero_chunks",
    "Libff.C29_inner_product"
   ],
   "note": ""
  },
  {
   "property": "C30",
   "status": "proved",
   "theorems": [
    "Libff.C30_mixed"
   ],
   "note": ""
  },
  {
   "property": "C31",
   "status": "proved",
   "theorems": [
    "Libff.C31_table",
    "Libff.C31_windowed_exp",
    "Libff.C31_window_size",
    "Libff.C31_out_of_range_wrong",
    "Libff.C31_size_zero_undefined",
    "Libff.C31_exact",
    "Libff.C31_correct_iff"
   ],
   "note": ""
  },
  {
   "property": "C32",
   "status": "proved",
   "theorems": [
    "Libff.C32_batch_exp",
    "Libff.C32_batch_exp_with_coeff"
   ],
   "note": ""
  },
  {
   "property": "C33",
   "status": "proved",
   "theorems": [
    "Libff.C33_jacobian",
    "Libff.C33_projective",
    "Libff.C33_edwards",
    "Libff.C33_batch_to_special"
   ],
   "note": "generic routine and the three point classes"
  },
  {
   "property": "C34",
   "status": "proved",
   "theorems": [
    "Libff.C34_batch_invert",
    "Libff.C34_zero_refused"
   ],
   "note": ""
  },
  {
   "property": "C35",
   "status": "proved",
   "theorems": [
    "Libff.C35_zero",
    "Libff.C35_add",
    "Libff.C35_dbl",
    "Libff.C35_sub",
    "Libff.C35_mixed_add",
    "Libff.C35_eq",
    "Libff.C35_to_affine",
    "Libff.C35_implements",
    "Libff.C35_scalar_mul"
   ],
   "note": ""
  },
  {
   "property": "C36",
   "status": "proved",
   "theorems": [
    "Libff.C36_zero",
    "Libff.C36_add",
    "Libff.C36_dbl",
    "Libff.C36_sub",
    "Libff.C36_mixed_add",
    "Libff.C36_eq",
    "Libff.C36_to_affine",
    "Libff.C36_implements",
    "Libff.C36_scalar_mul",
    "Libff.C36_mul_by_a"
   ],
   "note": ""
  },
  {
   "property": "C37",
   "status": "proved",
   "theorems": [
    "Libff.C37_affine_law",
    "Libff.C37_zero",
    "Libff.C37_of_affine",
    "Libff.C37_add",
    "Libff.C37_dbl",
    "Libff.C37_dbl1",
    "Libff.C37_sub",
    "Libff.C37_mixed_add",
    "Libff.C37_eq",
    "Libff.C37_to_affine",
    "Libff.C37_to_special",
    "Libff.C37_implements",
    "Libff.C37_implements1",
    "Libff.C37_scalar_mul",
    "Libff.C37_scalar_mul1",
    "Libff.C37_subgroup",
    "Libff.C37_mul_by",
    "Libff.C37_order_two_wrong"
   ],
   "note": "on subgroups without two-torsion (e.g. the points of odd prime order); C37_order_two_wrong shows why the restriction is needed"
  },
  {
   "property": "C38",
   "status": "partial",
   "theorems": [
    "Libff.C38_jacobian",
    "Libff.C38_jacobian_equation",
    "Libff.C38_projective",
    "Libff.C38_projective_equation",
    "Libff.C38_jacobian_closed",
    "Libff.C38_projective_closed",
    "Libff.C38_edwards_partial",
    "Libff.C38_edwards_complete",
    "Libff.C38_edwards_wrong",
    "Libff.C38_edwards_closed",
    "Libff.C38_alt_bn128_generators",
    "Libff.C38_bls12_381_generators",
    "Libff.C38_edwards_generators",
    "Libff.C38_mnt4_generators",
    "Libff.C38_mnt6_generators"
   ],
   "note": "Weierstrass classes: membership test is exact. Edwards: exactness is false of the code (C38_edwards_wrong proves the counterexample); proved outside that case. Generators of all ten groups evaluated."
  },
  {
   "property": "C39",
   "status": "proved",
   "theorems": [
    "Libff.C39_jacobian_g1",
    "Libff.C39_projective_g1",
    "Libff.C39_edwards_g1",
    "Libff.C39_jacobian_g1_vector",
    "Libff.C39_projective_g1_vector",
    "Libff.C39_edwards_g1_vector",
    "Libff.C39_jacobian_g2",
    "Libff.C39_projective_g2",
    "Libff.C39_projective_g2_fp3",
    "Libff.C39_edwards_g2",
    "Libff.C39_jacobian_g2_vector",
    "Libff.C39_projective_g2_vector",
    "Libff.C39_projective_g2_fp3_vector",
    "Libff.C39_edwards_g2_vector",
    "Libff.C39_jacobian_g2_wrong",
    "Libff.C39_projective_g2_wrong",
    "Libff.C39_projective_g2_fp3_wrong",
    "Libff.C39_alt_bn128_G1",
    "Libff.C39_alt_bn128_G2",
    "Libff.C39_bls12_381_G1",
    "Libff.C39_bls12_381_G2",
    "Libff.C39_mnt4_G1",
    "Libff.C39_mnt4_G2",
    "Libff.C39_mnt6_G1",
    "Libff.C39_mnt6_G2",
    "Libff.C39_edwards_G1",
    "Libff.C39_edwards_G2"
   ],
   "note": "C39_*_wrong: the compressed G2 format does not distinguish P and -P when Y.c0 = 0"
  },
  {
   "property": "C40",
   "status": "proved",
   "theorems": [
    "Libff.C40_gf32",
    "Libff.C40_gf32_xor",
    "Libff.C40_gf32_squared",
    "Libff.C40_gf32_eq",
    "Libff.C40_gf32_ring",
    "Libff.C40_gf64",
    "Libff.C40_gf64_xor",
    "Libff.C40_gf64_squared",
    "Libff.C40_gf64_eq",
    "Libff.C40_gf64_ring",
    "Libff.C40_gf128",
    "Libff.C40_gf128_xor",
    "Libff.C40_gf128_squared",
    "Libff.C40_gf128_eq",
    "Libff.C40_gf128_ring",
    "Libff.C40_gf192",
    "Libff.C40_gf192_xor",
    "Libff.C40_gf192_squared",
    "Libff.C40_gf192_eq",
    "Libff.C40_gf192_ring",
    "Libff.C40_gf256",
    "Libff.C40_gf256_xor",
    "Libff.C40_gf256_squared",
    "Libff.C40_gf256_eq",
    "Libff.C40_gf256_ring"
   ],
   "note": ""
  },
  {
   "property": "C41",
   "status": "proved",
   "theorems": [
    "Libff.C41_gf64",
    "Libff.C41_gf128",
    "Libff.C41_gf192",
    "Libff.C41_gf256",
    "Libff.C41_gf256_karatsuba"
   ],
   "note": "over the documented meaning of the SSE intrinsics"
  },
  {
   "property": "C42",
   "status": "proved",
   "theorems": [
    "Libff.C42_gf32_inverse",
    "Libff.C42_gf32_inverse_zero",
    "Libff.C42_gf32_pow",
    "Libff.C42_gf32_sqrt",
    "Libff.C42_gf64_inverse",
    "Libff.C42_gf64_inverse_zero",
    "Libff.C42_gf64_pow",
    "Libff.C42_gf64_sqrt",
    "Libff.C42_gf128_inverse",
    "Libff.C42_gf128_inverse_zero",
    "Libff.C42_gf128_pow",
    "Libff.C42_gf128_sqrt",
    "Libff.C42_gf192_inverse",
    "Libff.C42_gf192_inverse_zero",
    "Libff.C42_gf192_pow",
    "Libff.C42_gf192_sqrt",
    "Libff.C42_gf256_inverse",
    "Libff.C42_gf256_inverse_zero",
    "Libff.C42_gf256_pow",
    "Libff.C42_gf256_sqrt",
    "Libff.C42_square_multi"
   ],
   "note": "the inverse of zero aborts in debug builds and is zero in release builds"
  },
  {
   "property": "C43",
   "status": "partial",
   "theorems": [
    "Libff.C43_gf32_irreducible",
    "Libff.C43_gf32_field",
    "Libff.C43_gf32_generator",
    "Libff.C43_gf64_irreducible",
    "Libff.C43_gf64_field",
    "Libff.C43_gf64_generator",
    "Libff.C43_gf128_irreducible",
    "Libff.C43_gf128_field",
    "Libff.C43_gf128_generator",
    "Libff.C43_gf192_irreducible",
    "Libff.C43_gf192_field",
    "Libff.C43_gf192_generator_wrong",
    "Libff.C43_gf192_generator_partial",
    "Libff.C43_gf192_other_generator_partial",
    "Libff.C43_gf256_irreducible",
    "Libff.C43_gf256_field",
    "Libff.C43_gf256_generator"
   ],
   "note": "irreducibility and field size for all five fields, generator for gf32, gf64, gf128, gf256. False of gf192: multiplicative_generator has order (2^192-1)/2169 (C43_gf192_generator_wrong gives an element that is no power of it)."
  },
  {
   "property": "C44",
   "status": "proved",
   "theorems": [
    "Libff.C44_exp2",
    "Libff.C44_exp2_log2",
    "Libff.C44_log2",
    "Libff.C44_is_power_of_2",
    "Libff.C44_next_power",
    "Libff.C44_next_power_edge",
    "Libff.C44_bitreverse",
    "Libff.C44_bitreverse_involutive",
    "Libff.C44_div_ceil"
   ],
   "note": ""
  },
  {
   "property": "C45",
   "status": "proved",
   "theorems": [
    "Libff.C45_twos_complement",
    "Libff.C45_out_of_range",
    "Libff.C45_undefined_widths"
   ],
   "note": ""
  },
  {
   "property": "C46",
   "status": "proved",
   "theorems": [
    "Libff.C46_codec",
    "Libff.C46_field_to_bits",
    "Libff.C46_field_to_bits_count",
    "Libff.C46_bits_to_field",
    "Libff.C46_field_roundtrip",
    "Libff.C46_bits_roundtrip",
    "Libff.C46_floor_bits",
    "Libff.C46_bits_not_reduced",
    "Libff.C46_pack",
    "Libff.C46_pack_unpack",
    "Libff.C46_pack_roundtrip",
    "Libff.C46_pack_rejects",
    "Libff.C46_pack_int",
    "Libff.C46_int_list"
   ],
   "note": ""
  },
  {
   "property": "C47",
   "status": "proved",
   "theorems": [
    "Libff.C47_bool",
    "Libff.C47_bool_vector",
    "Libff.C47_bit_vector",
    "Libff.C47_vector",
    "Libff.C47_map",
    "Libff.C47_set",
    "Libff.C47_map_sorted",
    "Libff.C47_size"
   ],
   "note": ""
  },
  {
   "property": "C48",
   "status": "proved",
   "theorems": [
    "Libff.C48_bls",
    "Libff.C48_bn",
    "Libff.C48_mnt",
    "Libff.C48_edw",
    "Libff.C48_alt_bn128",
    "Libff.C48_bls12_381",
    "Libff.C48_mnt4",
    "Libff.C48_mnt6",
    "Libff.C48_edwards"
   ],
   "note": ""
  },
  {
   "property": "C49",
   "status": "proved",
   "theorems": [
    "Libff.C49_root_of_unity",
    "Libff.C49_mul",
    "Libff.C49_nontrivial",
    "Libff.C49_alt_bn128",
    "Libff.C49_bls12_381",
    "Libff.C49_mnt4",
    "Libff.C49_mnt6",
    "Libff.C49_edwards"
   ],
   "note": ""
  },
  {
   "property": "C50",
   "status": "proved",
   "theorems": [
    "Libff.C50_12_double",
    "Libff.C50_12_add",
    "Libff.C50_mnt_double",
    "Libff.C50_mnt_add",
    "Libff.C50_alt_bn128_double",
    "Libff.C50_alt_bn128_add",
    "Libff.C50_bls12_381_double",
    "Libff.C50_bls12_381_add",
    "Libff.C50_mnt4_double",
    "Libff.C50_mnt4_add",
    "Libff.C50_mnt6_double",
    "Libff.C50_mnt6_add",
    "Libff.C50_edw_double",
    "Libff.C50_edw_add",
    "Libff.C50_edw_tate_double",
    "Libff.C50_edw_tate_add",
    "Libff.C50_edwards_double",
    "Libff.C50_edwards_add",
    "Libff.C50_edwards_tate_double",
    "Libff.C50_edwards_tate_add"
   ],
   "note": "alt_bn128, bls12_381, mnt4, mnt6, edwards. The steps of edwards emit conics; they are related to the group law by IsConic (the conic's values are those of the line times factors that depend on the point alone)."
  },
  {
   "property": "C51",
   "status": "partial",
   "theorems": [
    "Libff.C51_alt_bn128",
    "Libff.C51_bls12_381",
    "Libff.C51_mnt4",
    "Libff.C51_mnt6",
    "Libff.C51_edwards",
    "Libff.C51_edwards_nondegenerate",
    "Libff.C51_edwards_zero_left",
    "Libff.C51_edwards_zero_aborts",
    "Libff.C51_mnt6_zero_right",
    "Libff.C51_mnt6_zero_right_aborts",
    "Libff.C51_mnt6_zero_both",
    "Libff.C51_mnt4_zero_both",
    "Libff.C51_alt_bn128_nondegenerate",
    "Libff.C51_alt_bn128_zero_aborts",
    "Libff.C51_bls12_381_nondegenerate",
    "Libff.C51_bls12_381_zero_aborts",
    "Libff.C51_mnt4_nondegenerate",
    "Libff.C51_mnt4_zero_left",
    "Libff.C51_mnt4_zero_right",
    "Libff.C51_mnt6_nondegenerate",
    "Libff.C51_mnt6_zero_left",
    "Libff.C51_edwards_zero_aborts_all"
   ],
   "note": "Bilinearity (total on admissible arguments, values are r-th roots of unity, independent of coordinates, additive in both arguments, scalars) and non-degeneracy for alt_bn128, bls12_381, mnt4, mnt6 and edwards (ate pairing). Partial because the statement is false of the code for zero arguments: theorems C51_*_zero_* exhibit the violations (alt_bn128, bls12_381, edwards abort on G2::zero(); mnt4, mnt6 return values other than 1 at G1::zero(), mnt4 also at G2::zero(); mnt6 at G2::zero() returns 1 except for points with first coordinate 0, where it aborts: C51_mnt6_zero_right, for every point of the curve)."
  },
  {
   "property": "C52",
   "status": "proved",
   "theorems": [
    "Libff.C52_alt_bn128_Fq2",
    "Libff.C52_alt_bn128_Fq6",
    "Libff.C52_alt_bn128_Fq12",
    "Libff.C52_alt_bn128_non_residues",
    "Libff.C52_alt_bn128_square_roots",
    "Libff.C52_bls12_381_Fq2",
    "Libff.C52_bls12_381_Fq6",
    "Libff.C52_bls12_381_Fq12",
    "Libff.C52_bls12_381_non_residues",
    "Libff.C52_bls12_381_square_roots",
    "Libff.C52_edwards_Fq3",
    "Libff.C52_edwards_Fq6",
    "Libff.C52_edwards_non_residues",
    "Libff.C52_edwards_square_roots",
    "Libff.C52_mnt4_Fq2",
    "Libff.C52_mnt4_Fq4",
    "Libff.C52_mnt4_non_residues",
    "Libff.C52_mnt4_square_roots",
    "Libff.C52_mnt6_Fq3",
    "Libff.C52_mnt6_Fq6",
    "Libff.C52_mnt6_non_residues",
    "Libff.C52_mnt6_square_roots",
    "Libff.C52_alt_bn128_prime_fields",
    "Libff.C52_bls12_381_prime_fields",
    "Libff.C52_bn128_prime_fields",
    "Libff.C52_mnt4_prime_fields",
    "Libff.C52_mnt6_prime_fields",
    "Libff.C52_edwards_prime_fields",
    "Libff.C52_bit_size",
    "Libff.C52_prime_sqrt",
    "Libff.C52_ext_sqrt",
    "Libff.C52_root_of_unity",
    "Libff.C52_generator",
    "Libff.C52_alt_bn128_G1_generator",
    "Libff.C52_alt_bn128_G2_generator",
    "Libff.C52_bls12_381_G1_generator",
    "Libff.C52_bls12_381_G2_generator",
    "Libff.C52_edwards_G1_generator",
    "Libff.C52_edwards_G2_generator",
    "Libff.C52_mnt4_G1_generator",
    "Libff.C52_mnt4_G2_generator",
    "Libff.C52_mnt6_G1_generator",
    "Libff.C52_mnt6_G2_generator"
   ],
   "note": "Field, Montgomery, non-residue, Frobenius and generator constants of the five curves in the repository's own code. The generator has order exactly r; that h*r is the number of points is not stated (it needs point counting)."
  },
  {
   "property": "C53",
   "status": "proved",
   "theorems": [
    "Libff.C53_add",
    "Libff.C53_sub",
    "Libff.C53_mul",
    "Libff.C53_sq",
    "Libff.C53_residues",
    "Libff.C53_topBit_needed"
   ],
   "note": ""
  },
  {
   "property": "C54",
   "status": "proved",
   "theorems": [
    "Libff.C54_alt_bn128",
    "Libff.C54_bls12_381",
    "Libff.C54_mnt4",
    "Libff.C54_mnt6",
    "Libff.C54_edwards"
   ],
   "note": ""
  },
  {
   "property": "C55",
   "status": "proved",
   "theorems": [
    "Libff.C55_bn128_G1",
    "Libff.C55_bn128_G2",
    "Libff.C55_generic",
    "Libff.C55_alt_bn128_G1",
    "Libff.C55_alt_bn128_G2",
    "Libff.C55_bls12_381_G1",
    "Libff.C55_bls12_381_G2",
    "Libff.C55_mnt4_G1",
    "Libff.C55_mnt4_G2",
    "Libff.C55_mnt6_G1",
    "Libff.C55_mnt6_G2",
    "Libff.C55_edwards_G1",
    "Libff.C55_edwards_G2"
   ],
   "note": ""
  },
  {
   "property": "C56",
   "status": "proved",
   "theorems": [
    "Libff.C56_gf32_words",
    "Libff.C56_gf32_from_words",
    "Libff.C56_gf32_stream",
    "Libff.C56_gf64_words",
    "Libff.C56_gf64_from_words",
    "Libff.C56_gf64_stream",
    "Libff.C56_gf128_words",
    "Libff.C56_gf128_from_words",
    "Libff.C56_gf128_stream",
    "Libff.C56_gf192_words",
    "Libff.C56_gf192_from_words",
    "Libff.C56_gf192_stream",
    "Libff.C56_gf256_words",
    "Libff.C56_gf256_from_words",
    "Libff.C56_gf256_stream"
   ],
   "note": ""
  },
  {
   "property": "C57",
   "status": "proved",
   "theorems": [
    "Libff.C57_bn128_G1",
    "Libff.C57_bn128_G2",
    "Libff.C57_jacobian",
    "Libff.C57_projective",
    "Libff.C57_edwards_twisted",
    "Libff.C57_edwards_untwisted",
    "Libff.C57_alt_bn128_G1",
    "Libff.C57_alt_bn128_G2",
    "Libff.C57_bls12_381_G1",
    "Libff.C57_bls12_381_G2",
    "Libff.C57_mnt4_G1",
    "Libff.C57_mnt4_G2",
    "Libff.C57_mnt6_G1",
    "Libff.C57_mnt6_G2",
    "Libff.C57_edwards_G1",
    "Libff.C57_edwards_G2"
   ],
   "note": ""
  },
  {
   "property": "C58",
   "status": "proved",
   "theorems": [
    "Libff.C58_ate_G1",
    "Libff.C58_ell_coeffs",
    "Libff.C58_ate_G2",
    "Libff.C58_mnt_G1",
    "Libff.C58_mnt_dbl_coeffs",
    "Libff.C58_mnt_add_coeffs",
    "Libff.C58_mnt_G2",
    "Libff.C58_conic",
    "Libff.C58_conics",
    "Libff.C58_edwards_tate_G2",
    "Libff.C58_edwards_ate_G1",
    "Libff.C58_curves12",
    "Libff.C58_mnt4",
    "Libff.C58_mnt6",
    "Libff.C58_edwards"
   ],
   "note": ""
  },
  {
   "property": "C59",
   "status": "proved",
   "theorems": [
    "Libff.C59_mnt4",
    "Libff.C59_mnt4_bilinear",
    "Libff.C59_mnt4_nondegenerate",
    "Libff.C59_mnt6",
    "Libff.C59_mnt6_bilinear",
    "Libff.C59_mnt6_nondegenerate",
    "Libff.C59_mnt6_differ",
    "Libff.C59_mnt6_zero_right",
    "Libff.C59_mnt6_zero_left",
    "Libff.C59_mnt4_zero_left",
    "Libff.C59_mnt4_zero_right"
   ],
   "note": ""
  },
  {
   "property": "C60",
   "status": "proved",
   "theorems": [
    "Libff.C60_edwards_tate",
    "Libff.C60_edwards_tate_nondegenerate",
    "Libff.C60_edwards_tate_zero_left",
    "Libff.C60_edwards_tate_zero_right"
   ],
   "note": "zero arguments abort (C60_edwards_tate_zero_left/right)"
  },
  {
   "property": "C61",
   "status": "proved",
   "theorems": [
    "Libff.C61_group",
    "Libff.C61_predicates",
    "Libff.C61_well_formed",
    "Libff.C61_mixed_add",
    "Libff.C61_batch_to_special",
    "Libff.C61_scalar_mul",
    "Libff.C61_sqrt",
    "Libff.C61_sqrt_nonsquare",
    "Libff.C61_sqrt_zero_never_returns",
    "Libff.C61_g1_stream",
    "Libff.C61_g1_vector_stream",
    "Libff.C61_g2_stream",
    "Libff.C61_g2_vector_stream",
    "Libff.C61_g2_compressed_wrong",
    "Libff.C61_g1_precomp_not_restored",
    "Libff.C61_g2_precomp_partly_restored",
    "Libff.C61_gt_stream",
    "Libff.C61_gt_unitary_inverse",
    "Libff.C61_same_fields",
    "Libff.C61_coefficients",
    "Libff.C61_g1_generator",
    "Libff.C61_g2_generator",
    "Libff.C61_sqrt_constants_g1",
    "Libff.C61_sqrt_constants_g2",
    "Libff.C61_bn128_G1_stream",
    "Libff.C61_bn128_G2_stream",
    "Libff.C61_bn128_G1_multi_exp",
    "Libff.C61_bn128_G2_multi_exp",
    "Libff.C61_mul_by_cofactor"
   ],
   "note": "the external library is a parameter; its contract is a hypothesis (EcOps.Correct, StreamLaw, LsbLaw). Reading precomputed arguments is wrong (C61_g1_precomp_not_restored, C61_g2_precomp_partly_restored), sqrt(0) does not return, compressed G2 points with Y.a_ = 0 are ambiguous"
  },
  {
   "property": "C62",
   "status": "proved",
   "theorems": [
    "Libff.C62_alt_bn128_G1_order",
    "Libff.C62_alt_bn128_G1_cofactor",
    "Libff.C62_alt_bn128_G2_order",
    "Libff.C62_alt_bn128_G2_cofactor",
    "Libff.C62_alt_bn128_G2_outside",
    "Libff.C62_bls12_381_G1_order",
    "Libff.C62_bls12_381_G1_cofactor",
    "Libff.C62_bls12_381_G1_outside",
    "Libff.C62_bls12_381_G2_order",
    "Libff.C62_bls12_381_G2_cofactor",
    "Libff.C62_bls12_381_G2_outside",
    "Libff.C62_mnt4_G1_order",
    "Libff.C62_mnt4_G1_cofactor",
    "Libff.C62_mnt4_G2_order",
    "Libff.C62_mnt4_G2_cofactor",
    "Libff.C62_mnt4_G2_outside",
    "Libff.C62_mnt6_G1_order",
    "Libff.C62_mnt6_G1_cofactor",
    "Libff.C62_mnt6_G2_order",
    "Libff.C62_mnt6_G2_cofactor",
    "Libff.C62_mnt6_G2_outside",
    "Libff.C62_alt_bn128_arguments",
    "Libff.C62_alt_bn128_nondegenerate",
    "Libff.C62_bls12_381_arguments",
    "Libff.C62_mnt4_arguments",
    "Libff.C62_mnt4_nondegenerate",
    "Libff.C62_mnt6_arguments",
    "Libff.C62_mnt6_nondegenerate",
    "Libff.C62_bn128_G1_stream",
    "Libff.C62_bn128_cofactor"
   ],
   "note": ""
  },
  {
   "property": "C63",
   "status": "proved",
   "theorems": [
    "Libff.C63_fp_read",
    "Libff.C63_fp_read_valid",
    "Libff.C63_fp_two_encodings",
    "Libff.C63_fp_mont_unchecked",
    "Libff.C63_jacobian_compressed",
    "Libff.C63_projective_compressed",
    "Libff.C63_edwards_compressed",
    "Libff.C63_off_curve_no_element",
    "Libff.C63_uncompressed_unchecked",
    "Libff.C63_uncompressed_wrong",
    "Libff.C63_alt_bn128_G1",
    "Libff.C63_alt_bn128_G2",
    "Libff.C63_bls12_381_G1",
    "Libff.C63_bls12_381_G2",
    "Libff.C63_mnt4_G1",
    "Libff.C63_mnt4_G2",
    "Libff.C63_mnt6_G1",
    "Libff.C63_mnt6_G2",
    "Libff.C63_edwards_G1",
    "Libff.C63_edwards_G2",
    "Libff.C63_vector",
    "Libff.C63_ext_vector",
    "Libff.C63_fp_vector",
    "Libff.C63_jacobian_vector",
    "Libff.C63_projective_vector",
    "Libff.C63_edwards_vector",
    "Libff.C63_bn128_compressed",
    "Libff.C63_bn128_sqrt",
    "Libff.C63_bn128_G1",
    "Libff.C63_bn128_G2",
    "Libff.C63_bn128_vectors"
   ],
   "note": ""
  },
  {
   "property": "C64",
   "status": "partial",
   "theorems": [
    "Libff.C64_balanced",
    "Libff.C64_times",
    "Libff.C64_ops",
    "Libff.C64_inhibited",
    "Libff.C64_assertion_exact",
    "Libff.C64_printable",
    "Libff.C64_library_partial",
    "Libff.C64_edwards_tate_reduced_aborts",
    "Libff.C64_edwards_tate_reduced_misfiled",
    "Libff.C64_recursion_wrong",
    "Libff.C64_toggle_counters_undefined",
    "Libff.C64_toggle_info_indentation",
    "Libff.C64_ops_info_inhibited_wrong",
    "Libff.C64_clear_ops_wrong"
   ],
   "note": "histories, totals and the assertion are settled in full; the claim about library functions is proved for all but edwards_tate_reduced_pairing, for which it is false (C64_edwards_tate_reduced_aborts)"
  },
  {
   "property": "C65",
   "status": "proved",
   "theorems": [
    "Libff.C65_fp",
    "Libff.C65_fp2",
    "Libff.C65_fp3",
    "Libff.C65_fp4",
    "Libff.C65_fp6_2over3",
    "Libff.C65_fp6_3over2",
    "Libff.C65_fp12",
    "Libff.C65_fields_defined",
    "Libff.C65_text_cut_undefined",
    "Libff.C65_points_defined",
    "Libff.C65_edwards_points_defined",
    "Libff.C65_bool",
    "Libff.C65_map_set",
    "Libff.C65_jacobian_g1",
    "Libff.C65_projective_g1",
    "Libff.C65_edwards_g1",
    "Libff.C65_jacobian_g1_vector",
    "Libff.C65_projective_g1_vector",
    "Libff.C65_edwards_g1_vector",
    "Libff.C65_jacobian_g2",
    "Libff.C65_projective_g2",
    "Libff.C65_projective_g2_fp3",
    "Libff.C65_edwards_g2",
    "Libff.C65_jacobian_g2_vector",
    "Libff.C65_projective_g2_vector",
    "Libff.C65_projective_g2_fp3_vector",
    "Libff.C65_edwards_g2_vector",
    "Libff.C65_precomp12",
    "Libff.C65_precomp_mnt4",
    "Libff.C65_precomp_mnt6",
    "Libff.C65_precomp_edwards",
    "Libff.C65_bit_vector",
    "Libff.C65_fp_text_wrong",
    "Libff.C65_ext_vector_text_wrong"
   ],
   "note": ""
  },
  {
   "property": "C66",
   "status": "proved",
   "theorems": [
    "Libff.C66_parallel_for",
    "Libff.C66_multi_exp_race_free",
    "Libff.C66_multi_exp",
    "Libff.C66_multi_exp_with_mixed_addition",
    "Libff.C66_batch_exp",
    "Libff.C66_batch_exp_with_coeff",
    "Libff.C66_multi_exp_sum",
    "Libff.C66_alt_bn128_G1",
    "Libff.C66_counters_race",
    "Libff.C66_blocks_race",
    "Libff.C66_blocks_inhibited"
   ],
   "note": ""
  },
  {
   "property": "C67",
   "status": "proved",
   "theorems": [
    "Libff.C67_init_history",
    "Libff.C67_init_order",
    "Libff.C67_init_complete",
    "Libff.C67_init_values"
   ],
   "note": ""
  },
  {
   "property": "C68",
   "status": "proved",
   "theorems": [
    "Libff.C68_mnt_cycle",
    "Libff.C68_bn_groups",
    "Libff.C68_bn_generators"
   ],
   "note": ""
  },
  {
   "property": "C69",
   "status": "proved",
   "theorems": [
    "Libff.C69_prime_field",
    "Libff.C69_fp2",
    "Libff.C69_fp3",
    "Libff.C69_fp4",
    "Libff.C69_fp6_2over3",
    "Libff.C69_fp6_3over2",
    "Libff.C69_fp12",
    "Libff.C69_binary_fields",
    "Libff.C69_alt_bn128_G1",
    "Libff.C69_alt_bn128_G2",
    "Libff.C69_bls12_381_G1",
    "Libff.C69_bls12_381_G2",
    "Libff.C69_mnt4_G1",
    "Libff.C69_mnt4_G2",
    "Libff.C69_mnt6_G1",
    "Libff.C69_mnt6_G2",
    "Libff.C69_bn128",
    "Libff.C69_edwards_G1",
    "Libff.C69_edwards_G2",
    "Libff.C69_probability"
   ],
   "note": ""
  },
  {
   "property": "C70",
   "status": "proved",
   "theorems": [
    "Libff.C70_alt_bn128",
    "Libff.C70_alt_bn128_scalars",
    "Libff.C70_bls12_381",
    "Libff.C70_bls12_381_scalars",
    "Libff.C70_mnt4",
    "Libff.C70_mnt4_scalars",
    "Libff.C70_mnt4_affine",
    "Libff.C70_mnt6",
    "Libff.C70_mnt6_scalars",
    "Libff.C70_mnt6_affine",
    "Libff.C70_edwards",
    "Libff.C70_edwards_scalars"
   ],
   "note": ""
  },
  {
   "property": "C71",
   "status": "partial",
   "theorems": [
    "Libff.C71_Fp_partial",
    "Libff.C71_Fp_asm3_wrong",
    "Libff.C71_Fp_asm3_not_exact",
    "Libff.C71_Fp2",
    "Libff.C71_Fp3",
    "Libff.C71_Fp4",
    "Libff.C71_Fp6_2over3",
    "Libff.C71_Fp6_3over2",
    "Libff.C71_Fp12",
    "Libff.C71_neg_Fp",
    "Libff.C71_neg_Fp2",
    "Libff.C71_cost_Fp2",
    "Libff.C71_cost_Fp3",
    "Libff.C71_cost_Fp4",
    "Libff.C71_cost_Fp6_2over3",
    "Libff.C71_cost_Fp6_3over2",
    "Libff.C71_cost_Fp12",
    "Libff.C71_gf32",
    "Libff.C71_gf64",
    "Libff.C71_gf128",
    "Libff.C71_gf192",
    "Libff.C71_gf256",
    "Libff.C71_power",
    "Libff.C71_power_Fp12"
   ],
   "note": "proved for all extension and binary fields, and for prime fields except three limbs with USE_ASM, for which it is false (C71_Fp_asm3_wrong, C71_Fp_asm3_not_exact)"
  },
  {
   "property": "C72",
   "status": "proved",
   "theorems": [
    "Libff.C72_fp_ops",
    "Libff.C72_fp_residues",
    "Libff.C72_fp_inverse",
    "Libff.C72_from_words",
    "Libff.C72_bigint",
    "Libff.C72_gf_inverse",
    "Libff.C72_sparse",
    "Libff.C72_sqrt",
    "Libff.C72_field_utils",
    "Libff.C72_group",
    "Libff.C72_edwards_read",
    "Libff.C72_bn128",
    "Libff.C72_multiexp",
    "Libff.C72_inner_product",
    "Libff.C72_multiexp_multicore",
    "Libff.C72_bn_precompute",
    "Libff.C72_input_bool",
    "Libff.C72_twos_complement",
    "Libff.C72_sha512_rng",
    "Libff.C72_leave_block",
    "Libff.C72_of_long_wraps",
    "Libff.C72_top_bit_product",
    "Libff.C72_mpz_truncated",
    "Libff.C72_multiexp_lengths",
    "Libff.C72_input_bool_other",
    "Libff.C72_twos_complement_range",
    "Libff.C72_batch_invert_zero",
    "Libff.C72_inverse_zero",
    "Libff.C72_alt_bn128_zero"
   ],
   "note": ""
  },
  {
   "property": "C73",
   "status": "partial",
   "theorems": [
    "Libff.C73_alt_bn128_partial",
    "Libff.C73_mixed_add_partial",
    "Libff.C73_bls12_381_tally",
    "Libff.C73_mnt_tally",
    "Libff.C73_mnt_add_partial",
    "Libff.C73_mnt_mixed_add",
    "Libff.C73_edwards_tally",
    "Libff.C73_edwards_mixed_add",
    "Libff.C73_bn128_partial",
    "Libff.C73_jacobian_scalar_mul",
    "Libff.C73_projective_scalar_mul",
    "Libff.C73_edwards_G2_scalar_mul",
    "Libff.C73_edwards_G1_scalar_mul",
    "Libff.C73_bn128_scalar_mul",
    "Libff.C73_bls12_381_wrong",
    "Libff.C73_mnt_wrong",
    "Libff.C73_edwards_wrong"
   ],
   "note": "what each class counts is proved exactly; the claim holds for alt_bn128 and bn128 and is false for bls12_381, mnt4, mnt6 (operator+ counts no additions) and edwards (P + P counted as an addition): C73_bls12_381_wrong, C73_mnt_wrong, C73_edwards_wrong; mixed_add of mnt and edwards counts too much (C73_mnt_mixed_add, C73_edwards_mixed_add)"
  },
  {
   "property": "C74",
   "status": "proved",
   "theorems": [
    "Libff.C74_edwards_G1_card",
    "Libff.C74_edwards_G1_denotes",
    "Libff.C74_edwards_G1_add",
    "Libff.C74_edwards_G1_dbl",
    "Libff.C74_edwards_G1_mul",
    "Libff.C74_edwards_G1_cofactor",
    "Libff.C74_edwards_G1_order_test",
    "Libff.C74_edwards_G1_member",
    "Libff.C74_edwards_G1_pairing",
    "Libff.C74_edwards_G1_wrong",
    "Libff.C74_edwards_G1_add_wrong"
   ],
   "note": ""
  },
  {
   "property": "C75",
   "status": "proved",
   "theorems": [
    "Libff.C75_jacobian_g1",
    "Libff.C75_projective_g1",
    "Libff.C75_edwards_g1",
    "Libff.C75_jacobian_g2",
    "Libff.C75_projective_g2",
    "Libff.C75_projective_g2_fp3",
    "Libff.C75_edwards_g2",
    "Libff.C75_edwards_g2_subgroup",
    "Libff.C75_edwards_G2",
    "Libff.C75_bn128_g1",
    "Libff.C75_bn128_g2",
    "Libff.C75_field",
    "Libff.C75_field_vector",
    "Libff.C75_group_vector"
   ],
   "note": ""
  },
  {
   "property": "C76",
   "status": "proved",
   "theorems": [
    "Libff.C76_jacobian",
    "Libff.C76_projective",
    "Libff.C76_edwards",
    "Libff.C76_bn128",
    "Libff.C76_alt_bn128",
    "Libff.C76_bls12_381",
    "Libff.C76_mnt4",
    "Libff.C76_mnt6",
    "Libff.C76_edwards_groups",
    "Libff.C76_bn128_groups",
    "Libff.C76_mnt_add"
   ],
   "note": ""
  },
  {
   "property": "C77",
   "status": "proved",
   "theorems": [
    "Libff.C77_curve_size_in_bits",
    "Libff.C77_prime_field",
    "Libff.C77_alt_bn128_fields",
    "Libff.C77_bls12_381_fields",
    "Libff.C77_edwards_fields",
    "Libff.C77_mnt4_fields",
    "Libff.C77_mnt6_fields",
    "Libff.C77_bn128_fields",
    "Libff.C77_binary_fields",
    "Libff.C77_log_prime",
    "Libff.C77_soundness_comment_wrong",
    "Libff.C77_log_binary",
    "Libff.C77_word_prime",
    "Libff.C77_word_gf64",
    "Libff.C77_word_gf128",
    "Libff.C77_word_gf192",
    "Libff.C77_word_gf256",
    "Libff.C77_coset_shift",
    "Libff.C77_alt_bn128_G1",
    "Libff.C77_alt_bn128_G2",
    "Libff.C77_bls12_381_G1",
    "Libff.C77_bls12_381_G2",
    "Libff.C77_mnt4_G1",
    "Libff.C77_mnt4_G2",
    "Libff.C77_mnt6_G1",
    "Libff.C77_mnt6_G2",
    "Libff.C77_edwards_G1",
    "Libff.C77_edwards_G2",
    "Libff.C77_bn128_G1",
    "Libff.C77_bn128_G2"
   ],
   "note": ""
  },
  {
   "property": "C78",
   "status": "proved",
   "theorems": [
    "Libff.C78_binary_add",
    "Libff.C78_binary_sub",
    "Libff.C78_binary_mul",
    "Libff.C78_binary_mul_asm",
    "Libff.C78_binary_square",
    "Libff.C78_fp",
    "Libff.C78_fp_asm",
    "Libff.C78_fp_asm_mul",
    "Libff.C78_asm_mul_frame",
    "Libff.C78_asm_add_frame",
    "Libff.C78_fp2_fp3",
    "Libff.C78_fp4_fp6",
    "Libff.C78_fp12",
    "Libff.C78_fp12_replace"
   ],
   "note": ""
  },
  {
   "property": "C79",
   "status": "proved",
   "theorems": [
    "Libff.W32.C79_constants",
    "Libff.W32.C79_residues",
    "Libff.W32.C79_inverse",
    "Libff.W32.C79_convert",
    "Libff.W32.C79_ring_iso",
    "Libff.C79_same_fields",
    "Libff.C79_same_results",
    "Libff.C79_same_of_bigint",
    "Libff.C79_same_of_long",
    "Libff.C79_as_ulong",
    "Libff.C79_same_eq",
    "Libff.C79_bigint",
    "Libff.C79_of_string",
    "Libff.C79_power",
    "Libff.C79_scalar_mul",
    "Libff.C79_wnaf",
    "Libff.C79_wnaf_exp",
    "Libff.C79_bytes",
    "Libff.C79_write",
    "Libff.C79_read"
   ],
   "note": ""
  },
  {
   "property": "C80",
   "status": "proved",
   "theorems": [
    "Libff.C80_rounding",
    "Libff.C80_closed",
    "Libff.C80_exact",
    "Libff.C80_error",
    "Libff.C80_laws",
    "Libff.C80_assoc_wrong",
    "Libff.C80_eq",
    "Libff.C80_eq_wrong",
    "Libff.C80_lt",
    "Libff.C80_as_ulong",
    "Libff.C80_as_ulong_wrong",
    "Libff.C80_random"
   ],
   "note": ""
  },
  {
   "property": "C81",
   "status": "proved",
   "theorems": [
    "Libff.C81_scalar_mul",
    "Libff.C81_fixed_window",
    "Libff.C81_opt_window",
    "Libff.C81_window_table",
    "Libff.C81_windowed_exp",
    "Libff.C81_batch_exp",
    "Libff.C81_batch_exp_with_coeff",
    "Libff.C81_chunks",
    "Libff.C81_naive_plain",
    "Libff.C81_naive",
    "Libff.C81_bdlo12",
    "Libff.C81_bos_coster",
    "Libff.C81_bos_coster_result",
    "Libff.C81_batch_invert",
    "Libff.C81_batch_to_special_jacobian",
    "Libff.C81_batch_to_special_projective",
    "Libff.C81_batch_invert_Fp",
    "Libff.C81_batch_to_special_Fp"
   ],
   "note": ""
  },
  {
   "property": "C82",
   "status": "proved",
   "theorems": [
    "Libff.C82_concurrent",
    "Libff.C82_concurrent_values",
    "Libff.C82_same_curve_race",
    "Libff.C82_mnt_race"
   ],
   "note": ""
  },
  {
   "property": "C83",
   "status": "proved",
   "theorems": [
    "Libff.C83_bigint",
    "Libff.C83_fp",
    "Libff.C83_towers",
    "Libff.C83_coordinates",
    "Libff.C83_binary",
    "Libff.C83_jacobian",
    "Libff.C83_projective",
    "Libff.C83_edwards",
    "Libff.C83_edwards_wrong",
    "Libff.C83_print_coordinates"
   ],
   "note": ""
  },
  {
   "property": "C84",
   "status": "proved",
   "theorems": [
    "Libff.C84_exact",
    "Libff.C84_fp",
    "Libff.C84_fp2",
    "Libff.C84_fp3",
    "Libff.C84_fp4",
    "Libff.C84_fp6_2over3",
    "Libff.C84_fp12",
    "Libff.C84_binary",
    "Libff.C84_alt_bn128_G1",
    "Libff.C84_alt_bn128_G2",
    "Libff.C84_alt_bn128_G2_wrong",
    "Libff.C84_bls12_381_G1",
    "Libff.C84_bls12_381_G2",
    "Libff.C84_bls12_381_G2_wrong",
    "Libff.C84_mnt4_G1",
    "Libff.C84_mnt4_G2",
    "Libff.C84_mnt4_G2_wrong",
    "Libff.C84_mnt6_G1",
    "Libff.C84_mnt6_G2",
    "Libff.C84_mnt6_G2_wrong",
    "Libff.C84_edwards_G1",
    "Libff.C84_edwards_G2",
    "Libff.C84_edwards_G2_wrong"
   ],
   "note": ""
  },
  {
   "property": "C85",
   "status": "proved",
   "theorems": [
    "Libff.C85_alt_bn128",
    "Libff.C85_bls12_381",
    "Libff.C85_mnt4",
    "Libff.C85_mnt6",
    "Libff.C85_edwards"
   ],
   "note": ""
  },
  {
   "property": "C86",
   "status": "proved",
   "theorems": [
    "Libff.C86_alt_bn128",
    "Libff.C86_bls12_381",
    "Libff.C86_mnt4",
    "Libff.C86_mnt6",
    "Libff.C86_edwards"
   ],
   "note": ""
  },
  {
   "property": "C87",
   "status": "proved",
   "theorems": [
    "Libff.C87_alt_bn128",
    "Libff.C87_bls12_381",
    "Libff.C87_mnt4",
    "Libff.C87_mnt6",
    "Libff.C87_edwards"
   ],
   "note": ""
  },
  {
   "property": "C88",
   "status": "proved",
   "theorems": [
    "Libff.C88_alt_bn128",
    "Libff.C88_bls12_381",
    "Libff.C88_mnt4",
    "Libff.C88_mnt6",
    "Libff.C88_edwards"
   ],
   "note": ""
  },
  {
   "property": "C89",
   "status": "proved",
   "theorems": [
    "Libff.C89_bn128_G1",
    "Libff.C89_bn128_G2",
    "Libff.C89_alt_bn128_G1",
    "Libff.C89_alt_bn128_G2",
    "Libff.C89_bls12_381_G1",
    "Libff.C89_bls12_381_G2",
    "Libff.C89_mnt4_G1",
    "Libff.C89_mnt4_G2",
    "Libff.C89_mnt6_G1",
    "Libff.C89_mnt6_G2",
    "Libff.C89_edwards_G1",
    "Libff.C89_edwards_G2"
   ],
   "note": ""
  }
 ]
}
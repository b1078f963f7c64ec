{
 "claims": [
  {
   "property": "C01",
   "status": "proved",
   "theorems": [
    "Ethnum.C01_u256_from_words",
    "Ethnum.C01_i256_from_words",
    "Ethnum.C01_words_roundtrip",
    "Ethnum.C01_words_rebuild",
    "Ethnum.C01_set_words",
    "Ethnum.C01_u256_bijection",
    "Ethnum.C01_i256_bijection",
    "Ethnum.C01_spec_ofNat",
    "Ethnum.C01_constants"
   ],
   "note": ""
  },
  {
   "property": "C02",
   "status": "proved",
   "theorems": [
    "Ethnum.C02_wrapping",
    "Ethnum.C02_overflowing",
    "Ethnum.C02_checked",
    "Ethnum.C02_saturating",
    "Ethnum.C02_add_signed",
    "Ethnum.C02_neg"
   ],
   "note": ""
  },
  {
   "property": "C03",
   "status": "proved",
   "theorems": [
    "Ethnum.C03_mul"
   ],
   "note": ""
  },
  {
   "property": "C04",
   "status": "proved",
   "theorems": [
    "Ethnum.C04_div",
    "Ethnum.C04_rem",
    "Ethnum.C04_div_rem",
    "Ethnum.C04_div_rem_spec",
    "Ethnum.C04_zero"
   ],
   "note": ""
  },
  {
   "property": "C05",
   "status": "proved",
   "theorems": [
    "Ethnum.C05_udiv256_by_128",
    "Ethnum.C05_quotDigit",
    "Ethnum.C05_corrections",
    "Ethnum.C05_knuth_estimate",
    "Ethnum.C05_knuth"
   ],
   "note": "The 256-by-128 step is the primitive the public division is built from."
  },
  {
   "property": "C06",
   "status": "proved",
   "theorems": [
    "Ethnum.C06_add",
    "Ethnum.C06_sub",
    "Ethnum.C06_add_unsigned",
    "Ethnum.C06_sub_unsigned",
    "Ethnum.C06_neg",
    "Ethnum.C06_abs"
   ],
   "note": ""
  },
  {
   "property": "C07",
   "status": "proved",
   "theorems": [
    "Ethnum.C07_mul"
   ],
   "note": ""
  },
  {
   "property": "C08",
   "status": "proved",
   "theorems": [
    "Ethnum.C08_div_rem",
    "Ethnum.C08_spec",
    "Ethnum.C08_zero",
    "Ethnum.C08_min_by_minus_one"
   ],
   "note": ""
  },
  {
   "property": "C09",
   "status": "partial",
   "theorems": [
    "Ethnum.C09_div_euclid_rem_euclid",
    "Ethnum.C09_spec",
    "Ethnum.C09_div_rem_euclid_partial",
    "Ethnum.C09_div_rem_euclid_panics",
    "Ethnum.C09_zero",
    "Ethnum.C09_min_by_minus_one"
   ],
   "note": "C09_div_rem_euclid_partial excludes the case rhs = MIN with a negative dividend other than MIN, where C09_div_rem_euclid_panics proves that the code panics in debug builds."
  },
  {
   "property": "C10",
   "status": "proved",
   "theorems": [
    "Ethnum.C10_shl",
    "Ethnum.C10_shr"
   ],
   "note": ""
  },
  {
   "property": "C11",
   "status": "proved",
   "theorems": [
    "Ethnum.C11_shl",
    "Ethnum.C11_shr"
   ],
   "note": ""
  },
  {
   "property": "C12",
   "status": "partial",
   "theorems": [
    "Ethnum.C12_in_range",
    "Ethnum.C12_debug",
    "Ethnum.C12_release",
    "Ethnum.C12_release_partial",
    "Ethnum.C12_release_wrong"
   ],
   "note": "Release builds do not reduce the amount modulo 256: C12_release gives the amount really used for every input, C12_release_partial the inputs where the claim holds, C12_release_wrong proves it false for all the others."
  },
  {
   "property": "C13",
   "status": "partial",
   "theorems": [
    "Ethnum.C13_u256_rotate_partial",
    "Ethnum.C13_i256_rotate_partial",
    "Ethnum.C13_rotate_inverse_partial",
    "Ethnum.C13_rotate_panics"
   ],
   "note": "The _partial theorems cover every amount in builds without overflow checks and amounts up to 256 with them; C13_rotate_panics proves that every larger amount panics there."
  },
  {
   "property": "C14",
   "status": "proved",
   "theorems": [
    "Ethnum.C14_runs_unique",
    "Ethnum.C14_u256_runs",
    "Ethnum.C14_i256_runs",
    "Ethnum.C14_count"
   ],
   "note": ""
  },
  {
   "property": "C15",
   "status": "proved",
   "theorems": [
    "Ethnum.C15_swap_bytes",
    "Ethnum.C15_reverse_bits",
    "Ethnum.C15_endian"
   ],
   "note": ""
  },
  {
   "property": "C16",
   "status": "proved",
   "theorems": [
    "Ethnum.C16_pow"
   ],
   "note": ""
  },
  {
   "property": "C17",
   "status": "proved",
   "theorems": [
    "Ethnum.C17_pow"
   ],
   "note": ""
  },
  {
   "property": "C18",
   "status": "proved",
   "theorems": [
    "Ethnum.C18_is_power_of_two",
    "Ethnum.C18_next_power_of_two"
   ],
   "note": ""
  },
  {
   "property": "C19",
   "status": "proved",
   "theorems": [
    "Ethnum.C19_i256_abs_diff",
    "Ethnum.C19_u256_abs_diff"
   ],
   "note": ""
  },
  {
   "property": "C20",
   "status": "proved",
   "theorems": [
    "Ethnum.C20_u256_cmp",
    "Ethnum.C20_i256_cmp",
    "Ethnum.C20_u256_prim",
    "Ethnum.C20_i256_prim",
    "Ethnum.C20_hash"
   ],
   "note": ""
  },
  {
   "property": "C21",
   "status": "proved",
   "theorems": [
    "Ethnum.C21_u256_bitwise",
    "Ethnum.C21_i256_bitwise",
    "Ethnum.C21_testBit"
   ],
   "note": ""
  },
  {
   "property": "C22",
   "status": "proved",
   "theorems": [
    "Ethnum.C22_to_bytes",
    "Ethnum.C22_from_bytes",
    "Ethnum.C22_round_trip"
   ],
   "note": ""
  },
  {
   "property": "C23",
   "status": "proved",
   "theorems": [
    "Ethnum.C23_prim_spec",
    "Ethnum.C23_prim_ranges",
    "Ethnum.C23_u256_from_prim",
    "Ethnum.C23_i256_from_prim",
    "Ethnum.C23_which",
    "Ethnum.C23_from_bool",
    "Ethnum.C23_u256_try_from_prim",
    "Ethnum.C23_prim_try_from_u256",
    "Ethnum.C23_prim_try_from_i256",
    "Ethnum.C23_between"
   ],
   "note": ""
  },
  {
   "property": "C24",
   "status": "proved",
   "theorems": [
    "Ethnum.C24_u256_as_prim",
    "Ethnum.C24_i256_as_prim",
    "Ethnum.C24_unique",
    "Ethnum.C24_as_wide"
   ],
   "note": ""
  },
  {
   "property": "C25",
   "status": "proved",
   "theorems": [
    "Ethnum.C25_u256",
    "Ethnum.C25_i256",
    "Ethnum.C25_prim"
   ],
   "note": ""
  },
  {
   "property": "C26",
   "status": "proved",
   "theorems": [
    "Ethnum.C26_u256",
    "Ethnum.C26_i256"
   ],
   "note": ""
  },
  {
   "property": "C27",
   "status": "proved",
   "theorems": [
    "Ethnum.C27_u256_sum",
    "Ethnum.C27_u256_product",
    "Ethnum.C27_i256_sum",
    "Ethnum.C27_i256_product"
   ],
   "note": ""
  },
  {
   "property": "C28",
   "status": "proved",
   "theorems": [
    "Ethnum.C28_from_str_radix",
    "Ethnum.C28_complete",
    "Ethnum.C28_bad_radix",
    "Ethnum.C28_from_str"
   ],
   "note": ""
  },
  {
   "property": "C29",
   "status": "proved",
   "theorems": [
    "Ethnum.C29_from_str_radix",
    "Ethnum.C29_complete",
    "Ethnum.C29_bad_radix",
    "Ethnum.C29_from_str"
   ],
   "note": ""
  },
  {
   "property": "C30",
   "status": "proved",
   "theorems": [
    "Ethnum.C30_from_str_hex",
    "Ethnum.C30_u256_from_str_prefixed",
    "Ethnum.C30_i256_from_str_prefixed",
    "Ethnum.C30_unambiguous",
    "Ethnum.C30_prefixed_overflow_kind"
   ],
   "note": "C30_prefixed_overflow_kind records that an out-of-range prefixed number is reported as an invalid digit."
  },
  {
   "property": "C31",
   "status": "partial",
   "theorems": [
    "Ethnum.C31_u256_exact",
    "Ethnum.C31_i256_exact",
    "Ethnum.C31_sound",
    "Ethnum.C31_complete_partial",
    "Ethnum.C31_rejects_in_range",
    "Ethnum.C31_accepts_without_digits",
    "Ethnum.C31_macros",
    "Ethnum.C31_agrees_with_run_time"
   ],
   "note": "C31_u256_exact / C31_i256_exact give exactly the accepted texts and values; the claim itself is false: C31_rejects_in_range and C31_accepts_without_digits prove counterexamples in every configuration."
  },
  {
   "property": "C32",
   "status": "proved",
   "theorems": [
    "Ethnum.C32_display",
    "Ethnum.C32_display_plain",
    "Ethnum.C32_layout_unique",
    "Ethnum.C32_layout"
   ],
   "note": ""
  },
  {
   "property": "C33",
   "status": "proved",
   "theorems": [
    "Ethnum.C33_u256_radix",
    "Ethnum.C33_i256_radix",
    "Ethnum.C33_layout",
    "Ethnum.C33_debug",
    "Ethnum.C33_format_string"
   ],
   "note": ""
  },
  {
   "property": "C34",
   "status": "proved",
   "theorems": [
    "Ethnum.C34_decimal",
    "Ethnum.C34_u256_radix",
    "Ethnum.C34_i256_radix",
    "Ethnum.C34_i256_pattern"
   ],
   "note": ""
  },
  {
   "property": "C35",
   "status": "partial",
   "theorems": [
    "Ethnum.C35_u256_as_f32",
    "Ethnum.C35_u256_as_f64_partial",
    "Ethnum.C35_i256_as_f64_partial",
    "Ethnum.C35_i256_as_f32_partial",
    "Ethnum.C35_exact",
    "Ethnum.C35_monotone",
    "Ethnum.C35_monotone_signed",
    "Ethnum.C35_as_f64_not_nearest",
    "Ethnum.C35_i256_as_f32_not_nearest",
    "Ethnum.C35_as_f64_clear",
    "Ethnum.C35_i256_as_f32_clear",
    "Ethnum.C35_relative_error",
    "Ethnum.C35_order",
    "Ethnum.C35_as_f64_nearest",
    "Ethnum.C35_i256_as_f32_nearest",
    "Ethnum.C35_nearest_unique",
    "Ethnum.C35_as_f64_steps",
    "Ethnum.C35_i256_as_f32_steps"
   ],
   "note": "U256::as_f32 is proved correctly rounded. The other conversions are proved faithful (no float strictly between value and result), exact where possible, monotone and finite; C35_as_f64_nearest and C35_i256_as_f32_nearest prove that they are the nearest float below 2^128 and for values whose parts are exact, C35_as_f64_clear and C35_i256_as_f32_clear that they are the nearest float wherever one float is nearer than all others by a small margin; C35_as_f64_not_nearest and C35_i256_as_f32_not_nearest prove that they are not always the nearest float."
  },
  {
   "property": "C36",
   "status": "partial",
   "theorems": [
    "Ethnum.C36_u256_partial",
    "Ethnum.C36_u256_special",
    "Ethnum.C36_i256_partial",
    "Ethnum.C36_i256_special",
    "Ethnum.C36_f32_infinity",
    "Ethnum.C36_total",
    "Ethnum.C36_round_trip"
   ],
   "note": "All finite values, NaN and f64 infinities are proved; C36_f32_infinity proves that f32 infinities give 2^128 instead of saturating."
  },
  {
   "property": "C37",
   "status": "proved",
   "theorems": [
    "Ethnum.C37_serialize",
    "Ethnum.C37_accepts",
    "Ethnum.C37_round_trip"
   ],
   "note": ""
  },
  {
   "property": "C38",
   "status": "partial",
   "theorems": [
    "Ethnum.C38_i256",
    "Ethnum.C38_total",
    "Ethnum.C38_u256_exact",
    "Ethnum.C38_u256_partial",
    "Ethnum.C38_u256_negative_wraps"
   ],
   "note": "Complete for I256. For U256 C38_u256_exact gives exactly what is accepted; the claim is false for negative numbers, which C38_u256_negative_wraps proves are always accepted with another value."
  },
  {
   "property": "C39",
   "status": "proved",
   "theorems": [
    "Ethnum.C39_serialize",
    "Ethnum.C39_accepts",
    "Ethnum.C39_round_trip",
    "Ethnum.C39_wrong_length"
   ],
   "note": ""
  },
  {
   "property": "C40",
   "status": "partial",
   "theorems": [
    "Ethnum.C40_u256_serialize",
    "Ethnum.C40_u256_accepts",
    "Ethnum.C40_u256_round_trip",
    "Ethnum.C40_too_long",
    "Ethnum.C40_i256_delivery",
    "Ethnum.C40_i256_serialize",
    "Ethnum.C40_i256_le_decode",
    "Ethnum.C40_i256_be_decode",
    "Ethnum.C40_i256_accepts",
    "Ethnum.C40_i256_le_partial",
    "Ethnum.C40_i256_be_partial",
    "Ethnum.C40_i256_not_recovered",
    "Ethnum.C40_i256_be_not_shortest"
   ],
   "note": "Complete for U256. For I256 the claim is false (C40_i256_not_recovered, C40_i256_be_not_shortest): C40_i256_le_partial and C40_i256_be_partial give exactly the values that are recovered."
  },
  {
   "property": "C41",
   "status": "proved",
   "theorems": [
    "Ethnum.C41_u256_unary",
    "Ethnum.C41_u256_binary",
    "Ethnum.C41_u256_division",
    "Ethnum.C41_u256_shift_pow",
    "Ethnum.C41_u256_shift_by",
    "Ethnum.C41_u256_iter",
    "Ethnum.C41_u256_format",
    "Ethnum.C41_u256_parse",
    "Ethnum.C41_u256_serde",
    "Ethnum.C41_i256_unary",
    "Ethnum.C41_i256_binary",
    "Ethnum.C41_i256_division",
    "Ethnum.C41_i256_shift_pow",
    "Ethnum.C41_i256_shift_by",
    "Ethnum.C41_i256_iter",
    "Ethnum.C41_i256_format",
    "Ethnum.C41_i256_parse",
    "Ethnum.C41_i256_serde",
    "Ethnum.C41_intrinsics",
    "Ethnum.C41_of_float",
    "Ethnum.C41_mixed_operands"
   ],
   "note": ""
  },
  {
   "property": "C42",
   "status": "proved",
   "theorems": [
    "Ethnum.C42_u256",
    "Ethnum.C42_i256",
    "Ethnum.C42_neg",
    "Ethnum.C42_shift"
   ],
   "note": ""
  },
  {
   "property": "C43",
   "status": "proved",
   "theorems": [
    "Ethnum.C43_words",
    "Ethnum.C43_comparison",
    "Ethnum.C43_bitwise",
    "Ethnum.C43_shift",
    "Ethnum.C43_u256_arithmetic",
    "Ethnum.C43_i256_arithmetic",
    "Ethnum.C43_u256_division",
    "Ethnum.C43_i256_division",
    "Ethnum.C43_pow",
    "Ethnum.C43_try_between",
    "Ethnum.C43_to_bytes",
    "Ethnum.C43_to_float",
    "Ethnum.C43_format",
    "Ethnum.C43_parse",
    "Ethnum.C43_serialize",
    "Ethnum.C43_deserialize",
    "Ethnum.C43_shift_by",
    "Ethnum.C43_prim",
    "Ethnum.C43_mixed_operands",
    "Ethnum.C43_from_bytes",
    "Ethnum.C43_from_float",
    "Ethnum.C43_ne_bytes_observable"
   ],
   "note": "Stated as a logical relation between two runs on targets of opposite byte order, for every modelled public function. C43_ne_bytes_observable shows the functions that must reveal it."
  },
  {
   "property": "C44",
   "status": "proved",
   "theorems": [
    "Ethnum.C44_sign",
    "Ethnum.C44_abs"
   ],
   "note": ""
  },
  {
   "property": "C45",
   "status": "proved",
   "theorems": [
    "Ethnum.C45_u256_ring",
    "Ethnum.C45_i256_ring",
    "Ethnum.C45_casts"
   ],
   "note": ""
  },
  {
   "property": "C46",
   "status": "partial",
   "theorems": [
    "Ethnum.C46_api_words",
    "Ethnum.C46_api_comparison",
    "Ethnum.C46_api_bitwise",
    "Ethnum.C46_api_shift",
    "Ethnum.C46_api_u256_arithmetic",
    "Ethnum.C46_api_i256_arithmetic",
    "Ethnum.C46_api_u256_division",
    "Ethnum.C46_api_i256_division",
    "Ethnum.C46_api_pow",
    "Ethnum.C46_api_try_between",
    "Ethnum.C46_api_to_bytes",
    "Ethnum.C46_api_to_float",
    "Ethnum.C46_api_format",
    "Ethnum.C46_api_parse",
    "Ethnum.C46_api_serialize",
    "Ethnum.C46_api_deserialize",
    "Ethnum.C46_api_prim",
    "Ethnum.C46_api_from_float",
    "Ethnum.C46_api_mixed_operands",
    "Ethnum.C46_api_rotate",
    "Ethnum.C46_api_shift_by",
    "Ethnum.C46_add_sub",
    "Ethnum.C46_mul",
    "Ethnum.C46_div_rem",
    "Ethnum.C46_shift_partial",
    "Ethnum.C46_shift_large_partial",
    "Ethnum.C46_shift_disagree",
    "Ethnum.C46_shift_agree_iff",
    "Ethnum.C46_rotate_partial",
    "Ethnum.C46_count_zeros"
   ],
   "note": "The routines agree for every operand the documented contract allows, and all public functions (C46_api_*) are the same function in both builds except two kinds, for which the exact condition is proved: shift operators by an oversized amount in builds without debug assertions (C46_api_shift_by, witness C46_shift_disagree) and rotation by more than 256 with overflow checks (C46_api_rotate), where the native back-end is wrong."
  },
  {
   "property": "C47",
   "status": "proved",
   "theorems": [
    "Ethnum.C47_parse_error",
    "Ethnum.C47_parse_error_eq",
    "Ethnum.C47_compiles",
    "Ethnum.C47_conversion_error"
   ],
   "note": "Proved for every layout the compiler may choose for the two private std structs, from their declarations (one field each) and the equal sizes that transmute demands at compile time."
  },
  {
   "property": "C48",
   "status": "proved",
   "theorems": [
    "Ethnum.C48_u256_exp",
    "Ethnum.C48_i256_exp",
    "Ethnum.C48_exact",
    "Ethnum.C48_types_agree",
    "Ethnum.C48_not_injective",
    "Ethnum.C48_u256_from",
    "Ethnum.C48_i256_from"
   ],
   "note": ""
  },
  {
   "property": "C49",
   "status": "proved",
   "theorems": [
    "Ethnum.C49_u256_never",
    "Ethnum.C49_i256_never",
    "Ethnum.C49_format_never",
    "Ethnum.C49_float_never",
    "Ethnum.C49_serde_never",
    "Ethnum.C49_parse",
    "Ethnum.C49_u256_division",
    "Ethnum.C49_i256_division",
    "Ethnum.C49_i256_euclid",
    "Ethnum.C49_operators",
    "Ethnum.C49_shift",
    "Ethnum.C49_rotate",
    "Ethnum.C49_rest"
   ],
   "note": ""
  },
  {
   "property": "C50",
   "status": "proved",
   "theorems": [
    "Ethnum.C50_u256_forms",
    "Ethnum.C50_i256_forms",
    "Ethnum.C50_u256",
    "Ethnum.C50_i256",
    "Ethnum.C50_shift"
   ],
   "note": ""
  },
  {
   "property": "C51",
   "status": "proved",
   "theorems": [
    "Ethnum.C51_u256_ops",
    "Ethnum.C51_u256_ops_panics",
    "Ethnum.C51_u256_checked",
    "Ethnum.C51_u256_wrapping",
    "Ethnum.C51_i256_ops",
    "Ethnum.C51_i256_ops_panics",
    "Ethnum.C51_i256_checked",
    "Ethnum.C51_i256_wrapping"
   ],
   "note": ""
  },
  {
   "property": "C52",
   "status": "proved",
   "theorems": [
    "Ethnum.C52_u256",
    "Ethnum.C52_u256_ops",
    "Ethnum.C52_u256_saturating",
    "Ethnum.C52_i256",
    "Ethnum.C52_i256_ops",
    "Ethnum.C52_i256_saturating",
    "Ethnum.C52_shift_abs"
   ],
   "note": ""
  },
  {
   "property": "C53",
   "status": "proved",
   "theorems": [
    "Ethnum.C53_u128",
    "Ethnum.C53_i128",
    "Ethnum.C53_narrow",
    "Ethnum.C53_u128_bits",
    "Ethnum.C53_i128_shifts"
   ],
   "note": ""
  },
  {
   "property": "C54",
   "status": "proved",
   "theorems": [
    "Ethnum.C54_u256_three",
    "Ethnum.C54_u256_two",
    "Ethnum.C54_i256_three",
    "Ethnum.C54_i256_two",
    "Ethnum.C54_u256_division",
    "Ethnum.C54_u256_division_by_zero",
    "Ethnum.C54_i256_division",
    "Ethnum.C54_i256_division_by_zero",
    "Ethnum.C54_shifts",
    "Ethnum.C54_u256_rotations",
    "Ethnum.C54_i256_rotations",
    "Ethnum.C54_u256_methods",
    "Ethnum.C54_i256_methods"
   ],
   "note": ""
  },
  {
   "property": "C55",
   "status": "proved",
   "theorems": [
    "Ethnum.C55_assign",
    "Ethnum.C55_assign_by_value",
    "Ethnum.C55_shift_assign",
    "Ethnum.C55_history"
   ],
   "note": ""
  },
  {
   "property": "C56",
   "status": "proved",
   "theorems": [
    "Ethnum.C56_conversions",
    "Ethnum.C56_u256_methods",
    "Ethnum.C56_i256_methods",
    "Ethnum.C56_interesting",
    "Ethnum.C56_fuzz",
    "Ethnum.C56_load",
    "Ethnum.C56_bytes",
    "Ethnum.C56_reaches",
    "Ethnum.C56_seed"
   ],
   "note": ""
  },
  {
   "property": "C57",
   "status": "proved",
   "theorems": [
    "Ethnum.C57_round_trip",
    "Ethnum.C57_records",
    "Ethnum.C57_permissive_needs_self_describing",
    "Ethnum.C57_fields_written",
    "Ethnum.C57_fields_read",
    "Ethnum.C57_total",
    "Ethnum.C57_formats"
   ],
   "note": ""
  },
  {
   "property": "C58",
   "status": "proved",
   "theorems": [
    "Ethnum.C58_max_min",
    "Ethnum.C58_clamp",
    "Ethnum.C58_sorted",
    "Ethnum.C58_default"
   ],
   "note": ""
  },
  {
   "property": "C59",
   "status": "proved",
   "theorems": [
    "Ethnum.C59_run",
    "Ethnum.C59_steps",
    "Ethnum.C59_outcome",
    "Ethnum.C59_builds",
    "Ethnum.C59_debug_release",
    "Ethnum.C59_gcd",
    "Ethnum.C59_sqrt",
    "Ethnum.C59_modpow"
   ],
   "note": ""
  },
  {
   "property": "C60",
   "status": "partial",
   "theorems": [
    "Ethnum.C60_replace",
    "Ethnum.C60_rewrite",
    "Ethnum.C60_template",
    "Ethnum.C60_symbols",
    "Ethnum.C60_calls",
    "Ethnum.C60_rotations",
    "Ethnum.C60_counts_partial",
    "Ethnum.C60_range_attribute",
    "Ethnum.C60_backend"
   ],
   "note": "The text of the IR is that of a fragment written by hand, not of a given rustc. The counts of zeros hold for a compiler that attaches no range attribute to them; C60_range_attribute proves that they fail otherwise."
  },
  {
   "property": "C61",
   "status": "proved",
   "theorems": [
    "Ethnum.C61_u256",
    "Ethnum.C61_i256",
    "Ethnum.C61_list"
   ],
   "note": ""
  },
  {
   "property": "C62",
   "status": "proved",
   "theorems": [
    "Ethnum.C62_add",
    "Ethnum.C62_add_carry",
    "Ethnum.C62_sub",
    "Ethnum.C62_sub_borrow",
    "Ethnum.C62_shl",
    "Ethnum.C62_mul_add",
    "Ethnum.C62_mul_row",
    "Ethnum.C62_mul",
    "Ethnum.C62_div",
    "Ethnum.C62_add_mod",
    "Ethnum.C62_mul_mod",
    "Ethnum.C62_pow_mod",
    "Ethnum.C62_zero"
   ],
   "note": ""
  },
  {
   "property": "C63",
   "status": "proved",
   "theorems": [
    "Ethnum.C63_bijection",
    "Ethnum.C63_u256_arith",
    "Ethnum.C63_i256_arith",
    "Ethnum.C63_bitwise",
    "Ethnum.C63_rotate",
    "Ethnum.C63_counts",
    "Ethnum.C63_order",
    "Ethnum.C63_casts"
   ],
   "note": ""
  },
  {
   "property": "C64",
   "status": "proved",
   "theorems": [
    "Ethnum.C64_op1",
    "Ethnum.C64_op2",
    "Ethnum.C64_op3",
    "Ethnum.C64_words",
    "Ethnum.C64_run",
    "Ethnum.C64_factorial"
   ],
   "note": ""
  },
  {
   "property": "C65",
   "status": "proved",
   "theorems": [
    "Ethnum.C65_full_mul",
    "Ethnum.C65_inverse",
    "Ethnum.C65_mul_div",
    "Ethnum.C65_mul_div_up"
   ],
   "note": ""
  },
  {
   "property": "C66",
   "status": "proved",
   "theorems": [
    "Ethnum.C66_tree",
    "Ethnum.C66_table",
    "Ethnum.C66_binary_search"
   ],
   "note": ""
  },
  {
   "property": "C67",
   "status": "partial",
   "theorems": [
    "Ethnum.C67_decimal_partial",
    "Ethnum.C67_decimal_rejected",
    "Ethnum.C67_decimal_whole_pointer",
    "Ethnum.C67_radix_partial",
    "Ethnum.C67_radix_rejected",
    "Ethnum.C67_serialize_partial",
    "Ethnum.C67_serialize_rejected",
    "Ethnum.C67_serialize_number_rejected"
   ],
   "note": "False under Stacked Borrows (C67_*_rejected say exactly for which values); proved for all values under Tree Borrows. C67_decimal_whole_pointer proves that the usual repair obeys both."
  },
  {
   "property": "C68",
   "status": "proved",
   "theorems": [
    "Ethnum.C68_pow",
    "Ethnum.C68_pow_signed",
    "Ethnum.C68_decimal",
    "Ethnum.C68_division",
    "Ethnum.C68_division_calls"
   ],
   "note": ""
  },
  {
   "property": "C69",
   "status": "proved",
   "theorems": [
    "Ethnum.C69_u256_assign",
    "Ethnum.C69_u256_binary",
    "Ethnum.C69_u256_overflowing",
    "Ethnum.C69_u256_div_rem",
    "Ethnum.C69_u256_shift_assign",
    "Ethnum.C69_u256_shift",
    "Ethnum.C69_i256_assign",
    "Ethnum.C69_i256_binary",
    "Ethnum.C69_i256_overflowing",
    "Ethnum.C69_i256_div_rem",
    "Ethnum.C69_i256_shift_assign",
    "Ethnum.C69_i256_shift"
   ],
   "note": ""
  },
  {
   "property": "C70",
   "status": "proved",
   "theorems": [
    "Ethnum.C70_be_bytes",
    "Ethnum.C70_sorted",
    "Ethnum.C70_prefix",
    "Ethnum.C70_serde_bytes",
    "Ethnum.C70_compressed",
    "Ethnum.C70_text",
    "Ethnum.C70_fixed_width"
   ],
   "note": ""
  },
  {
   "property": "C71",
   "status": "proved",
   "theorems": [
    "Ethnum.C71_calls",
    "Ethnum.C71_prefix",
    "Ethnum.C71_slice",
    "Ethnum.C71_string",
    "Ethnum.C71_serde"
   ],
   "note": ""
  },
  {
   "property": "C72",
   "status": "proved",
   "theorems": [
    "Ethnum.C72_access",
    "Ethnum.C72_no_race",
    "Ethnum.C72_results",
    "Ethnum.C72_progress",
    "Ethnum.C72_deterministic",
    "Ethnum.C72_numbers"
   ],
   "note": ""
  },
  {
   "property": "C73",
   "status": "partial",
   "theorems": [
    "Ethnum.C73_promise",
    "Ethnum.C73_zero",
    "Ethnum.C73_u256",
    "Ethnum.C73_i256",
    "Ethnum.C73_digits_partial",
    "Ethnum.C73_small",
    "Ethnum.C73_precision",
    "Ethnum.C73_precision_signed",
    "Ethnum.C73_digits_iff",
    "Ethnum.C73_powers",
    "Ethnum.C73_misprinted"
   ],
   "note": "False from 2^128 on (C73_misprinted: 10^39). C73_digits_partial proves the clause on values with at most 15 significant digits for values below 2^128; C73_digits_iff says exactly which of the others have it. All other clauses are proved for all values."
  },
  {
   "property": "C74",
   "status": "partial",
   "theorems": [
    "Ethnum.C74_u256_f64",
    "Ethnum.C74_i256_f64",
    "Ethnum.C74_u256_f32_partial",
    "Ethnum.C74_i256_f32_partial",
    "Ethnum.C74_f32_large",
    "Ethnum.C74_from_f64",
    "Ethnum.C74_from_f32",
    "Ethnum.C74_order"
   ],
   "note": "False for values too large for an f32 (C74_f32_large: MAX comes back as 2^128); the f32 theorems prove the error bound for all other values and the remaining clauses for all."
  },
  {
   "property": "C75",
   "status": "proved",
   "theorems": [
    "Ethnum.C75_checked",
    "Ethnum.C75_operators",
    "Ethnum.C75_new",
    "Ethnum.C75_wrapping",
    "Ethnum.C75_release_inflation"
   ],
   "note": "The client is in SpecLedger.lean, not in /repo. C75_release_inflation is the limit that the last sentence of the statement allows."
  },
  {
   "property": "C76",
   "status": "proved",
   "theorems": [
    "Ethnum.C76_gcd",
    "Ethnum.C76_egcd",
    "Ethnum.C76_inverse",
    "Ethnum.C76_powmod",
    "Ethnum.C76_isqrt"
   ],
   "note": "The programs are in SpecNumber.lean, not in /repo. An example shows a modulus of 2^128 + 1 for which the power comes out wrong in a release build, and one that 369 divisions are needed."
  },
  {
   "property": "C77",
   "status": "proved",
   "theorems": [
    "Ethnum.C77_bijection",
    "Ethnum.C77_operators",
    "Ethnum.C77_single",
    "Ethnum.C77_histories",
    "Ethnum.C77_size",
    "Ethnum.C77_walk"
   ],
   "note": "The client programs are in SpecSet.lean, not in /repo."
  },
  {
   "property": "C78",
   "status": "proved",
   "theorems": [
    "Ethnum.C78_format",
    "Ethnum.C78_parse",
    "Ethnum.C78_round_trip",
    "Ethnum.C78_too_many"
   ],
   "note": "The client programs are in SpecUnits.lean, not in /repo."
  },
  {
   "property": "C79",
   "status": "proved",
   "theorems": [
    "Ethnum.C79_mean",
    "Ethnum.C79_lowest",
    "Ethnum.C79_power",
    "Ethnum.C79_align",
    "Ethnum.C79_gray_inverse",
    "Ethnum.C79_gray_step",
    "Ethnum.C79_absolute",
    "Ethnum.C79_swap"
   ],
   "note": "The client programs are in SpecTricks.lean, not in /repo."
  },
  {
   "property": "C80",
   "status": "proved",
   "theorems": [
    "Ethnum.C80_decode",
    "Ethnum.C80_round_trip"
   ],
   "note": "The client program is in SpecAbi.lean, not in /repo."
  },
  {
   "property": "C81",
   "status": "partial",
   "theorems": [
    "Ethnum.C81_order",
    "Ethnum.C81_success",
    "Ethnum.C81_fresh_partial",
    "Ethnum.C81_stale",
    "Ethnum.C81_stale_witness",
    "Ethnum.C81_history"
   ],
   "note": "That the library is made from the module that rustc printed in this build is false: the exit status of rustc is not looked at (C81_stale, C81_stale_witness). C81_fresh_partial proves it when rustc reports success. All other clauses are proved for all environments."
  },
  {
   "property": "C82",
   "status": "proved",
   "theorems": [
    "Ethnum.C82_text",
    "Ethnum.C82_identifies",
    "Ethnum.C82_dump",
    "Ethnum.C82_init"
   ],
   "note": ""
  }
 ]
}
{
 "claims": [
  {
   "property": "C01",
   "status": "proved",
   "theorems": [
    "Grisu.C01_returns"
   ],
   "note": ""
  },
  {
   "property": "C02",
   "status": "proved",
   "theorems": [
    "Grisu.C02_roundtrip_nearest"
   ],
   "note": ""
  },
  {
   "property": "C03",
   "status": "proved",
   "theorems": [
    "Grisu.C03_shortest_nearest"
   ],
   "note": ""
  },
  {
   "property": "C04",
   "status": "proved",
   "theorems": [
    "Grisu.C04_closest_nearest"
   ],
   "note": ""
  },
  {
   "property": "C05",
   "status": "proved",
   "theorems": [
    "Grisu.C05_tie_policy"
   ],
   "note": ""
  },
  {
   "property": "C06",
   "status": "proved",
   "theorems": [
    "Grisu.C06_roundtrip_away",
    "Grisu.C06_shortest_away",
    "Grisu.C06_closest_away"
   ],
   "note": ""
  },
  {
   "property": "C07",
   "status": "proved",
   "theorems": [
    "Grisu.C07_roundtrip_truncating"
   ],
   "note": ""
  },
  {
   "property": "C08",
   "status": "partial",
   "theorems": [
    "Grisu.C08_shortest_truncating_partial",
    "Grisu.C08_not_shortest",
    "Grisu.C08_exceptions"
   ],
   "note": "False of the code on ten bit patterns (C08_exceptions, C08_not_shortest); proved on all other inputs."
  },
  {
   "property": "C09",
   "status": "partial",
   "theorems": [
    "Grisu.C09_closest_truncating_partial",
    "Grisu.C09_not_closest",
    "Grisu.C09_iff_ones",
    "Grisu.C09_iff"
   ],
   "note": "False of the code (C09_not_closest); proved under a sufficient condition on the input, and characterised exactly on all inputs (C09_iff, C09_iff_ones)."
  },
  {
   "property": "C10",
   "status": "partial",
   "theorems": [
    "Grisu.C10_returns_partial",
    "Grisu.C10_faults"
   ],
   "note": "False of the code on listed inputs (C10_faults); C10_returns_partial says exactly when the call returns."
  },
  {
   "property": "C11",
   "status": "proved",
   "theorems": [
    "Grisu.C11_do_not_care"
   ],
   "note": ""
  },
  {
   "property": "C12",
   "status": "proved",
   "theorems": [
    "Grisu.C12_is_negative",
    "Grisu.C12_mirror",
    "Grisu.C12_symmetric"
   ],
   "note": ""
  },
  {
   "property": "C13",
   "status": "proved",
   "theorems": [
    "Grisu.C13_static_boundary"
   ],
   "note": ""
  },
  {
   "property": "C14",
   "status": "proved",
   "theorems": [
    "Grisu.C14_no_trailing_zero"
   ],
   "note": ""
  },
  {
   "property": "C15",
   "status": "proved",
   "theorems": [
    "Grisu.C15_digits"
   ],
   "note": ""
  },
  {
   "property": "C16",
   "status": "proved",
   "theorems": [
    "Grisu.C16_exponent"
   ],
   "note": ""
  },
  {
   "property": "C17",
   "status": "proved",
   "theorems": [
    "Grisu.C17_portable"
   ],
   "note": ""
  },
  {
   "property": "C18",
   "status": "proved",
   "theorems": [
    "Grisu.C18_wide_multiplication"
   ],
   "note": ""
  },
  {
   "property": "C19",
   "status": "proved",
   "theorems": [
    "Grisu.C19_divisibility",
    "Grisu.C19_asserts"
   ],
   "note": ""
  },
  {
   "property": "C20",
   "status": "proved",
   "theorems": [
    "Grisu.C20_floor_log10_pow2",
    "Grisu.C20_assert"
   ],
   "note": ""
  },
  {
   "property": "C21",
   "status": "partial",
   "theorems": [
    "Grisu.C21_floor_log2_pow10_partial",
    "Grisu.C21_overflow",
    "Grisu.C21_assert"
   ],
   "note": "False of the code for |e| >= 617 (C21_overflow: signed overflow); proved exactly on [-616, 616]."
  },
  {
   "property": "C22",
   "status": "proved",
   "theorems": [
    "Grisu.C22_floor_log5_pow2",
    "Grisu.C22_assert"
   ],
   "note": ""
  },
  {
   "property": "C23",
   "status": "proved",
   "theorems": [
    "Grisu.C23_cache",
    "Grisu.C23_outside"
   ],
   "note": ""
  },
  {
   "property": "C24",
   "status": "proved",
   "theorems": [
    "Grisu.C24_product_is_exact"
   ],
   "note": ""
  },
  {
   "property": "C25",
   "status": "proved",
   "theorems": [
    "Grisu.C25_injective"
   ],
   "note": ""
  },
  {
   "property": "C26",
   "status": "proved",
   "theorems": [
    "Grisu.C26_monotone"
   ],
   "note": ""
  },
  {
   "property": "C27",
   "status": "proved",
   "theorems": [
    "Grisu.C27_classification",
    "Grisu.C27_partition"
   ],
   "note": ""
  },
  {
   "property": "C28",
   "status": "proved",
   "theorems": [
    "Grisu.C28_bits"
   ],
   "note": ""
  },
  {
   "property": "C29",
   "status": "proved",
   "theorems": [
    "Grisu.C29_return_sign",
    "Grisu.C29_handler"
   ],
   "note": ""
  },
  {
   "property": "C30",
   "status": "proved",
   "theorems": [
    "Grisu.C30_text",
    "Grisu.C30_prints"
   ],
   "note": ""
  },
  {
   "property": "C31",
   "status": "proved",
   "theorems": [
    "Grisu.C31_roundtrip",
    "Grisu.C31_returns"
   ],
   "note": ""
  },
  {
   "property": "C32",
   "status": "proved",
   "theorems": [
    "Grisu.C32_zero",
    "Grisu.C32_infinity",
    "Grisu.C32_nan"
   ],
   "note": ""
  },
  {
   "property": "C33",
   "status": "proved",
   "theorems": [
    "Grisu.C33_exact",
    "Grisu.C33_least",
    "Grisu.C33_buffer"
   ],
   "note": ""
  },
  {
   "property": "C34",
   "status": "proved",
   "theorems": [
    "Grisu.C34_exact",
    "Grisu.C34_terminated",
    "Grisu.C34_no_nul"
   ],
   "note": ""
  },
  {
   "property": "C35",
   "status": "proved",
   "theorems": [
    "Grisu.C35_canonical"
   ],
   "note": ""
  },
  {
   "property": "C36",
   "status": "proved",
   "theorems": [
    "Grisu.C36_decimal_length",
    "Grisu.C36_assert"
   ],
   "note": ""
  },
  {
   "property": "C37",
   "status": "proved",
   "theorems": [
    "Grisu.C37_injective"
   ],
   "note": ""
  },
  {
   "property": "C38",
   "status": "proved",
   "theorems": [
    "Grisu.C38_short_decimals",
    "Grisu.C38_short_decimals_truncating",
    "Grisu.C38_more_digits"
   ],
   "note": ""
  },
  {
   "property": "C39",
   "status": "partial",
   "theorems": [
    "Grisu.C39_minmax_euclid",
    "Grisu.C39_argmax_zero",
    "Grisu.C39_multiword_partial",
    "Grisu.C39_multiword_wrong"
   ],
   "note": "C39_minmax_euclid: the procedure on exact integers, for all a, b, N. On the multi-word integers of the code it is false in general (C39_multiword_wrong), because of their division (C57); proved for values below 2^63 (C39_multiword_partial) and for all calls of the tool (C73, C74)."
  },
  {
   "property": "C40",
   "status": "proved",
   "theorems": [
    "Grisu.C40_special"
   ],
   "note": "Outside the documented precondition; describes exactly what the code does."
  },
  {
   "property": "C41",
   "status": "proved",
   "theorems": [
    "Grisu.C41_zero",
    "Grisu.C41_zero_truncating"
   ],
   "note": "Outside the documented precondition; describes exactly what the code does."
  },
  {
   "property": "C42",
   "status": "proved",
   "theorems": [
    "Grisu.C42_range_truncating"
   ],
   "note": ""
  },
  {
   "property": "C43",
   "status": "proved",
   "theorems": [
    "Grisu.C43_portable_truncating"
   ],
   "note": ""
  },
  {
   "property": "C44",
   "status": "proved",
   "theorems": [
    "Grisu.C44_injective"
   ],
   "note": ""
  },
  {
   "property": "C45",
   "status": "proved",
   "theorems": [
    "Grisu.C45_monotone"
   ],
   "note": ""
  },
  {
   "property": "C46",
   "status": "proved",
   "theorems": [
    "Grisu.C46_log2p1"
   ],
   "note": ""
  },
  {
   "property": "C47",
   "status": "proved",
   "theorems": [
    "Grisu.C47_of_element",
    "Grisu.C47_power_of_2",
    "Grisu.C47_power_of_2_overflow"
   ],
   "note": ""
  },
  {
   "property": "C48",
   "status": "proved",
   "theorems": [
    "Grisu.C48_compare",
    "Grisu.C48_compare_element"
   ],
   "note": ""
  },
  {
   "property": "C49",
   "status": "proved",
   "theorems": [
    "Grisu.C49_add"
   ],
   "note": ""
  },
  {
   "property": "C50",
   "status": "partial",
   "theorems": [
    "Grisu.C50_add_element_partial",
    "Grisu.C50_stale_bit",
    "Grisu.C50_iff"
   ],
   "note": "False of the code when the leading bit moves within the leading element (C50_stale_bit); digits and leading element proved in all cases; C50_iff says exactly when it is right."
  },
  {
   "property": "C51",
   "status": "proved",
   "theorems": [
    "Grisu.C51_sub"
   ],
   "note": ""
  },
  {
   "property": "C52",
   "status": "partial",
   "theorems": [
    "Grisu.C52_decrement_partial",
    "Grisu.C52_wrong_position",
    "Grisu.C52_iff"
   ],
   "note": "False of the code (C52_wrong_position); digits proved in all cases; C52_iff says exactly when it is right."
  },
  {
   "property": "C53",
   "status": "partial",
   "theorems": [
    "Grisu.C53_multiply_element_partial",
    "Grisu.C53_times_zero",
    "Grisu.C53_iff"
   ],
   "note": "False for the element 0 and more than one element (C53_times_zero); C53_iff says exactly when it is right."
  },
  {
   "property": "C54",
   "status": "partial",
   "theorems": [
    "Grisu.C54_multiply_partial",
    "Grisu.C54_multiply_long_partial",
    "Grisu.C54_assertion_iff",
    "Grisu.C54_lost_carry",
    "Grisu.C54_iff",
    "Grisu.C54_zero_iff"
   ],
   "note": "False of the code in general (C54_lost_carry); C54_iff and C54_zero_iff say exactly when it is right, with assertions and without; with assertions it stops otherwise (C54_assertion_iff)."
  },
  {
   "property": "C55",
   "status": "proved",
   "theorems": [
    "Grisu.C55_multiply_5",
    "Grisu.C55_power_of_5"
   ],
   "note": ""
  },
  {
   "property": "C56",
   "status": "proved",
   "theorems": [
    "Grisu.C56_multiply_2_until"
   ],
   "note": ""
  },
  {
   "property": "C57",
   "status": "partial",
   "theorems": [
    "Grisu.C57_long_division_partial",
    "Grisu.C57_small_quotient_partial",
    "Grisu.C57_long_dividend_partial",
    "Grisu.C57_short_moves_partial",
    "Grisu.C57_even_divisor_partial",
    "Grisu.C57_two_elements_partial",
    "Grisu.C57_two_elements_wrong",
    "Grisu.C57_wrong_quotient",
    "Grisu.C57_assertion",
    "Grisu.C57_endless"
   ],
   "note": "False in general, with witnesses (wrong quotient, failing assertion, endless loop). Dividends of up to two elements: C57_two_elements_partial says exactly when it is right. Longer dividends: proved when the dividend has fewer than 64 binary digits more than the divisor, when the divisor is even and any 63 consecutive digits of the quotient contain a one, and more generally under two conditions on the rests; missing is the converse, exactly when it is wrong."
  },
  {
   "property": "C58",
   "status": "partial",
   "theorems": [
    "Grisu.C58_float",
    "Grisu.C58_double_partial",
    "Grisu.C58_undefined_shift"
   ],
   "note": "float: proved in full. double: the written table is proved equal to the header's for every value of the one undefined operation, a shift by 64, and it is proved that this operation is executed"
  },
  {
   "property": "C59",
   "status": "proved",
   "theorems": [
    "Grisu.C59_given_digits",
    "Grisu.C59_discarded"
   ],
   "note": "the random engine and the text conversion are parameters; the conversion is assumed to round to nearest even whenever it returns"
  },
  {
   "property": "C60",
   "status": "proved",
   "theorems": [
    "Grisu.C60_uniform"
   ],
   "note": ""
  },
  {
   "property": "C61",
   "status": "proved",
   "theorems": [
    "Grisu.C61_seeds",
    "Grisu.C61_empty"
   ],
   "note": ""
  },
  {
   "property": "C62",
   "status": "proved",
   "theorems": [
    "Grisu.C62_delta",
    "Grisu.C62_tool"
   ],
   "note": ""
  },
  {
   "property": "C63",
   "status": "proved",
   "theorems": [
    "Grisu.C63_same_exponent",
    "Grisu.C63_tool"
   ],
   "note": ""
  },
  {
   "property": "C64",
   "status": "proved",
   "theorems": [
    "Grisu.C64_tool"
   ],
   "note": ""
  },
  {
   "property": "C65",
   "status": "proved",
   "theorems": [
    "Grisu.C65_report",
    "Grisu.C65_log10_pow2",
    "Grisu.C65_log5_pow2",
    "Grisu.C65_log2_pow10_overflow"
   ],
   "note": ""
  },
  {
   "property": "C66",
   "status": "partial",
   "theorems": [
    "Grisu.C66_normal_partial",
    "Grisu.C66_subnormal"
   ],
   "note": "False of the code for subnormal numbers (C66_subnormal: exactly half); proved for normal numbers."
  },
  {
   "property": "C67",
   "status": "proved",
   "theorems": [
    "Grisu.C67_not_checked"
   ],
   "note": ""
  },
  {
   "property": "C68",
   "status": "proved",
   "theorems": [
    "Grisu.C68_double_inv",
    "Grisu.C68_double_pow",
    "Grisu.C68_float_inv",
    "Grisu.C68_float_pow",
    "Grisu.C68_words"
   ],
   "note": ""
  },
  {
   "property": "C69",
   "status": "proved",
   "theorems": [
    "Grisu.C69_decimal"
   ],
   "note": ""
  },
  {
   "property": "C70",
   "status": "proved",
   "theorems": [
    "Grisu.C70_double",
    "Grisu.C70_float",
    "Grisu.C70_terminated"
   ],
   "note": ""
  },
  {
   "property": "C71",
   "status": "proved",
   "theorems": [
    "Grisu.C71_uniform_test",
    "Grisu.C71_perf_test",
    "Grisu.C71_allocated"
   ],
   "note": ""
  },
  {
   "property": "C72",
   "status": "proved",
   "theorems": [
    "Grisu.C72_log2pow5",
    "Grisu.C72_log10Pow2",
    "Grisu.C72_log10Pow5",
    "Grisu.C72_sharp"
   ],
   "note": ""
  },
  {
   "property": "C73",
   "status": "proved",
   "theorems": [
    "Grisu.C73_negative_k"
   ],
   "note": ""
  },
  {
   "property": "C74",
   "status": "proved",
   "theorems": [
    "Grisu.C74_positive_k",
    "Grisu.C74_all_exponents"
   ],
   "note": ""
  },
  {
   "property": "C75",
   "status": "proved",
   "theorems": [
    "Grisu.C75_negative_k_files",
    "Grisu.C75_positive_k_files",
    "Grisu.C75_fits_cache"
   ],
   "note": ""
  },
  {
   "property": "C76",
   "status": "partial",
   "theorems": [
    "Grisu.C76_negative_partial",
    "Grisu.C76_negative_one_more_partial",
    "Grisu.C76_negative_cache",
    "Grisu.C76_negative_two_y_false",
    "Grisu.C76_positive_partial",
    "Grisu.C76_positive_boundary_partial",
    "Grisu.C76_positive_two_y_false",
    "Grisu.C76_positive_cache",
    "Grisu.C76_negative_iff",
    "Grisu.C76_positive_iff"
   ],
   "note": "False of the tool for the products 4f; C76_negative_iff and C76_positive_iff say exactly for which exponents and numbers of bits (60 of the 2300 rows are too small); the bits of the cache entries are proved to be enough for all."
  },
  {
   "property": "C77",
   "status": "proved",
   "theorems": [
    "Grisu.C77_float",
    "Grisu.C77_double",
    "Grisu.C77_float_constants",
    "Grisu.C77_double_constants"
   ],
   "note": ""
  },
  {
   "property": "C78",
   "status": "proved",
   "theorems": [
    "Grisu.C78_run",
    "Grisu.C78_files",
    "Grisu.C78_text_digits"
   ],
   "note": ""
  },
  {
   "property": "C79",
   "status": "proved",
   "theorems": [
    "Grisu.C79_dialogue"
   ],
   "note": ""
  },
  {
   "property": "C80",
   "status": "proved",
   "theorems": [
    "Grisu.C80_exact",
    "Grisu.C80_integers"
   ],
   "note": ""
  },
  {
   "property": "C81",
   "status": "proved",
   "theorems": [
    "Grisu.C81_best",
    "Grisu.C81_largest",
    "Grisu.C81_text"
   ],
   "note": ""
  },
  {
   "property": "C82",
   "status": "proved",
   "theorems": [
    "Grisu.C82_policies"
   ],
   "note": ""
  },
  {
   "property": "C83",
   "status": "proved",
   "theorems": [
    "Grisu.C83_modes",
    "Grisu.C83_range"
   ],
   "note": ""
  },
  {
   "property": "C84",
   "status": "proved",
   "theorems": [
    "Grisu.C84_pow",
    "Grisu.C84_inv",
    "Grisu.C84_upper",
    "Grisu.C84_table",
    "Grisu.C84_defined",
    "Grisu.C84_short",
    "Grisu.C84_bitcounts",
    "Grisu.C84_needed"
   ],
   "note": ""
  },
  {
   "property": "C85",
   "status": "proved",
   "theorems": [
    "Grisu.C85_delta",
    "Grisu.C85_rounding_bound",
    "Grisu.C85_removal",
    "Grisu.C85_log",
    "Grisu.C85_cache_length",
    "Grisu.C85_uniform"
   ],
   "note": ""
  },
  {
   "property": "C86",
   "status": "proved",
   "theorems": [
    "Grisu.C86_benchmark",
    "Grisu.C86_perf_test",
    "Grisu.C86_generate_cache",
    "Grisu.C86_log_first",
    "Grisu.C86_main",
    "Grisu.C86_repository",
    "Grisu.C86_live"
   ],
   "note": ""
  },
  {
   "property": "C87",
   "status": "proved",
   "theorems": [
    "Grisu.C87_conversion",
    "Grisu.C87_text",
    "Grisu.C87_text_nearest",
    "Grisu.C87_digits",
    "Grisu.C87_narrowing"
   ],
   "note": ""
  },
  {
   "property": "C88",
   "status": "proved",
   "theorems": [
    "Grisu.C88_symmetric",
    "Grisu.C88_iff",
    "Grisu.C88_text"
   ],
   "note": ""
  },
  {
   "property": "C89",
   "status": "proved",
   "theorems": [
    "Grisu.C89_between",
    "Grisu.C89_truncating",
    "Grisu.C89_truncating_ones",
    "Grisu.C89_exponent"
   ],
   "note": ""
  },
  {
   "property": "C90",
   "status": "proved",
   "theorems": [
    "Grisu.C90_alternatives",
    "Grisu.C90_last_digit",
    "Grisu.C90_text"
   ],
   "note": ""
  },
  {
   "property": "C91",
   "status": "proved",
   "theorems": [
    "Grisu.C91_reading",
    "Grisu.C91_truncating_reader",
    "Grisu.C91_away_reader",
    "Grisu.C91_nearest_reader",
    "Grisu.C91_every_reader",
    "Grisu.C91_text"
   ],
   "note": ""
  },
  {
   "property": "C92",
   "status": "proved",
   "theorems": [
    "Grisu.C92_double",
    "Grisu.C92_float",
    "Grisu.C92_terminated",
    "Grisu.C92_decimal",
    "Grisu.C92_same_text"
   ],
   "note": ""
  },
  {
   "property": "C93",
   "status": "proved",
   "theorems": [
    "Grisu.C93_uint128",
    "Grisu.C93_multiplication",
    "Grisu.C93_same_multiplication",
    "Grisu.C93_divisibility"
   ],
   "note": ""
  },
  {
   "property": "C94",
   "status": "proved",
   "theorems": [
    "Grisu.C94_shortest_text",
    "Grisu.C94_exceptions"
   ],
   "note": ""
  },
  {
   "property": "C95",
   "status": "proved",
   "theorems": [
    "Grisu.C95_nearest",
    "Grisu.C95_directed",
    "Grisu.C95_midpoint",
    "Grisu.C95_witness"
   ],
   "note": ""
  },
  {
   "property": "C96",
   "status": "proved",
   "theorems": [
    "Grisu.C96_survives",
    "Grisu.C96_subnormal",
    "Grisu.C96_sharp",
    "Grisu.C96_exception"
   ],
   "note": ""
  },
  {
   "property": "C97",
   "status": "proved",
   "theorems": [
    "Grisu.C97_directed",
    "Grisu.C97_nearest",
    "Grisu.C97_witness"
   ],
   "note": ""
  },
  {
   "property": "C98",
   "status": "proved",
   "theorems": [
    "Grisu.C98_result",
    "Grisu.C98_special",
    "Grisu.C98_trace",
    "Grisu.C98_exponent_wraps"
   ],
   "note": ""
  },
  {
   "property": "C99",
   "status": "proved",
   "theorems": [
    "Grisu.C99_unit",
    "Grisu.C99_multiple",
    "Grisu.C99_subnormal"
   ],
   "note": ""
  },
  {
   "property": "C100",
   "status": "proved",
   "theorems": [
    "Grisu.C100_result",
    "Grisu.C100_special",
    "Grisu.C100_trace",
    "Grisu.C100_one_too_small",
    "Grisu.C100_one_too_large",
    "Grisu.C100_wrong_digit"
   ],
   "note": ""
  },
  {
   "property": "C101",
   "status": "proved",
   "theorems": [
    "Grisu.C101_half",
    "Grisu.C101_relative",
    "Grisu.C101_relative_directed",
    "Grisu.C101_enclose"
   ],
   "note": ""
  }
 ]
}
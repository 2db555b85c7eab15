{"id": "C01", "title": "grisu_exact terminates without assertion failure or undefined behaviour (nearest and away-from-zero-type modes)", "statement": "For every finite nonzero float or double, every to-nearest rounding mode and every directed mode whose interval is (w-,w] (away_from_zero; toward_plus_infinity on positive; toward_minus_infinity on negative input), and every correct-rounding policy, jkj::grisu_exact returns normally: no assert fails, no table is indexed out of bounds, no shift amount is out of range, no signed int overflows, no count-trailing-zeros of 0, and every loop ends.", "quantifier": "all 2^32 / 2^64 bit patterns that are finite and nonzero x all listed rounding modes x all 5 correct-rounding policies x both code paths (x86-64 builtins / portable) x asserts on or off", "why_tests_cant": "binary64 has about 2^64 inputs per mode and policy; only a proof covers them all", "anchors": ["grisu_exact.h: grisu_exact", "grisu_exact.h: grisu_exact_impl::compute", "grisu_exact.h: get_cache"]}
{"id": "C02", "title": "Round trip in the to-nearest modes", "statement": "For every finite nonzero float/double x, each of the ten to-nearest rounding modes and every correct-rounding policy, the decimal significand*10^exponent returned by grisu_exact rounds, under that same IEEE rounding rule (nearest with that tie rule, with the overflow threshold treated as in IEEE-754), to exactly the magnitude of x.", "quantifier": "all finite nonzero bit patterns of binary32 and binary64, 10 nearest modes, 5 policies", "why_tests_cant": "about 2^64 inputs; the cache-precision argument is number-theoretic and cannot be settled by sampling", "anchors": ["grisu_exact.h: grisu_exact", "grisu_exact.h: grisu_exact_rounding_modes", "grisu_exact.h: grisu_exact_impl::compute", "grisu_exact.h: compute_mul"]}
{"id": "C03", "title": "Shortest output in the to-nearest modes", "statement": "In the to-nearest modes no pair (s',t') with s'>0 whose value rounds back to x has fewer decimal significand digits than the significand returned by grisu_exact.", "quantifier": "all finite nonzero inputs, 10 nearest modes, 5 policies, and all competing pairs (s',t') of unbounded size", "why_tests_cant": "quantifies over all inputs and over an infinite set of competitors", "anchors": ["grisu_exact.h: grisu_exact", "grisu_exact.h: increasing_search", "grisu_exact.h: is_zf_smaller_than_deltaf"]}
{"id": "C04", "title": "Correct rounding: closest among the shortest, in the to-nearest modes", "statement": "In the to-nearest modes and with any correct-rounding policy except do_not_care, no other decimal with the same number of significand digits that rounds back to x is strictly closer to the exact value of x than the returned one.", "quantifier": "all finite nonzero inputs, 10 nearest modes, 4 policies, all competitors of the same digit count and any exponent", "why_tests_cant": "depends on exact fractional comparisons at rare ties; the magic exponents 59 and -203 in the code matter on single inputs", "anchors": ["grisu_exact.h: grisu_exact", "grisu_exact.h: compute (correct_rounding_search_label)", "grisu_exact.h: compute (correct_rounding_search_when_kappa_is_0_label)"]}
{"id": "C05", "title": "Tie policies of the correct-rounding search", "statement": "In the to-nearest modes, whenever another decimal with the same exponent and digit count, rounding back to x, lies at exactly the same distance from x, then: tie_to_even returns an even significand, tie_to_odd an odd one, tie_to_up returns the larger of the two and tie_to_down the smaller.", "quantifier": "all finite nonzero inputs with a tie, 10 nearest modes, 4 policies", "why_tests_cant": "exact ties are a measure-zero set of inputs that random tests essentially never hit", "anchors": ["grisu_exact.h: grisu_exact_correct_rounding", "grisu_exact.h: compute (Step 4)", "grisu_exact.h: is_product_integer"]}
{"id": "C06", "title": "Directed modes of type (w-,w]: round trip, shortest, closest", "statement": "For away_from_zero, toward_plus_infinity on positive x and toward_minus_infinity on negative x, the returned decimal d satisfies pred(|x|) < d <= |x| (so it rounds back to x), no decimal with fewer digits does, and none with the same number of digits is closer to x; this for every policy including do_not_care.", "quantifier": "all finite nonzero inputs, 3 modes, 5 policies, all competitors", "why_tests_cant": "2^64 inputs and infinitely many competitors", "anchors": ["grisu_exact.h: toward_plus_infinity", "grisu_exact.h: toward_minus_infinity", "grisu_exact.h: away_from_zero", "grisu_exact.h: right_closed_directed"]}
{"id": "C07", "title": "Directed modes of type [w,w+): round trip", "statement": "For toward_zero, toward_plus_infinity on negative x and toward_minus_infinity on positive x, whenever grisu_exact returns, the returned decimal d satisfies |x| <= d < succ(|x|), so it rounds back to x.", "quantifier": "all finite nonzero inputs, 3 modes, 5 policies", "why_tests_cant": "2^64 inputs", "anchors": ["grisu_exact.h: toward_zero", "grisu_exact.h: left_closed_directed", "grisu_exact.h: compute"]}
{"id": "C08", "title": "Directed modes of type [w,w+): shortest output", "statement": "For toward_zero (and the other two left-closed cases) no decimal that rounds back to x has fewer digits than the returned one. (Expected by the README; false of the code on some inputs whose trailing significand is all ones, true on all others.)", "quantifier": "all finite nonzero inputs, 3 modes, 5 policies, all competitors", "why_tests_cant": "the failures are a handful of inputs among 2^64", "anchors": ["grisu_exact.h: compute (fr == 0 overflow case)", "grisu_exact.h: is_product_integer", "grisu_exact.h: divisible_by_power_of_5"]}
{"id": "C09", "title": "Directed modes of type [w,w+): correct rounding", "statement": "For toward_zero (and the other two left-closed cases) with a policy other than do_not_care, no decimal of the same digit count that rounds back to x is closer to x than the returned one. (Expected by the README; false of the code when the last step of the digit search lands exactly on the integer part of delta.)", "quantifier": "all finite nonzero inputs, 3 modes, 4 policies, all competitors", "why_tests_cant": "the failing inputs are rare; the rest can only be covered by proof", "anchors": ["grisu_exact.h: compute lines 2088-2143"]}
{"id": "C10", "title": "Directed modes of type [w,w+): absence of assertion failure and undefined behaviour", "statement": "For toward_zero (and the other two left-closed cases) grisu_exact returns normally. (False of the code: on some inputs whose trailing significand is all ones the right endpoint wraps to 0 and divisible_by_power_of_2(0,..) is called, which fails its assert or evaluates ctz(0). True on all other inputs.)", "quantifier": "all finite nonzero inputs, 3 modes, 5 policies, both code paths, asserts on/off", "why_tests_cant": "the failing inputs are about 100 of 2^64", "anchors": ["grisu_exact.h: compute line 1819, 1839, 2014", "grisu_exact.h: divisible_by_power_of_2"]}
{"id": "C11", "title": "do_not_care policy keeps round trip and shortness", "statement": "With do_not_care, in the to-nearest and (w-,w] modes the result still rounds back to x and has the minimum number of digits; moreover it is the largest decimal with that exponent that rounds back to x.", "quantifier": "all finite nonzero inputs, nearest and right-closed modes", "why_tests_cant": "2^64 inputs", "anchors": ["grisu_exact.h: do_not_care", "grisu_exact.h: compute (boundary_adjustment_label)"]}
{"id": "C12", "title": "Sign handling", "statement": "is_negative in the result is exactly the sign bit of x. For the sign-symmetric modes significand and exponent do not depend on the sign bit; for the sign-dependent modes, flipping the sign of x is the same as exchanging plus and minus infinity in the mode.", "quantifier": "all bit patterns, all rounding modes, all policies", "why_tests_cant": "pairs of inputs over the whole domain", "anchors": ["grisu_exact.h: grisu_exact", "grisu_exact.h: bit_representation_t::is_negative", "grisu_exact.h: grisu_exact_rounding_modes"]}
{"id": "C13", "title": "Static-boundary modes are the same functions", "statement": "nearest_to_even_static_boundary, nearest_to_odd_static_boundary, nearest_toward_plus_infinity_static_boundary and nearest_toward_minus_infinity_static_boundary return, on every input and for every policy, exactly what the mode without _static_boundary returns.", "quantifier": "all bit patterns (even non-finite), 4 pairs of modes, 5 policies", "why_tests_cant": "equality of two functions on 2^64 inputs", "anchors": ["grisu_exact.h: nearest_to_even_static_boundary", "grisu_exact.h: nearest_to_odd_static_boundary", "grisu_exact.h: nearest_toward_plus_infinity_static_boundary", "grisu_exact.h: nearest_toward_minus_infinity_static_boundary"]}
{"id": "C14", "title": "No trailing zeros, nonzero significand", "statement": "In the nearest and (w-,w] modes the returned significand is nonzero and not divisible by 10.", "quantifier": "all finite nonzero inputs, those modes, all policies", "why_tests_cant": "2^64 inputs", "anchors": ["grisu_exact.h: grisu_exact"]}
{"id": "C15", "title": "Significand digit bound", "statement": "The returned significand has at most 9 decimal digits for float and at most 17 for double (the precondition of the string printer).", "quantifier": "all finite nonzero inputs, all nearest and (w-,w] modes, all policies", "why_tests_cant": "2^64 inputs", "anchors": ["grisu_exact.h: grisu_exact", "fp_to_chars/fp_to_chars.cpp: decimal_length"]}
{"id": "C16", "title": "Exponent range", "statement": "The decimal exponent of the printed scientific notation (exponent + digits - 1) lies in [-45,38] for float and [-324,308] for double, so two resp. three digits suffice to print it.", "quantifier": "all finite nonzero inputs, nearest and (w-,w] modes, all policies", "why_tests_cant": "2^64 inputs", "anchors": ["grisu_exact.h: grisu_exact", "fp_to_chars/fp_to_chars.cpp: fp_to_chars_impl"]}
{"id": "C17", "title": "Portability of the result", "statement": "The x86-64 builtin path and the portable fallback path, with asserts on or off, return the same result on every finite nonzero input in the nearest and (w-,w] modes.", "quantifier": "all finite nonzero inputs, those modes, all policies, all pairs of build configurations", "why_tests_cant": "no single build can compare the paths; 2^64 inputs", "anchors": ["grisu_exact.h: umul128", "grisu_exact.h: umul128_upper64", "grisu_exact.h: umul192_upper64", "grisu_exact.h: umul96_upper32", "grisu_exact.h: divisible_by_power_of_2"]}
{"id": "C18", "title": "Wide multiplications are exact", "statement": "umul128 returns the exact 128-bit product, umul128_upper64 its upper half, umul192_upper64 the upper 64 bits of the exact 192-bit product and umul96_upper32 the upper 32 bits of the exact 96-bit product, on both code paths.", "quantifier": "all pairs of 32/64/128-bit operands", "why_tests_cant": "2^128 or 2^192 operand pairs", "anchors": ["grisu_exact.h: umul64", "grisu_exact.h: umul128", "grisu_exact.h: umul128_upper64", "grisu_exact.h: umul192_upper64", "grisu_exact.h: umul96_upper32"]}
{"id": "C19", "title": "Divisibility tests are exact", "statement": "divisible_by_power_of_5(x,n) is true iff 5^n divides x for every 32-/64-bit x and every n below the table size (12 resp. 24); divisible_by_power_of_2(x,n) is true iff 2^n divides x for every x != 0 and n >= 1, on both code paths; both agree with the compile-time generated table.", "quantifier": "all x of the type and all admissible n", "why_tests_cant": "2^64 operands times 24 exponents", "anchors": ["grisu_exact.h: divisible_by_power_of_2", "grisu_exact.h: divisible_by_power_of_5", "grisu_exact.h: compute_modular_inverse_of_5", "grisu_exact.h: generate_divisibility_test_table"]}
{"id": "C20", "title": "floor_log10_pow2 is exact on its documented range", "statement": "floor_log10_pow2(e) = floor(e*log10(2)) for every e in [-1650,1650], without signed overflow; outside that range the assert fires.", "quantifier": "all int e in the documented range", "why_tests_cant": "a claim about every e against a real-number specification", "anchors": ["grisu_exact.h: floor_log10_pow2"]}
{"id": "C21", "title": "floor_log2_pow10 on its documented range", "statement": "floor_log2_pow10(e) = floor(e*log2(10)) for every e in [-642,642] without signed overflow. (False of the code: the 32-bit product overflows for |e| >= 617; exact on [-616,616], which includes every call made by the library.)", "quantifier": "all int e in the documented range", "why_tests_cant": "constant-expression evaluation never reaches the failing arguments", "anchors": ["grisu_exact.h: floor_log2_pow10"]}
{"id": "C22", "title": "floor_log5_pow2 is exact on its documented range", "statement": "floor_log5_pow2(e) = floor(e*log5(2)) for every e in [-65536,65536], without overflow.", "quantifier": "all int e in the documented range", "why_tests_cant": "a claim against a real-number specification for 131073 arguments with 65536-bit powers", "anchors": ["grisu_exact.h: floor_log5_pow2"]}
{"id": "C23", "title": "Cache tables hold correctly rounded powers of ten", "statement": "get_cache<Float>(k), for every k in [min_k,max_k], is the 64- resp. 128-bit normalised significand of 10^k: rounded down (exact where possible) for k >= 0 and rounded down plus one for k < 0; its top bit is set, and the table has exactly max_k-min_k+1 entries.", "quantifier": "all 77 + 616 table entries", "why_tests_cant": "a table-wide fact about exact rational values", "anchors": ["grisu_exact.h: cache_holder<float>", "grisu_exact.h: cache_holder<double>", "grisu_exact.h: get_cache"]}
{"id": "C24", "title": "Cache precision suffices: truncated products are exact floors", "statement": "For every exponent e of the format and every significand-like multiplier f that the algorithm uses (multiples of 2^(q-p-2) up to 2^q), compute_mul(f, cache) = floor(f * 2^e * 10^k) exactly, although the cache is a rounded value.", "quantifier": "all exponents (254 / 2046) and all f (2^25 / 2^54 per exponent)", "why_tests_cant": "2^65 combinations; the repository only argues it with an offline number-theoretic program", "anchors": ["grisu_exact.h: compute_mul", "grisu_exact.h: compute_delta", "tests/verify_cache_length.cpp"]}
{"id": "C25", "title": "Distinct numbers have distinct outputs", "statement": "In a to-nearest or (w-,w] mode, two finite nonzero inputs of the same format whose results have the same significand, exponent and sign are the same input.", "quantifier": "all pairs of inputs", "why_tests_cant": "2^128 pairs", "anchors": ["grisu_exact.h: grisu_exact"]}
{"id": "C26", "title": "Monotonicity", "statement": "In a fixed to-nearest mode or in away_from_zero, if 0 < x < y are finite then the decimal returned for x is strictly smaller than the one returned for y.", "quantifier": "all pairs of positive finite inputs, policies may differ", "why_tests_cant": "2^128 pairs", "anchors": ["grisu_exact.h: grisu_exact"]}
{"id": "C27", "title": "Bit classification is total and exclusive", "statement": "For every bit pattern exactly one of {finite nonzero, zero, infinity, NaN} holds by the inspector methods, is_subnormal/is_finite/is_infinity/is_nan agree with the IEEE fields, exactly one of is_negative/is_positive holds, every NaN is exactly one of quiet or signaling, and get_nan_payload is the low precision-1 bits.", "quantifier": "all 2^32 and 2^64 bit patterns", "why_tests_cant": "2^64 patterns", "anchors": ["grisu_exact.h: bit_representation_t"]}
{"id": "C28", "title": "get_bit_representation / as_ieee754 round trip", "statement": "as_ieee754(get_bit_representation(x)) has the same bits as x for every x, including NaN payloads and signed zeros; field extraction followed by recomposition gives the same bits.", "quantifier": "all bit patterns", "why_tests_cant": "2^64 patterns", "anchors": ["grisu_exact.h: get_bit_representation", "grisu_exact.h: bit_representation_t::as_ieee754", "grisu_exact.h: extract_significand_bits", "grisu_exact.h: extract_exponent_bits"]}
{"id": "C29", "title": "return_sign does not change the digits", "statement": "grisu_exact<false> returns the same significand and exponent as grisu_exact<true>, and the case handlers assert_finite and ignore_special_cases give the same result on finite inputs.", "quantifier": "all bit patterns, modes and policies", "why_tests_cant": "2^64 inputs", "anchors": ["grisu_exact.h: grisu_exact", "grisu_exact.h: fp_t", "grisu_exact.h: grisu_exact_case_handlers"]}
{"id": "C30", "title": "Printed string denotes the returned decimal", "statement": "For finite nonzero x, fp_to_chars_n writes optional - , one digit, optionally . and more digits, then E and an exponent, and reading this text as scientific notation gives exactly (-1)^sign * significand * 10^exponent of grisu_exact.", "quantifier": "all finite nonzero inputs, all nearest and (w-,w] modes, all policies", "why_tests_cant": "digit placement depends on all 17 digit counts, block splits and 2^64 values", "anchors": ["fp_to_chars/fp_to_chars.cpp: fp_to_chars_impl", "fp_to_chars/fp_to_chars.cpp: decimal_length", "fp_to_chars.h: fp_to_chars_n"]}
{"id": "C31", "title": "String round trip", "statement": "Reading the text produced by fp_to_chars as a rational and rounding it by the same IEEE rule gives back the sign and magnitude of x.", "quantifier": "all finite nonzero inputs, nearest and (w-,w] modes, all policies", "why_tests_cant": "2^64 inputs", "anchors": ["fp_to_chars.h: fp_to_chars", "fp_to_chars.h: fp_to_chars_n"]}
{"id": "C32", "title": "Special values print as documented", "statement": "Zeros print 0E0 / -0E0, infinities Infinity / -Infinity, and every NaN (any payload, any sign) prints NaN.", "quantifier": "all zero, infinite and NaN bit patterns (2^53-2 NaN patterns for double)", "why_tests_cant": "2^53 NaN payloads", "anchors": ["fp_to_chars.h: fp_to_chars_n"]}
{"id": "C33", "title": "Buffer safety of the printer", "statement": "fp_to_chars_n never writes outside the first 24 bytes (double) / 15 bytes (float) of the buffer, fp_to_chars never beyond 25 / 16 (so the documented 31-byte buffer is enough), and every byte before the returned pointer has been written. A buffer of exactly as many bytes as the call's text has is enough and one byte less is not: the call then writes out of bounds.", "quantifier": "all bit patterns incl. non-finite, nearest and (w-,w] modes, all policies", "why_tests_cant": "memory safety for every input", "anchors": ["fp_to_chars.h: fp_to_chars_n", "fp_to_chars/fp_to_chars.cpp: fp_to_chars_impl"]}
{"id": "C34", "title": "Null termination", "statement": "fp_to_chars writes the same bytes as fp_to_chars_n, returns the same pointer and stores NUL exactly there; no NUL occurs earlier in the text; one byte more than the text is exactly what it needs.", "quantifier": "all bit patterns, modes, policies", "why_tests_cant": "2^64 inputs", "anchors": ["fp_to_chars.h: fp_to_chars"]}
{"id": "C35", "title": "Canonical text", "statement": "The mantissa of the printed text starts with a nonzero digit, its fraction part (if any) does not end in 0, there is no bare decimal point, and the exponent has no plus sign and no leading zero.", "quantifier": "all finite nonzero inputs, nearest and (w-,w] modes, all policies", "why_tests_cant": "2^64 inputs", "anchors": ["fp_to_chars/fp_to_chars.cpp: fp_to_chars_impl"]}
{"id": "C36", "title": "decimal_length is exact", "statement": "decimal_length(v) is the number of decimal digits of v for every 1 <= v < 10^9 (32-bit) resp. < 10^17 (64-bit).", "quantifier": "all v below the documented precondition", "why_tests_cant": "10^17 values", "anchors": ["fp_to_chars/fp_to_chars.cpp: decimal_length"]}
{"id": "C37", "title": "Different values print differently", "statement": "Two bit patterns that are not NaN and print the same text (nearest modes or away_from_zero) are equal.", "quantifier": "all pairs of non-NaN bit patterns", "why_tests_cant": "2^128 pairs", "anchors": ["fp_to_chars.h: fp_to_chars_n"]}
{"id": "C38", "title": "Short decimals survive decimal -> double -> decimal", "statement": "If a decimal D with at most 15 (double) / 6 (float) significant digits rounds, in nearest-even, to a finite normal x, then grisu_exact(x) (default mode) returns exactly the value D.", "quantifier": "all decimals with at most 15/6 digits whose nearest float is normal", "why_tests_cant": "10^15 significands times 600 exponents", "anchors": ["grisu_exact.h: grisu_exact"]}
{"id": "C39", "title": "Min-max Euclid procedure used to validate the cache", "statement": "For positive a,b,N, minmax_euclid(a,b,N) returns the minimum and the maximum of (a*n mod b) over 1<=n<=N together with attaining arguments (the offline tool on which the library bases its cache width), on integers and on the multi-word integers the tool uses.", "quantifier": "all positive a,b and all positive N of 64 bits; multi-word integers of any number of elements", "why_tests_cant": "unbounded integers", "anchors": ["tests/verify_cache_length.cpp: minmax_euclid"]}
{"id": "C40", "title": "Infinities and NaNs never produce a result", "statement": "On an infinity or NaN grisu_exact never returns, in any rounding mode, policy or case handler: with asserts an assertion fails; without asserts the cache table is read out of bounds.", "quantifier": "all infinities and NaNs (all payloads and signs), all modes, policies, handlers and builds", "why_tests_cant": "2^53 NaN payloads; undefined behaviour is not observable by a test", "anchors": ["grisu_exact.h: grisu_exact, grisu_exact_case_handlers, get_cache"]}
{"id": "C41", "title": "Zeros", "statement": "On +0 and -0 the nearest and (w-,w] modes return significand 0; the [w,w+) modes fail an assertion, or evaluate ctz(0), or (portable code without asserts) return a nonzero decimal below the smallest positive number.", "quantifier": "both zeros, all modes, policies, handlers and builds", "why_tests_cant": "undefined behaviour in one build and a plausible value in another", "anchors": ["grisu_exact.h: grisu_exact, divisible_by_power_of_2"]}
{"id": "C42", "title": "Digit and exponent range in the [w,w+) modes", "statement": "Whenever a [w,w+) mode returns, the significand has no trailing zero and at most 9 (17) digits and the scientific exponent is in [-45,38] ([-324,308]).", "quantifier": "all finite nonzero inputs, all [w,w+) modes, policies and builds", "why_tests_cant": "2^64 inputs", "anchors": ["grisu_exact.h: grisu_exact_impl::compute"]}
{"id": "C43", "title": "Portability in the [w,w+) modes", "statement": "Two builds that both return on the same input return the same result.", "quantifier": "all finite nonzero inputs, all pairs of builds", "why_tests_cant": "2^64 inputs times build configurations", "anchors": ["grisu_exact.h: grisu_exact_impl::compute"]}
{"id": "C44", "title": "Distinct numbers have distinct outputs in every mode", "statement": "In any rounding mode two finite nonzero inputs with the same result (significand, exponent, sign) are the same input.", "quantifier": "all pairs of finite nonzero inputs, all modes, policies and builds", "why_tests_cant": "2^128 pairs", "anchors": ["grisu_exact.h: grisu_exact"]}
{"id": "C45", "title": "Monotonicity in every mode", "statement": "In any fixed rounding mode, for numbers of the same sign the larger magnitude gives the larger decimal whenever both calls return.", "quantifier": "all pairs of finite nonzero inputs of the same sign, all modes, policies and builds", "why_tests_cant": "2^128 pairs", "anchors": ["grisu_exact.h: grisu_exact"]}
{"id": "C46", "title": "Leading-one position", "statement": "The helper that computes the position of the leading one returns the number of binary digits of its argument (0 for 0).", "quantifier": "all 64-bit numbers", "why_tests_cant": "2^64 arguments", "anchors": ["tests/bigint.h: bigint_base::log2p1"]}
{"id": "C47", "title": "Construction of multi-word integers", "statement": "Constructing a multi-word integer from a single element, or a power of two with an exponent that fits, yields exactly that number in canonical form; an exponent that does not fit stops at the assertion, or writes out of bounds in builds without assertions.", "quantifier": "all array sizes, all elements, all exponents", "why_tests_cant": "unbounded array sizes", "anchors": ["tests/bigint.h: bigint_impl::bigint_impl", "tests/bigint.h: bigint_impl::power_of_2"]}
{"id": "C48", "title": "Comparison of multi-word integers", "statement": "The six comparison operators between two multi-word integers, and the six with a single element, agree with the comparison of the numbers represented.", "quantifier": "all array sizes, all pairs of numbers that fit", "why_tests_cant": "unbounded", "anchors": ["tests/bigint.h: operator<", "tests/bigint.h: operator<=", "tests/bigint.h: operator>", "tests/bigint.h: operator>=", "tests/bigint.h: operator==", "tests/bigint.h: operator!="]}
{"id": "C49", "title": "Addition of multi-word integers", "statement": "+= yields the canonical representation of the sum whenever the sum fits, without failing an assertion or touching memory out of bounds.", "quantifier": "all array sizes, all pairs of numbers whose sum fits", "why_tests_cant": "unbounded; carries through arbitrarily many elements", "anchors": ["tests/bigint.h: bigint_impl::operator+="]}
{"id": "C50", "title": "Addition of a single element", "statement": "+= with a single element yields the canonical representation of the sum whenever it fits.", "quantifier": "all array sizes, numbers and elements whose sum fits", "why_tests_cant": "unbounded", "anchors": ["tests/bigint.h: bigint_impl::operator+=(element_type)"]}
{"id": "C51", "title": "Subtraction of multi-word integers", "statement": "-= yields the canonical representation of the difference whenever the result is not negative.", "quantifier": "all array sizes, all pairs a >= b", "why_tests_cant": "unbounded; borrows through arbitrarily many elements", "anchors": ["tests/bigint.h: bigint_impl::operator-="]}
{"id": "C52", "title": "Decrement of multi-word integers", "statement": "-- yields the canonical representation of the predecessor of every positive number.", "quantifier": "all array sizes, all positive numbers", "why_tests_cant": "unbounded", "anchors": ["tests/bigint.h: bigint_impl::operator--"]}
{"id": "C53", "title": "Multiplication by a single element", "statement": "*= with a single element yields the canonical representation of the product whenever it fits.", "quantifier": "all array sizes, numbers and elements whose product fits", "why_tests_cant": "unbounded", "anchors": ["tests/bigint.h: bigint_impl::operator*=(element_type)"]}
{"id": "C54", "title": "Multiplication of multi-word integers", "statement": "operator* yields the canonical representation of the product whenever it fits.", "quantifier": "all array sizes, all pairs whose product fits", "why_tests_cant": "unbounded", "anchors": ["tests/bigint.h: operator*"]}
{"id": "C55", "title": "Multiplication by five", "statement": "multiply_5 yields the canonical representation of five times a positive number whenever it fits; repeating it from 1 yields the powers of five.", "quantifier": "all array sizes, all positive numbers whose multiple fits, all exponents that fit", "why_tests_cant": "unbounded", "anchors": ["tests/bigint.h: bigint_impl::multiply_5"]}
{"id": "C56", "title": "Scaling by a power of two", "statement": "multiply_2_until doubles a positive number a, at most b, exactly as often as is necessary to reach b, and returns the count.", "quantifier": "all array sizes below 2^57, all pairs 0 < a <= b with room for the result", "why_tests_cant": "unbounded", "anchors": ["tests/bigint.h: bigint_impl::multiply_2_until"]}
{"id": "C57", "title": "Long division", "statement": "long_division terminates, returns the quotient and leaves the remainder, both in canonical form, for every nonzero divisor.", "quantifier": "all array sizes, all dividends, all nonzero divisors", "why_tests_cant": "unbounded", "anchors": ["tests/bigint.h: bigint_impl::long_division"]}
{"id": "C58", "title": "The cache generator reproduces the tables of the header", "statement": "Running the table generator writes, for float, exactly the 77 constants and, for double, exactly the 616 pairs of constants that the header embeds, without undefined behaviour and without a failing assertion on the way.", "quantifier": "both formats, assertions on or off, and every possible outcome of an over-wide shift", "why_tests_cant": "The generator is run by hand and its output pasted into the header; comparing the two files once says nothing about whether the output depends on undefined behaviour of the compiler used.", "anchors": ["tests/generate_cache.cpp: generate_cache_bitset, get_upper_bits, generate_cache", "grisu_exact.h: cache_holder", "tests/bigint.h"]}
{"id": "C59", "title": "Random numbers with a given number of digits need that many digits", "statement": "When the test generator for a requested digit count (1 to 9 for float, 1 to 17 for double) returns a number, the shortest decimals that read back as it have exactly that many digits and the number has the drawn sign; the only exception is zero for one digit. It never overflows, asserts or converts an unsupported number, and it discards a draw only if the text conversion refuses it or fewer digits suffice.", "quantifier": "every format, digit count, sign, sequence of draws within the distributions' ranges, and every text-to-number conversion that rounds correctly when it returns", "why_tests_cant": "It is the generator of the test and benchmark data; a bias shows up only as missing or mislabelled cases among about 10^17 outcomes.", "anchors": ["tests/random_float.h: randomly_generate_float_with_given_digits", "grisu_exact.h: grisu_exact"]}
{"id": "C60", "title": "The uniform generator reaches every finite number exactly once", "statement": "The generator of finite floating-point numbers maps its three draws one-to-one onto the bit patterns of finite numbers: it never yields an infinity or NaN, and each finite pattern (both zeros included) comes from exactly one triple of draws, so uniform independent draws give a uniform number.", "quantifier": "all triples of draws in range and all finite bit patterns of both formats", "why_tests_cant": "Uniformity and surjectivity over 2^64 patterns cannot be sampled.", "anchors": ["tests/random_float.h: uniformly_randomly_generate_finite_float"]}
{"id": "C61", "title": "The seed sequence repeats its stored values cyclically", "statement": "Generating into an array of any length writes every position, position i getting the stored value number i modulo the number of stored values, and nothing outside the array is written; with no stored value the behaviour is undefined (division by zero).", "quantifier": "all lists of stored values and all array lengths", "why_tests_cant": "Lengths that are not multiples of the stored count, empty arrays and arbitrary contents form an unbounded family.", "anchors": ["tests/random_float.h: repeating_seed_seq::generate"]}
{"id": "C62", "title": "The short formula for the interval length agrees with the full multiplication", "statement": "For every power of ten in the tables and every shift that can occur, the length of the rounding interval of a power of two computed by the short formula (subtraction and shift of the cached word) equals the result of multiplying the exact length by the cached power with the general multiplication; the tool that compares them reports success.", "quantifier": "every format, configuration, cached power of ten and shift amount from 2 to 5", "why_tests_cant": "The tool covers one shift amount per power; the other shifts and the portable multiplication are reached only by particular exponents.", "anchors": ["tests/verify_delta_computation.cpp: verify_single_type", "grisu_exact.h: compute_delta, compute_mul, get_cache"]}
{"id": "C63", "title": "Powers of two print with the same exponent for open and closed intervals", "statement": "Every normal power of two is converted, without fault, to decimals with the same exponent whether the ends of the rounding interval are included or not; and the tool that bounds the number of steps of the correct rounding search for them reports success in every configuration, printing no line for float and exactly the four powers of two with five steps for double.", "quantifier": "every format, configuration and biased exponent of a normal number", "why_tests_cant": "The tool has to be built and run on every platform; its verdict is here derived for every configuration, including assertions and the portable arithmetic.", "anchors": ["tests/verify_correct_rounding_bound.cpp: verify_single_type", "grisu_exact.h: grisu_exact"]}
{"id": "C64", "title": "The only exceptional exponents are the ones handled specially", "statement": "The tool that looks for powers of two whose rounded-down candidate would leave the rounding interval runs without fault and confirms that the exponent treated specially in the code is the only exception, printing exactly two coincidences of integer parts for either format.", "quantifier": "every format, configuration and biased exponent of a normal number", "why_tests_cant": "It is the justification of a hard-coded special case, so no test of the output shows whether the case is complete on every configuration.", "anchors": ["tests/verify_incorrect_rounding_removal.cpp: verify_single_type", "grisu_exact.h: compute_mul, compute_delta, equal_fractional_parts"]}
{"id": "C65", "title": "What the tool for logarithms reports: 1650 for base 10, the full range for base 5, an overflow for base 2", "statement": "The tool that checks the logarithm approximations reports the last exponent before the first mismatch. The tool that checks the logarithm approximations reports validity up to 1650 for the base-10 logarithm of powers of two, all its multi-word divisions being right, and up to 65536 for the base-5 logarithm of powers of two without ever needing a multi-word division, whereas the loop for the base-2 logarithm of powers of ten executes a signed 32-bit overflow at 617 and so has undefined behaviour before it reports.", "quantifier": "every configuration", "why_tests_cant": "Undefined behaviour of a checking tool does not show in its output: with wrapping arithmetic it prints a plausible number.", "anchors": ["tests/verify_log_computation.cpp: verify_log_computation", "grisu_exact.h: floor_log5_pow2, floor_log2_pow10"]}
{"id": "C66", "title": "The interactive test shows the value of the number", "statement": "The sign, exponent and significand that the interactive test prints for a finite number determine that number: sign of the input, and significand times 2 to the exponent equal to its magnitude, with the leading bit of the significand set. This holds for normal numbers and fails for every nonzero subnormal one, for which the printed pair is half of the magnitude.", "quantifier": "every format, configuration and finite bit pattern", "why_tests_cant": "The output is for a person to read; a wrong exponent for subnormal numbers is not compared with anything.", "anchors": ["tests/live_test.cpp: decompose_float"]}
{"id": "C67", "title": "The interactive test's check for finite numbers never fails", "statement": "The assertion that the number typed in is finite cannot fail: infinities and NaNs are decomposed like finite numbers in every configuration.", "quantifier": "every format, configuration and bit pattern of an infinity or NaN", "why_tests_cant": "An assertion that never fires looks the same as one that is never violated.", "anchors": ["tests/live_test.cpp: decompose_float"]}
{"id": "C68", "title": "The tables of the reference printer are exact", "statement": "Each entry of the table of inverse powers of five is floor(2^k / 5^q) + 1 with the documented k, each entry of the table of powers of five consists of the documented number of leading bits of 5^i, for double and for float, for all indices; every word fits in 64 bits.", "quantifier": "all four tables, every index", "why_tests_cant": "The tests compare outputs on random numbers; most table entries influence the outputs of few numbers, and a wrong low bit those of almost none.", "anchors": ["benchmark/ryu/d2s_full_table.h: DOUBLE_POW5_INV_SPLIT, DOUBLE_POW5_SPLIT", "benchmark/ryu/f2s_full_table.h: FLOAT_POW5_INV_SPLIT, FLOAT_POW5_SPLIT"]}
{"id": "C69", "title": "The reference printer writes the shortest and closest decimal", "statement": "On every finite nonzero input, in every build configuration, the reference printer returns without failed assertion, out-of-bounds access or undefined shift, and writes a decimal that reads back as the input, has as few digits as possible, and is the closest of those with as few digits, the even one if there are two.", "quantifier": "every finite nonzero float and double, every configuration of the reference printer, every long enough buffer", "why_tests_cant": "There are about 2^64 doubles; agreement of two printers on some of them does not show that either is right.", "anchors": ["benchmark/ryu/d2s.c: d2s_buffered_n, d2d, d2d_small_int, to_chars", "benchmark/ryu/f2s.c: f2s_buffered_n, f2d, to_chars"]}
{"id": "C70", "title": "The two printers are the same function", "statement": "For every bit pattern, including zeros, infinities and NaNs, and for every buffer, fp_to_chars_n in its default modes and the reference printer write the same bytes and return the same length, in every configuration of either; on a buffer that is too short both write outside it. The same holds for the variants that add a NUL.", "quantifier": "every bit pattern, buffer and pair of configurations, float and double", "why_tests_cant": "The random test compares on ten million of 2^64 inputs and in one configuration.", "anchors": ["fp_to_chars.h: fp_to_chars_n, fp_to_chars", "benchmark/ryu/d2s.c: d2s_buffered_n, d2s_buffered", "benchmark/ryu/f2s.c: f2s_buffered_n, f2s_buffered"]}
{"id": "C71", "title": "The uniform random test never reports an error", "statement": "Whatever numbers are drawn and however many, the uniform random test ends reporting success, and neither it nor the performance test accesses bytes outside its arrays or reads bytes never written; the arrays allocated by the reference printer are long enough for every input.", "quantifier": "every list of bit patterns, every pair of configurations", "why_tests_cant": "A run of the test draws one list of numbers.", "anchors": ["tests/uniform_random_test.cpp: uniform_random_test", "tests/uniform_random_perf_test.cpp: uniform_random_perf_test", "benchmark/ryu/d2s.c: d2s", "benchmark/ryu/f2s.c: f2s"]}
{"id": "C72", "title": "The reference printer's logarithms are exact on their documented ranges", "statement": "log2pow5, pow5bits, ceil_log2pow5, log10Pow2 and log10Pow5 return the integer part of the logarithm (plus one for the two rounded up) for every argument of the documented range, and the ranges cannot be extended: with asserts compiled out the next argument gives a wrong value.", "quantifier": "every argument of the documented ranges, every configuration", "why_tests_cant": "The ranges go far beyond the arguments that occur in printing.", "anchors": ["benchmark/ryu/common.h: log2pow5, pow5bits, ceil_log2pow5, log10Pow2, log10Pow5"]}
{"id": "C73", "title": "The cache length tool computes what it is to compute, negative k", "statement": "The part of the cache length verification for negative decimal exponents ends without failed assertion, out-of-bounds access or overflow, visits every binary exponent with negative k once and in order, writes for each the number of bits given by the largest residues of multiples of a power of two modulo a power of five, and prints the largest of these numbers.", "quantifier": "every build configuration, both formats, every exponent, every multiplier up to 2^(p+2)", "why_tests_cant": "The numbers are extremes over 2^25 and 2^54 multiples per exponent, found by a method that is itself to be justified, with multi-word integers that are wrong on some arguments.", "anchors": ["tests/verify_cache_length.cpp: verify_cache_length_single_type_negative_k, minmax_euclid", "tests/bigint.h: bigint_impl"]}
{"id": "C74", "title": "The cache length tool computes what it is to compute, other k", "statement": "The part of the cache length verification for decimal exponents that are not negative ends without failed assertion, out-of-bounds access or overflow, visits every other binary exponent once and in order, writes for each the number of bits given by the least residues of multiples of a power of five modulo a power of two, and prints the largest of these numbers.", "quantifier": "every build configuration, both formats, every exponent, every multiplier up to 2^(p+2)", "why_tests_cant": "As C73.", "anchors": ["tests/verify_cache_length.cpp: verify_cache_length_single_type_positive_k, minmax_euclid", "tests/bigint.h: bigint_impl"]}
{"id": "C75", "title": "The checked-in cache length results are what the tool writes", "statement": "The four checked-in result files are what the tool writes in every build configuration; the largest numbers are 57, 61, 125 and 125; all are below the number of bits of the cache entries.", "quantifier": "every build configuration, every row of the four files", "why_tests_cant": "A run shows one build; the claim is about all.", "anchors": ["tests/verify_cache_length.cpp: verify_cache_length", "test_results/binary32_negative_k.csv", "test_results/binary32_positive_k.csv", "test_results/binary64_negative_k.csv", "test_results/binary64_positive_k.csv"]}
{"id": "C76", "title": "The numbers of bits written by the cache length tool are enough", "statement": "If a power of ten is rounded (up for negative k, down otherwise) to at least as many bits as the tool writes for an exponent, then the integer parts of the products that the algorithm needs, for the interval boundaries 2f-1 and 2f+1, for the boundary below a power of two, and for 4f, are those of the exact products.", "quantifier": "every exponent, both formats, every significand, every number of bits at least that written", "why_tests_cant": "2^54 significands for each of 2300 exponents and every number of bits.", "anchors": ["tests/verify_cache_length.cpp: verify_cache_length_single_type_negative_k, verify_cache_length_single_type_positive_k", "grisu_exact.h: cache_holder"]}
{"id": "C77", "title": "The checked-in generated cache files are what the generator writes", "statement": "The cache generator writes exactly the text of the two checked-in files, whatever the undefined shift in the double part yields, and writes no overflow message; reading the hexadecimal constants of the text gives the entries of the cache tables of the header, in order.", "quantifier": "both formats, every value of the undefined shift, every line and constant", "why_tests_cant": "A run shows one value of the undefined shift and needs the tool that is not part of the test suite.", "anchors": ["tests/generate_cache.cpp: generate_cache", "test_results/binary32_generated_cache.txt", "test_results/binary64_generated_cache.txt", "grisu_exact.h: cache_holder"]}
{"id": "C78", "title": "The benchmark runs for every sample and its result files say what was measured", "statement": "For all samples, registered functions and numbers of iterations the measurement loop stays inside its buffer and ends. Every line of the file for uniform samples has the function's name, the shortest and closest text that reads back as the sample and its bit pattern; every line for a number of digits has a text of exactly that many digits that reads back as a sample needing that many digits (or zero for one digit).", "quantifier": "every list of bit patterns, everything the random engine may deliver, every order of functions, every positive number of iterations, every configuration, both formats", "why_tests_cant": "Samples are random and the order of functions is unspecified; a run shows a few of 2^64 samples.", "anchors": ["benchmark/benchmark.h: benchmark_holder", "benchmark/benchmark.cpp: benchmark_test", "benchmark/grisu_exact.cpp", "benchmark/grisu_exact_wo_correct_rounding.cpp", "benchmark/ryu.cpp"]}
{"id": "C79", "title": "The interactive test answers every input line correctly and never ends", "statement": "For every sequence of input lines and whatever the conversion functions accept, the interactive test replies to each line in turn without undefined behaviour: a fixed message if the line holds no number, otherwise the number's sign, a hexadecimal significand and binary exponent whose product is its magnitude (half of it for subnormal numbers), and a text that reads back as the number; infinities and NaNs are shown by name. The reply depends on the line alone, not on earlier ones. After the end of the input the program goes on forever, answering as to a line without a number.", "quantifier": "every list of lines, with or without a final newline, every conversion function, every number of requests, every configuration, both formats", "why_tests_cant": "The program is interactive and endless, and its character array is reused for every number, so no finite set of sessions covers its behaviour.", "anchors": ["tests/live_test.cpp: live_test, live_test_float, live_test_double, decompose_float", "fp_to_chars.h: fp_to_chars"]}
{"id": "C80", "title": "Exact decimals and integers are printed exactly", "statement": "If x is exactly a multiple of a power of ten that is not below its unit in the last place, then the result is x exactly, in every rounding mode and with every tie policy, whenever the call returns. In particular every nonzero integer of magnitude below 2^24 (float) or 2^53 (double) is converted without failure to exactly that integer.", "quantifier": "every finite nonzero x, every power of ten, every mode, tie policy, configuration, case handler, both formats", "why_tests_cant": "There are 2^53 integers and 2^64 inputs; a shorter decimal inside the rounding interval at a single one of them would break the claim.", "anchors": ["grisu_exact.h: grisu_exact", "grisu_exact.h: grisu_exact_impl::compute"]}
{"id": "C81", "title": "The result is the only decimal that meets the specification", "statement": "With a tie policy, in every mode that does not truncate, the result is the one and only decimal that reads back as x, has no more digits than any other that does, is closest to x among those with as many digits and is preferred by the tie policy to every other equally close one. With do_not_care it is the one and only decimal that reads back as x, is shortest and is the largest of the shortest; in the truncating modes, too, unless all bits of the significand of a normal number are ones. What is printed is this decimal in scientific notation.", "quantifier": "every finite nonzero x, every decimal s*10^t, every mode, tie policy, configuration, case handler, both formats", "why_tests_cant": "Uniqueness compares the result with the infinitely many decimals that read back as x.", "anchors": ["grisu_exact.h: grisu_exact", "grisu_exact.h: grisu_exact_impl::compute", "grisu_exact.h: grisu_exact_correct_rounding"]}
{"id": "C82", "title": "Tie policies differ only at exact ties", "statement": "If two tie policies give different results for one x in one to-nearest mode, then the results are neighbouring multiples of the same power of ten and x is exactly halfway between them.", "quantifier": "every finite nonzero x, every to-nearest mode, every two tie policies other than do_not_care, every two configurations and case handlers, both formats", "why_tests_cant": "Ties are rare: random inputs practically never show whether two policies differ elsewhere.", "anchors": ["grisu_exact.h: grisu_exact", "grisu_exact.h: grisu_exact_correct_rounding"]}
{"id": "C83", "title": "To-nearest modes differ only at exact midpoints between floating-point numbers", "statement": "If two to-nearest modes give different results for one x with the same tie policy, then one of the two results is exactly halfway between x and one of its neighbours. This does not happen for |x| below 2^24 or from 2^65 on (float), below 2^53 or from 2^134 on (double): there all to-nearest modes give the same result.", "quantifier": "every finite nonzero x, every two to-nearest modes, every tie policy, every two configurations and case handlers, both formats", "why_tests_cant": "Results on a boundary of the rounding interval are so rare that random inputs do not show them.", "anchors": ["grisu_exact.h: grisu_exact", "grisu_exact.h: grisu_exact_rounding_modes"]}
{"id": "C84", "title": "Ryu's powers of five from small tables are exact in the range the printer needs", "statement": "In the size-optimised variant of the reference printer, the function for 5^i returns the two words of the leading 121 bits of 5^i for i up to 325, and the function for 5^-i returns the two words of floor(2^k / 5^i) + 1, with k the length of 5^i plus 121, for i up to 291; the lengths are the declared bit counts (121, and 122 except for i = 0), the values are the leading bits of the large tables' entries, the added 1 never reaches the upper word, and these ranges contain every index the printer computes from a finite double. Beyond them the functions still return for i below 338 (below 313), with a value one too small at exactly 8 (18) of the indices, and for larger i they read outside their tables or shift too far.", "quantifier": "every 32-bit i, every build configuration (128-bit integers, 64-bit intrinsics or portable multiplication; asserts on or off), every binary exponent of a finite double", "why_tests_cant": "No file of the repository includes this code, so no test runs it; the two variants differ in where a carry can get lost, and a missing correction changes the last of 121 bits, which hardly any printed number shows.", "anchors": ["benchmark/ryu/d2s.h: double_computePow5, double_computeInvPow5", "benchmark/ryu/d2s.h: POW5_OFFSETS, POW5_INV_OFFSETS"]}
{"id": "C85", "title": "The console output of the checking programs, line by line", "statement": "The program that checks the interval lengths, the one for the number of rounding steps, the one for the incorrect rounding, the one for the cache lengths and the uniform random test print exactly one fixed text each: their headings, the lines on the exceptional exponents (four for double in the second, one below and one at the special exponent per format in the third), the maxima 57, 61, 125 and 125 in the fourth, the number of examples in the last, and that the check succeeded, never an error. The program that checks the logarithms prints the eleven exponents where it computes the true value, a pair of mismatches for each of six of them, the bound 1650, and then has a signed overflow before it prints a result for base 2.", "quantifier": "every build configuration, every list of random numbers drawn, every way of printing a floating-point number", "why_tests_cant": "These programs are the project's own tests; what they report for all configurations and all random draws is not something a run settles, and the overflow is undefined behaviour that a run may hide.", "anchors": ["tests/verify_delta_computation.cpp", "tests/verify_correct_rounding_bound.cpp", "tests/verify_incorrect_rounding_removal.cpp", "tests/verify_log_computation.cpp", "tests/verify_cache_length.cpp", "tests/uniform_random_test.cpp"]}
{"id": "C86", "title": "The test program as a whole", "statement": "With the macros as checked in, and with any other selection of programs that leaves out the check of the logarithms and the interactive test, the test program runs to its end and prints exactly the texts of the selected programs, one after another and in the order of main; it can stop early only when the benchmark's generator keeps discarding what the random engine delivers, and then it has printed a beginning of that text. The benchmark announces every function with every number of digits in turn, from uniformly random numbers up to the largest number of digits, and its two result files hold the number of samples that main asks for, the column names and a line for every function and sample; the cache generator writes the checked-in files. If the check of the logarithms is selected, the program has a signed overflow in it and nothing else is reached; if the interactive test for float is selected, the one for double is never reached.", "quantifier": "every build configuration, every selection of the macros, every list of random numbers, every correctly rounding conversion, every standard input", "why_tests_cant": "A run shows one selection of macros, one sequence of random numbers and one configuration; that none of the combinations stops or prints an error is a statement about all of them.", "anchors": ["tests/main.cpp main", "benchmark/benchmark.h benchmark_holder::run", "benchmark/benchmark.cpp benchmark_test", "tests/generate_cache.cpp generate_cache", "tests/uniform_random_perf_test.cpp", "tests/live_test.cpp"]}
{"id": "C87", "title": "A float printed as a double", "statement": "If a finite nonzero float is converted to double and that double is printed, the text, read by a correctly rounding parser for float in the same rounding mode, gives the float back; in the to-nearest modes it does so in every other to-nearest mode as well, because the printed number is never halfway between two floats. The conversion never makes the output shorter. The other direction fails: there is a float whose text, read as a double and then rounded to float, gives another float.", "quantifier": "every finite nonzero float, every rounding mode (to-nearest and away from zero for the lengths), every tie policy and configuration", "why_tests_cant": "There are four thousand million floats, several rounding modes and policies for each, and the claim is about every correct parser.", "anchors": ["grisu_exact.h: grisu_exact", "fp_to_chars.h: fp_to_chars_n"]}
{"id": "C88", "title": "The output is the nearest decimal of its length", "statement": "In a to-nearest mode, with a tie policy, no decimal number with at most as many digits as the output is closer to the input than the output, whether it reads back as the input or not; the output is what rounding the input to that many digits gives. The only exceptions are 3 powers of two of float and 45 of double, and their negatives, where rounding to that many digits would give a number that does not read back as the input.", "quantifier": "every finite nonzero number of both formats, every to-nearest mode, every tie policy other than do_not_care, every configuration", "why_tests_cant": "It compares the output with all decimals of that length, for all inputs; that the exceptions are exactly these cannot be seen from samples.", "anchors": ["grisu_exact.h: grisu_exact"]}
{"id": "C89", "title": "No decimal of the output's length lies between input and output", "statement": "In the to-nearest modes with a tie policy, and in the modes that round away from zero, no decimal number with at most as many digits as the output lies strictly between the input and the output. In the modes that truncate this holds exactly where C09 does. In the first two groups of modes the exponent e printed after the E tells the order of magnitude of the input: its absolute value is below 10^(e+1), and at least 10^e unless the text is 1Ee; when rounding away from zero it is at least 10^e always.", "quantifier": "every finite nonzero number of both formats, every to-nearest mode with every tie policy, every directed mode, every configuration", "why_tests_cant": "It is about all decimals of a length and all inputs; the interesting inputs lie next to powers of ten and are few.", "anchors": ["grisu_exact.h: grisu_exact", "fp_to_chars.h: fp_to_chars_n"]}
{"id": "C90", "title": "The rounding policy is a matter of the last digit", "statement": "For one input and one rounding mode, the texts printed under any two policies (do_not_care included) have the same length, the same sign and exponent and the same digits, except possibly the last digit, which is nonzero in both. More generally, any decimal that reads back as the input and has no more digits than the output differs from it in the last digit only, unless both have one digit.", "quantifier": "every finite nonzero number of both formats, every rounding mode, every pair of policies, every configuration; the second part leaves out the ten inputs of the truncating modes whose output is not shortest", "why_tests_cant": "A comparison of policies on samples cannot exclude an input where skipping the correct rounding costs a digit or changes more than the last one.", "anchors": ["grisu_exact.h: grisu_exact", "grisu_exact.h: grisu_exact_correct_rounding", "fp_to_chars.h: fp_to_chars_n"]}
{"id": "C91", "title": "A number printed in one rounding mode and read in another", "statement": "The output for a number x, printed in any rounding mode, is read by a correct parser of any other rounding mode as exactly one number, which is x or the next number on the side where the output lies. A parser that truncates gets x exactly when the output is not below x, one that rounds away from zero exactly when it is not above. A parser that rounds to nearest gets a neighbour other than at an exact midpoint only if the printer truncated (the larger neighbour) or rounded away from zero (the smaller one). A number that is a multiple of a power of ten not below its unit in the last place is read as x by all parsers.", "quantifier": "every finite nonzero number of both formats, every pair of rounding modes, every policy and configuration for which the call returns", "why_tests_cant": "It ranges over all numbers and all 196 pairs of modes; a test can only sample them, and the cases where a reader gets a neighbour are decided by exact comparisons with midpoints.", "anchors": ["grisu_exact.h: grisu_exact", "grisu_exact.h: grisu_exact_rounding_modes"]}
{"id": "C92", "title": "Ryu built for small size prints the same texts", "statement": "A build of Ryu with RYU_OPTIMIZE_SIZE, which computes its powers of 5 from small tables instead of reading them from the large tables, prints for every input exactly what the ordinary build prints, with the same writes into the array. So its decimals, too, read back, are shortest and closest, and agree with fp_to_chars_n rounding to nearest even. This holds although the computed powers are 3 or 4 bits shorter and some intermediate values differ.", "quantifier": "every 32-bit and 64-bit pattern, every array, every configuration of Ryu; the missing header is taken to be d2s.h", "why_tests_cant": "The header is missing, so no test can build this variant; and the shorter factors give a wrong intermediate value for two doubles and three floats only, which no sample would meet.", "anchors": ["benchmark/ryu/d2s.c: d2d", "benchmark/ryu/d2s.h: double_computePow5", "benchmark/ryu/d2s.h: double_computeInvPow5", "benchmark/ryu/f2s_intrinsics.h: mulPow5InvDivPow2", "benchmark/ryu/f2s_intrinsics.h: mulPow5divPow2"]}
{"id": "C93", "title": "The integer utilities are the same on every platform", "statement": "For every combination of the compiler macros the header looks at (GCC or Clang, 128-bit integers, x86-64, MSVC, MSVC for x64), the multiplications of 32, 64 and 128-bit integers give the exact upper and lower parts of the product, and a 128-bit integer made of two halves has these halves. The test for divisibility by a power of two does the same as on one of the two platforms for which all other properties are proved, also where it fails.", "quantifier": "every platform, all 32-bit, 64-bit and 128-bit operands; for the test of divisibility all arguments, with asserts on and off", "why_tests_cant": "A test runs on the platform it was built for; the carries of the portable and the MSVC code occur for rare operands.", "anchors": ["grisu_exact.h: uint128", "grisu_exact.h: umul64", "grisu_exact.h: umul128", "grisu_exact.h: umul128_upper64", "grisu_exact.h: umul192_upper64", "grisu_exact.h: umul96_upper32", "grisu_exact.h: divisible_by_power_of_2"]}
{"id": "C94", "title": "No shorter text in scientific notation", "statement": "No text of the form sign, one digit, optional point and digits, E, exponent that a correct parser using the same rounding mode converts to the number is shorter than the text that is printed, although the printer only minimises the number of digits of the significand and pays no attention to the length of the exponent. The exceptions are the eight floats and two doubles of C08 in the modes that truncate magnitudes; for each of these a shorter text does exist.", "quantifier": "all finite nonzero inputs, rounding modes, tie policies, builds, and all texts with one digit before the point, however many zeros they begin or end with", "why_tests_cant": "It compares the output with infinitely many texts, for about 2^64 inputs; what could go wrong is a power of ten near a number whose exponent has one digit less on the other side.", "anchors": ["grisu_exact.h: grisu_exact", "fp_to_chars/fp_to_chars.cpp: fp_to_chars_impl", "fp_to_chars/fp_to_chars.cpp: decimal_length", "fp_to_chars.h: fp_to_chars_n"]}
{"id": "C95", "title": "A double's text read as a float", "statement": "The text printed for a double, in whatever mode, when read as a float gives the float to which the double itself is converted by the same rounding: to nearest unless the double lies half way between two neighbouring floats, and in the directed modes unless the double is a float. For a double half way between two floats, the side on which the printed decimal lies decides which of the two is read, whatever the tie rule; so the text of 1+2^-24 is read to nearest even as the float above 1 although the double itself is converted to 1.", "quantifier": "all finite nonzero doubles, printing modes, tie policies and builds; all reading modes; overflow to infinity and underflow to zero included", "why_tests_cant": "It relates the printed decimals of 2^64 doubles to the roundings to another format; the midpoints are rare in a random sample, and a sample cannot show that they are the only exceptions.", "anchors": ["grisu_exact.h: grisu_exact", "fp_to_chars/fp_to_chars.cpp: fp_to_chars_impl", "fp_to_chars.h: fp_to_chars_n"]}
{"id": "C96", "title": "Decimals as coarse as the spacing survive", "statement": "A decimal that is a multiple of a power of ten not smaller than the distance from the number it is read as to the next larger one is printed again when that number is printed in the same rounding mode. This extends C38 to subnormal numbers and to decimals of any number of digits: every multiple of 1E-44 read as a subnormal float, and every multiple of 1E-323 read as a subnormal double, survives, and these powers of ten cannot be made smaller. The exceptions are the eight floats and two doubles of C08 in the modes that truncate magnitudes.", "quantifier": "all finite nonzero inputs, all decimals, rounding modes, tie policies and builds", "why_tests_cant": "It ranges over all decimals of a grid for each of about 2^64 numbers.", "anchors": ["grisu_exact.h: grisu_exact", "fp_to_chars/fp_to_chars.cpp: fp_to_chars_impl", "fp_to_chars.h: fp_to_chars_n"]}
{"id": "C97", "title": "A float read by way of a double", "statement": "If the text printed for a float is read as a double and the double is converted to float, the float comes back: always in the directed modes, if all three steps use the same mode; and in the to-nearest modes, whichever of them the three steps use, unless the double is exactly half way between the float and one of its neighbours. The exception does occur: 7.038531E-26, printed for a float, comes back as the next float.", "quantifier": "all finite nonzero floats, rounding modes, tie policies and builds, every double a correct parser may return", "why_tests_cant": "The exception is met by very few floats; that there is no other needs an argument for all of them in all modes.", "anchors": ["grisu_exact.h: grisu_exact", "fp_to_chars/fp_to_chars.cpp: fp_to_chars_impl", "fp_to_chars.h: fp_to_chars_n"]}
{"id": "C98", "title": "Ryu's debug build prints the same and tells the truth", "statement": "Built with RYU_DEBUG, the Ryu printers in the benchmark return and write to the buffer what they do without it, on every bit pattern and every buffer, faults included. What they write to the standard output shows the bits of the input; for zeros, infinities and NaNs nothing else; for doubles that are integers below 2^53 then only the digits, their number and the exponent; for all other finite numbers also the number as a significand times a power of two, the integer parts of the number and of the two ends of its rounding interval in units of a power of ten, that power, whether the lower end and the number are integers in these units, how many digits can be removed, the first digit of the number behind those that are kept (or whether it is at least 5) and, with it, whether the number is exactly halfway, the three integer parts again in units of the last digit printed, and the decimal that is printed. The last line shows the decimal exponent plus the number of digits modulo 2^32, so that 1E-5 is reported with the exponent 4294967292.", "quantifier": "all bit patterns of both formats, all buffers and all configurations of Ryu", "why_tests_cant": "The trace claims exact integer parts for every input, and the equality of results ranges over 2^64 patterns times the build configurations.", "anchors": ["benchmark/ryu/d2s.c: d2d, to_chars, d2s_buffered_n, d2s_buffered, d2s", "benchmark/ryu/f2s.c: f2d, to_chars, f2s_buffered_n, f2s_buffered, f2s"]}
{"id": "C99", "title": "The last digit is never worth much less than the spacing", "statement": "The unit of the last digit of the returned decimal is more than a tenth of the distance from the input to the next floating-point number toward zero. If the input is an integer multiple of a power of ten, the exponent returned is at least that of the power, so that integers are converted to integers (though in the left-closed directed modes not always to themselves). A subnormal number that is m times the smallest one is converted with at most one digit more than m has.", "quantifier": "all finite nonzero inputs of both formats, all modes and policies, both code paths (in the left-closed directed modes, except for the inputs of C08 where the result is not shortest)", "why_tests_cant": "An inequality over 2^64 inputs that comes within 2.5 percent of equality on some of them.", "anchors": ["grisu_exact.h: grisu_exact, compute"]}
{"id": "C100", "title": "Ryu's debug build for small size: same results, a trace wrong on three inputs", "statement": "Built with both RYU_DEBUG and RYU_OPTIMIZE_SIZE, the Ryu printers in the benchmark return and write to the buffer what they do with neither, on every bit pattern and every buffer, faults included. The trace says what it says with RYU_DEBUG alone (with 4 bits less of the power of five), and everything it shows about the conversion is right for every finite nonzero input except two doubles and their negatives, whose scaled value is shown one too small and one too large, and, without the table for floats, one float and its negative, for which a wrong digit is shown. The decimal shown at the end is right for these as well.", "quantifier": "all bit patterns of both formats, all buffers and all configurations of Ryu", "why_tests_cant": "Three magnitudes among 2^63 are affected, and only in the trace; that there are no others cannot be sampled.", "anchors": ["benchmark/ryu/d2s.c: d2d, to_chars, d2s_buffered_n, d2s_buffered, d2s", "benchmark/ryu/f2s.c: f2d, to_chars, f2s_buffered_n, f2s_buffered, f2s", "benchmark/ryu/f2s_intrinsics.h: mulPow5InvDivPow2, mulPow5divPow2", "benchmark/ryu/d2s.h: double_computePow5, double_computeInvPow5"]}
{"id": "C101", "title": "How far the decimal is from the number", "statement": "In the to-nearest modes the returned decimal is at most half the way from the input to the next floating-point number on the side where it lies, so that for normal numbers the relative error is at most 2^-24 (float) or 2^-53 (double); in every mode it is less than twice that. What is returned for a reader that rounds upward is at most the input, what is returned for a reader that rounds downward is at least the input, signs included, and neither reaches the next floating-point number; so the two enclose the input.", "quantifier": "all finite nonzero inputs of both formats (for the relative error: all normal ones), all modes and policies, both code paths, whenever the call returns", "why_tests_cant": "The bound is attained exactly on some inputs (2^54 + 8, for example), so an error of a single unit there is visible only on inputs that sampling does not find.", "anchors": ["grisu_exact.h: grisu_exact, rounding_modes"]}

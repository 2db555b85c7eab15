# Formal model of jk-jeon/Grisu-Exact in Lean 4

The properties are listed in `properties.jsonl`, their status in `MANIFEST.json`.
The theorem for property `Cnn` is called `Grisu.Cnn_...` and lives in
`lean/Verif/Properties/`.  Everything else is support.

## Trusted base

* Lean 4.33.0's kernel, with its built-in big-number arithmetic.
* The axioms `propext`, `Classical.choice` and `Quot.sound`, and no others.  `#print axioms`
  was run for every theorem named in the manifest.  About four fifths use all three, the rest
  use `propext` and `Quot.sound`, or only `propext`, or none (`C39_argmax_zero`).  No axiom is
  added, and there is no `sorry`, `native_decide` or `bv_decide`.
* The reading of the C++ source described below: that the model definitions say what the cited
  lines do.
* The specification files `Spec.lean`, `SpecTruncating.lean`, `SpecClosest.lean`, `SpecBig.lean`, `SpecRandom.lean`,
  `SpecArith.lean`, `SpecLength.lean`, `SpecHex.lean`, `SpecBenchmark.lean`, `SpecLive.lean`, `SpecBest.lean`, `SpecText.lean`,
  `SpecDecimal.lean`, `SpecTrace.lean`, and the definitions that appear in theorem statements.

Finite facts (the cache tables, facts that depend only on the binary exponent) are evaluated in the
kernel with `decide +kernel` over the *whole* finite domain and lifted to a universally
quantified lemma.  Concrete witnesses and `example`s use it too.

## What is modelled

| model file (lean/Verif/Model) | code |
|---|---|
| `Exec.lean` | outcomes: a call either returns or stops with a `Fault` (failed assert, out-of-bounds access, bad shift, signed overflow, `ctz(0)`, uninitialised read, violated precondition, loop not ending) |
| `Arith.lean` | `grisu_exact.h` 86-345: wide multiplication (x86-64 path and portable path), powers, divisibility tests and their compile-time table, log approximations |
| `Info.lean` | `grisu_exact.h` 352-458: `common_info<float>`, `common_info<double>` |
| `Cache32.lean`, `Cache64.lean` | `grisu_exact.h` 470-1172: the two cache tables, entry by entry |
| `BitRep.lean` | `grisu_exact.h` 1189-1344: `fp_t`, `bit_representation_t` |
| `Modes.lean` | `grisu_exact.h` 1346-1732: correct-rounding policies, rounding modes, interval types, delegation |
| `Compute.lean` | `grisu_exact.h` 1734-2683: `grisu_exact_impl::compute` and helpers, `grisu_exact` |
| `ToChars.lean` | `fp_to_chars.h`, `fp_to_chars/fp_to_chars.cpp` |
| `MinMaxEuclid.lean` | `tests/verify_cache_length.cpp`: `minmax_euclid`, over unbounded integers |
| `CacheLength.lean` | `tests/verify_cache_length.cpp` 22-340: the whole tool, on the element arrays of `BigInt.lean` |
| `ResultFiles.lean` | `test_results/binary32_negative_k.csv`, `binary32_positive_k.csv`, `binary64_negative_k.csv`, `binary64_positive_k.csv` |
| `BigInt.lean` | `tests/bigint.h`: the multi-word integers, element by element |
| `GenerateCache.lean` | `tests/generate_cache.cpp` 61-270: the cache generator |
| `RandomFloat.lean` | `tests/random_float.h` 47-58, 80-106, 127-198: seeds, uniform numbers, numbers with a given digit count; the random engine and the text conversion are parameters |
| `VerifyTools.lean` | `tests/verify_delta_computation.cpp`, `tests/verify_correct_rounding_bound.cpp`, `tests/verify_incorrect_rounding_removal.cpp`: the verdicts and the numbers in the lines printed about single exponents |
| `LiveTest.lean` | `tests/live_test.cpp` 20-95: `decompose_float`, the dialogue; `std::stof` and `std::stod` are a parameter |
| `Ryu.lean`, `RyuTables.lean` | `benchmark/ryu/`: `common.h`, `d2s.c`, `d2s_intrinsics.h`, `d2s_full_table.h`, `f2s.c`, `f2s_intrinsics.h`, `f2s_full_table.h`, `digit_table.h`: the reference printer of the tests |
| `RyuSmall.lean` | `benchmark/ryu/d2s.h`: the small tables of `RYU_OPTIMIZE_SIZE` and the two functions on them (no file includes it) |
| `RyuSize.lean` | the lines of `d2s.c` and `f2s_intrinsics.h` compiled with `RYU_OPTIMIZE_SIZE` |
| `RyuDebug.lean` | the functions of `d2s.c` and `f2s.c` compiled with `RYU_DEBUG`, and what they write to the standard output |
| `RyuSizeDebug.lean` | the same with `RYU_OPTIMIZE_SIZE` as well |
| `Platform.lean` | `grisu_exact.h` 53-233 once more, with every `#if` |
| `UniformTest.lean` | `tests/uniform_random_test.cpp` 24-56, `tests/uniform_random_perf_test.cpp` 22-31: the loops; the numbers drawn are a parameter |
| `WriteCache.lean` | `tests/generate_cache.cpp` 192-270: what the cache generator writes to its file and to the console |
| `Console.lean` | everything the programs `verify_delta_computation`, `verify_correct_rounding_bound`, `verify_incorrect_rounding_removal`, `verify_log_computation`, `verify_cache_length` and `uniform_random_test` write to the console |
| `MainProgram.lean` | `tests/main.cpp` 20-156: which programs run for each selection of macros, and in which order; everything `generate_cache`, `uniform_random_perf_test` and the benchmark write to the console; the headers of the result files |
| `GeneratedFiles.lean` | `test_results/binary32_generated_cache.txt`, `test_results/binary64_generated_cache.txt` |
| `Benchmark.lean` | `benchmark/benchmark.h` 43-100, `benchmark/benchmark.cpp` 38-98, `benchmark/grisu_exact.cpp`, `benchmark/grisu_exact_wo_correct_rounding.cpp`, `benchmark/ryu.cpp`: samples, measurement loop, result files without the times; the random engine is a parameter |
| `VerifyLog.lean` | `tests/verify_log_computation.cpp` 31-156: all three loops |

Integers are `Nat`/`Int` with every wrap-around written explicitly (`wrap w n = n % 2^w`), so
overflow behaviour is part of the model.  Undefined behaviour and failed asserts
are distinct outcomes (`Exec.fault`), not excluded by assumption.  `goto` labels
are functions.  Unbounded loops take fuel, running out of fuel is a
fault, and freedom from faults is proved.

Build configurations are a parameter `Cfg` (x86-64 builtins or portable code;
asserts on or off).  That two platforms are enough is C93: `Platform.lean` has the functions that contain `#if`s for all
combinations of the macros, with the intrinsics of MSVC (`__emulu`, `_umul128`, `__umulh`, `_addcarry_u64`,
`_BitScanForward`) as documented.  Ryu has its own parameter `Ryu.Config`: 128-bit
integers, 64-bit intrinsics or neither; 32-bit platform; the separate table for `float`; asserts.

## Not modelled

* `memcpy` between float and integer: an input *is* its bit pattern.
* Compile-time template machinery (overload resolution, `if constexpr`): resolved by hand.
* Performance, calling conventions, `JKJ_SAFEBUFFERS`.
* How the C++ library prints a floating-point number (`Console.lean` takes that as a parameter).
* The clock and the measured times of `benchmark/`, the MATLAB script started after a benchmark, and the parts of
  `tests/` not listed above.
* `ryu/d2s_small_table.h`, which Ryu includes with `RYU_OPTIMIZE_SIZE`, is not in the repository.  `d2s.h` stands for it
  (C92).

## Specification

`Verif/Spec.lean` is separate from the model: value of an IEEE bit pattern as a
rational, IEEE rounding of a positive rational to a magnitude (nearest with six
tie rules, four directed modes), number of decimal digits.  `SpecTruncating.lean` names the
exceptional inputs of the `[w,w+)` modes.  `SpecBig.lean` says which element array stands for a
given number.  `SpecLength.lean` says which numbers of bits the cache length tool is to write, and what
they are meant to be enough for.  `SpecHex.lean` reads the hexadecimal constants in a text, `SpecBenchmark.lean` says what
a line of a benchmark result file is, `SpecTrace.lean` what a trace of Ryu shows.

## Per property: model, proof, status

Proved in full unless marked *partial*.

* C01-C06, C11, C14-C17 (nearest and away-from-zero modes): the algorithm is reduced to integers.
  With `zi = floor z` and `lo`/`hi` the least/greatest integer in the scaled interval, each
  label of `compute` is shown to return the mathematically right state, for every input.
  Facts that depend only on the exponent are checked by the kernel for every exponent.
* C07, C42, C43: the same for `[w,w+)`.
* C08 *partial*: false on exactly ten bit patterns.  They are listed (`C08_exceptions`), it is proved
  true elsewhere and false on each of them.
* C09 *partial*: proved when no multiple of the result's power of ten is within `guard` ulp of
  the input.  Next to such a multiple it can fail, witness `C09_not_closest`.  `C09_iff`
  says exactly for which inputs it fails, in terms of the input rounded to the scale of
  `SpecClosest.lean` and the last step of the search; `C09_iff_ones` does so for the all-ones significands that `C09_iff`
  leaves out, by the list `farFields` of their exponent fields, checked by the kernel for every field.
* C10 *partial*: false exactly when the significand is all ones in some exponent fields and asserts are
  on or the builtin `ctz` is used (`C10_faults`); proved elsewhere.
* C12, C13, C29: equalities of model functions for all inputs.
* C18, C19: algebra on `Nat` with explicit wrap; C19 through `5^n * inv^n = 1 mod 2^w`.
* C20, C22: two convergents `a/b < log < c/d` with `bc-ad=1` enclose both
  the real constant and the code's constant.  No fraction with denominator below
  `b+d` lies between, so floors agree.
* C21 *partial*: the same method, but the product overflows `int32` for arguments beyond 616 in
  absolute value (`C21_overflow`); proved for the rest.
* C23: kernel evaluation over the whole table, lifted to all `k`.
* C24: per exponent a pair of neighbouring fractions (certificate) encloses both the exact
  ratio and the cache ratio.  A lemma shows that floors agree for every multiplier
  up to `2^(p+2)`.  Certificates checked by the kernel for all 254 + 2046 exponents.
* C25, C26, C37, C44, C45: corollaries of the round trip (rounding is a function / monotone).
* C27, C28: bit arithmetic for all patterns.
* C30-C36: buffer model with explicit writes, uninitialised bytes and bounds.  That a shorter buffer overflows
  (`C33_exact`, `C34_exact`): every step of the printer does the same on a shorter array or leaves it.
* C38: corollary of C02-C04 and an estimate of the interval width.
* C39 *partial*: loop invariant over the convergents.  On the multi-word integers: below `2^63` every quotient has one element, so
  the division and the products are exact, and the smaller number halves in each iteration.
* C40, C41: evaluation of the special paths for all special inputs.
* C46-C57: every operation on element arrays is shown to produce the array that stands for the
  mathematical result, by digit-wise invariants.  *Partial*: C50, C52, C53, C54, C57, because the
  code is wrong on some arguments; each has a witness and the range where it is right.  For C50, C52, C53 and C54 the range
  is exact (`C50_iff`, `C52_iff`, `C53_iff`, `C54_iff`, `C54_zero_iff`); with asserts a product that loses a carry stops.
  For C57 it is exact for dividends of two elements: once a number too large has been subtracted, quotient times divisor plus
  rest stays below the dividend.  For longer dividends there are sufficient conditions, not shown to be necessary: a
  second error might undo the first (with elements of 3 digits it can).
* C58 *partial*: the generator's table equals the header's table.  For `double` the tool executes
  an undefined shift; the result is shown not to depend on its value.
* C59: each round is evaluated with C11, C14 and C41; the parser is any function that rounds correctly.
* C60, C61: arithmetic of the bit fields; loop invariant.
* C62-C64: kernel evaluation for every exponent and configuration, lifted through the tools' loops.  The calls of
  `grisu_exact` are moved to one configuration with C17.
* C65: loop induction.  For base 5 the condition that leads to the multi-word integers is shown never to hold.  For
  base 10 it holds for 11 exponents; there every one of the up to 1199 divisions by 10 meets the hypotheses of C57,
  which the kernel checks by computing the quotients.
* C66 *partial*, C67: evaluation of the bit operations for every pattern.  C66 is false for subnormal numbers.
* C68: kernel evaluation over the whole tables.
* C69, C70: Ryu's three quotients are the exact floors, by a certificate per exponent as in C24, checked by the kernel
  for every exponent; its divisibility flags mean what they should; an invariant of the digit removal loops gives
  the shortest and closest decimal.  That decimal is unique, so it is the one of `grisu_exact`, and the two
  printers perform the same writes.
* C71: induction over the numbers drawn, from C34 and C70.
* C72: as C20.
* C73, C74: the arrays are refined to numbers.  Every operation of the tool is shown to be used where C46-C57 hold; the
  conditions (quotients below 2^63, no lost carry in a product) are evaluated by the kernel for every exponent and every
  round of the Euclidean loop.  What the loop returns is the extreme residue by the invariant of C39.
* C75: the rows of the checked-in files are compared with the numbers by the kernel, all 2300 of them.
* C76 *partial*: from C73 and C74 by an estimate of the rounding error.  False for the second kind of product in both
  parts of the tool.  `C76_negative_iff` and `C76_positive_iff` say exactly for which exponents and numbers of bits: per
  exponent a pair of neighbouring fractions as in C24 or a factor with a wrong integer part, all checked by the kernel.
* C77: the text is built from C58's table line by line; files and constants are compared by the kernel as numbers in base 256,
  one line at a time.
* C78: induction over functions and samples, from C02, C03, C31, C32, C34, C59, C70 and C81.
* C79: induction over the requests for input, from C32, C34, C66 and C81; the conversion functions are a parameter.
* C80-C83: consequences of the interval description behind C01-C11.  An output's power of ten is the largest with a multiple
  in the rounding interval; so an input that is a multiple of a power of ten at least its ulp is the output (C80), two decimals
  that meet the specification coincide (C81), and two outputs can only differ at a tie (C82) or at an end of the interval
  (C83); an end that is an output is an integer whose odd part is a multiple of the power of five, which bounds it.
* C84: both functions are evaluated by the kernel at every index inside the tables, for each kind of multiplication and with
  asserts on and off; outside the tables they stop.
* C85: the programs with their output are shown to do the computations of C62-C65, C71 and C75 and to print exactly the lines
  those results call for.  The theorems give the complete text, for any way of printing a floating-point number where one is
  printed.  For the logarithms the text is the one printed before the overflow of C65.
* C86: the programs of C71, C77, C78, C79 and C85 put together.  The random numbers, the standard input and the library's
  conversions are parameters; C86_main, C86_live and C86_log_first cover every selection of macros.  C86_main also describes
  the files written, with the numbers of samples `main` asks for.
* C87: from the round trip and minimality (C02, C03, C06, C07), since the numbers that read as a `double` equal to a `float`
  lie strictly between the midpoints around that `float`.  The other direction is refuted by one number.
* C88: the interval around a number that is not a power of two is symmetric, so a closer decimal would read back too, against
  C04.  For the powers of two, the kernel evaluates the model at all exponents in the default mode, and in all to-nearest
  modes where these can differ (C83); the other policies and the negative numbers follow from C82 and C12.
* C89: a decimal between the input and the output would read back as the input and be closer, against C04 and C06.  With the
  powers of ten as the decimals this gives the order of magnitude of the input from the exponent printed.  In the modes that
  truncate it is equivalent to C09, so that it holds exactly where that does.
* C90: two decimals that read back as the input and differ before the last digit have a multiple of the next power of ten
  between them, which would be shorter.  On the inputs of C08 that have no shortest output the kernel evaluates the model.
* C91: from the round trip (C02, C06, C07), which puts the output strictly between the neighbours of the input; there every
  rounding mode has exactly one result.  The numbers read alike by all parsers come from C80.
* C92: the same certificates as for C69, checked again by the kernel for the shorter factors of C84: every floor of a product
  is the same, except for two exponents of `double`, each with one number, and four exponents of `float`, each with at most
  one.  On these numbers the kernel evaluates both printers in all configurations.
* C93: case analysis on the macros; the portable code is C18.
* C94: a text with one digit before the point is taken apart (`readText_inv`); zeros in front never pay off, since the
  length of a written exponent changes by at most one per step; for normal numbers the exponents of two decimals that
  read back differ by at most one, and if they differ a power of ten reads back too, so the significand has one digit,
  which is impossible within a tenth; for subnormal numbers all exponents are equally long, or longer.
* C95: every `float` and every midpoint of two `float`s is a `double` value, and the printed decimal lies between the
  neighbours of the input, so on the same side of each of them; rounding to nearest is put in terms of midpoints, for zero
  and infinity too (`nearest_all_iff`).  A `double` that is such a midpoint itself is double rounding, with a witness.
* C96: the output is a multiple of the largest power of ten that has a multiple in the set of numbers that read back, and of
  a power of ten not below the spacing there is at most one multiple in that set (`grid_unique`).
* C97: rounding to `double` does not pass a `double`, and the `float`s and their midpoints are `double`s; so the `double` stays
  in the closed set of numbers that are read as the `float`, and only its end points matter.
* C98: the debug functions are proved equal to the ordinary ones as far as results go, for all inputs; the numbers in the
  trace come from the lemmas on steps 3 and 4 of Ryu, the lines between the digit removal loops from those on the loops.
* C99: the interval that reads back is at least as wide as the gap below the input, so inside it there is a multiple of every
  power of ten smaller than the gap; a power equal to the gap has the input itself as a multiple.  A shortest decimal has the
  largest power of ten that has a multiple in the interval.
* C100: as C98, with the facts about the computed factors of C92.  The inputs at which the trace is wrong are the only ones the
  theorem leaves out, and for each of them it is shown to be wrong.
* C101: consequences of the round trip: the definition of rounding in each mode bounds the distance.

## What the proofs found in the code

* F1. In the `[w,w+)` modes, a normal number with all-ones significand makes the shifted significand of the
  right end wrap to 0, and a divisibility test then runs on 0: failed assertion, or `ctz(0)`
  (C10).
* F2. In the same modes the result is not shortest for fields 169, 176, 186, 187 (`float`)
  and 1121 (`double`) with all-ones significand (C08).
* F3. In the same modes the loop that searches downward for the closest decimal returns on
  equality without applying the steps made so far: not closest (C09).
* F4. `floor_log2_pow10` overflows `int32` for arguments beyond 616, inside its documented range (C21).
* F5. Infinities and NaNs, once the assertion is compiled out, read the cache out of bounds, with either
  case handler (C40).
* F6. Zeros in the `[w,w+)` modes fail an assertion, evaluate `ctz(0)`, or return a nonzero decimal (C41).
* F7. Multi-word integers: decrement moves the leading position wrongly (C52), adding an element
  leaves a stale leading position (C50), multiplying by 0 leaves one too (C53), the product loses a
  carry (C54), long division is wrong when the divisor is odd and the moved divisor crosses
  an element, and asserts or does not end when the divisor moves by 64 or more at once (C57).  So
  `minmax_euclid` is wrong for `2^65` modulo 3 (C39).
* F8. The generator shifts a 64-bit word by 64 at `k = 110` and others (C58).
* F9. The tool that checks the logarithms itself overflows `int32` at 617 (C65).  In
  `tests/verify_incorrect_rounding_removal.cpp` 112 the test `e + extended_precision + k >= 0` is unsigned
  and always true.  `floor_log10_pow2` without the assertion is first wrong at 1651, as the tool reports.
* F10. The interactive test shows half of the magnitude of every subnormal number (C66), and its check for finite
  numbers compares with an exponent that cannot occur, so it never fails (C67).
* F11. Comments of Ryu: `log2pow5(0)` is 0, not 1; `2^1651` is just greater than `10^497`, not `10^297` (C72).
* F12. `tests/verify_cache_length.cpp` underestimates the bits for `4f` (C76).  For negative `k` the number is one too small
  (line 221: the exponent grows by 2 and the range is halved, so one bit is missing); it is not enough for 9 exponents of
  `float` and 50 of `double`.  For `k >= 0` a residue that is too short to save bits is ignored (line 305) instead of asking
  for all bits; for `float` at exponent -90 it writes 55 bits, where 61 are needed.  The cache entries, of 64 and 128 bits,
  are long enough all the same.
* F13. At the end of its input the interactive test does not stop, it prints its error message forever (C79).
* F14. The corrections in `benchmark/ryu/d2s.h` end with the indices the printer needs: from 326 and from 292 on most values
  are one too small, although the tables go on to 337 and 312 (C84).
* F15. For 3 powers of two of `float` and 45 of `double` (and their negatives) the closest shortest decimal is not the number
  rounded to as many digits, because that one does not read back (C88).  This follows from the specification and is no
  defect, but a comparison with `printf` would report it.
* F16. Ryu with `RYU_OPTIMIZE_SIZE` scales two doubles wrongly by one unit, and computes the first digit behind the point
  wrongly for three floats, because its computed factors are 3 or 4 bits too short for these.  The digits concerned are not
  printed and do not affect the rounding, so the texts are right (C92).  The trace of a build that also has `RYU_DEBUG` shows
  the two doubles and one of the floats wrongly (C100).
* F17. Ryu with `RYU_DEBUG` ends its trace with the exponent plus the number of digits; the sum is an `int32_t` plus a
  `uint32_t`, so a negative one is shown modulo `2^32` (C98).  Only the trace is affected.

## Wrong programs

`seeded/LOG.jsonl` records, one line per attempt, an edit of the model that imitates a realistic
bug, the claim it breaks and the theorems that stopped proving.

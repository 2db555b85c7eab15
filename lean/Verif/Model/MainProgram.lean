import Verif.Model.Console
import Verif.Model.WriteCache
import Verif.Model.Benchmark

/-! # tests/main.cpp, and the console output of the programs not in `Console.lean`

The clock, the random engine and the MATLAB program that is started at the end are not modelled. -/

namespace Grisu
open Printed

/-! ## tests/uniform_random_perf_test.cpp -/

/-- `uniform_random_perf_test_float` and `uniform_random_perf_test_double`, tests/uniform_random_perf_test.cpp 33-42.
`xs` are the numbers drawn. -/
def perf_test_console (cfg : Cfg) (F : Fmt) (xs : List Nat) : Printed Unit := do
  say "[Running the algorithm with uniformly randomly generated "
  say (match F with
    | .b32 => "float"
    | .b64 => "double")
  say " inputs...]\n"
  run (uniform_random_perf_test cfg F xs)
  say "Done.\n\n\n"

/-! ## tests/generate_cache.cpp -/

/-- `generate_cache`, tests/generate_cache.cpp 192-270: the console, and the contents of the two files.  The message
about an overflow comes from `write_file`, after the computation of the whole table. -/
def generate_cache_console (cfg : Cfg) (shl64 : Exec Nat) : Printed (List Char × List Char) := do
  say "[Generating cache...]\n"
  let (file32, cout32) ← run (generate_cache_file cfg shl64 .b32)
  sayChars cout32
  let (file64, cout64) ← run (generate_cache_file cfg shl64 .b64)
  sayChars cout64
  say "Done.\n\n\n"
  pure (file32, file64)

/-! ## benchmark/benchmark.h and benchmark/benchmark.cpp -/

/-- The message of benchmark/benchmark.h 76-84. -/
def benchmark_message (float_name : String) (f : Registered) (digits : Nat) : Printed Unit := do
  say "Benchmarking "
  sayChars f.name
  if digits = 0 then do
    say " with uniformly random "
    say float_name
    say "'s...\n"
  else do
    say " with (approximately) uniformly random "
    say float_name
    say "'s of "
    sayChars (decimal_nat digits)
    say " digits...\n"

/-- The loop of benchmark/benchmark.h 72-98 over `samples_[digits]`, from `digits` on. -/
def digits_loop_console (cfg : Cfg) (c : Ryu.Config) (F : Fmt) (float_name : String) (iterations : Nat) (f : Registered) :
    Nat → List (List Nat) → Buffer → Printed Buffer
  | _, [], buffer => pure buffer
  | digits, xs :: samples, buffer => do
    benchmark_message float_name f digits
    let buffer ← run (sample_loop cfg c F iterations f xs buffer)
    digits_loop_console cfg c F float_name iterations f (digits + 1) samples buffer

/-- The loop of benchmark/benchmark.h 67-99. -/
def function_loop_console (cfg : Cfg) (c : Ryu.Config) (F : Fmt) (float_name : String) (iterations : Nat)
    (samples : List (List Nat)) : List Registered → Buffer → Printed Buffer
  | [], buffer => pure buffer
  | f :: fs, buffer => do
    let buffer ← digits_loop_console cfg c F float_name iterations f 0 samples buffer
    function_loop_console cfg c F float_name iterations samples fs buffer

/-- `run`, benchmark/benchmark.h 62-100. -/
def benchmark_run_console (cfg : Cfg) (c : Ryu.Config) (F : Fmt) (float_name : String) (iterations : Nat)
    (samples : List (List Nat)) (functions : List Registered) : Printed Unit := do
  run (cassert cfg (decide (iterations ≥ 1)))
  let _ ← function_loop_console cfg c F float_name iterations samples functions (List.replicate 40 none)
  pure ()

/-- `max_digits`, benchmark/benchmark.h 34-35. -/
def max_digits : Fmt → Nat
  | .b32 => 9
  | .b64 => 17

/-- What the engine delivers to the benchmark of one format, and the order of the functions in the
`std::unordered_map`s. `general i` is for the `i`-th sample of `samples_[0]`, `draws digits i` for that of
`samples_[digits]`; benchmark/benchmark.h 59 and 120. -/
structure BenchmarkInput where
  general : Nat → Nat
  draws : Nat → Nat → Int × List Draw
  functions : List Registered
  written : List Registered

/-- A result file: its two header lines, and the other lines up to the time, benchmark/benchmark.cpp 54-93. -/
structure BenchmarkFile where
  header : List Char
  lines : List (List Char)

/-- `benchmark_test_float` and `benchmark_test_double`, benchmark/benchmark.cpp 100-116, with `benchmark_test`, 38-98:
the console and the two files. -/
def benchmark_console (cfg : Cfg) (c : Ryu.Config) (F : Fmt) (parse : Bool → Nat → Int → Option Nat)
    (uniform_samples digits_samples iterations : Nat) (input : BenchmarkInput) : Printed (BenchmarkFile × BenchmarkFile) := do
  let float_name := match F with
    | .b32 => "binary32"
    | .b64 => "binary64"
  say "[Running benchmark for "
  say float_name
  say "...]\n"
  say "Generating random samples...\n"
  let samples ← run (prepare_samples cfg F parse ((List.range uniform_samples).map input.general)
    ((List.range' 1 (max_digits F)).map fun digits => (List.range digits_samples).map (input.draws digits)))
  benchmark_run_console cfg c F float_name iterations samples input.functions
  say "Benchmarking done.\n"
  say "Now writing to files...\n"
  let (uniform, buffer) ← run (uniform_file cfg F (samples.headD []) input.written (List.replicate 64 none))
  let (digits, _) ← run (digits_file cfg F samples.tail input.written buffer)
  say "Done.\n\n\n"
  pure (⟨"number_of_samples,".toList ++ decimal_nat uniform_samples ++
      "\nname,sample,bit_representation,time\n".toList, uniform⟩,
    ⟨"number_of_samples_per_digits,".toList ++ decimal_nat digits_samples ++ "\nname,digits,sample,time\n".toList, digits⟩)

/-! ## tests/main.cpp -/

/-- The macros of tests/main.cpp 20-85. -/
structure Options where
  verify_log_computation : Bool
  verify_cache_length : Bool
  generate_cache : Bool
  verify_delta_computation : Bool
  verify_correct_rounding_bound : Bool
  verify_incorrect_rounding_removal : Bool
  uniform_random_test_float : Bool
  uniform_random_test_double : Bool
  uniform_random_perf_test_float : Bool
  uniform_random_perf_test_double : Bool
  misc_test : Bool
  benchmark_test_float : Bool
  benchmark_test_double : Bool
  live_test_float : Bool
  live_test_double : Bool

/-- The macros as they are defined in the repository, tests/main.cpp 77 and 85. -/
def Options.repository : Options :=
  ⟨false, false, false, false, false, false, false, false, false, false, false, true, true, false, false⟩

/-- What the programs get from outside: the numbers drawn at random and the standard input; how a floating-point
number is printed and read by the C++ library; what the undefined shift of C58 does; and for how many requests the
interactive test is watched.  For `main`, tests/main.cpp 92-157. -/
structure World where
  uniform_float : Nat → Nat
  uniform_double : Nat → Nat
  perf_float : Nat → Nat
  perf_double : Nat → Nat
  benchmark_float : BenchmarkInput
  benchmark_double : BenchmarkInput
  show_float : Fmt → Nat → List Char
  parse_decimal : Fmt → Bool → Nat → Int → Option Nat
  parse_line : Fmt → List Char → Option Nat
  shl64 : Exec Nat
  input : Stdin
  requests : Nat

/-- The interactive test, tests/main.cpp 150-156, cut off after some requests for input: it does not end by itself. -/
def live_console (cfg : Cfg) (w : World) (F : Fmt) : Printed Unit := do
  let out ← run (live_test cfg F (w.parse_line F) w.requests w.input)
  sayChars out
  run (.fault .loopFuel)

/-- One `#ifdef`, tests/main.cpp 94-157. -/
def when_defined {α : Type} (option : Bool) (program : Printed α) : Printed (Option α) :=
  if option then do
    let r ← program
    pure (some r)
  else pure none

/-- The files written by `generate_cache`, tests/main.cpp 103, and by the benchmarks, tests/main.cpp 138-148. -/
structure Files where
  caches : Option (List Char × List Char)
  benchmark_float : Option (BenchmarkFile × BenchmarkFile)
  benchmark_double : Option (BenchmarkFile × BenchmarkFile)

/-- tests/main.cpp 46 -/
def number_of_uniform_random_tests_float : Nat := 10000000
/-- tests/main.cpp 51 -/
def number_of_uniform_random_tests_double : Nat := 10000000
/-- tests/main.cpp 56 -/
def number_of_uniform_random_perf_tests_float : Nat := 100000000
/-- tests/main.cpp 61 -/
def number_of_uniform_random_perf_tests_double : Nat := 100000000
/-- tests/main.cpp 78 -/
def number_of_uniform_benchmark_samples_float : Nat := 1000000
/-- tests/main.cpp 79 -/
def number_of_digits_benchmark_samples_per_digits_float : Nat := 100000
/-- tests/main.cpp 80 -/
def number_of_benchmark_iterations_float : Nat := 1000
/-- tests/main.cpp 86 -/
def number_of_uniform_benchmark_samples_double : Nat := 1000000
/-- tests/main.cpp 87 -/
def number_of_digits_benchmark_samples_per_digits_double : Nat := 100000
/-- tests/main.cpp 88 -/
def number_of_benchmark_iterations_double : Nat := 1000

/-- `main`, tests/main.cpp 92-156. -/
def main_program (cfg : Cfg) (c : Ryu.Config) (fuel : Nat) (w : World) (o : Options) : Printed Files := do
  let _ ← when_defined o.verify_log_computation (verify_log_computation cfg fuel)
  let _ ← when_defined o.verify_cache_length (verify_cache_length cfg fuel)
  let caches ← when_defined o.generate_cache (generate_cache_console cfg w.shl64)
  let _ ← when_defined o.verify_delta_computation (verify_delta_computation cfg)
  let _ ← when_defined o.verify_correct_rounding_bound (verify_correct_rounding_bound cfg w.show_float)
  let _ ← when_defined o.verify_incorrect_rounding_removal (verify_incorrect_rounding_removal cfg w.show_float)
  let _ ← when_defined o.uniform_random_test_float
    (uniform_random_test_console cfg c .b32 ((List.range number_of_uniform_random_tests_float).map w.uniform_float))
  let _ ← when_defined o.uniform_random_test_double
    (uniform_random_test_console cfg c .b64 ((List.range number_of_uniform_random_tests_double).map w.uniform_double))
  let _ ← when_defined o.uniform_random_perf_test_float
    (perf_test_console cfg .b32 ((List.range number_of_uniform_random_perf_tests_float).map w.perf_float))
  let _ ← when_defined o.uniform_random_perf_test_double
    (perf_test_console cfg .b64 ((List.range number_of_uniform_random_perf_tests_double).map w.perf_double))
  let _ ← when_defined o.misc_test (pure ())
  let benchmark_float ← when_defined o.benchmark_test_float (benchmark_console cfg c .b32 (w.parse_decimal .b32)
    number_of_uniform_benchmark_samples_float number_of_digits_benchmark_samples_per_digits_float
    number_of_benchmark_iterations_float w.benchmark_float)
  let benchmark_double ← when_defined o.benchmark_test_double (benchmark_console cfg c .b64 (w.parse_decimal .b64)
    number_of_uniform_benchmark_samples_double number_of_digits_benchmark_samples_per_digits_double
    number_of_benchmark_iterations_double w.benchmark_double)
  let _ ← when_defined o.live_test_float (live_console cfg w .b32)
  let _ ← when_defined o.live_test_double (live_console cfg w .b64)
  pure ⟨caches, benchmark_float, benchmark_double⟩

end Grisu

import Verif.Model.UniformTest
import Verif.Model.RandomFloat

/-! # The benchmark, benchmark/benchmark.h 43-100, benchmark/benchmark.cpp 38-98, benchmark/grisu_exact.cpp,
benchmark/grisu_exact_wo_correct_rounding.cpp and benchmark/ryu.cpp

The random engine and the clock are not modelled.  What the engine delivers is an argument; the measured times, the last
column of the result files, are left out.  The functions are kept in a `std::unordered_map`, whose order is unspecified:
the functions run are an arbitrary list of registered ones. -/

namespace Grisu

/-- The functions registered, benchmark/grisu_exact.cpp 34-36, benchmark/grisu_exact_wo_correct_rounding.cpp 34-36 and
benchmark/ryu.cpp 22-23. -/
inductive Registered where
  | grisu_exact
  | grisu_exact_wo_correct_rounding
  | ryu

/-- Their names, benchmark/grisu_exact.cpp 34, benchmark/grisu_exact_wo_correct_rounding.cpp 34, benchmark/ryu.cpp 22. -/
def Registered.name : Registered → List Char
  | .grisu_exact => "Grisu-Exact".toList
  | .grisu_exact_wo_correct_rounding => "Grisu-Exact (w/o correct rounding)".toList
  | .ryu => "Ryu".toList

/-- `name_func_pair.second(sample, buffer)`: benchmark/grisu_exact.cpp 22-33,
benchmark/grisu_exact_wo_correct_rounding.cpp 22-33, benchmark/ryu.cpp 23. -/
def Registered.call (cfg : Cfg) (c : Ryu.Config) (F : Fmt) (f : Registered) (x : Nat) (buffer : Buffer) : Exec Buffer :=
  match f with
  | .grisu_exact => do
    let (buffer, _) ← fp_to_chars cfg F x buffer .nearest_to_even .tie_to_even
    .ok buffer
  | .grisu_exact_wo_correct_rounding => do
    let (buffer, _) ← fp_to_chars cfg F x buffer .nearest_to_even .do_not_care
    .ok buffer
  | .ryu => ryu_buffered c F x buffer

/-- The loop of benchmark/benchmark.h 88-90. -/
def call_loop (cfg : Cfg) (c : Ryu.Config) (F : Fmt) (f : Registered) (x : Nat) : Nat → Buffer → Exec Buffer
  | 0, buffer => .ok buffer
  | i + 1, buffer => do
    let buffer ← f.call cfg c F x buffer
    call_loop cfg c F f x i buffer

/-- The loop of benchmark/benchmark.h 86-97. -/
def sample_loop (cfg : Cfg) (c : Ryu.Config) (F : Fmt) (iterations : Nat) (f : Registered) :
    List Nat → Buffer → Exec Buffer
  | [], buffer => .ok buffer
  | x :: xs, buffer => do
    let buffer ← call_loop cfg c F f x iterations buffer
    sample_loop cfg c F iterations f xs buffer

/-- The loop of benchmark/benchmark.h 72-98 over `samples_[digits]`. -/
def digits_loop_run (cfg : Cfg) (c : Ryu.Config) (F : Fmt) (iterations : Nat) (f : Registered) :
    List (List Nat) → Buffer → Exec Buffer
  | [], buffer => .ok buffer
  | xs :: samples, buffer => do
    let buffer ← sample_loop cfg c F iterations f xs buffer
    digits_loop_run cfg c F iterations f samples buffer

/-- The loop of benchmark/benchmark.h 67-99. -/
def function_loop (cfg : Cfg) (c : Ryu.Config) (F : Fmt) (iterations : Nat) (samples : List (List Nat)) :
    List Registered → Buffer → Exec Buffer
  | [], buffer => .ok buffer
  | f :: fs, buffer => do
    let buffer ← digits_loop_run cfg c F iterations f samples buffer
    function_loop cfg c F iterations samples fs buffer

/-- `run`, benchmark/benchmark.h 62-100, with its array of 40 characters. -/
def benchmark_run (cfg : Cfg) (c : Ryu.Config) (F : Fmt) (iterations : Nat) (samples : List (List Nat))
    (functions : List Registered) : Exec Unit := do
  cassert cfg (decide (iterations ≥ 1))
  let _ ← function_loop cfg c F iterations samples functions (List.replicate 40 none)
  .ok ()

/-- `number` calls of the generator for one number of digits, benchmark/benchmark.h 51-53: one element of `draws` is
what the engine delivers to one call. -/
def digits_samples (cfg : Cfg) (F : Fmt) (parse : Bool → Nat → Int → Option Nat) (digits : Nat) :
    List (Int × List Draw) → Exec (List Nat)
  | [] => .ok []
  | d :: draws => do
    let x ← given_digits cfg F parse digits d.1 d.2
    let xs ← digits_samples cfg F parse digits draws
    .ok (x :: xs)

/-- The loop of benchmark/benchmark.h 50-54, from `digits` on. -/
def prepare_loop (cfg : Cfg) (F : Fmt) (parse : Bool → Nat → Int → Option Nat) :
    Nat → List (List (Int × List Draw)) → Exec (List (List Nat))
  | _, [] => .ok []
  | digits, d :: draws => do
    let xs ← digits_samples cfg F parse digits d
    let samples ← prepare_loop cfg F parse (digits + 1) draws
    .ok (xs :: samples)

/-- `prepare_samples`, benchmark/benchmark.h 43-55.  `general` is what the engine delivers to
`uniformly_randomly_generate_general_float`, tests/random_float.h 108-122, which returns it as it is; `draws` has
`max_digits` elements. -/
def prepare_samples (cfg : Cfg) (F : Fmt) (parse : Bool → Nat → Int → Option Nat) (general : List Nat)
    (draws : List (List (Int × List Draw))) : Exec (List (List Nat)) := do
  let samples ← prepare_loop cfg F parse 1 draws
  .ok (general :: samples)

/-- `std::hex << std::setfill('0') << std::setw(..) << br`, benchmark/benchmark.cpp 65-70. -/
def hex_bits (F : Fmt) (br : Nat) : List Char :=
  let digits := Nat.toDigits 16 br
  List.replicate ((match F with | .b32 => 8 | .b64 => 16) - digits.length) '0' ++ digits

/-- The inner loop of benchmark/benchmark.cpp 61-71: the lines of one function, up to the time. -/
def uniform_lines (cfg : Cfg) (F : Fmt) (f : Registered) : List Nat → Buffer → Exec (List (List Char) × Buffer)
  | [], buffer => .ok ([], buffer)
  | x :: xs, buffer => do
    let (buffer, _) ← fp_to_chars cfg F x buffer .nearest_to_even .tie_to_even
    let view ← string_view buffer
    let (lines, buffer) ← uniform_lines cfg F f xs buffer
    .ok (("\"".toList ++ f.name ++ "\",".toList ++ view ++ ",0x".toList ++ hex_bits F x ++ ",".toList) :: lines, buffer)

/-- The loop of benchmark/benchmark.cpp 60-72. -/
def uniform_file (cfg : Cfg) (F : Fmt) (general : List Nat) :
    List Registered → Buffer → Exec (List (List Char) × Buffer)
  | [], buffer => .ok ([], buffer)
  | f :: fs, buffer => do
    let (lines, buffer) ← uniform_lines cfg F f general buffer
    let (rest, buffer) ← uniform_file cfg F general fs buffer
    .ok (lines ++ rest, buffer)

/-- The innermost loop of benchmark/benchmark.cpp 85-89. -/
def digits_lines (cfg : Cfg) (F : Fmt) (f : Registered) (digits : Nat) :
    List Nat → Buffer → Exec (List (List Char) × Buffer)
  | [], buffer => .ok ([], buffer)
  | x :: xs, buffer => do
    let (buffer, _) ← fp_to_chars cfg F x buffer .nearest_to_even .tie_to_even
    let view ← string_view buffer
    let (lines, buffer) ← digits_lines cfg F f digits xs buffer
    .ok (("\"".toList ++ f.name ++ "\",".toList ++ Nat.toDigits 10 digits ++ ",".toList ++ view ++ ",".toList) :: lines,
      buffer)

/-- The loop of benchmark/benchmark.cpp 84-90, from `digits` on. -/
def digits_loop_file (cfg : Cfg) (F : Fmt) (f : Registered) :
    Nat → List (List Nat) → Buffer → Exec (List (List Char) × Buffer)
  | _, [], buffer => .ok ([], buffer)
  | digits, xs :: samples, buffer => do
    let (lines, buffer) ← digits_lines cfg F f digits xs buffer
    let (rest, buffer) ← digits_loop_file cfg F f (digits + 1) samples buffer
    .ok (lines ++ rest, buffer)

/-- The loop of benchmark/benchmark.cpp 83-92. -/
def digits_file (cfg : Cfg) (F : Fmt) (samples : List (List Nat)) :
    List Registered → Buffer → Exec (List (List Char) × Buffer)
  | [], buffer => .ok ([], buffer)
  | f :: fs, buffer => do
    let (lines, buffer) ← digits_loop_file cfg F f 1 samples buffer
    let (rest, buffer) ← digits_file cfg F samples fs buffer
    .ok (lines ++ rest, buffer)

/-- `benchmark_test`, benchmark/benchmark.cpp 38-98: the lines of the two result files after their two header lines.  The
array of 64 characters is used for both.  `written` is the order in which the results of the functions are written, which
need not be the order in which they ran. -/
def benchmark_test (cfg : Cfg) (c : Ryu.Config) (F : Fmt) (parse : Bool → Nat → Int → Option Nat) (general : List Nat)
    (draws : List (List (Int × List Draw))) (iterations : Nat)
    (functions written : List Registered) : Exec (List (List Char) × List (List Char)) := do
  let samples ← prepare_samples cfg F parse general draws
  benchmark_run cfg c F iterations samples functions
  let (uniform, buffer) ← uniform_file cfg F (samples.headD []) written (List.replicate 64 none)
  let (digits, _) ← digits_file cfg F samples.tail written buffer
  .ok (uniform, digits)

end Grisu

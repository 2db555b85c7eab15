import Verif.Model.VerifyTools
import Verif.Model.VerifyLog
import Verif.Model.CacheLength
import Verif.Model.LiveTest

/-! # What the test programs write to the console

`VerifyTools.lean`, `VerifyLog.lean`, `CacheLength.lean` and `UniformTest.lean` model the computations of the programs in
`tests/`; here are the programs with everything they print, in the order in which it is printed.  `std::endl` is a
newline. -/

namespace Grisu

/-- What has been printed so far and how the program went on: the effect of the statements of tests/main.cpp 92-157 and
of the functions called there. -/
structure Printed (α : Type) where
  out : List Char
  result : Exec α

namespace Printed

/-- `std::cout << text`, as in tests/verify_log_computation.cpp 28.  Writing is taken to succeed. -/
def say (text : String) : Printed Unit := ⟨text.toList, .ok ()⟩

/-- `std::cout << text`, for a text put together at run time, as in tests/live_test.cpp 85. -/
def sayChars (text : List Char) : Printed Unit := ⟨text, .ok ()⟩

/-- A computation that prints nothing, as the calls in tests/verify_log_computation.cpp 42-47. -/
def run {α : Type} (e : Exec α) : Printed α := ⟨[], e⟩

/-- One statement after the other, as in tests/main.cpp 92-157; nothing is printed after a fault. -/
def bind {α β : Type} (x : Printed α) (f : α → Printed β) : Printed β :=
  match x.result with
  | .ok a => ⟨x.out ++ (f a).out, (f a).result⟩
  | .fault e => ⟨x.out, .fault e⟩

instance : Monad Printed where
  pure a := ⟨[], .ok a⟩
  bind := bind

end Printed

open Printed

/-- `std::cout << value` for an unsigned integer, as in tests/verify_log_computation.cpp 70. -/
def decimal_nat (value : Nat) : List Char := Nat.toDigits 10 value

/-! ## tests/verify_delta_computation.cpp -/

/-- The loop, tests/verify_delta_computation.cpp 35-56. -/
def delta_loop_console (cfg : Cfg) (F : Fmt) (type_name_string : String) : Nat → Int → Printed Bool
  | 0, _ => pure true
  | count + 1, k => do
    let cache ← run (get_cache cfg F k)
    let deltai_orthodox ← run (compute_mul cfg F (wrap F.q (3 * 2 ^ (F.q - F.p - 3))) cache (-F.gamma))
    let deltai_fast ← run (compute_delta F .to_nearest true cache (-F.gamma))
    if deltai_orthodox ≠ deltai_fast then do
      say "compute_delta for "
      say type_name_string
      say ": mismatch! [k = "
      sayChars (decimal_int k)
      say ", correct deltai = "
      sayChars (decimal_nat deltai_orthodox)
      say ", computed deltai = ("
      sayChars (decimal_nat deltai_fast)
      say "]\n"
      pure false
    else delta_loop_console cfg F type_name_string count (k + 1)

/-- `verify_delta_computation`, tests/verify_delta_computation.cpp 22-75. -/
def verify_delta_computation (cfg : Cfg) : Printed Unit := do
  say "[Verifying delta computation...]\n"
  let ok ← delta_loop_console cfg .b32 "float" (Fmt.b32.max_k - Fmt.b32.min_k + 1).toNat Fmt.b32.min_k
  if ok then say "delta computation for binary32: verified.\n"
  else say "delta computation for binary32: failed.\n"
  let ok ← delta_loop_console cfg .b64 "double" (Fmt.b64.max_k - Fmt.b64.min_k + 1).toNat Fmt.b64.min_k
  if ok then say "delta computation for binary64: verified.\n"
  else say "delta computation for binary64: failed.\n"
  say "Done.\n\n\n"

/-! ## tests/verify_correct_rounding_bound.cpp

`show_float F x` is the text of `std::cout << std::setprecision(9) << x` (`setprecision(17)` for `double`) for the number
with the bit pattern `x`. -/

/-- The line about one exponent, tests/verify_correct_rounding_bound.cpp 94-110. -/
def rounding_line (show_float : Fmt → Nat → List Char) (F : Fmt) (l : RoundingLine) : Printed Unit := do
  say "n' = "
  sayChars (decimal_int l.np)
  say " (e = "
  sayChars (decimal_int l.e)
  say ", x = "
  sayChars (show_float F l.bit_rep)
  say " [0x"
  sayChars (hex_significand F l.bit_rep)
  say "])\n"

/-- Several lines, those of tests/verify_correct_rounding_bound.cpp 94-110 or of the loop of
tests/verify_incorrect_rounding_removal.cpp 35-200. -/
def say_all {α : Type} (line : α → Printed Unit) : List α → Printed Unit
  | [] => pure ()
  | l :: ls => do
    line l
    say_all line ls

/-- The loop, tests/verify_correct_rounding_bound.cpp 35-112. -/
def rounding_loop_console (cfg : Cfg) (show_float : Fmt → Nat → List Char) (F : Fmt) :
    Nat → Nat → Bool → Printed Bool
  | 0, _, success => pure success
  | count + 1, e_shifted, success => do
    let setup ← run (tool_setup cfg F e_shifted)
    match setup with
    | none => do
      say "Detected mismatch between kappa's for different rounding modes!\n"
      pure false
    | some t => do
      let (lines, success) ← run (rounding_report cfg F e_shifted t success)
      say_all (rounding_line show_float F) lines
      rounding_loop_console cfg show_float F count (e_shifted + 1) success

/-- `verify_correct_rounding_bound`, tests/verify_correct_rounding_bound.cpp 23-132. -/
def verify_correct_rounding_bound (cfg : Cfg) (show_float : Fmt → Nat → List Char) : Printed Unit := do
  say "[Verifying correct rounding bound...]\n"
  let ok ← rounding_loop_console cfg show_float .b32 (2 ^ Fmt.b32.exponent_bits - 2) 1 true
  if ok then say "correct rounding bound computation for binary32: verified.\n"
  else say "correct rounding bound computation for binary32: failed.\n"
  let ok ← rounding_loop_console cfg show_float .b64 (2 ^ Fmt.b64.exponent_bits - 2) 1 true
  if ok then say "correct rounding bound computation for binary64: verified.\n"
  else say "correct rounding bound computation for binary64: failed.\n"
  say "Done.\n\n\n"

/-! ## tests/verify_incorrect_rounding_removal.cpp -/

/-- The line about one exponent, tests/verify_incorrect_rounding_removal.cpp 135-146 and 154, 170 or 185. -/
def removal_line (show_float : Fmt → Nat → List Char) (F : Fmt) (l : RemovalLine) : Printed Unit := do
  say "Coincidence of integer parts detected (x = "
  sayChars (show_float F l.bit_rep)
  say " [0x"
  sayChars (hex_significand F l.bit_rep)
  say "], e = "
  sayChars (decimal_int l.e)
  say "): "
  match l.fraction with
  | .lt => say "z^(f) < delta^(f)\n"
  | .eq => say "z^(f) == delta^(f)\n"
  | .gt => say "z^(f) > delta^(f)\n"

/-- The loop, tests/verify_incorrect_rounding_removal.cpp 35-200. -/
def removal_loop_console (cfg : Cfg) (show_float : Fmt → Nat → List Char) (F : Fmt) :
    Nat → Nat → Bool → Printed Bool
  | 0, _, success => pure success
  | count + 1, e_shifted, success => do
    let setup ← run (tool_setup cfg F e_shifted)
    match setup with
    | none => do
      say "Detected mismatch between kappa's for different rounding modes!\n"
      pure false
    | some t => do
      let (lines, success) ← run (removal_check cfg F e_shifted t success)
      say_all (removal_line show_float F) lines
      removal_loop_console cfg show_float F count (e_shifted + 1) success

/-- `verify_incorrect_rounding_removal`, tests/verify_incorrect_rounding_removal.cpp 23-220. -/
def verify_incorrect_rounding_removal (cfg : Cfg) (show_float : Fmt → Nat → List Char) : Printed Unit := do
  say "[Verifying incorrect rounding removal...]\n"
  let ok ← removal_loop_console cfg show_float .b32 (2 ^ Fmt.b32.exponent_bits - 2) 1 true
  if ok then say "Incorrect rounding removal for binary32: verified.\n"
  else say "Incorrect rounding removal for binary32: failed.\n"
  let ok ← removal_loop_console cfg show_float .b64 (2 ^ Fmt.b64.exponent_bits - 2) 1 true
  if ok then say "Incorrect rounding removal for binary64: verified.\n"
  else say "Incorrect rounding removal for binary64: failed.\n"
  say "Done.\n\n\n"

/-! ## tests/verify_log_computation.cpp -/

/-- The comparison with the true value at one exponent, tests/verify_log_computation.cpp 49-63, 92-106 and 135-149: is
it right? -/
def log_compare (name : String) (f : Int → Exec Int) (e true_value : Int) : Printed Bool := do
  let computed ← run (f e)
  if computed ≠ true_value then do
    say name
    say ": mismatch! [e = "
    sayChars (decimal_int e)
    say ", true_value = "
    sayChars (decimal_int true_value)
    say ", computed = "
    sayChars (decimal_int computed)
    say "]\n"
    pure false
  else pure true

/-- The body of one of the three loops, tests/verify_log_computation.cpp 33-69, 76-112 and 119-155: is there no
mismatch at `e`?  `lower` is the expression called so in the code, `overflows` the test on it, and `exact` the
computation of the true value. -/
def log_step_console (name : String) (lower : Int → Exec Int) (overflows : Int → Bool) (exact : Nat → Exec Int)
    (f : Int → Exec Int) (e : Nat) : Printed Bool := do
  let l ← run (lower e)
  if overflows l then do
    say name
    say ": overflow detected [e = "
    sayChars (decimal_nat e)
    say "]\n"
    let true_value ← run (exact e)
    let ok ← log_compare name f e true_value
    let ok' ← log_compare name f (-(e : Int)) (-true_value - 1)
    pure (ok && ok')
  else pure true

/-- The three loops, tests/verify_log_computation.cpp 33-69, 76-112 and 119-155, `count` exponents from `e` on: the
value of `maximum_valid_exp` at the end. -/
def log_loop_console (step : Nat → Printed Bool) : Nat → Nat → Bool → Nat → Printed Nat
  | 0, _, _, maximum_valid_exp => pure maximum_valid_exp
  | count + 1, e, succeeded, maximum_valid_exp => do
    let ok ← step e
    let succeeded := succeeded && ok
    log_loop_console step count (e + 1) succeeded (if succeeded then e else maximum_valid_exp)

/-- One of the three parts, tests/verify_log_computation.cpp 30-70, 73-113 and 116-156. -/
def log_part (name : String) (step : Nat → Printed Bool) (count : Nat) : Printed Unit := do
  let maximum_valid_exp ← log_loop_console step count 1 true 0
  say name
  say " is valid up to |e| <= "
  sayChars (decimal_nat maximum_valid_exp)
  say ".\n\n"

/-- The body of the first loop, tests/verify_log_computation.cpp 33-69. -/
def log10_pow2_console (cfg : Cfg) (fuel : Nat) : Nat → Printed Bool :=
  log_step_console "floor_log10_pow2"
    (fun e => do
      let prod ← i32 (e * 0x4d104)
      .ok (prod % 2 ^ 20))
    (fun lower => decide (lower + 0xd28 ≥ 0x100000))
    (fun e => do
      let number ← Big.power_of_2 cfg 65 e
      count_divisions cfg 65 10 fuel fuel number 0)
    floor_log10_pow2_raw

/-- The body of the second loop, tests/verify_log_computation.cpp 76-112. -/
def log2_pow10_console (cfg : Cfg) : Nat → Printed Bool :=
  log_step_console "floor_log2_pow10"
    (fun e => do
      let prod ← i32 (e * 0x35269e)
      .ok (prod % 2 ^ 20))
    (fun lower => decide (lower + 0x130 ≥ 0x100000))
    (fun e => do
      let number ← Big.power_of_2 cfg 256 e
      let number ← multiply_5_times cfg e number
      .ok ((number.element_pos : Int) * 64 + number.bit_pos - 1))
    floor_log2_pow10_raw

/-- The body of the third loop, tests/verify_log_computation.cpp 119-155. -/
def log5_pow2_console (cfg : Cfg) (fuel : Nat) : Nat → Printed Bool :=
  log_step_console "floor_log5_pow2"
    (fun e => do
      let prod ← i64 (e * 0x6e40d1a4)
      .ok (prod % 2 ^ 32))
    (fun lower => decide (lower + 0x143e ≥ 0x100000000))
    (fun e => do
      let number ← Big.power_of_2 cfg 1025 e
      count_divisions cfg 1025 5 fuel fuel number 0)
    floor_log5_pow2_raw

/-- `verify_log_computation`, tests/verify_log_computation.cpp 24-159. -/
def verify_log_computation (cfg : Cfg) (fuel : Nat) : Printed Unit := do
  say "[Verifying log computation...]\n"
  log_part "floor_log10_pow2" (log10_pow2_console cfg fuel) 4096
  log_part "floor_log2_pow10" (log2_pow10_console cfg) 1024
  log_part "floor_log5_pow2" (log5_pow2_console cfg fuel) 65536
  say "Done.\n\n\n"

/-! ## tests/verify_cache_length.cpp -/

/-- One of the four parts, tests/verify_cache_length.cpp 359-363, 365-369, 371-375, 377-381, the console only
(`on_max` is 355-357). -/
def cache_length_part (title : String) (tool : Exec (List (Int × Nat) × Nat)) : Printed Unit := do
  say title
  let (_, max_required_bits) ← run tool
  say "Maximum required bits: "
  sayChars (decimal_nat max_required_bits)
  say "\n"

/-- `verify_cache_length`, tests/verify_cache_length.cpp 347-385, the console only. -/
def verify_cache_length (cfg : Cfg) (fuel : Nat) : Printed Unit := do
  say "[Verifying cache length upper bound...]\n"
  cache_length_part "\nVerify for IEEE-754 binary32 (float) type for negative k...\n" (cache_length_negative_k cfg .b32 fuel)
  cache_length_part "\nVerify for IEEE-754 binary32 (float) type for positive k...\n" (cache_length_positive_k cfg .b32 fuel)
  cache_length_part "\nVerify for IEEE-754 binary64 (double) type for negative k...\n" (cache_length_negative_k cfg .b64 fuel)
  cache_length_part "\nVerify for IEEE-754 binary64 (double) type for positive k...\n" (cache_length_positive_k cfg .b64 fuel)
  say "\n"
  say "Done.\n\n\n"

/-! ## tests/uniform_random_test.cpp -/

/-- The loop, tests/uniform_random_test.cpp 31-50, with the message of 47-48. -/
def uniform_loop_console (cfg : Cfg) (c : Ryu.Config) (F : Fmt) :
    List Nat → (buffer1 buffer2 : Buffer) → (succeeded : Bool) → Printed Bool
  | [], _, _, succeeded => pure succeeded
  | x :: xs, buffer1, buffer2, succeeded => do
    let (buffer1, _) ← run (fp_to_chars cfg F x buffer1 .nearest_to_even .tie_to_even)
    let buffer2 ← run (ryu_buffered c F x buffer2)
    let view1 ← run (string_view buffer1)
    let view2 ← run (string_view buffer2)
    if view1 ≠ view2 then do
      say "Error detected! [Ryu = "
      sayChars view2
      say ", Grisu-Exact = "
      sayChars view1
      say "]\n"
      uniform_loop_console cfg c F xs buffer1 buffer2 false
    else uniform_loop_console cfg c F xs buffer1 buffer2 succeeded

/-- `uniform_random_test_float` and `uniform_random_test_double`, tests/uniform_random_test.cpp 59-68, with
`uniform_random_test`, 24-57.  `xs` are the numbers drawn. -/
def uniform_random_test_console (cfg : Cfg) (c : Ryu.Config) (F : Fmt) (xs : List Nat) : Printed Unit := do
  let name := match F with
    | .b32 => "float"
    | .b64 => "double"
  say "[Testing uniformly randomly generated "
  say name
  say " inputs...]\n"
  let succeeded ← uniform_loop_console cfg c F xs (List.replicate 41 none) (List.replicate 41 none) true
  if succeeded then do
    say "Uniform random test for "
    say name
    say " with "
    sayChars (decimal_nat xs.length)
    say " examples succeeded.\n"
  else pure ()
  say "Done.\n\n\n"

end Grisu

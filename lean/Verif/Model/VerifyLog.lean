import Verif.Model.BigInt

/-! # The self-verification of the logarithms

The three loops of `verify_log_computation`, tests/verify_log_computation.cpp 31-156.  What they print on the way is
in `Console.lean`, here only the number they report. -/

namespace Grisu

/-- `floor_log10_pow2<false>`, grisu_exact.h 293-308: no assertion. -/
def floor_log10_pow2_raw (e : Int) : Exec Int := do
  let prod ← i32 (e * 0x4d104)
  .ok (prod / 2 ^ 20)

/-- `floor_log2_pow10<false>`, grisu_exact.h 310-325: no assertion. -/
def floor_log2_pow10_raw (e : Int) : Exec Int := do
  let prod ← i32 (e * 0x35269e)
  .ok (prod / 2 ^ 20)

/-- `floor_log5_pow2<false>`, grisu_exact.h 328-345: no assertion. -/
def floor_log5_pow2_raw (e : Int) : Exec Int := do
  let prod ← i64 (e * 0x6e40d1a4)
  .ok (prod / 2 ^ 32)

/-- The calls of `multiply_5` in tests/verify_log_computation.cpp 86-88. -/
def multiply_5_times (cfg : Cfg) : Nat → Big → Exec Big
  | 0, x => .ok x
  | n + 1, x => do
    let x ← Big.multiply_5 cfg x
    multiply_5_times cfg n x

/-- tests/verify_log_computation.cpp 49-63, 92-106 and 135-149: does the function agree with the true value at `e`
and at `-e`? -/
def log_matches (f : Int → Exec Int) (e : Nat) (true_value : Int) : Exec Bool := do
  let computed ← f e
  let computed' ← f (-(e : Int))
  .ok (decide (computed = true_value ∧ computed' = -true_value - 1))

/-- The body of the loop of tests/verify_log_computation.cpp 76-112: is there no mismatch at `e`? -/
def log2_pow10_step (cfg : Cfg) (e : Nat) : Exec Bool := do
  let prod ← i32 ((e : Int) * 0x35269e)
  let lower := prod % 2 ^ 20
  if lower + 0x130 ≥ 0x100000 then
    let number ← Big.power_of_2 cfg 256 e
    let number ← multiply_5_times cfg e number
    log_matches floor_log2_pow10_raw e ((number.element_pos : Int) * 64 + number.bit_pos - 1)
  else .ok true

/-- The loops of tests/verify_log_computation.cpp 44-47 and 130-133: how often `number` can be divided by `d`.
`size` is the number of elements of the type and `fuel` bounds the iterations, here and in `long_division`. -/
def count_divisions (cfg : Cfg) (size d fuel : Nat) : Nat → Big → Int → Exec Int
  | 0, _, _ => .fault .loopFuel
  | n + 1, number, true_value => do
    if ← Big.geE number d then
      let divisor ← Big.ofElement size d
      let (quotient, _) ← Big.long_division cfg fuel number divisor
      count_divisions cfg size d fuel n quotient (true_value + 1)
    else .ok true_value

/-- The body of the loop of tests/verify_log_computation.cpp 33-69: is there no mismatch at `e`?  `bigint<4097>`
has 65 elements. -/
def log10_pow2_step (cfg : Cfg) (fuel : Nat) (e : Nat) : Exec Bool := do
  let prod ← i32 ((e : Int) * 0x4d104)
  let lower := prod % 2 ^ 20
  if lower + 0xd28 ≥ 0x100000 then
    let number ← Big.power_of_2 cfg 65 e
    let true_value ← count_divisions cfg 65 10 fuel fuel number 0
    log_matches floor_log10_pow2_raw e true_value
  else .ok true

/-- The body of the loop of tests/verify_log_computation.cpp 119-155: is there no mismatch at `e`? -/
def log5_pow2_step (cfg : Cfg) (fuel : Nat) (e : Nat) : Exec Bool := do
  let prod ← i64 ((e : Int) * 0x6e40d1a4)
  let lower := prod % 2 ^ 32
  if lower + 0x143e ≥ 0x100000000 then
    let number ← Big.power_of_2 cfg 1025 e
    let true_value ← count_divisions cfg 1025 5 fuel fuel number 0
    log_matches floor_log5_pow2_raw e true_value
  else .ok true

/-- The loops of tests/verify_log_computation.cpp 33-69, 76-112 and 119-155, `count` exponents from `e` on: the value of
`maximum_valid_exp` at the end. -/
def verify_log_loop (step : Nat → Exec Bool) : Nat → Nat → Bool → Nat → Exec Nat
  | 0, _, _, maximum_valid_exp => .ok maximum_valid_exp
  | count + 1, e, succeeded, maximum_valid_exp => do
    let ok ← step e
    let succeeded := succeeded && ok
    verify_log_loop step count (e + 1) succeeded (if succeeded then e else maximum_valid_exp)

/-- tests/verify_log_computation.cpp 30-70. -/
def verify_log10_pow2 (cfg : Cfg) (fuel : Nat) : Exec Nat := verify_log_loop (log10_pow2_step cfg fuel) 4096 1 true 0

/-- tests/verify_log_computation.cpp 73-113. -/
def verify_log2_pow10 (cfg : Cfg) : Exec Nat := verify_log_loop (log2_pow10_step cfg) 1024 1 true 0

/-- tests/verify_log_computation.cpp 116-156. -/
def verify_log5_pow2 (cfg : Cfg) (fuel : Nat) : Exec Nat := verify_log_loop (log5_pow2_step cfg fuel) 65536 1 true 0

end Grisu

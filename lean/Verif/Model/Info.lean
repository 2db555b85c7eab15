import Verif.Model.Arith

/-! # `common_info<Float>`, grisu_exact.h 348-458 -/

namespace Grisu

/-- The two supported formats: IEEE-754 binary32 (`float`) and binary64 (`double`);
grisu_exact.h 356-359. -/
inductive Fmt
  | b32
  | b64
  deriving DecidableEq, Repr

namespace Fmt

/-- `precision` = `numeric_limits<Float>::digits - 1`, grisu_exact.h 361. -/
def p : Fmt → Nat
  | b32 => 23
  | b64 => 52

/-- `extended_precision` = number of bits of `extended_significand_type`, grisu_exact.h 363-371. -/
def q : Fmt → Nat
  | b32 => 32
  | b64 => 64

/-- `numeric_limits<Float>::min_exponent` (C++ standard library, IEEE formats), used in grisu_exact.h 387. -/
def std_min_exponent : Fmt → Int
  | b32 => -125
  | b64 => -1021

/-- `numeric_limits<Float>::max_exponent`, used in grisu_exact.h 389. -/
def std_max_exponent : Fmt → Int
  | b32 => 128
  | b64 => 1024

variable (F : Fmt)

/-- grisu_exact.h 373-374 -/
def sign_bit_mask : Nat := 2 ^ (F.q - 1)
/-- grisu_exact.h 375-376 -/
def exponent_bits : Nat := F.q - F.p - 1
/-- grisu_exact.h 377 -/
def exponent_bias : Int := 1 - 2 ^ (F.exponent_bits - 1)
/-- grisu_exact.h 378-379 -/
def exponent_bits_mask : Nat := (2 ^ F.exponent_bits - 1) * 2 ^ F.p
/-- grisu_exact.h 381-382 -/
def boundary_bit : Nat := 2 ^ (F.q - F.p - 2)
/-- grisu_exact.h 383 -/
def normal_interval_length : Nat := F.boundary_bit * 2
/-- grisu_exact.h 384 -/
def edge_case_boundary_bit : Nat := F.boundary_bit / 2
/-- grisu_exact.h 386-387 -/
def min_exponent : Int := F.std_min_exponent - F.q
/-- grisu_exact.h 388-389 -/
def max_exponent : Int := F.std_max_exponent - F.q
/-- grisu_exact.h 393 -/
def alpha (_F : Fmt) : Int := -5
/-- grisu_exact.h 394 -/
def gamma (F : Fmt) : Int := F.alpha + 3
/-- grisu_exact.h 397-398 -/
def min_kappa : Int := -log10_pow2_value (-((F.q - F.p : Int) - 3 + F.alpha)) - 1
/-- grisu_exact.h 399-400 -/
def max_kappa : Int := -log10_pow2_value (-((F.q : Int) + F.gamma)) - 1
/-- grisu_exact.h 403 -/
def initial_kappa : Nat :=
  match F with
  | b32 => 2
  | b64 => 3
/-- grisu_exact.h 414 -/
def min_k : Int := -log10_pow2_value (F.max_exponent + 1 - F.alpha)
/-- grisu_exact.h 415 -/
def max_k : Int := -log10_pow2_value (F.min_exponent + 1 - F.alpha)
/-- grisu_exact.h 417 -/
def cache_precision : Nat := F.q * 2
/-- `integer_check_exponent_lower_bound_for_q_mp_m3`, grisu_exact.h 424-426 -/
def lower_bound_q_mp_m3 : Int :=
  log5_pow2_value (-((F.q - F.p : Int) - 3 + F.alpha)) - ((F.q - F.p : Int) - 3)
/-- `integer_check_exponent_lower_bound_for_q_mp_m2`, grisu_exact.h 427-429 -/
def lower_bound_q_mp_m2 : Int :=
  log5_pow2_value (-((F.q - F.p : Int) - 2 + F.alpha)) - ((F.q - F.p : Int) - 2)
/-- `integer_check_exponent_lower_bound_for_q_mp_m1`, grisu_exact.h 430-432 -/
def lower_bound_q_mp_m1 : Int :=
  log5_pow2_value (-((F.q - F.p : Int) - 1 + F.alpha)) - ((F.q - F.p : Int) - 1)
/-- `integer_check_exponent_lower_bound_for_q_mp`, grisu_exact.h 433-435 -/
def lower_bound_q_mp : Int :=
  log5_pow2_value (-((F.q - F.p : Int) + F.alpha)) - (F.q - F.p : Int)
/-- grisu_exact.h 436 -/
def max_exponent_for_k_geq_0 : Int := F.alpha + 2
/-- grisu_exact.h 437 -/
def max_exponent_for_k_geq_m1 : Int := F.alpha + 5
/-- `integer_check_exponent_upper_bound_for_p_p2`, grisu_exact.h 438-439 -/
def upper_bound_p_p2 : Int :=
  (F.alpha - 2) - log2_pow10_value (-log5_pow2_value (F.p + 2) - 1)
/-- `integer_check_exponent_upper_bound_for_p_p1`, grisu_exact.h 440-441 -/
def upper_bound_p_p1 : Int :=
  (F.alpha - 2) - log2_pow10_value (-log5_pow2_value (F.p + 1) - 1)

/-- `power_of_10<e>`, grisu_exact.h 1774-1775. -/
def power_of_10 (e : Nat) : Nat := compute_power F.q 10 e

end Fmt

/-- The `static_assert`s of grisu_exact.h 390-412 and 444: the code does not compile unless they hold. -/
theorem common_info_static_asserts (F : Fmt) :
    F.min_exponent < 0 ∧ F.max_exponent > 0 ∧ -F.min_exponent ≥ F.max_exponent ∧
    F.min_exponent = 1 + F.exponent_bias - F.q + 1 ∧
    F.alpha ≥ -((F.q - F.p : Int) - 4) ∧ F.gamma ≤ 0 ∧
    0 ≤ F.min_kappa ∧ F.min_kappa ≤ F.max_kappa ∧
    F.min_kappa ≤ F.initial_kappa ∧ (F.initial_kappa : Int) ≤ F.max_kappa ∧
    log2_pow10_value (F.initial_kappa - F.min_kappa - 1) < 32 - (F.q - F.p - 1 : Int) - F.gamma ∧
    (F.initial_kappa : Int) < log10_pow2_value 32 ∧
    F.min_exponent < F.lower_bound_q_mp_m3 := by
  cases F <;> decide

end Grisu

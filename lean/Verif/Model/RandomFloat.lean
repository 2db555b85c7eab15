import Verif.Model.BigInt
import Verif.Model.Compute

/-! # Test data generators, tests/random_float.h 47-58, 80-106 and 127-198

The random engine is not modelled: what `std::uniform_int_distribution{a, b}(rg)` delivers is an
argument, an arbitrary value of `a, ..., b`. -/

namespace Grisu
open Big

/-- `std::copy_n(stored_values.cbegin(), n, first)`, tests/random_float.h 53 and 57: into `buf` at `pos`. -/
def copy_n (stored : List Nat) : Nat → List Nat → Nat → Exec (List Nat)
  | 0, buf, _ => .ok buf
  | n + 1, buf, pos => do
    let buf ← copy_n stored n buf pos
    let v ← rd stored n
    wr buf (pos + n) v

/-- The loop of tests/random_float.h 52-55, `q` times. -/
def copy_loop (stored : List Nat) : Nat → List Nat → Nat → Exec (List Nat × Nat)
  | 0, buf, first => .ok (buf, first)
  | q + 1, buf, first => do
    let buf ← copy_n stored stored.length buf first
    copy_loop stored q buf (first + stored.length)

/-- `repeating_seed_seq::generate`, tests/random_float.h 48-58, on the whole array `buf`.  Division by zero is a
violated precondition. -/
def seed_generate (stored buf : List Nat) : Exec (List Nat) := do
  let count := buf.length
  let q ← (if stored.length = 0 then .fault .precondition else .ok (count / stored.length) : Exec Nat)
  let (buf, first) ← copy_loop stored q buf 0
  copy_n stored (count - q * stored.length) buf first

/-- `uniformly_randomly_generate_finite_float`, tests/random_float.h 80-106, given what the distributions
deliver.  The result is a bit pattern. -/
def uniform_finite (F : Fmt) (sign_bit exponent_bits significand_bits : Nat) : Nat :=
  wrap F.q (sign_bit <<< (F.q - 1)) ||| wrap F.q (exponent_bits <<< F.p) ||| significand_bits

/-- Arithmetic in `signed_int_t`, tests/random_float.h 133: 32 or 64 bits. -/
def signedInt (F : Fmt) (n : Int) : Exec Int :=
  if -2 ^ (F.q - 1) ≤ n ∧ n < 2 ^ (F.q - 1) then .ok n else .fault .signedOverflow

/-- The loop of tests/random_float.h 153-155. -/
def from_loop (F : Fmt) : Nat → Int → Exec Int
  | 0, lo => .ok lo
  | count + 1, lo => do
    let lo ← signedInt F (lo * 10)
    from_loop F count lo

/-- What the distributions of one round deliver, tests/random_float.h 160, 163 and 167-169. -/
structure Draw where
  significand : Int
  last : Int
  exp : Int

/-- `std::numeric_limits<Float>::min_exponent10` and `max_exponent10`, used in tests/random_float.h 168-169. -/
def min_exponent10 : Fmt → Int
  | .b32 => -37
  | .b64 => -307

/-- `std::numeric_limits<Float>::max_exponent10`, used in tests/random_float.h 168-169. -/
def max_exponent10 : Fmt → Int
  | .b32 => 38
  | .b64 => 308

/-- One round of the loop, tests/random_float.h 160-194: the number returned, or `none` for `continue`.  `parse`
stands for the making of the text and `std::stof` / `std::stod` (lines 172-180): sign, significand and decimal
exponent to a bit pattern, or `none` where `std::out_of_range` is thrown. -/
def given_digits_round (cfg : Cfg) (F : Fmt) (parse : Bool → Nat → Int → Option Nat) (digits : Nat)
    (sign lo : Int) (d : Draw) : Exec (Option Nat) := do
  let significand ← (if digits > 1 then do
      let s ← signedInt F (d.significand * 10)
      signedInt F (s + d.last)
    else .ok d.significand : Exec Int)
  let signed ← signedInt F (sign * significand)
  match parse (decide (signed < 0)) signed.natAbs d.exp with
  | none => .ok none
  | some result =>
    let roundtrip ← grisu_exact cfg F false result .nearest_to_even .do_not_care .assert_finite
    if lo ≠ 0 then do
      let bound ← signedInt F (lo * 10)
      .ok (if roundtrip.significand ≤ bound.toNat then none else some result)
    else .ok (some result)

/-- The loop of tests/random_float.h 159-195, over the rounds for which there are draws; running out of draws
stands for a loop that has not ended yet. -/
def given_digits_loop (cfg : Cfg) (F : Fmt) (parse : Bool → Nat → Int → Option Nat) (digits : Nat)
    (sign lo : Int) : List Draw → Exec Nat
  | [] => .fault .loopFuel
  | d :: draws => do
    match ← given_digits_round cfg F parse digits sign lo d with
    | some result => .ok result
    | none => given_digits_loop cfg F parse digits sign lo draws

/-- `randomly_generate_float_with_given_digits`, tests/random_float.h 127-198.  `sign_draw` is the draw of line
145. -/
def given_digits (cfg : Cfg) (F : Fmt) (parse : Bool → Nat → Int → Option Nat) (digits : Nat) (sign_draw : Int)
    (draws : List Draw) : Exec Nat := do
  cassert cfg (decide (digits ≥ 1))
  cassert cfg (decide (digits ≤ match F with | .b32 => 9 | .b64 => 17))
  let sign := if sign_draw = 0 then 1 else -1
  let lo ← (if digits > 1 then do
      let lo ← from_loop F (digits - 2) 1
      let up ← signedInt F (lo * 10)
      let _ ← signedInt F (up - 1)
      .ok lo
    else .ok 0 : Exec Int)
  given_digits_loop cfg F parse digits sign lo draws

end Grisu

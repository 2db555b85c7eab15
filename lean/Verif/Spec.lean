import Mathlib.Data.Rat.Defs
import Mathlib.Algebra.Order.Field.Rat
import Mathlib.Data.Nat.Digits.Defs
import Verif.Model.Modes

/-!
# Specification

What the API promises, in terms of exact rational arithmetic.  Nothing here refers to the
algorithm: only the names of the formats (`Fmt`), of the rounding modes (`RoundingMode`) and of the
tie policies (`Crs`) are shared with the model.
-/

namespace Grisu.Spec

/-- Total width in bits. -/
def width : Fmt → Nat
  | .b32 => 32
  | .b64 => 64

/-- Number of stored significand bits of the IEEE-754 format. -/
def mantBits : Fmt → Nat
  | .b32 => 23
  | .b64 => 52

/-- Exponent of the unit in the last place of subnormal numbers. -/
def ulpExp : Fmt → Int
  | .b32 => -149
  | .b64 => -1074

/-- The bit pattern of `+infinity`. -/
def infPattern : Fmt → Nat
  | .b32 => 0x7f800000
  | .b64 => 0x7ff0000000000000

/-- The sign bit of a bit pattern. -/
def isNeg (F : Fmt) (x : Nat) : Bool := decide (2 ^ (width F - 1) ≤ x)

/-- A bit pattern without its sign bit. -/
def mag (F : Fmt) (x : Nat) : Nat := x % 2 ^ (width F - 1)

/-- The IEEE-754 value of the bit pattern `m` of a nonnegative number.  At the pattern of infinity
this formula gives `2^(emax+1)`, the value the number after the largest finite one would have; it
fixes the overflow threshold of the nearest modes in the way IEEE-754 does. -/
def value (F : Fmt) (m : Nat) : ℚ :=
  if m / 2 ^ mantBits F = 0 then
    ((m % 2 ^ mantBits F : Nat) : ℚ) * 2 ^ ulpExp F
  else
    ((2 ^ mantBits F + m % 2 ^ mantBits F : Nat) : ℚ) *
      2 ^ (ulpExp F + ((m / 2 ^ mantBits F - 1 : Nat) : Int))

/-- `x` is the bit pattern of a nonzero finite number. -/
structure FiniteNonzero (F : Fmt) (x : Nat) : Prop where
  inRange : x < 2 ^ width F
  nonzero : 0 < mag F x
  finite : mag F x < infPattern F

/-- Round to nearest: `m` is nearest to `v` among all patterns, and preferred to every other
nearest one. -/
def Nearest (F : Fmt) (prefers : Nat → Nat → Prop) (v : ℚ) (m : Nat) : Prop :=
  m ≤ infPattern F ∧ ∀ m' ≤ infPattern F, m' ≠ m →
    |v - value F m| < |v - value F m'| ∨ (|v - value F m| = |v - value F m'| ∧ prefers m m')

/-- Round toward zero: `m` is the largest magnitude not above `v`. -/
def TowardZero (F : Fmt) (v : ℚ) (m : Nat) : Prop :=
  m < infPattern F ∧ value F m ≤ v ∧ v < value F (m + 1)

/-- Round away from zero: `m` is the smallest magnitude not below `v`. -/
def AwayFromZero (F : Fmt) (v : ℚ) (m : Nat) : Prop :=
  0 < m ∧ m ≤ infPattern F ∧ value F (m - 1) < v ∧ v ≤ value F m

/-- Which of two neighbours at the same distance a rounding mode prefers. -/
def PrefEven (m _m' : Nat) : Prop := m % 2 = 0
def PrefOdd (m _m' : Nat) : Prop := m % 2 = 1
def PrefSmaller (m m' : Nat) : Prop := m < m'
def PrefLarger (m m' : Nat) : Prop := m' < m

/-- A correct parser using rounding mode `mode` converts the number of sign `neg` and magnitude
`v ≥ 0` to the floating-point number of that sign whose magnitude has the pattern `m`. -/
def RoundsTo (F : Fmt) (mode : RoundingMode) (neg : Bool) (v : ℚ) (m : Nat) : Prop :=
  match mode with
  | .nearest_to_even | .nearest_to_even_static_boundary => Nearest F PrefEven v m
  | .nearest_to_odd | .nearest_to_odd_static_boundary => Nearest F PrefOdd v m
  | .nearest_toward_plus_infinity | .nearest_toward_plus_infinity_static_boundary =>
    if neg then Nearest F PrefSmaller v m else Nearest F PrefLarger v m
  | .nearest_toward_minus_infinity | .nearest_toward_minus_infinity_static_boundary =>
    if neg then Nearest F PrefLarger v m else Nearest F PrefSmaller v m
  | .nearest_toward_zero => Nearest F PrefSmaller v m
  | .nearest_away_from_zero => Nearest F PrefLarger v m
  | .toward_plus_infinity => if neg then TowardZero F v m else AwayFromZero F v m
  | .toward_minus_infinity => if neg then AwayFromZero F v m else TowardZero F v m
  | .toward_zero => TowardZero F v m
  | .away_from_zero => AwayFromZero F v m

/-- The modes that round to nearest. -/
def IsNearest : RoundingMode → Bool
  | .toward_plus_infinity | .toward_minus_infinity | .toward_zero | .away_from_zero => false
  | _ => true

/-- In this mode, a number of sign `neg` has its magnitude rounded away from zero. -/
def IsAway (neg : Bool) : RoundingMode → Bool
  | .toward_plus_infinity => !neg
  | .toward_minus_infinity => neg
  | .away_from_zero => true
  | _ => false

/-- In this mode, a number of sign `neg` has its magnitude rounded toward zero. -/
def IsTruncating (neg : Bool) : RoundingMode → Bool
  | .toward_plus_infinity => neg
  | .toward_minus_infinity => !neg
  | .toward_zero => true
  | _ => false

/-- The decimal number `s * 10^t`. -/
def dec (s : Nat) (t : Int) : ℚ := (s : ℚ) * 10 ^ t

/-- Number of decimal digits of `s`. -/
def numDigits (s : Nat) : Nat := (Nat.digits 10 s).length

/-- The choice a tie policy makes between significands `s` (chosen) and `s'` of the same exponent
and at the same distance from the exact value. -/
def TieChoice (crs : Crs) (s s' : Nat) : Prop :=
  match crs with
  | .do_not_care => True
  | .tie_to_even => s % 2 = 0
  | .tie_to_odd => s % 2 = 1
  | .tie_to_up => s' < s
  | .tie_to_down => s < s'

end Grisu.Spec

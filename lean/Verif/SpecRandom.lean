import Verif.Spec
import Verif.Model.RandomFloat

/-! # Specification of the test data generators

What the arguments of the generators have to satisfy, and the number of digits of a floating-point
number. -/

namespace Grisu.Spec

/-- `parse` (sign, significand, decimal exponent) rounds to nearest, ties to even, whenever it returns a number;
it may refuse. -/
def CorrectParser (F : Fmt) (parse : Bool → Nat → Int → Option Nat) : Prop :=
  ∀ neg s t b, parse neg s t = some b → b < 2 ^ width F ∧ isNeg F b = neg ∧ mag F b < infPattern F ∧
    RoundsTo F .nearest_to_even neg (dec s t) (mag F b)

end Grisu.Spec

namespace Grisu
open Spec (RoundsTo mag isNeg dec numDigits)

/-- The largest number of digits that may be asked for. -/
def genDigits : Fmt → Nat
  | .b32 => 9
  | .b64 => 17

/-- A draw in the ranges of the distributions. -/
structure DrawOk (F : Fmt) (digits : Nat) (d : Draw) : Prop where
  lo : (if digits = 1 then 0 else 10 ^ (digits - 2)) ≤ d.significand
  hi : d.significand < (if digits = 1 then 10 else 10 ^ (digits - 1))
  last1 : 1 ≤ d.last
  last9 : d.last ≤ 9
  exp1 : min_exponent10 F - (digits - 1) ≤ d.exp
  exp2 : d.exp ≤ max_exponent10 F - (digits - 1)

/-- The significand made of a draw. -/
def Draw.sig (digits : Nat) (d : Draw) : Nat :=
  if digits = 1 then d.significand.toNat else (d.significand * 10 + d.last).toNat

/-- The least number of digits of the decimals that read back as the bit pattern `b`. -/
def LeastDigits (F : Fmt) (b n : Nat) : Prop :=
  (∃ s t, numDigits s = n ∧ RoundsTo F .nearest_to_even (isNeg F b) (dec s t) (mag F b)) ∧
  ∀ s t, RoundsTo F .nearest_to_even (isNeg F b) (dec s t) (mag F b) → n ≤ numDigits s

end Grisu

import Verif.Spec

/-!
# The inputs on which truncating modes misbehave

Finite nonzero inputs whose stored significand bits are all ones, given by their exponent field.
-/

namespace Grisu.Spec

/-- All stored significand bits are set. -/
def AllOnesSignificand (F : Fmt) (x : Nat) : Prop := mag F x % 2 ^ mantBits F = 2 ^ mantBits F - 1

/-- The stored exponent field. -/
def exponentField (F : Fmt) (x : Nat) : Nat := mag F x / 2 ^ mantBits F

/-- Exponent fields for which `divisible_by_power_of_2(0, ..)` is called. -/
def faultFields : Fmt → List Nat
  | .b32 => [1, 2, 3, 6, 13, 16, 26, 36, 40, 43, 49, 50, 53, 59, 63, 69, 83, 85, 86, 87, 88, 89, 96, 99, 103,
      109, 110] ++ List.range' 115 33
  | .b64 => [176, 177, 204, 223, 267, 337, 446, 463, 483, 565, 566, 567, 568, 569, 615, 616, 645, 649, 699, 748,
      822, 881, 911, 968, 985] ++ List.range' 999 73

/-- Exponent fields for which a shorter decimal exists than the one returned. -/
def longFields : Fmt → List Nat
  | .b32 => [169, 176, 186, 187]
  | .b64 => [1121]

/-- Exponent fields for which a decimal with the same exponent that is closer to the input reads back as it. -/
def farFields : Fmt → List Nat
  | .b32 => [3, 5, 6, 13, 36, 43, 50, 53, 59, 63, 69, 71, 83, 87, 89, 94, 95, 96, 99, 105, 109, 116, 119, 120, 123, 126,
      129, 130, 133, 135, 136, 139, 140, 143, 146, 149, 154, 159, 169, 174, 175, 176, 186, 190, 191, 192, 198, 210, 228,
      229, 232, 239, 242, 246, 249]
  | .b64 => [24, 34, 111, 194, 253, 539, 559, 665, 762, 781, 862, 908, 985, 1035, 1074, 1076, 1077, 1101, 1121, 1223,
      1240, 1389, 1453, 1463, 1470, 1589, 1629, 1702, 1735, 1980, 1982, 1983, 1984]

/-- The inputs on which the truncating modes run into `divisible_by_power_of_2(0, ..)`. -/
def ZeroDivisibility (F : Fmt) (x : Nat) : Prop :=
  AllOnesSignificand F x ∧ exponentField F x ∈ faultFields F

/-- The inputs on which the truncating modes return a decimal that is not shortest. -/
def NotShortest (F : Fmt) (x : Nat) : Prop :=
  AllOnesSignificand F x ∧ exponentField F x ∈ longFields F

/-- A fraction of the distance to the next floating-point number: the truncating modes are shown to
return the closest decimal when no multiple of its power of ten is this close to the input. -/
def guard : Fmt → ℚ
  | .b32 => 1 / 4
  | .b64 => 1 / 32

end Grisu.Spec

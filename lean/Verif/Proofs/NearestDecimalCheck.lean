import Verif.Proofs.NearestDecimal

/-! # The nearest decimal: all powers of two -/

namespace Grisu

/-- The exponent fields of the powers of two for which the output is not the nearest decimal of its length. -/
def exceptionalFields : Fmt → List Nat
  | .b32 => [31, 214, 217]
  | .b64 => [6, 16, 66, 102, 215, 232, 235, 245, 318, 328, 361, 371, 474, 514, 527, 534, 640, 657, 727, 883, 926, 946,
      979, 1112, 1145, 1155, 1195, 1205, 1298, 1328, 1368, 1401, 1421, 1428, 1504, 1557, 1567, 1577, 1597, 1617, 1733,
      1826, 1886, 1919, 1999]

namespace Nd

def bias : Fmt → Int
  | .b32 => 127
  | .b64 => 1023

def check (F : Fmt) (mode : RoundingMode) (f : Nat) : Bool :=
  match grisu_exact ⟨true, false⟩ F false (f * 2 ^ Spec.mantBits F) mode .tie_to_even .assert_finite with
  | .ok r =>
    if f ∈ exceptionalFields F then Spec.isAbove? r.significand r.exponent (f - bias F)
    else Spec.isNearest? r.significand r.exponent (f - bias F)
  | .fault _ => false

def nearestModes : List RoundingMode := [.nearest_to_even, .nearest_to_odd, .nearest_toward_plus_infinity,
  .nearest_toward_minus_infinity, .nearest_toward_zero, .nearest_away_from_zero, .nearest_to_even_static_boundary,
  .nearest_to_odd_static_boundary, .nearest_toward_plus_infinity_static_boundary,
  .nearest_toward_minus_infinity_static_boundary]

set_option maxRecDepth 20000

theorem check32 : ((List.range' 2 253).all fun f => check .b32 .nearest_to_even f) = true := by decide +kernel

theorem check64 : ((List.range' 2 2045).all fun f => check .b64 .nearest_to_even f) = true := by decide +kernel

theorem check32_modes : ((List.range' 151 41).all fun f => nearestModes.all fun mode => check .b32 mode f) = true := by
  decide +kernel

theorem check64_modes : ((List.range' 1076 81).all fun f => nearestModes.all fun mode => check .b64 mode f) = true := by
  decide +kernel

end Nd
end Grisu

import Mathlib.Data.Rat.Defs
import Mathlib.Algebra.Order.Field.Rat

/-! # Specification of the integer helpers -/

namespace Grisu.Spec

/-- `k` is the integer part of `e * log_u v`. -/
def IsFloorLog (u v : Nat) (e k : Int) : Prop := (u : ℚ) ^ k ≤ (v : ℚ) ^ e ∧ (v : ℚ) ^ e < (u : ℚ) ^ (k + 1)

end Grisu.Spec

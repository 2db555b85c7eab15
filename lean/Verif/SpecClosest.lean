import Verif.SpecTruncating
import Mathlib.Data.Rat.Floor

/-!
# When the truncating modes return the closest decimal
-/

namespace Grisu.Spec

/-- The largest power of ten that is at most `guard` times the distance to the next number. -/
def IsScale (F : Fmt) (x : Nat) (g : ℚ) : Prop :=
  ∃ j : Int, g = 10 ^ j ∧ g ≤ guard F * (value F (mag F x + 1) - value F (mag F x)) ∧
    guard F * (value F (mag F x + 1) - value F (mag F x)) < 10 * g

/-- The input in units of `g`, as the difference of the rounded down right end and the rounded down length of
the interval: within one unit of the input. -/
noncomputable def approxInput (F : Fmt) (x : Nat) (g : ℚ) : Nat :=
  ⌊value F (mag F x + 1) / g⌋₊ - ⌊(value F (mag F x + 1) - value F (mag F x)) / g⌋₊

/-- The last step tried by a search that starts with the step `σ`, halves it when it is too large, and ends when it
meets the distance `n` exactly; `1 ≤ σ ≤ 4`. -/
def lastStep (σ n : Nat) : Nat := if σ ∣ n then σ else if σ = 4 ∧ 2 ∣ n then 2 else 1

/-- `t` is the exponent of the result and `s0` the largest decimal with this exponent that reads back as `x`.  The
input in units of `g` is a multiple `m` of `10^t`, the search starts `n ≥ 1` steps above it, and either `m` itself
would do or the last step is longer than one. -/
def StopsEarly (F : Fmt) (x : Nat) (g : ℚ) (s0 : Nat) (t : Int) : Prop :=
  ∃ m n : Nat, (approxInput F x g : ℚ) * g = dec m t ∧ s0 = m + n ∧ 1 ≤ n ∧ 2 ≤ s0 % 10 ∧
    (value F (mag F x) ≤ approxInput F x g * g ∨ 2 ≤ lastStep (s0 % 10 / 2) n)

end Grisu.Spec

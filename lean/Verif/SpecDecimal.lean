import Verif.Spec

/-!
# Specification: the nearest decimal with a given number of digits

This is what `printf` with a given precision and a correct library would print, up to ties.
-/

namespace Grisu.Spec

/-- No decimal with at most as many digits as `s` is closer to `v` than `s * 10^t`, whether or not it reads back as the
same number. -/
def NearestDecimal (v : ℚ) (s : Nat) (t : Int) : Prop :=
  ∀ s' t', numDigits s' ≤ numDigits s → |dec s t - v| ≤ |dec s' t' - v|

end Grisu.Spec

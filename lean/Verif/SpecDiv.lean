import Verif.SpecBig

/-! # Where the long division of tests/bigint.h moves the divisor -/

namespace Grisu

/-- A multiple `m` of the divisor is moved down by `g` digits towards a rest `r`.  The code moves whole elements, which
leaves the elements above the leading one of `r` as they are, and then the remaining `g % 64` digits, which takes the
lowest digits of the element above.  So it arrives at `m / 2 ^ g` except for the `g % 64` leading digits of the
leading element of `r`, which are those of `m` from there on. -/
def realigned (m g r : Nat) : Nat :=
  m / 2 ^ g % 2 ^ (64 * (topDigit r + 1) - g % 64) +
    m / 2 ^ (64 * (topDigit r + 1)) % 2 ^ (g % 64) * 2 ^ (64 * (topDigit r + 1) - g % 64)

end Grisu

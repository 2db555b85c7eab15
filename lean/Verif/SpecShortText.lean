import Verif.SpecText

/-!
# Specification: texts in scientific notation

`readText` accepts any number of digits before the point.  The texts among which the printed one is to be a shortest one
are those with a single digit there.
-/

namespace Grisu.Spec

/-- There is exactly one digit before the point (and after the sign).  Leading zeros, trailing zeros, a point without
digits after it and leading zeros of the exponent are allowed. -/
def OneDigitFirst (text : List Char) : Prop := (readDigits (readSign text).2).1.length = 1

end Grisu.Spec

import Verif.Spec

/-!
# The decimal that ought to be returned

A complete description of one decimal, in terms of what a correct parser does with the others.
-/

namespace Grisu.Spec

/-- `s * 10^t` reads back as `x`, no decimal that does has fewer digits, none of those with as many digits is closer to
`x`, and it is the one the tie policy prefers to every other that is equally close. -/
structure Best (F : Fmt) (mode : RoundingMode) (crs : Crs) (x s : Nat) (t : Int) : Prop where
  reads : RoundsTo F mode (isNeg F x) (dec s t) (mag F x)
  shortest : ∀ s' t', RoundsTo F mode (isNeg F x) (dec s' t') (mag F x) → numDigits s ≤ numDigits s'
  closest : ∀ s' t', RoundsTo F mode (isNeg F x) (dec s' t') (mag F x) → numDigits s' = numDigits s →
    |dec s t - value F (mag F x)| ≤ |dec s' t' - value F (mag F x)|
  tie : ∀ s', s' ≠ s → RoundsTo F mode (isNeg F x) (dec s' t) (mag F x) → numDigits s' = numDigits s →
    |dec s t - value F (mag F x)| = |dec s' t - value F (mag F x)| → TieChoice crs s s'

/-- `s * 10^t` reads back as `x`, no decimal that does has fewer digits, and none of those with as many digits is
larger. -/
structure LargestShortest (F : Fmt) (mode : RoundingMode) (x s : Nat) (t : Int) : Prop where
  reads : RoundsTo F mode (isNeg F x) (dec s t) (mag F x)
  shortest : ∀ s' t', RoundsTo F mode (isNeg F x) (dec s' t') (mag F x) → numDigits s ≤ numDigits s'
  largest : ∀ s' t', RoundsTo F mode (isNeg F x) (dec s' t') (mag F x) → numDigits s' = numDigits s →
    dec s' t' ≤ dec s t

end Grisu.Spec

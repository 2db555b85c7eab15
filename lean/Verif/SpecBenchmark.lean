import Verif.SpecText
import Verif.SpecBest
import Verif.SpecRandom
import Verif.SpecHex

/-! # Specification of the result files of the benchmark -/

namespace Grisu.Spec

/-- `text` is what the bit pattern `x` is to be written as: for a number other than zero the shortest decimal that reads
back as it, the closest and the even one if there is a choice (see `Best`), in scientific notation; for the others a
fixed text. -/
def Denotes (F : Fmt) (x : Nat) (text : List Char) : Prop :=
  (FiniteNonzero F x → ∃ s t, Best F .nearest_to_even .tie_to_even x s t ∧ text = sci (isNeg F x) s t ∧
    readText text = some (isNeg F x, dec s t)) ∧
  (mag F x = 0 → text = if isNeg F x then "-0E0".toList else "0E0".toList) ∧
  (mag F x = infPattern F → text = if isNeg F x then "-Infinity".toList else "Infinity".toList) ∧
  (infPattern F < mag F x → text = "NaN".toList)

/-- The number of digits before the `E`. -/
def significantDigits (text : List Char) : Nat := ((text.takeWhile (· ≠ 'E')).filter Char.isDigit).length

/-- A line of the file for uniformly distributed samples, without the time: name, sample and bit pattern. -/
def UniformLine (F : Fmt) (name : List Char) (x : Nat) (line : List Char) : Prop :=
  ∃ text bits, line = "\"".toList ++ name ++ "\",".toList ++ text ++ ",".toList ++ bits ++ ",".toList ∧
    Denotes F x text ∧ hexConstants none bits = [x] ∧ bits.length = width F / 4 + 2

/-- A line of the file for samples with a given number of digits, without the time: name, number of digits and sample.
The sample is written with that many digits. -/
def DigitsLine (F : Fmt) (name : List Char) (digits x : Nat) (line : List Char) : Prop :=
  ∃ text, line = "\"".toList ++ name ++ "\",".toList ++ Nat.toDigits 10 digits ++ ",".toList ++ text ++ ",".toList ∧
    Denotes F x text ∧ significantDigits text = digits

end Grisu.Spec

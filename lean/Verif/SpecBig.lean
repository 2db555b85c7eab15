import Verif.Model.BigInt

/-! # What the multi-word integers of tests/bigint.h stand for

The array holds the digits of the number in base `2 ^ 64`, least significant first, and the leading
position is that of the most significant nonzero digit (element 0 for the number zero). -/

namespace Grisu

/-- The number of binary digits of `v`: 0 for 0. -/
def bitLength (v : Nat) : Nat := if v = 0 then 0 else Nat.log2 v + 1

/-- The index of the most significant nonzero digit in base `2 ^ 64`, or 0. -/
def topDigit (v : Nat) : Nat := (bitLength v - 1) / 64

/-- The multi-word integer of `size` elements that stands for `v < 2 ^ (64 * size)`. -/
def bigOf (size v : Nat) : Big :=
  ⟨(List.range size).map fun i => v / 2 ^ (64 * i) % 2 ^ 64, topDigit v,
    bitLength (v / 2 ^ (64 * topDigit v))⟩

end Grisu

import Verif.SpecArith
import Verif.SpecBig
import Verif.Model.Info
import Mathlib.Data.Rat.Floor
import Mathlib.Order.Bounds.Basic

/-! # What tests/verify_cache_length.cpp is to compute -/

namespace Grisu.Spec

/-- The residues of the multiples `a`, `2 a`, ..., `N a` modulo `b`. -/
def multiples (a b N : Nat) : Set Nat := {r | ∃ n, 1 ≤ n ∧ n ≤ N ∧ a * n % b = r}

/-- The number of bits for the exponent `e` and the negative decimal exponent `k`, where `e + 1 - alpha` is at least 4:
with `j = -k = floor(log10(2^(e+1-alpha)))`, `x = q - p - 2 + e + k` and `w = q + e + floor(log2(10^k)) + 1` it is the
largest of `w + length(5^j / (5^j - M1))`, `w + length(5^j / (5^j - M2))`, `w - 1 + length(5^j / (5^j - M3))`, where

* `M1` is the largest residue of `n 2^x` modulo `5^j` for `1 ≤ n ≤ 2^(p+2)`,
* `M2` is the largest residue of `n 2^(x+2)` modulo `5^j` for `1 ≤ n ≤ 2^(p+1)`,
* `M3` is the residue of `(2^(p+2) - 1) 2^(x-1)` modulo `5^j`. -/
def NegativeLength (F : Fmt) (e : Int) (bits : Nat) : Prop :=
  ∃ (j x w M1 M2 : Nat) (l : Int),
    IsFloorLog 10 2 (e + 1 - F.alpha) j ∧ IsFloorLog 2 10 (-j) l ∧
    (x : Int) = F.q - F.p - 2 + e - j ∧ (w : Int) = F.q + e + l + 1 ∧ 1 ≤ x ∧ 1 ≤ w ∧
    IsGreatest (multiples (2 ^ x) (5 ^ j) (2 ^ (F.p + 2))) M1 ∧
    IsGreatest (multiples (2 ^ (x + 2)) (5 ^ j) (2 ^ (F.p + 1))) M2 ∧
    bits = max (max (w + bitLength (5 ^ j / (5 ^ j - M1))) (w + bitLength (5 ^ j / (5 ^ j - M2))))
      (w - 1 + bitLength (5 ^ j / (5 ^ j - 2 ^ (x - 1) * (2 ^ (F.p + 2) - 1) % 5 ^ j)))

/-- The number of bits after a step that found the number `m`: `width - floor(log2(m)) + limit` if that is more than
`old`, but only if `floor(log2(m))` is more than `limit`; otherwise `old`. -/
def lengthened (width limit old m : Nat) : Nat :=
  if limit + 1 < bitLength m then max old (width - (bitLength m - 1 - limit)) else old

/-- The number of bits for the exponent `e` and the decimal exponent `k ≥ 0`, where `e + 1 - alpha` is at most 3: with
`k = ceil(log10(2^(alpha-e-1)))`, `x = -e - k - (q - p - 2)` and `w = floor(log2(10^k)) - k + 1`, the length of `5^k`,

* it is at first `w`, or `w - floor(log2(M1)) + (p + 2)` if that is less, where `M1` is the least residue of `n 5^k`
  modulo `2^x` for `1 ≤ n ≤ 2^(p+2)`, if `x` is positive and `M1` is not 0;
* it is lengthened with the least residue of `n 5^k` modulo `2^(x-2)` for `1 ≤ n ≤ 2^(p+1)`, if `x-2` is positive;
* it is lengthened with the residue of `(2^(p+2) - 1) 5^k` modulo `2^(x+1)`, if `x+1` is positive. -/
def PositiveLength (F : Fmt) (e : Int) (bits : Nat) : Prop :=
  ∃ (k w r1 r2 : Nat) (x l : Int),
    IsFloorLog 10 2 (e + 1 - F.alpha) (-k) ∧ IsFloorLog 2 10 k l ∧
    x = -e - k - (F.q - F.p - 2) ∧ (w : Int) = l - k + 1 ∧
    (x ≤ 0 → r1 = w) ∧
    (0 < x → ∃ M1, IsLeast (multiples (5 ^ k) (2 ^ x.toNat) (2 ^ (F.p + 2))) M1 ∧
      r1 = w - (bitLength M1 - 1 - (F.p + 2))) ∧
    (x ≤ 2 → r2 = r1) ∧
    (2 < x → ∃ M2, IsLeast (multiples (5 ^ k) (2 ^ (x - 2).toNat) (2 ^ (F.p + 1))) M2 ∧
      r2 = lengthened w (F.p + 1) r1 M2) ∧
    (x ≤ -1 → bits = r2) ∧
    (-1 < x → bits = lengthened w (F.p + 2) r2 (5 ^ k * (2 ^ (F.p + 2) - 1) % 2 ^ (x + 1).toNat))

end Grisu.Spec

namespace Grisu.Spec

/-- `10^k` rounded up to a number of `Q` bits, where `l = floor(log2(10^k))`. -/
def roundedUp (k l Q : Int) : ℚ := ⌈(10 : ℚ) ^ k * 2 ^ (Q - 1 - l)⌉ / 2 ^ (Q - 1 - l)

/-- `10^k` rounded down to a number of `Q` bits, where `l = floor(log2(10^k))`. -/
def roundedDown (k l Q : Int) : ℚ := ⌊(10 : ℚ) ^ k * 2 ^ (Q - 1 - l)⌋ / 2 ^ (Q - 1 - l)

/-- Replacing the factor `10^k` by `c` does not change the integer part of `n 2^s 10^k` for `n ≤ N`. -/
def Enough (c : ℚ) (k s : Int) (N : Nat) : Prop := ∀ n ≤ N, ⌊(n : ℚ) * 2 ^ s * c⌋ = ⌊(n : ℚ) * 2 ^ s * 10 ^ k⌋

/-- The exponents with negative `k` for which the number of bits written by tests/verify_cache_length.cpp is one too small
for the products `4f`. -/
def oneBitShort : Fmt → List Int
  | .b32 => [-2, 4, 5, 10, 12, 16, 25, 27, 96]
  | .b64 => [-2, 1, 5, 6, 18, 22, 23, 24, 25, 26, 27, 28, 31, 36, 41, 42, 44, 46, 54, 56, 57, 65, 67, 87, 112, 134, 143, 162,
      192, 270, 311, 316, 317, 347, 361, 491, 495, 528, 594, 637, 658, 696, 710, 731, 733, 841, 891, 908, 913, 945]

end Grisu.Spec

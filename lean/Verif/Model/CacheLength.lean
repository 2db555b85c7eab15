import Verif.Model.BigInt
import Verif.Model.Compute

/-! # The verification of the cache length, tests/verify_cache_length.cpp

The multi-word integers are the element arrays of `Model/BigInt.lean`, with every defect they have; compare
`Model/MinMaxEuclid.lean`, where they are natural numbers.  Of the output the numbers are modelled: the pairs written to
the file and the maximum. -/

namespace Grisu

/-- `minmax_euclid_return`, tests/verify_cache_length.cpp 24-30. -/
structure BigMinMax where
  min : Big
  max : Big
  argmin : Nat
  argmax : Nat
  deriving DecidableEq, Repr

/-- Quotient and remainder with the remainder 0 replaced by the divisor,
tests/verify_cache_length.cpp 47-53 and 73-79. -/
def big_div_positive (cfg : Cfg) (fuel : Nat) (x n : Big) : Exec (Big × Big) := do
  let (q, r) ← Big.long_division cfg fuel x n
  if ← Big.eqE r 0 then
    let positive ← Big.gtE q 0
    cassert cfg positive
    let q ← Big.decrement cfg q
    .ok (q, n)
  else .ok (q, r)

/-- `auto v = q * s; v += u;`, tests/verify_cache_length.cpp 54-55 and 80-81: the factor `s` is converted to a
multi-word integer. -/
def big_mul_add (cfg : Cfg) (q : Big) (s u : Nat) : Exec Big := do
  let s ← Big.ofElement q.elements.length s
  let v ← Big.mul cfg q s
  Big.addE cfg v u

/-- `k * x`, tests/verify_cache_length.cpp 65 and 89: `k` is converted to a multi-word integer. -/
def big_times (cfg : Cfg) (k : Nat) (x : Big) : Exec Big := do
  let k ← Big.ofElement x.elements.length k
  Big.mul cfg k x

/-- The loop, tests/verify_cache_length.cpp 45-125. -/
def big_minmax_loop (cfg : Cfg) (divFuel : Nat) (b : Big) (N : Nat) : Nat → (ai bi : Big) → (si ui : Nat) →
    Exec BigMinMax
  | 0, _, _, _, _ => .fault .loopFuel
  | fuel + 1, ai, bi, si, ui => do
    let (qi, new_b) ← big_div_positive cfg divFuel bi ai
    let new_u ← big_mul_add cfg qi si ui
    if ← Big.gtE new_u N then
      let k := subw 64 N ui / si
      let max ← Big.sub cfg b bi
      let t ← big_times cfg k ai
      let max ← Big.add cfg max t
      .ok { min := ai, argmin := si, max, argmax := wrap 64 (ui + wrap 64 (k * si)) }
    else
      cassert cfg (decide (new_u.element_pos = 0))
      let (pi, new_a) ← big_div_positive cfg divFuel ai new_b
      let u0 ← rd new_u.elements 0
      let new_s ← Big.mul cfg pi new_u
      let new_s ← Big.addE cfg new_s si
      if ← Big.gtE new_s N then
        let k := subw 64 N si / u0
        let t ← big_times cfg k new_b
        let min ← Big.sub cfg ai t
        let max ← Big.sub cfg b new_b
        .ok { min, argmin := wrap 64 (si + wrap 64 (k * u0)), max, argmax := u0 }
      else
        cassert cfg (decide (new_s.element_pos = 0))
        let s0 ← rd new_s.elements 0
        let same_b ← Big.eq new_b bi
        let same ← (if same_b then Big.eq new_a ai else .ok false : Exec Bool)
        if same then
          cassert cfg (decide (ui = u0))
          cassert cfg (decide (si = s0))
          let max ← Big.sub cfg b new_b
          let sum_idx ← Big.add cfg new_s new_u
          if ← Big.gtE sum_idx N then
            .ok { min := new_a, argmin := s0, max, argmax := u0 }
          else
            cassert cfg (decide (sum_idx.element_pos = 0))
            let zero ← Big.ofElement b.elements.length 0
            let argmin ← rd sum_idx.elements 0
            .ok { min := zero, argmin, max, argmax := u0 }
        else big_minmax_loop cfg divFuel b N fuel new_a new_b s0 u0

/-- `minmax_euclid(a, b, N)`, tests/verify_cache_length.cpp 31-128.  `fuel` bounds the number of iterations of the
loop, here and in `long_division`. -/
def big_minmax_euclid (cfg : Cfg) (fuel : Nat) (a b : Big) (N : Nat) : Exec BigMinMax :=
  big_minmax_loop cfg fuel b N fuel a b 1 0

namespace Fmt
variable (F : Fmt)

/-- `negative_k_max_bits`, tests/verify_cache_length.cpp 142-145. -/
def negative_k_max_bits : Nat :=
  (max (F.q + 2 : Int) (2 - F.alpha) + F.max_exponent + F.min_k).toNat
/-- `positive_k_max_bits`, tests/verify_cache_length.cpp 159-163. -/
def positive_k_max_bits : Nat :=
  ((F.p : Int) + max (-(F.q - 4 : Int)) (5 + F.alpha) - F.min_exponent - F.max_k).toNat
/-- `range`, tests/verify_cache_length.cpp 167-168. -/
def length_range : Nat := 2 ^ (F.p + 2)
/-- `q_mp_m2`, tests/verify_cache_length.cpp 169-170. -/
def q_mp_m2 : Nat := F.q - F.p - 2
end Fmt

/-- The number of elements of `bigint<max_bits>`, tests/bigint.h 67-69. -/
def bigint_size (max_bits : Nat) : Nat := (max_bits + 63) / 64

/-- `leading_one_pos.element_pos * element_number_of_bits + leading_one_pos.bit_pos`,
tests/verify_cache_length.cpp 201-202, 218-219, 236-237. -/
def big_log2p1 (x : Big) : Nat := x.element_pos * 64 + x.bit_pos

/-- tests/verify_cache_length.cpp 196-202, 213-219, 231-237: the length of the quotient of `power_of_5` by
`power_of_5 - x`. -/
def reciprocal_length (cfg : Cfg) (fuel : Nat) (power_of_5 x : Big) : Exec Nat := do
  let divisor ← Big.sub cfg power_of_5 x
  let (q, _) ← Big.long_division cfg fuel power_of_5 divisor
  .ok (big_log2p1 q)

/-- A sum of `std::size_t` and `int` values, as in tests/verify_cache_length.cpp 204-205: the conversion is modulo
`2^64`. -/
def size_sum (n : Int) : Nat := (n % 2 ^ 64).toNat

/-- The body of the loop of `verify_cache_length_single_type_negative_k` after the update of `power_of_5`,
tests/verify_cache_length.cpp 190-243: `required_bits`. -/
def negative_k_bits (cfg : Cfg) (F : Fmt) (fuel : Nat) (power_of_5 : Big) (e k : Int) : Exec Nat := do
  let size := bigint_size F.negative_k_max_bits
  let a ← Big.power_of_2 cfg size (size_sum (F.q_mp_m2 + e + k))
  let m ← big_minmax_euclid cfg fuel a power_of_5 F.length_range
  let len ← reciprocal_length cfg fuel power_of_5 m.max
  let log ← floor_log2_pow10 cfg k
  let required_bits := size_sum (F.q + e + log + 1 + len)
  let a ← Big.power_of_2 cfg size (size_sum (F.q_mp_m2 + e + k + 2))
  let m ← big_minmax_euclid cfg fuel a power_of_5 (F.length_range / 2)
  let len ← reciprocal_length cfg fuel power_of_5 m.max
  let two_y_result := size_sum (F.q + e + log + 1 + len)
  let required_bits := if two_y_result > required_bits then two_y_result else required_bits
  let a ← Big.power_of_2 cfg size (size_sum (F.q_mp_m2 + e + k - 1))
  let a ← Big.mulE cfg a (F.length_range - 1)
  let (_, a) ← Big.long_division cfg fuel a power_of_5
  let len ← reciprocal_length cfg fuel power_of_5 a
  let edge_case_result := size_sum (F.q + e + log + len)
  .ok (if edge_case_result > required_bits then edge_case_result else required_bits)

/-- The loop of `verify_cache_length_single_type_negative_k`, tests/verify_cache_length.cpp 182-249, `count`
exponents from `e` on: the pairs passed to `on_each` and the value passed to `on_max`. -/
def negative_k_loop (cfg : Cfg) (F : Fmt) (fuel : Nat) : Nat → (e prev_k : Int) → (power_of_5 : Big) →
    (max_required_bits : Nat) → Exec (List (Int × Nat) × Nat)
  | 0, _, _, _, m => .ok ([], m)
  | count + 1, e, prev_k, power_of_5, m => do
    let minus_k ← floor_log10_pow2 cfg (e + 1 - F.alpha)
    let k := -minus_k
    let power_of_5 ←
      (if k ≠ prev_k then do
        cassert cfg (decide (k = prev_k - 1))
        Big.multiply_5 cfg power_of_5
      else .ok power_of_5 : Exec Big)
    let required_bits ← negative_k_bits cfg F fuel power_of_5 e k
    let (rest, m) ← negative_k_loop cfg F fuel count (e + 1) k power_of_5 (if required_bits > m then required_bits else m)
    .ok ((e, required_bits) :: rest, m)

/-- `verify_cache_length_single_type_negative_k`, tests/verify_cache_length.cpp 173-252. -/
def cache_length_negative_k (cfg : Cfg) (F : Fmt) (fuel : Nat) : Exec (List (Int × Nat) × Nat) := do
  let power_of_5 ← Big.ofElement (bigint_size F.negative_k_max_bits) 1
  negative_k_loop cfg F fuel (F.max_exponent - (F.alpha + 3) + 1).toNat (F.alpha + 3) 0 power_of_5 0

/-- tests/verify_cache_length.cpp 283-290, 301-306, 320-325: the number `base - log2_res + limit` if the number is long
enough. -/
def shortened_bits (base : Nat) (x : Big) (limit : Nat) : Option Nat :=
  if x.bit_pos ≠ 0 then
    let log2_res := subw 64 (big_log2p1 x) 1
    if log2_res > limit then some (size_sum ((base : Int) - log2_res + limit)) else none
  else none

/-- tests/verify_cache_length.cpp 308-309 and 327-328: the larger number of bits replaces the old one. -/
def longer_bits (required_bits : Nat) : Option Nat → Nat
  | some result => if result > required_bits then result else required_bits
  | none => required_bits

/-- The body of the loop of `verify_cache_length_single_type_positive_k` after the update of `power_of_5`,
tests/verify_cache_length.cpp 271-331: `required_bits`. -/
def positive_k_bits (cfg : Cfg) (F : Fmt) (fuel : Nat) (power_of_5 : Big) (e k : Int) : Exec Nat := do
  let size := bigint_size F.positive_k_max_bits
  let log ← floor_log2_pow10 cfg k
  let base := size_sum (log - k + 1)
  let exp_of_2 : Int := -e - k - F.q_mp_m2
  let required_bits ←
    (if exp_of_2 > 0 then do
      let b ← Big.power_of_2 cfg size (size_sum exp_of_2)
      let m ← big_minmax_euclid cfg fuel power_of_5 b F.length_range
      .ok ((shortened_bits base m.min (F.p + 2)).getD base)
    else .ok base : Exec Nat)
  let exp_of_2 := exp_of_2 - 2
  let required_bits ←
    (if exp_of_2 > 0 then do
      let b ← Big.power_of_2 cfg size (size_sum exp_of_2)
      let m ← big_minmax_euclid cfg fuel power_of_5 b (F.length_range / 2)
      .ok (longer_bits required_bits (shortened_bits base m.min (F.p + 1)))
    else .ok required_bits : Exec Nat)
  let exp_of_2 := exp_of_2 + 3
  if exp_of_2 > 0 then do
    let a ← Big.mulE cfg power_of_5 (F.length_range - 1)
    let b ← Big.power_of_2 cfg size (size_sum exp_of_2)
    let (_, a) ← Big.long_division cfg fuel a b
    .ok (longer_bits required_bits (shortened_bits base a (F.p + 2)))
  else .ok required_bits

/-- The loop of `verify_cache_length_single_type_positive_k`, tests/verify_cache_length.cpp 263-337, `count`
exponents from `e` down. -/
def positive_k_loop (cfg : Cfg) (F : Fmt) (fuel : Nat) : Nat → (e prev_k : Int) → (power_of_5 : Big) →
    (max_required_bits : Nat) → Exec (List (Int × Nat) × Nat)
  | 0, _, _, _, m => .ok ([], m)
  | count + 1, e, prev_k, power_of_5, m => do
    let minus_k ← floor_log10_pow2 cfg (e + 1 - F.alpha)
    let k := -minus_k
    let power_of_5 ←
      (if k ≠ prev_k then do
        cassert cfg (decide (k = prev_k + 1))
        Big.multiply_5 cfg power_of_5
      else .ok power_of_5 : Exec Big)
    let required_bits ← positive_k_bits cfg F fuel power_of_5 e k
    let (rest, m) ← positive_k_loop cfg F fuel count (e - 1) k power_of_5 (if required_bits > m then required_bits else m)
    .ok ((e, required_bits) :: rest, m)

/-- `verify_cache_length_single_type_positive_k`, tests/verify_cache_length.cpp 254-340. -/
def cache_length_positive_k (cfg : Cfg) (F : Fmt) (fuel : Nat) : Exec (List (Int × Nat) × Nat) := do
  let power_of_5 ← Big.ofElement (bigint_size F.positive_k_max_bits) 1
  positive_k_loop cfg F fuel (F.alpha + 2 - F.min_exponent + 1).toNat (F.alpha + 2) 0 power_of_5 0

end Grisu

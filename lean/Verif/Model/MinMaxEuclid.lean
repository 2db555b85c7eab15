import Verif.Model.Exec

/-! # `minmax_euclid`, tests/verify_cache_length.cpp 22-128

Simplification: `bigint_impl` values are natural numbers, so the array size is taken to be large
enough.  The `std::uint64_t` variables keep their width. -/

namespace Grisu

/-- `bigint_impl::long_division` as the caller sees it, tests/bigint.h 575-829: quotient and
remainder.  The documented precondition is `n != 0`. -/
def big_div (x n : Nat) : Exec (Nat × Nat) :=
  if n = 0 then .fault .precondition else .ok (x / n, x % n)

/-- `bigint_impl::operator-=` as the caller sees it, tests/bigint.h 437-470.  The documented
precondition is `n <= *this`. -/
def big_sub (x n : Nat) : Exec Nat :=
  if n ≤ x then .ok (x - n) else .fault .precondition

/-- `minmax_euclid_return`, tests/verify_cache_length.cpp 24-30. -/
structure MinMax where
  min : Nat
  max : Nat
  argmin : Nat
  argmax : Nat
  deriving DecidableEq, Repr

/-- Quotient and remainder with the remainder 0 replaced by the divisor,
tests/verify_cache_length.cpp 47-53 and 73-79. -/
def div_positive (cfg : Cfg) (x n : Nat) : Exec (Nat × Nat) := do
  let (qi, new_b) ← big_div x n
  if new_b = 0 then
    cassert cfg (decide (qi > 0))
    .ok (qi - 1, n)
  else .ok (qi, new_b)

/-- The loop, tests/verify_cache_length.cpp 45-125. -/
def minmax_loop (cfg : Cfg) (b N : Nat) : Nat → (ai bi si ui : Nat) → Exec MinMax
  | 0, _, _, _, _ => .fault .loopFuel
  | fuel + 1, ai, bi, si, ui => do
    let (qi, new_b) ← div_positive cfg bi ai
    let new_u := qi * si + ui
    if new_u > N then
      let k := subw 64 N ui / si
      let max ← big_sub b bi
      .ok { min := ai, argmin := si, max := max + k * ai, argmax := wrap 64 (ui + wrap 64 (k * si)) }
    else
      cassert cfg (decide (new_u < 2 ^ 64))
      let (pi, new_a) ← div_positive cfg ai new_b
      let new_s := pi * new_u + si
      if new_s > N then
        let k := subw 64 N si / wrap 64 new_u
        let min ← big_sub ai (k * new_b)
        let max ← big_sub b new_b
        .ok { min, argmin := wrap 64 (si + wrap 64 (k * wrap 64 new_u)), max, argmax := wrap 64 new_u }
      else
        cassert cfg (decide (new_s < 2 ^ 64))
        if new_b = bi ∧ new_a = ai then
          cassert cfg (decide (ui = wrap 64 new_u))
          cassert cfg (decide (si = wrap 64 new_s))
          let max ← big_sub b new_b
          let sum_idx := new_s + new_u
          if sum_idx > N then
            .ok { min := new_a, argmin := wrap 64 new_s, max, argmax := wrap 64 new_u }
          else
            cassert cfg (decide (sum_idx < 2 ^ 64))
            .ok { min := 0, argmin := wrap 64 sum_idx, max, argmax := wrap 64 new_u }
        else minmax_loop cfg b N fuel new_a new_b (wrap 64 new_s) (wrap 64 new_u)

/-- `minmax_euclid(a, b, N)`, tests/verify_cache_length.cpp 31-128.  The fuel bounds the number of
iterations of the `while (true)` loop. -/
def minmax_euclid (cfg : Cfg) (a b N : Nat) : Exec MinMax :=
  minmax_loop cfg b N (a + b + 1) a b 1 0

end Grisu

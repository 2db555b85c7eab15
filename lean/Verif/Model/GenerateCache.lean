import Verif.Model.BigInt
import Verif.Model.Info

/-! # The tool that generates the cache tables, tests/generate_cache.cpp 61-270

A `std::bitset<precision>` is the number whose binary digits it holds.  The writing of the digits as
hexadecimal text (lines 247-249, 263-267) is modelled in `WriteCache.lean`, here only the sequence of values. -/

namespace Grisu
open Big

/-- `upper_bits[idx] = b` (and `upper_bits.reset(idx)` for `b = false`) on a `std::bitset<precision>`, as in
tests/generate_cache.cpp 81-82, 91, 100-101, 105-106, 111 and 119-120. -/
def setBit (precision v idx : Nat) (b : Bool) : Exec Nat :=
  if idx < precision then .ok (if b then v ||| 2 ^ idx else if v.testBit idx then v ^^^ 2 ^ idx else v)
  else .fault .outOfBounds

/-- The loops of tests/generate_cache.cpp 78-84 and 97-103: `count` bits downwards from `idx`, taken from
`element` where `mask` is.  Returns the bitset and the mask after the loop. -/
def set_down (precision element : Nat) : Nat → Nat → Nat → Nat → Exec (Nat × Nat)
  | 0, _, mask, v => .ok (v, mask)
  | count + 1, idx, mask, v => do
    let v ← setBit precision v idx (decide (element &&& mask ≠ 0))
    set_down precision element count (idx - 1) (mask / 2) v

/-- The loop of tests/generate_cache.cpp 118-122: `count` bits upwards from `idx`. -/
def set_up (precision element : Nat) : Nat → Nat → Nat → Nat → Exec Nat
  | 0, _, _, v => .ok v
  | count + 1, idx, mask, v => do
    let v ← setBit precision v idx (decide (element &&& mask ≠ 0))
    set_up precision element count (idx + 1) (wrap 64 (mask * 2)) v

/-- The loops of tests/generate_cache.cpp 90-91 and 110-111: the bits `0, ..., remaining - 1` cleared. -/
def reset_low (precision : Nat) : Nat → Nat → Exec Nat
  | 0, v => .ok v
  | remaining + 1, v => do
    let v ← reset_low precision remaining v
    setBit precision v remaining false

/-- The loop of tests/generate_cache.cpp 88-107 and the rest of the lambda, 109-125.  The loop runs
`remaining / 64` times, which is the first argument.  `shl64` is what the shift of line 116 does when
`remaining` is 0: a shift by 64, undefined in C++. -/
def lower_elements (shl64 : Exec Nat) (precision : Nat) (n : Big) : Nat → Nat → Nat → Nat → Exec Nat
  | 0, remaining, element_idx, v =>
    if element_idx = 0 then reset_low precision remaining v
    else do
      let element_idx := element_idx - 1
      let mask ← (if remaining = 0 then shl64 else .ok (2 ^ (64 - remaining)) : Exec Nat)
      let element ← rd n.elements element_idx
      set_up precision element remaining 0 mask v
  | count + 1, remaining, element_idx, v =>
    if element_idx = 0 then reset_low precision remaining v
    else do
      let element_idx := element_idx - 1
      let element ← rd n.elements element_idx
      let (v, mask) ← set_down precision element 63 (remaining - 1) (2 ^ 63) v
      let remaining := remaining - 64
      let v ← setBit precision v remaining (decide (element &&& mask ≠ 0))
      lower_elements shl64 precision n count remaining element_idx v

/-- `get_upper_bits`, tests/generate_cache.cpp 67-126. -/
def get_upper_bits (shl64 : Exec Nat) (precision : Nat) (n : Big) : Exec Nat := do
  let top ← rd n.elements n.element_pos
  if n.bit_pos ≥ precision then
    if n.bit_pos - precision < 64 then .ok (wrap precision (top / 2 ^ (n.bit_pos - precision)))
    else .fault .badShift
  else if n.bit_pos = 0 then .fault .badShift
  else
    let (v, _) ← set_down precision top n.bit_pos (precision - 1) (2 ^ (n.bit_pos - 1)) 0
    let remaining := precision - n.bit_pos
    lower_elements shl64 precision n (remaining / 64) remaining n.element_pos v

/-- The loop of tests/generate_cache.cpp 160-172: the binary digits of `1 / 5^k`.  The arguments after `fuel`
are `dividend`, `negative_power_digits` and `accumulated_exp`. -/
def digits_loop (cfg : Cfg) (precision : Nat) (power_of_5 : Big) : Nat → Big → Nat → Nat → Exec Nat
  | 0, _, _, _ => .fault .loopFuel
  | fuel + 1, dividend, digits, accumulated => do
    let dividend ← sub cfg dividend power_of_5
    let (new_exp, dividend) ← multiply_2_until cfg dividend power_of_5
    let accumulated := wrap 64 (accumulated + new_exp)
    if accumulated ≥ precision then
      .ok (wrap precision (digits * 2 ^ (precision - 1 - (accumulated - new_exp))))
    else
      let digits := wrap precision (digits * 2 ^ new_exp)
      let digits ← setBit precision digits 0 true
      digits_loop cfg precision power_of_5 fuel dividend digits accumulated

/-- tests/generate_cache.cpp 155-174: the entry for `-k`, given `5^k`.  The loop may run `precision` times. -/
def negative_power (cfg : Cfg) (precision size : Nat) (power_of_5 : Big) : Exec Nat := do
  let dividend ← ofElement size 1
  let (_, dividend) ← multiply_2_until cfg dividend power_of_5
  digits_loop cfg precision power_of_5 precision dividend 1 0

/-- The loop of tests/generate_cache.cpp 139-175: `count` values of `k` from `k` on.  `m` is `-min_k`, so
that `cache(k)` is `ret[m + k]` and `cache(-k)` is `ret[m - k]`. -/
def both_loop (cfg : Cfg) (shl64 : Exec Nat) (precision size m : Nat) :
    Nat → Nat → Big → List Nat → Exec (Big × List Nat)
  | 0, _, power_of_5, ret => .ok (power_of_5, ret)
  | count + 1, k, power_of_5, ret => do
    let power_of_5 ← multiply_5 cfg power_of_5
    let c ← get_upper_bits shl64 precision power_of_5
    let ret ← wr ret (m + k) c
    let c ← negative_power cfg precision size power_of_5
    let ret ← wr ret (m - k) c
    both_loop cfg shl64 precision size m count (k + 1) power_of_5 ret

/-- The loop of tests/generate_cache.cpp 178-181: `count` values of `k` from `k` on. -/
def positive_loop (cfg : Cfg) (shl64 : Exec Nat) (precision m : Nat) :
    Nat → Nat → Big → List Nat → Exec (List Nat)
  | 0, _, _, ret => .ok ret
  | count + 1, k, power_of_5, ret => do
    let power_of_5 ← multiply_5 cfg power_of_5
    let c ← get_upper_bits shl64 precision power_of_5
    let ret ← wr ret (m + k) c
    positive_loop cfg shl64 precision m count (k + 1) power_of_5 ret

/-- `generate_cache_bitset`, tests/generate_cache.cpp 61-184.  `size` is the number of elements of
`bigint_type` (lines 64-65), `m` is `-min_k`. -/
def generate_cache_bitset (cfg : Cfg) (shl64 : Exec Nat) (precision size m max_k : Nat) : Exec (List Nat) := do
  let power_of_5 ← ofElement size 1
  let c ← get_upper_bits shl64 precision power_of_5
  let ret ← wr (List.replicate (max_k + m + 1) 0) m c
  let (power_of_5, ret) ← both_loop cfg shl64 precision size m m 1 power_of_5 ret
  positive_loop cfg shl64 precision m (max_k - m) (m + 1) power_of_5 ret

/-- `detect_overflow_and_increment` without the message, tests/generate_cache.cpp 243-246 and 259-262.  For
`double` the carry from the low half is lost (the tool then prints a message). -/
def increment (F : Fmt) (value : Nat) : Nat :=
  match F with
  | .b32 => wrap 64 (value + 1)
  | .b64 => value / 2 ^ 64 * 2 ^ 64 + wrap 64 (value % 2 ^ 64 + 1)

/-- The values written to the file by `generate_cache`, tests/generate_cache.cpp 192-270: those for negative
`k` after incrementing (lines 209-221), then the others (222-230). -/
def generate_cache (cfg : Cfg) (shl64 : Exec Nat) (F : Fmt) : Exec (List Nat) := do
  let l ← floor_log2_pow10 cfg F.max_k
  let bits := (l - F.max_k + 1).toNat
  let m := (-F.min_k).toNat
  let ret ← generate_cache_bitset cfg shl64 (2 * F.q) ((bits + 63) / 64) m F.max_k.toNat
  .ok ((ret.take m).map (increment F) ++ ret.drop m)

end Grisu

import Verif.Model.Exec

/-! # Integer utilities of `grisu_exact.h`, lines 48-345 -/

namespace Grisu

/-- `struct uint128`, grisu_exact.h 53-84.  Both representations (one `unsigned __int128`, or two
halves) are modelled by the pair of halves. -/
structure U128 where
  high : Nat
  low : Nat
  deriving DecidableEq, Repr

/-- `umul64`, grisu_exact.h 86-92. -/
def umul64 (x y : Nat) : Nat := wrap 64 (x * y)

/-- `umul128`, grisu_exact.h 94-118.  `x64`: line 97 (and 99-101).  Otherwise lines 103-116. -/
def umul128 (cfg : Cfg) (x y : Nat) : U128 :=
  if cfg.x64 then
    let p := wrap 128 (x * y)
    ⟨p / 2 ^ 64, wrap 64 p⟩
  else
    let a := wrap 32 (x / 2 ^ 32)
    let b := wrap 32 x
    let c := wrap 32 (y / 2 ^ 32)
    let d := wrap 32 y
    let ac := umul64 a c
    let bc := umul64 b c
    let ad := umul64 a d
    let bd := umul64 b d
    let intermediate := wrap 64 (wrap 64 (bd / 2 ^ 32 + wrap 32 ad) + wrap 32 bc)
    ⟨wrap 64 (wrap 64 (wrap 64 (ac + intermediate / 2 ^ 32) + ad / 2 ^ 32) + bc / 2 ^ 32),
     wrap 64 (wrap 64 (intermediate * 2 ^ 32) + wrap 32 bd)⟩

/-- `umul128_upper64`, grisu_exact.h 120-142. -/
def umul128_upper64 (cfg : Cfg) (x y : Nat) : Nat :=
  if cfg.x64 then
    wrap 64 (wrap 128 (x * y) / 2 ^ 64)
  else
    let a := wrap 32 (x / 2 ^ 32)
    let b := wrap 32 x
    let c := wrap 32 (y / 2 ^ 32)
    let d := wrap 32 y
    let ac := umul64 a c
    let bc := umul64 b c
    let ad := umul64 a d
    let bd := umul64 b d
    let intermediate := wrap 64 (wrap 64 (bd / 2 ^ 32 + wrap 32 ad) + wrap 32 bc)
    wrap 64 (wrap 64 (wrap 64 (ac + intermediate / 2 ^ 32) + ad / 2 ^ 32) + bc / 2 ^ 32)

/-- `umul192_upper64`, grisu_exact.h 144-161: line 151 for `x64`, lines 158-159 otherwise
(`intermediate < g10` detects the carry). -/
def umul192_upper64 (cfg : Cfg) (x : Nat) (y : U128) : Nat :=
  let g0 := umul128 cfg x y.high
  let g10 := umul128_upper64 cfg x y.low
  if cfg.x64 then
    wrap 64 (wrap 128 (g0.high * 2 ^ 64 + g0.low + g10) / 2 ^ 64)
  else
    let intermediate := wrap 64 (g0.low + g10)
    wrap 64 (g0.high + (if intermediate < g10 then 1 else 0))

/-- `umul96_upper32`, grisu_exact.h 163-181. -/
def umul96_upper32 (cfg : Cfg) (x y : Nat) : Nat :=
  if cfg.x64 then
    wrap 32 (umul128_upper64 cfg x y)
  else
    let b := x
    let c := wrap 32 (y / 2 ^ 32)
    let d := wrap 32 y
    let bc := umul64 b c
    let bd := umul64 b d
    let intermediate := wrap 64 (bd / 2 ^ 32 + bc)
    wrap 32 (intermediate / 2 ^ 32)

/-- `compute_power<UInt>(b, e)`, grisu_exact.h 183-191: `e` multiplications in `w` bits. -/
def compute_power (w b : Nat) : Nat → Nat
  | 0 => 1
  | e + 1 => wrap w (compute_power w b e * b)

/-- Number of trailing zero bits of a nonzero `x`: `__builtin_ctz`, `__builtin_ctzll`
(grisu_exact.h 203, 208, 214).  `n` bounds the recursion and is the width of the type. -/
def ctz : Nat → Nat → Nat
  | 0, _ => 0
  | n + 1, x => if x % 2 = 1 then 0 else ctz n (x / 2) + 1

/-- `divisible_by_power_of_2<UInt>`, grisu_exact.h 193-233.  Line 227 guards the portable branch. -/
def divisible_by_power_of_2 (cfg : Cfg) (w x : Nat) (exp : Int) : Exec Bool := do
  cassert cfg (decide (exp ≥ 1))
  cassert cfg (decide (x ≠ 0))
  if cfg.x64 then
    if x = 0 then .fault .ctzZero
    else .ok (decide ((ctz w x : Int) ≥ exp))
  else if exp ≥ (w : Int) then .ok false
  else if exp < 0 then .fault .badShift
  else
    let mask := wrap w (subw w (wrap w (2 ^ exp.toNat)) 1)
    .ok (decide (x &&& mask = 0))

/-- The loop of `compute_modular_inverse_of_5`, grisu_exact.h 246-248: `n` rounds of `r = 5*r*r`. -/
def modular_inverse_loop (w : Nat) : Nat → Nat → Nat
  | 0, r => r
  | n + 1, r => modular_inverse_loop w n (wrap w (wrap w (5 * r) * r))

/-- `compute_modular_inverse_of_5<UInt>`, grisu_exact.h 235-250. -/
def compute_modular_inverse_of_5 (w : Nat) : Nat := modular_inverse_loop w (w - 2) 5

/-- Size of the divisibility table: 12 entries for `uint32_t`, 24 for `uint64_t`;
grisu_exact.h 278-279. -/
def divisibility_table_size (w : Nat) : Nat := if w = 32 then 12 else 24

/-- Entry `i` of the table built by `generate_divisibility_test_table`, grisu_exact.h 262-275:
`(max_quotient, mod_inv)`. -/
def divisibility_table_entry (w i : Nat) : Nat × Nat :=
  ((2 ^ w - 1) / compute_power w 5 i, compute_power w (compute_modular_inverse_of_5 w) i)

/-- `divisible_by_power_of_5<UInt>`, grisu_exact.h 281-286.  `exp` is an `unsigned int`; the callers
pass a nonnegative `int`. -/
def divisible_by_power_of_5 (cfg : Cfg) (w x : Nat) (exp : Int) : Exec Bool := do
  cassert cfg (decide (0 ≤ exp ∧ exp < divisibility_table_size w))
  if 0 ≤ exp ∧ exp < divisibility_table_size w then
    let entry := divisibility_table_entry w exp.toNat
    .ok (decide (wrap w (x * entry.2) ≤ entry.1))
  else .fault .outOfBounds

/-- The value computed by `floor_log10_pow2` (product, then arithmetic shift right by 20),
grisu_exact.h 293-308.  Integer division by a positive number rounds down. -/
def log10_pow2_value (e : Int) : Int := e * 0x4d104 / 2 ^ 20

/-- `floor_log10_pow2`, grisu_exact.h 293-308. -/
def floor_log10_pow2 (cfg : Cfg) (e : Int) : Exec Int := do
  cassert cfg (decide (e ≥ -1650 ∧ e ≤ 1650))
  let prod ← i32 (e * 0x4d104)
  .ok (prod / 2 ^ 20)

/-- The value computed by `floor_log2_pow10`, grisu_exact.h 310-325. -/
def log2_pow10_value (e : Int) : Int := e * 0x35269e / 2 ^ 20

/-- `floor_log2_pow10`, grisu_exact.h 310-325. -/
def floor_log2_pow10 (cfg : Cfg) (e : Int) : Exec Int := do
  cassert cfg (decide (e ≥ -642 ∧ e ≤ 642))
  let prod ← i32 (e * 0x35269e)
  .ok (prod / 2 ^ 20)

/-- A product computed in `std::int64_t`, as in grisu_exact.h 342. -/
def i64 (n : Int) : Exec Int :=
  if -2 ^ 63 ≤ n ∧ n < 2 ^ 63 then .ok n else .fault .signedOverflow

/-- The value computed by `floor_log5_pow2`, grisu_exact.h 328-345. -/
def log5_pow2_value (e : Int) : Int := e * 0x6e40d1a4 / 2 ^ 32

/-- `floor_log5_pow2`, grisu_exact.h 328-345. -/
def floor_log5_pow2 (cfg : Cfg) (e : Int) : Exec Int := do
  cassert cfg (decide (e ≥ -65536 ∧ e ≤ 65536))
  let prod ← i64 (e * 0x6e40d1a4)
  .ok (prod / 2 ^ 32)

end Grisu

import Verif.Model.RyuTables
import Verif.Model.ToChars

/-!
# The reference implementation Ryu: `benchmark/ryu`

The third-party code that `tests/uniform_random_test.cpp` compares with: `common.h`, `d2s_intrinsics.h`,
`f2s_intrinsics.h`, `d2s.c`, `f2s.c`.  Line numbers without a file name refer to the file named by the section.

Signed `int32_t` quantities (binary and decimal exponents, shift amounts) are integers; they stay below 10000 in
absolute value.  The branches for `RYU_DEBUG` and `RYU_OPTIMIZE_SIZE` are in `RyuDebug.lean` and `RyuSize.lean`.
-/

namespace Grisu.Ryu

/-- How 64x64-bit products are computed, d2s_intrinsics.h 28-32. -/
inductive Mul64
  /-- `HAS_UINT128` -/
  | uint128
  /-- `HAS_64_BIT_INTRINSICS` -/
  | intrinsics
  /-- neither -/
  | portable
  deriving DecidableEq, Repr

/-- Build configuration: the macros of common.h 24-26, f2s_intrinsics.h 23 and d2s_intrinsics.h 28-32. -/
structure Config where
  mul : Mul64
  /-- `RYU_32_BIT_PLATFORM`, common.h 24-26 -/
  bit32 : Bool
  /-- `RYU_FLOAT_FULL_TABLE`, f2s_intrinsics.h 23 -/
  floatTable : Bool
  /-- asserts compiled out -/
  ndebug : Bool
  deriving DecidableEq, Repr

/-- `assert(b)`, as in common.h 33. -/
def rassert (c : Config) (b : Bool) : Exec Unit :=
  if c.ndebug || b then .ok () else .fault .assertion

/-- `table[i]`, bounds-checked, as in d2s.c 385. -/
def at_ {α : Type} (table : List α) (i : Nat) : Exec α :=
  match table[i]? with
  | some a => .ok a
  | none => .fault .outOfBounds

/-- Conversion of an `int32_t` to `uint32_t`, as in common.h 62. -/
def u32 (n : Int) : Nat := (n % 2 ^ 32).toNat

/-! ## `common.h` -/

/-- `decimalLength9`, common.h 29-43. -/
def decimalLength9 (c : Config) (v : Nat) : Exec Nat := do
  rassert c (decide (v < 1000000000))
  .ok (if v ≥ 100000000 then 9
    else if v ≥ 10000000 then 8
    else if v ≥ 1000000 then 7
    else if v ≥ 100000 then 6
    else if v ≥ 10000 then 5
    else if v ≥ 1000 then 4
    else if v ≥ 100 then 3
    else if v ≥ 10 then 2
    else 1)

/-- `log2pow5`, common.h 45-53 (not called by the printers). -/
def log2pow5 (c : Config) (e : Int) : Exec Int := do
  rassert c (decide (e ≥ 0))
  rassert c (decide (e ≤ 3528))
  .ok (wrap 32 (u32 e * 1217359) / 2 ^ 19 : Nat)

/-- `ceil_log2pow5`, common.h 65-68 (not called by the printers). -/
def ceil_log2pow5 (c : Config) (e : Int) : Exec Int := do
  let k ← log2pow5 c e
  .ok (k + 1)

/-- `pow5bits`, common.h 56-63. -/
def pow5bits (c : Config) (e : Int) : Exec Int := do
  rassert c (decide (0 ≤ e))
  rassert c (decide (e ≤ 3528))
  .ok (wrap 32 (u32 e * 1217359) / 2 ^ 19 + 1 : Nat)

/-- `log10Pow2`, common.h 71-76. -/
def log10Pow2 (c : Config) (e : Int) : Exec Nat := do
  rassert c (decide (0 ≤ e))
  rassert c (decide (e ≤ 1650))
  .ok (wrap 32 (u32 e * 78913) / 2 ^ 18)

/-- `log10Pow5`, common.h 79-84. -/
def log10Pow5 (c : Config) (e : Int) : Exec Nat := do
  rassert c (decide (0 ≤ e))
  rassert c (decide (e ≤ 2620))
  .ok (wrap 32 (u32 e * 732923) / 2 ^ 20)

/-- `copy_special_str`, common.h 86-100.  The callers pass the fields, converted to `bool`. -/
def copy_special_str (mem : Buffer) (sign exponent mantissa : Bool) : Exec (Buffer × Int) :=
  if mantissa then do
    let mem ← putList mem 0 ['N', 'a', 'N']
    .ok (mem, 3)
  else do
    let mem ← if sign then put mem 0 '-' else .ok mem
    let s : Int := if sign then 1 else 0
    if exponent then
      let mem ← putList mem s ['I', 'n', 'f', 'i', 'n', 'i', 't', 'y']
      .ok (mem, s + 8)
    else
      let mem ← putList mem s ['0', 'E', '0']
      .ok (mem, s + 3)

/-! ## `d2s_intrinsics.h` -/

/-- `umul128`, d2s_intrinsics.h 42-44 and 64-92: the low and the high word of the product. -/
def umul128 (c : Config) (a b : Nat) : Nat × Nat :=
  match c.mul with
  | .intrinsics => (a * b % 2 ^ 64, a * b / 2 ^ 64)
  | _ =>
    let aLo := wrap 32 a
    let aHi := wrap 32 (a / 2 ^ 32)
    let bLo := wrap 32 b
    let bHi := wrap 32 (b / 2 ^ 32)
    let b00 := wrap 64 (aLo * bLo)
    let b01 := wrap 64 (aLo * bHi)
    let b10 := wrap 64 (aHi * bLo)
    let b11 := wrap 64 (aHi * bHi)
    let b00Lo := wrap 32 b00
    let b00Hi := wrap 32 (b00 / 2 ^ 32)
    let mid1 := wrap 64 (b10 + b00Hi)
    let mid1Lo := wrap 32 mid1
    let mid1Hi := wrap 32 (mid1 / 2 ^ 32)
    let mid2 := wrap 64 (b01 + mid1Lo)
    let mid2Lo := wrap 32 mid2
    let mid2Hi := wrap 32 (mid2 / 2 ^ 32)
    let pHi := wrap 64 (wrap 64 (b11 + mid1Hi) + mid2Hi)
    let pLo := wrap 64 (mid2Lo * 2 ^ 32) ||| b00Lo
    (pLo, pHi)

/-- `shiftright128`, d2s_intrinsics.h 47-60 (the intrinsic uses the distance modulo 64) and 94-99. -/
def shiftright128 (c : Config) (lo hi dist : Nat) : Exec Nat :=
  match c.mul with
  | .intrinsics => do
    rassert c (decide (dist < 64))
    .ok (wrap 64 ((hi * 2 ^ 64 + lo) / 2 ^ (wrap 8 dist % 64)))
  | _ => do
    rassert c (decide (dist < 64))
    rassert c (decide (0 < dist))
    if 0 < dist ∧ dist < 64 then .ok (wrap 64 (hi * 2 ^ (64 - dist)) ||| lo / 2 ^ dist)
    else .fault .badShift

/-- `umulh`, d2s_intrinsics.h 106-113. -/
def umulh (c : Config) (a b : Nat) : Nat := (umul128 c a b).2

/-- `div5`, d2s_intrinsics.h 130-132 and 165-167. -/
def div5 (c : Config) (x : Nat) : Nat := if c.bit32 then umulh c x 0xCCCCCCCCCCCCCCCD / 2 ^ 2 else x / 5

/-- `div10`, d2s_intrinsics.h 134-136 and 169-171. -/
def div10 (c : Config) (x : Nat) : Nat := if c.bit32 then umulh c x 0xCCCCCCCCCCCCCCCD / 2 ^ 3 else x / 10

/-- `div100`, d2s_intrinsics.h 138-140 and 173-175. -/
def div100 (c : Config) (x : Nat) : Nat :=
  if c.bit32 then umulh c (x / 2 ^ 2) 0x28F5C28F5C28F5C3 / 2 ^ 2 else x / 100

/-- `div1e8`, d2s_intrinsics.h 142-144 and 177-179. -/
def div1e8 (c : Config) (x : Nat) : Nat :=
  if c.bit32 then umulh c x 0xABCC77118461CEFD / 2 ^ 26 else x / 100000000

/-- The remainder `((uint32_t) x) - n * ((uint32_t) q)`, computed in `uint32_t`, as in d2s.c 218. -/
def rem32 (x n q : Nat) : Nat := subw 32 (wrap 32 x) (wrap 32 (n * wrap 32 q))

/-- The loop of `pow5Factor`, d2s_intrinsics.h 191-204. -/
def pow5Factor_loop (c : Config) : Nat → (value count : Nat) → Exec Nat
  | 0, _, _ => .fault .loopFuel
  | fuel + 1, value, count => do
    rassert c (decide (value ≠ 0))
    let q := div5 c value
    let r := rem32 value 5 q
    if r ≠ 0 then .ok count else pow5Factor_loop c fuel q (count + 1)

/-- `multipleOfPowerOf5`, d2s_intrinsics.h 207-210. -/
def multipleOfPowerOf5 (c : Config) (value p : Nat) : Exec Bool := do
  let n ← pow5Factor_loop c 28 value 0
  .ok (decide (n ≥ p))

/-- `multipleOfPowerOf2`, d2s_intrinsics.h 213-218. -/
def multipleOfPowerOf2 (c : Config) (value p : Nat) : Exec Bool := do
  rassert c (decide (value ≠ 0))
  rassert c (decide (p < 64))
  if p < 64 then .ok (decide (value &&& (2 ^ p - 1) = 0)) else .fault .badShift

/-- `mulShift64`, d2s_intrinsics.h 260-264, 287-298, 309-320. -/
def mulShift64 (c : Config) (m : Nat) (mul : Nat × Nat) (j : Int) : Exec Nat :=
  match c.mul with
  | .uint128 => do
    let b0 := wrap 128 (m * mul.1)
    let b2 := wrap 128 (m * mul.2)
    let r ← shr 128 (wrap 128 (b0 / 2 ^ 64 + b2)) (j - 64)
    .ok (wrap 64 r)
  | _ =>
    let (low1, high1) := umul128 c m mul.2
    let (_, high0) := umul128 c m mul.1
    let sum := wrap 64 (high0 + low1)
    let high1 := if sum < high0 then wrap 64 (high1 + 1) else high1
    shiftright128 c sum high1 (u32 (j - 64))

/-- `mulShiftAll64`, d2s_intrinsics.h 266-283, 300-305, 323-354: returns `(vr, vp, vm)`. -/
def mulShiftAll64 (c : Config) (m : Nat) (mul : Nat × Nat) (j : Int) (mmShift : Nat) : Exec (Nat × Nat × Nat) :=
  match c.mul with
  | .portable => do
    let m := wrap 64 (m * 2)
    let (lo, tmp) := umul128 c m mul.1
    let (l, hi) := umul128 c m mul.2
    let mid := wrap 64 (tmp + l)
    let hi := wrap 64 (hi + if mid < tmp then 1 else 0)
    let lo2 := wrap 64 (lo + mul.1)
    let mid2 := wrap 64 (wrap 64 (mid + mul.2) + if lo2 < lo then 1 else 0)
    let hi2 := wrap 64 (hi + if mid2 < mid then 1 else 0)
    let vp ← shiftright128 c mid2 hi2 (u32 (j - 64 - 1))
    let vm ←
      if mmShift = 1 then
        let lo3 := subw 64 lo mul.1
        let mid3 := subw 64 (subw 64 mid mul.2) (if lo3 > lo then 1 else 0)
        let hi3 := subw 64 hi (if mid3 > mid then 1 else 0)
        shiftright128 c mid3 hi3 (u32 (j - 64 - 1))
      else
        let lo3 := wrap 64 (lo + lo)
        let mid3 := wrap 64 (wrap 64 (mid + mid) + if lo3 < lo then 1 else 0)
        let hi3 := wrap 64 (wrap 64 (hi + hi) + if mid3 < mid then 1 else 0)
        let lo4 := subw 64 lo3 mul.1
        let mid4 := subw 64 (subw 64 mid3 mul.2) (if lo4 > lo3 then 1 else 0)
        let hi4 := subw 64 hi3 (if mid4 > mid3 then 1 else 0)
        shiftright128 c mid4 hi4 (u32 (j - 64))
    let vr ← shiftright128 c mid hi (u32 (j - 64 - 1))
    .ok (vr, vp, vm)
  | _ => do
    let vp ← mulShift64 c (wrap 64 (4 * m + 2)) mul j
    let vm ← mulShift64 c (subw 64 (subw 64 (wrap 64 (4 * m)) 1) mmShift) mul j
    let vr ← mulShift64 c (wrap 64 (4 * m)) mul j
    .ok (vr, vp, vm)

/-! ## `f2s_intrinsics.h` -/

/-- `FLOAT_POW5_INV_BITCOUNT`, f2s_full_table.h 21 and f2s_intrinsics.h 34. -/
def float_pow5_inv_bitcount (c : Config) : Int := if c.floatTable then 59 else 125 - 64

/-- `FLOAT_POW5_BITCOUNT`, f2s_full_table.h 22 and f2s_intrinsics.h 35. -/
def float_pow5_bitcount (c : Config) : Int := if c.floatTable then 61 else 125 - 64

/-- The loop of `pow5factor_32`, f2s_intrinsics.h 39-52. -/
def pow5factor_32_loop (c : Config) : Nat → (value count : Nat) → Exec Nat
  | 0, _, _ => .fault .loopFuel
  | fuel + 1, value, count => do
    rassert c (decide (value ≠ 0))
    let q := value / 5
    let r := value % 5
    if r ≠ 0 then .ok count else pow5factor_32_loop c fuel q (count + 1)

/-- `multipleOfPowerOf5_32`, f2s_intrinsics.h 55-57. -/
def multipleOfPowerOf5_32 (c : Config) (value p : Nat) : Exec Bool := do
  let n ← pow5factor_32_loop c 14 value 0
  .ok (decide (n ≥ p))

/-- `multipleOfPowerOf2_32`, f2s_intrinsics.h 60-63. -/
def multipleOfPowerOf2_32 (value p : Nat) : Exec Bool :=
  if p < 32 then .ok (decide (value &&& (2 ^ p - 1) = 0)) else .fault .badShift

/-- `mulShift32`, f2s_intrinsics.h 67-99. -/
def mulShift32 (c : Config) (m factor : Nat) (shift : Int) : Exec Nat := do
  rassert c (decide (32 < shift))
  let factorLo := wrap 32 factor
  let factorHi := wrap 32 (factor / 2 ^ 32)
  let bits0 := wrap 64 (m * factorLo)
  let bits1 := wrap 64 (m * factorHi)
  if c.bit32 then
    let bits0Hi := wrap 32 (bits0 / 2 ^ 32)
    let bits1Lo := wrap 32 bits1
    let bits1Hi := wrap 32 (bits1 / 2 ^ 32)
    let bits1Lo := wrap 32 (bits1Lo + bits0Hi)
    let bits1Hi := wrap 32 (bits1Hi + if bits1Lo < bits0Hi then 1 else 0)
    if shift ≥ 64 then shr 32 bits1Hi (shift - 64)
    else
      let s := shift - 32
      if 0 < s ∧ s < 32 then .ok (wrap 32 (bits1Hi * 2 ^ (32 - s).toNat) ||| bits1Lo / 2 ^ s.toNat)
      else .fault .badShift
  else
    let sum := wrap 64 (bits0 / 2 ^ 32 + bits1)
    let shiftedSum ← shr 64 sum (shift - 32)
    rassert c (decide (shiftedSum ≤ 2 ^ 32 - 1))
    .ok (wrap 32 shiftedSum)

/-- `mulPow5InvDivPow2`, f2s_intrinsics.h 101-114. -/
def mulPow5InvDivPow2 (c : Config) (m q : Nat) (j : Int) : Exec Nat := do
  if c.floatTable then
    let t ← at_ FLOAT_POW5_INV_SPLIT q
    mulShift32 c m t j
  else
    let t ← at_ DOUBLE_POW5_INV_SPLIT q
    mulShift32 c m (wrap 64 (t.2 + 1)) j

/-- `mulPow5divPow2`, f2s_intrinsics.h 116-126. -/
def mulPow5divPow2 (c : Config) (m i : Nat) (j : Int) : Exec Nat := do
  if c.floatTable then
    let t ← at_ FLOAT_POW5_SPLIT i
    mulShift32 c m t j
  else
    let t ← at_ DOUBLE_POW5_SPLIT i
    mulShift32 c m t.2 j

/-! ## Variables of the conversion -/

/-- The variables `vr`, `vp`, `vm`, `vmIsTrailingZeros`, `vrIsTrailingZeros`, `lastRemovedDigit`, `removed`,
d2s.c 118-121 and 206-207, f2s.c 76-80 and 155. -/
structure St where
  vr : Nat
  vp : Nat
  vm : Nat
  vmZ : Bool
  vrZ : Bool
  last : Nat
  removed : Nat
  deriving DecidableEq, Repr

/-- `floating_decimal_32`, `floating_decimal_64`: f2s.c 43-48, d2s.c 84-89. -/
structure FloatingDecimal where
  mantissa : Nat
  exponent : Int
  deriving DecidableEq, Repr

/-! ## `d2s.c` -/

/-- `decimalLength17`, d2s.c 58-81. -/
def decimalLength17 (c : Config) (v : Nat) : Exec Nat := do
  rassert c (decide (v < 100000000000000000))
  .ok (if v ≥ 10000000000000000 then 17
    else if v ≥ 1000000000000000 then 16
    else if v ≥ 100000000000000 then 15
    else if v ≥ 10000000000000 then 14
    else if v ≥ 1000000000000 then 13
    else if v ≥ 100000000000 then 12
    else if v ≥ 10000000000 then 11
    else if v ≥ 1000000000 then 10
    else if v ≥ 100000000 then 9
    else if v ≥ 10000000 then 8
    else if v ≥ 1000000 then 7
    else if v ≥ 100000 then 6
    else if v ≥ 10000 then 5
    else if v ≥ 1000 then 4
    else if v ≥ 100 then 3
    else if v ≥ 10 then 2
    else 1)

/-- Step 3 of `d2d` for `e2 >= 0`, d2s.c 122-156.  Returns the variables and `e10`. -/
def d_step3_pos (c : Config) (m2 : Nat) (e2 : Int) (mmShift : Nat) (acceptBounds : Bool) : Exec (St × Int) := do
  let mv := wrap 64 (4 * m2)
  let q ← log10Pow2 c e2
  let q := subw 32 q (if e2 > 3 then 1 else 0)
  let e10 : Int := q
  let k := 125 + (← pow5bits c q) - 1
  let i := -e2 + q + k
  let t ← at_ DOUBLE_POW5_INV_SPLIT q
  let (vr, vp, vm) ← mulShiftAll64 c m2 t i mmShift
  if q ≤ 21 then
    let mvMod5 := rem32 mv 5 (div5 c mv)
    if mvMod5 = 0 then
      let z ← multipleOfPowerOf5 c mv q
      .ok (⟨vr, vp, vm, false, z, 0, 0⟩, e10)
    else if acceptBounds then
      let z ← multipleOfPowerOf5 c (subw 64 (subw 64 mv 1) mmShift) q
      .ok (⟨vr, vp, vm, z, false, 0, 0⟩, e10)
    else
      let z ← multipleOfPowerOf5 c (wrap 64 (mv + 2)) q
      .ok (⟨vr, subw 64 vp (if z then 1 else 0), vm, false, false, 0, 0⟩, e10)
  else .ok (⟨vr, vp, vm, false, false, 0, 0⟩, e10)

/-- Step 3 of `d2d` for `e2 < 0`, d2s.c 157-196. -/
def d_step3_neg (c : Config) (m2 : Nat) (e2 : Int) (mmShift : Nat) (acceptBounds : Bool) : Exec (St × Int) := do
  let mv := wrap 64 (4 * m2)
  let q ← log10Pow5 c (-e2)
  let q := subw 32 q (if -e2 > 1 then 1 else 0)
  let e10 : Int := q + e2
  let i := -e2 - q
  let k := (← pow5bits c i) - 125
  let j := q - k
  let t ← at_ DOUBLE_POW5_SPLIT (u32 i)
  let (vr, vp, vm) ← mulShiftAll64 c m2 t j mmShift
  if q ≤ 1 then
    if acceptBounds then .ok (⟨vr, vp, vm, decide (mmShift = 1), true, 0, 0⟩, e10)
    else .ok (⟨vr, subw 64 vp 1, vm, false, true, 0, 0⟩, e10)
  else if q < 63 then
    let z ← multipleOfPowerOf2 c mv q
    .ok (⟨vr, vp, vm, false, z, 0, 0⟩, e10)
  else .ok (⟨vr, vp, vm, false, false, 0, 0⟩, e10)

/-- The first loop of the general case, d2s.c 212-228. -/
def d_general_loop (c : Config) : Nat → St → Exec St
  | 0, _ => .fault .loopFuel
  | fuel + 1, s =>
    let vpDiv10 := div10 c s.vp
    let vmDiv10 := div10 c s.vm
    if vpDiv10 ≤ vmDiv10 then .ok s
    else
      let vmMod10 := rem32 s.vm 10 vmDiv10
      let vrDiv10 := div10 c s.vr
      let vrMod10 := rem32 s.vr 10 vrDiv10
      d_general_loop c fuel ⟨vrDiv10, vpDiv10, vmDiv10, s.vmZ && decide (vmMod10 = 0), s.vrZ && decide (s.last = 0),
        wrap 8 vrMod10, s.removed + 1⟩

/-- The second loop of the general case, d2s.c 234-249. -/
def d_trailing_loop (c : Config) : Nat → St → Exec St
  | 0, _ => .fault .loopFuel
  | fuel + 1, s =>
    let vmDiv10 := div10 c s.vm
    let vmMod10 := rem32 s.vm 10 vmDiv10
    if vmMod10 ≠ 0 then .ok s
    else
      let vpDiv10 := div10 c s.vp
      let vrDiv10 := div10 c s.vr
      let vrMod10 := rem32 s.vr 10 vrDiv10
      d_trailing_loop c fuel ⟨vrDiv10, vpDiv10, vmDiv10, s.vmZ, s.vrZ && decide (s.last = 0), wrap 8 vrMod10,
        s.removed + 1⟩

/-- The loop of the common case, d2s.c 279-292; `up` is `roundUp`. -/
def d_common_loop (c : Config) : Nat → St → Bool → Exec (St × Bool)
  | 0, _, _ => .fault .loopFuel
  | fuel + 1, s, up =>
    let vpDiv10 := div10 c s.vp
    let vmDiv10 := div10 c s.vm
    if vpDiv10 ≤ vmDiv10 then .ok (s, up)
    else
      let vrDiv10 := div10 c s.vr
      let vrMod10 := rem32 s.vr 10 vrDiv10
      d_common_loop c fuel ⟨vrDiv10, vpDiv10, vmDiv10, s.vmZ, s.vrZ, s.last, s.removed + 1⟩ (decide (vrMod10 ≥ 5))

/-- The end of the general case, d2s.c 255-260 and f2s.c 192-197: `output`. -/
def general_output (w : Nat) (acceptBounds : Bool) (s : St) : Nat :=
  let last := if s.vrZ && decide (s.last = 5) && decide (s.vr % 2 = 0) then 4 else s.last
  wrap w (s.vr + if (decide (s.vr = s.vm) && (!acceptBounds || !s.vmZ)) || decide (last ≥ 5) then 1 else 0)

/-- Step 4 of `d2d`, d2s.c 205-301: `output` and `removed`. -/
def d_step4 (c : Config) (acceptBounds : Bool) (s : St) : Exec (Nat × Nat) :=
  if s.vmZ || s.vrZ then do
    let s ← d_general_loop c 21 s
    let s ← if s.vmZ then d_trailing_loop c 21 s else .ok s
    .ok (general_output 64 acceptBounds s, s.removed)
  else do
    let vpDiv100 := div100 c s.vp
    let vmDiv100 := div100 c s.vm
    let (s, up) :=
      if vpDiv100 > vmDiv100 then
        let vrDiv100 := div100 c s.vr
        let vrMod100 := rem32 s.vr 100 vrDiv100
        ((⟨vrDiv100, vpDiv100, vmDiv100, s.vmZ, s.vrZ, s.last, s.removed + 2⟩ : St), decide (vrMod100 ≥ 50))
      else (s, false)
    let (s, up) ← d_common_loop c 21 s up
    .ok (wrap 64 (s.vr + if decide (s.vr = s.vm) || up then 1 else 0), s.removed)

/-- `d2d`, d2s.c 91-312. -/
def d2d (c : Config) (ieeeMantissa ieeeExponent : Nat) : Exec FloatingDecimal := do
  let e2 : Int := if ieeeExponent = 0 then 1 - 1023 - 52 - 2 else ieeeExponent - 1023 - 52 - 2
  let m2 := if ieeeExponent = 0 then ieeeMantissa else 2 ^ 52 ||| ieeeMantissa
  let acceptBounds := decide (m2 &&& 1 = 0)
  let mmShift := if ieeeMantissa ≠ 0 ∨ ieeeExponent ≤ 1 then 1 else 0
  let (s, e10) ← if e2 ≥ 0 then d_step3_pos c m2 e2 mmShift acceptBounds else d_step3_neg c m2 e2 mmShift acceptBounds
  let (output, removed) ← d_step4 c acceptBounds s
  .ok ⟨output, e10 + removed⟩

/-- `DIGIT_TABLE[i]`, as in d2s.c 385 and 386. -/
def digit_at (i : Nat) : Exec Char := at_ DIGIT_TABLE i

/-- `memcpy(result + i, DIGIT_TABLE + t, 2)`, as in d2s.c 356. -/
def copyDigits (mem : Buffer) (i : Int) (t : Nat) : Exec Buffer := do
  let a ← digit_at t
  let b ← digit_at (t + 1)
  putList mem i [a, b]

/-- The loop printing four digits at a time, d2s.c 363-375 and f2s.c 254-266: returns the buffer, `output2`
(`output`) and `i`. -/
def print4 (index : Int) (olength : Nat) : Nat → Buffer → (output2 i : Nat) → Exec (Buffer × Nat × Nat)
  | 0, _, _, _ => .fault .loopFuel
  | fuel + 1, mem, output2, i =>
    if output2 ≥ 10000 then do
      let c := output2 % 10000
      let output2 := output2 / 10000
      let c0 := c % 100 * 2
      let c1 := c / 100 * 2
      let mem ← copyDigits mem (index + olength - i - 1) c0
      let mem ← copyDigits mem (index + olength - i - 3) c1
      print4 index olength fuel mem output2 (i + 4)
    else .ok (mem, output2, i)

/-- The last digits and the decimal point, d2s.c 376-397 and f2s.c 267-288: returns the buffer and `index`. -/
def print_end (mem : Buffer) (index : Int) (olength output2 i : Nat) : Exec (Buffer × Int) := do
  let (mem, output2, i) ←
    (if output2 ≥ 100 then do
      let c := output2 % 100 * 2
      let mem ← copyDigits mem (index + olength - i - 1) c
      .ok (mem, output2 / 100, i + 2)
    else .ok (mem, output2, i) : Exec (Buffer × Nat × Nat))
  let mem ←
    (if output2 ≥ 10 then do
      let c := output2 * 2
      let a ← digit_at (c + 1)
      let mem ← put mem (index + olength - i) a
      let b ← digit_at c
      put mem index b
    else put mem index (Char.ofNat (48 + output2)) : Exec Buffer)
  if olength > 1 then
    let mem ← put mem (index + 1) '.'
    .ok (mem, index + olength + 1)
  else .ok (mem, index + 1)

/-- `to_chars` of d2s.c, 314-420. -/
def d_to_chars (c : Config) (v : FloatingDecimal) (sign : Bool) (mem : Buffer) : Exec (Buffer × Int) := do
  let (mem, index) ←
    (if sign then do
      let mem ← put mem 0 '-'
      .ok (mem, 1)
    else .ok (mem, 0) : Exec (Buffer × Int))
  let output := v.mantissa
  let olength ← decimalLength17 c output
  let (mem, output, i) ←
    (if output / 2 ^ 32 ≠ 0 then do
      let q := div1e8 c output
      let output2 := rem32 output 100000000 q
      let c := output2 % 10000
      let output2 := output2 / 10000
      let d := output2 % 10000
      let c0 := c % 100 * 2
      let c1 := c / 100 * 2
      let d0 := d % 100 * 2
      let d1 := d / 100 * 2
      let mem ← copyDigits mem (index + olength - 0 - 1) c0
      let mem ← copyDigits mem (index + olength - 0 - 3) c1
      let mem ← copyDigits mem (index + olength - 0 - 5) d0
      let mem ← copyDigits mem (index + olength - 0 - 7) d1
      .ok (mem, q, 8)
    else .ok (mem, output, 0) : Exec (Buffer × Nat × Nat))
  let (mem, output2, i) ← print4 index olength 4 mem (wrap 32 output) i
  let (mem, index) ← print_end mem index olength output2 i
  let mem ← put mem index 'E'
  let index := index + 1
  let exp : Int := v.exponent + olength - 1
  let (mem, index, exp) ←
    (if exp < 0 then do
      let mem ← put mem index '-'
      .ok (mem, index + 1, -exp)
    else .ok (mem, index, exp) : Exec (Buffer × Int × Int))
  let exp := exp.toNat
  if exp ≥ 100 then
    let c := exp % 10
    let mem ← copyDigits mem index (2 * (exp / 10))
    let mem ← put mem (index + 2) (Char.ofNat (48 + c))
    .ok (mem, index + 3)
  else if exp ≥ 10 then
    let mem ← copyDigits mem index (2 * exp)
    .ok (mem, index + 2)
  else
    let mem ← put mem index (Char.ofNat (48 + exp))
    .ok (mem, index + 1)

/-- `d2d_small_int`, d2s.c 422-452. -/
def d2d_small_int (ieeeMantissa ieeeExponent : Nat) : Option FloatingDecimal :=
  let m2 := 2 ^ 52 ||| ieeeMantissa
  let e2 : Int := ieeeExponent - 1023 - 52
  if e2 > 0 then none
  else if e2 < -52 then none
  else
    let mask := 2 ^ (-e2).toNat - 1
    let fraction := m2 &&& mask
    if fraction ≠ 0 then none else some ⟨m2 / 2 ^ (-e2).toNat, 0⟩

/-- The loop moving trailing zeros into the exponent, d2s.c 482-490. -/
def small_int_loop (c : Config) : Nat → FloatingDecimal → Exec FloatingDecimal
  | 0, _ => .fault .loopFuel
  | fuel + 1, v =>
    let q := div10 c v.mantissa
    let r := rem32 v.mantissa 10 q
    if r ≠ 0 then .ok v else small_int_loop c fuel ⟨q, v.exponent + 1⟩

/-- `d2s_buffered_n`, d2s.c 454-496. -/
def d2s_buffered_n (c : Config) (x : Nat) (mem : Buffer) : Exec (Buffer × Int) := do
  let bits := wrap 64 x
  let ieeeSign := decide (bits / 2 ^ 63 &&& 1 ≠ 0)
  let ieeeMantissa := bits &&& (2 ^ 52 - 1)
  let ieeeExponent := wrap 32 (bits / 2 ^ 52 &&& (2 ^ 11 - 1))
  if ieeeExponent = 2 ^ 11 - 1 ∨ (ieeeExponent = 0 ∧ ieeeMantissa = 0) then
    copy_special_str mem ieeeSign (decide (ieeeExponent ≠ 0)) (decide (ieeeMantissa ≠ 0))
  else
    let v ←
      match d2d_small_int ieeeMantissa ieeeExponent with
      | some v => small_int_loop c 18 v
      | none => d2d c ieeeMantissa ieeeExponent
    d_to_chars c v ieeeSign mem

/-- `d2s_buffered`, d2s.c 498-503. -/
def d2s_buffered (c : Config) (x : Nat) (mem : Buffer) : Exec Buffer := do
  let (mem, index) ← d2s_buffered_n c x mem
  put mem index (Char.ofNat 0)

/-- `d2s`, d2s.c 505-509: the fresh array of 25 bytes. -/
def d2s (c : Config) (x : Nat) : Exec Buffer := d2s_buffered c x (List.replicate 25 none)

/-! ## `f2s.c` -/

/-- Step 3 of `f2d` for `e2 >= 0`, f2s.c 81-110. -/
def f_step3_pos (c : Config) (m2 : Nat) (e2 : Int) (mmShift : Nat) (acceptBounds : Bool) : Exec (St × Int) := do
  let mv := wrap 32 (4 * m2)
  let mp := wrap 32 (4 * m2 + 2)
  let mm := subw 32 (subw 32 (wrap 32 (4 * m2)) 1) mmShift
  let q ← log10Pow2 c e2
  let e10 : Int := q
  let k := float_pow5_inv_bitcount c + (← pow5bits c q) - 1
  let i := -e2 + q + k
  let vr ← mulPow5InvDivPow2 c mv q i
  let vp ← mulPow5InvDivPow2 c mp q i
  let vm ← mulPow5InvDivPow2 c mm q i
  let last ←
    (if q ≠ 0 ∧ subw 32 vp 1 / 10 ≤ vm / 10 then do
      let l := float_pow5_inv_bitcount c + (← pow5bits c (subw 32 q 1)) - 1
      let r ← mulPow5InvDivPow2 c mv (subw 32 q 1) (-e2 + q - 1 + l)
      .ok (wrap 8 (r % 10))
    else .ok 0 : Exec Nat)
  if q ≤ 9 then
    if mv % 5 = 0 then
      let z ← multipleOfPowerOf5_32 c mv q
      .ok (⟨vr, vp, vm, false, z, last, 0⟩, e10)
    else if acceptBounds then
      let z ← multipleOfPowerOf5_32 c mm q
      .ok (⟨vr, vp, vm, z, false, last, 0⟩, e10)
    else
      let z ← multipleOfPowerOf5_32 c mp q
      .ok (⟨vr, subw 32 vp (if z then 1 else 0), vm, false, false, last, 0⟩, e10)
  else .ok (⟨vr, vp, vm, false, false, last, 0⟩, e10)

/-- Step 3 of `f2d` for `e2 < 0`, f2s.c 111-146. -/
def f_step3_neg (c : Config) (m2 : Nat) (e2 : Int) (mmShift : Nat) (acceptBounds : Bool) : Exec (St × Int) := do
  let mv := wrap 32 (4 * m2)
  let mp := wrap 32 (4 * m2 + 2)
  let mm := subw 32 (subw 32 (wrap 32 (4 * m2)) 1) mmShift
  let q ← log10Pow5 c (-e2)
  let e10 : Int := q + e2
  let i := -e2 - q
  let k := (← pow5bits c i) - float_pow5_bitcount c
  let j := q - k
  let vr ← mulPow5divPow2 c mv (u32 i) j
  let vp ← mulPow5divPow2 c mp (u32 i) j
  let vm ← mulPow5divPow2 c mm (u32 i) j
  let last ←
    (if q ≠ 0 ∧ subw 32 vp 1 / 10 ≤ vm / 10 then do
      let j := (q : Int) - 1 - ((← pow5bits c (i + 1)) - float_pow5_bitcount c)
      let r ← mulPow5divPow2 c mv (u32 (i + 1)) j
      .ok (wrap 8 (r % 10))
    else .ok 0 : Exec Nat)
  if q ≤ 1 then
    if acceptBounds then .ok (⟨vr, vp, vm, decide (mmShift = 1), true, last, 0⟩, e10)
    else .ok (⟨vr, subw 32 vp 1, vm, false, true, last, 0⟩, e10)
  else if q < 31 then
    let z ← multipleOfPowerOf2_32 mv (subw 32 q 1)
    .ok (⟨vr, vp, vm, false, z, last, 0⟩, e10)
  else .ok (⟨vr, vp, vm, false, false, last, 0⟩, e10)

/-- The first loop of the general case, f2s.c 159-173. -/
def f_general_loop : Nat → St → Exec St
  | 0, _ => .fault .loopFuel
  | fuel + 1, s =>
    if s.vp / 10 > s.vm / 10 then
      f_general_loop fuel ⟨s.vr / 10, s.vp / 10, s.vm / 10, s.vmZ && decide (s.vm % 10 = 0),
        s.vrZ && decide (s.last = 0), wrap 8 (s.vr % 10), s.removed + 1⟩
    else .ok s

/-- The second loop of the general case, f2s.c 179-186. -/
def f_trailing_loop : Nat → St → Exec St
  | 0, _ => .fault .loopFuel
  | fuel + 1, s =>
    if s.vm % 10 = 0 then
      f_trailing_loop fuel ⟨s.vr / 10, s.vp / 10, s.vm / 10, s.vmZ, s.vrZ && decide (s.last = 0),
        wrap 8 (s.vr % 10), s.removed + 1⟩
    else .ok s

/-- The loop of the common case, f2s.c 202-208. -/
def f_common_loop : Nat → St → Exec St
  | 0, _ => .fault .loopFuel
  | fuel + 1, s =>
    if s.vp / 10 > s.vm / 10 then
      f_common_loop fuel ⟨s.vr / 10, s.vp / 10, s.vm / 10, s.vmZ, s.vrZ, wrap 8 (s.vr % 10), s.removed + 1⟩
    else .ok s

/-- Step 4 of `f2d`, f2s.c 154-215. -/
def f_step4 (acceptBounds : Bool) (s : St) : Exec (Nat × Nat) :=
  if s.vmZ || s.vrZ then do
    let s ← f_general_loop 21 s
    let s ← if s.vmZ then f_trailing_loop 21 s else .ok s
    .ok (general_output 32 acceptBounds s, s.removed)
  else do
    let s ← f_common_loop 21 s
    .ok (wrap 32 (s.vr + if decide (s.vr = s.vm) || decide (s.last ≥ 5) then 1 else 0), s.removed)

/-- `f2d`, f2s.c 50-228. -/
def f2d (c : Config) (ieeeMantissa ieeeExponent : Nat) : Exec FloatingDecimal := do
  let e2 : Int := if ieeeExponent = 0 then 1 - 127 - 23 - 2 else ieeeExponent - 127 - 23 - 2
  let m2 := if ieeeExponent = 0 then ieeeMantissa else 2 ^ 23 ||| ieeeMantissa
  let acceptBounds := decide (m2 &&& 1 = 0)
  let mmShift := if ieeeMantissa ≠ 0 ∨ ieeeExponent ≤ 1 then 1 else 0
  let (s, e10) ← if e2 ≥ 0 then f_step3_pos c m2 e2 mmShift acceptBounds else f_step3_neg c m2 e2 mmShift acceptBounds
  let (output, removed) ← f_step4 acceptBounds s
  .ok ⟨output, e10 + removed⟩

/-- `to_chars` of f2s.c, 230-306. -/
def f_to_chars (c : Config) (v : FloatingDecimal) (sign : Bool) (mem : Buffer) : Exec (Buffer × Int) := do
  let (mem, index) ←
    (if sign then do
      let mem ← put mem 0 '-'
      .ok (mem, 1)
    else .ok (mem, 0) : Exec (Buffer × Int))
  let output := v.mantissa
  let olength ← decimalLength9 c output
  let (mem, output, i) ← print4 index olength 4 mem output 0
  let (mem, index) ← print_end mem index olength output i
  let mem ← put mem index 'E'
  let index := index + 1
  let exp : Int := v.exponent + olength - 1
  let (mem, index, exp) ←
    (if exp < 0 then do
      let mem ← put mem index '-'
      .ok (mem, index + 1, -exp)
    else .ok (mem, index, exp) : Exec (Buffer × Int × Int))
  let exp := exp.toNat
  if exp ≥ 10 then
    let mem ← copyDigits mem index (2 * exp)
    .ok (mem, index + 2)
  else
    let mem ← put mem index (Char.ofNat (48 + exp))
    .ok (mem, index + 1)

/-- `f2s_buffered_n`, f2s.c 308-332. -/
def f2s_buffered_n (c : Config) (x : Nat) (mem : Buffer) : Exec (Buffer × Int) := do
  let bits := wrap 32 x
  let ieeeSign := decide (bits / 2 ^ 31 &&& 1 ≠ 0)
  let ieeeMantissa := bits &&& (2 ^ 23 - 1)
  let ieeeExponent := bits / 2 ^ 23 &&& (2 ^ 8 - 1)
  if ieeeExponent = 2 ^ 8 - 1 ∨ (ieeeExponent = 0 ∧ ieeeMantissa = 0) then
    copy_special_str mem ieeeSign (decide (ieeeExponent ≠ 0)) (decide (ieeeMantissa ≠ 0))
  else
    let v ← f2d c ieeeMantissa ieeeExponent
    f_to_chars c v ieeeSign mem

/-- `f2s_buffered`, f2s.c 334-339. -/
def f2s_buffered (c : Config) (x : Nat) (mem : Buffer) : Exec Buffer := do
  let (mem, index) ← f2s_buffered_n c x mem
  put mem index (Char.ofNat 0)

/-- `f2s`, f2s.c 341-345: the fresh array of 16 bytes. -/
def f2s (c : Config) (x : Nat) : Exec Buffer := f2s_buffered c x (List.replicate 16 none)

end Grisu.Ryu

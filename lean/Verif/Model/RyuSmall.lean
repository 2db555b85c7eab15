import Verif.Model.Ryu

/-!
# Ryu's powers of 5 from small tables: `benchmark/ryu/d2s.h`

No file of the repository includes `d2s.h`.  It holds the tables and the two functions for `RYU_OPTIMIZE_SIZE`; `d2s.c`
asks for them under the name `d2s_small_table.h`.  Line numbers refer to `d2s.h`.  The argument is a `uint32_t`, and the
two words stored through `result` are returned as a pair, `result[0]` first.
-/

namespace Grisu.Ryu

/-- `DOUBLE_POW5_INV_BITCOUNT`, d2s.h 40. -/
def small_pow5_inv_bitcount : Nat := 122

/-- `DOUBLE_POW5_BITCOUNT`, d2s.h 41. -/
def small_pow5_bitcount : Nat := 121

/-- `POW5_TABLE_SIZE`, d2s.h 45. -/
def POW5_TABLE_SIZE : Nat := 26

/-- `DOUBLE_POW5_TABLE`, d2s.h 46-53. -/
def DOUBLE_POW5_TABLE : List Nat := [
  1, 5, 25, 125,
  625, 3125, 15625, 78125,
  390625, 1953125, 9765625, 48828125,
  244140625, 1220703125, 6103515625, 30517578125,
  152587890625, 762939453125, 3814697265625, 19073486328125,
  95367431640625, 476837158203125, 2384185791015625, 11920928955078125,
  59604644775390625, 298023223876953125]

/-- `DOUBLE_POW5_SPLIT2`, d2s.h 55-69. -/
def DOUBLE_POW5_SPLIT2 : List (Nat × Nat) := [
  (0, 72057594037927936), (10376293541461622784, 93132257461547851),
  (15052517733678820785, 120370621524202240), (6258995034005762182, 77787690973264271),
  (14893927168346708332, 100538234169297439), (4272820386026678563, 129942622070561240),
  (7330497575943398595, 83973451344588609), (18377130505971182927, 108533142064701048),
  (10038208235822497557, 140275798336537794), (7017903361312433648, 90651109995611182),
  (6366496589810271835, 117163813585596168), (9264989777501460624, 75715339914673581),
  (17074144231291089770, 97859783203563123)]

/-- `POW5_OFFSETS`, d2s.h 72-76. -/
def POW5_OFFSETS : List Nat := [
  0x00000000, 0x00000000, 0x00000000, 0x033c55be, 0x03db77d8, 0x0265ffb2,
  0x00000800, 0x01a8ff56, 0x00000000, 0x0037a200, 0x00004000, 0x03fffffc,
  0x00003ffe]

/-- `DOUBLE_POW5_INV_SPLIT2`, d2s.h 79-93. -/
def DOUBLE_POW5_INV_SPLIT2 : List (Nat × Nat) := [
  (1, 288230376151711744), (7661987648932456967, 223007451985306231),
  (12652048002903177473, 172543658669764094), (5522544058086115566, 266998379490113760),
  (3181575136763469022, 206579990246952687), (4551508647133041040, 159833525776178802),
  (1116074521063664381, 247330401473104534), (17400360011128145022, 191362629322552438),
  (9297997190148906106, 148059663038321393), (11720143854957885429, 229111231347799689),
  (15401709288678291155, 177266229209635622), (3003071137298187333, 274306203439684434),
  (17516772882021341108, 212234145163966538)]

/-- `POW5_INV_OFFSETS`, d2s.h 94-99. -/
def POW5_INV_OFFSETS : List Nat := [
  0x51505404, 0x55054514, 0x45555545, 0x05511411, 0x00505010, 0x00000004,
  0x00000000, 0x00000000, 0x55555040, 0x00505051, 0x00050040, 0x55554000,
  0x51659559, 0x00001000, 0x15000010, 0x55455555, 0x41404051, 0x00001010,
  0x00000014, 0x00000000]

/-- `x << n` for an unsigned `x` of `w` bits, used in d2s.h 118 and 139; undefined unless `n < w`. -/
def shl (w x n : Nat) : Exec Nat := if n < w then .ok (wrap w (x * 2 ^ n)) else .fault .badShift

/-- The conversion of the `uint32_t` argument of `pow5bits` to `int32_t` (d2s.h 117, 137, 167, 193). -/
def toI32 (n : Nat) : Int := if n < 2 ^ 31 then n else (n : Int) - 2 ^ 32

/-- `double_computePow5`, d2s.h 104-121 with `HAS_UINT128` and 147-170 without. -/
def double_computePow5 (c : Config) (i : Nat) : Exec (Nat × Nat) := do
  let base := i / POW5_TABLE_SIZE
  let base2 := wrap 32 (base * POW5_TABLE_SIZE)
  let offset := subw 32 i base2
  let mul ← at_ DOUBLE_POW5_SPLIT2 base
  if offset = 0 then .ok mul
  else
    let m ← at_ DOUBLE_POW5_TABLE offset
    match c.mul with
    | .uint128 => do
      let b0 := wrap 128 (m * mul.1)
      let b2 := wrap 128 (m * mul.2)
      let p ← pow5bits c (toI32 i)
      let p2 ← pow5bits c (toI32 base2)
      let delta := u32 (p - p2)
      let lo ← shr 128 b0 delta
      let hi ← shl 128 b2 (subw 32 64 delta)
      let word ← at_ POW5_OFFSETS base
      let adj ← shr 32 word offset
      let shiftedSum := wrap 128 (wrap 128 (lo + hi) + (adj &&& 1))
      .ok (wrap 64 shiftedSum, shiftedSum / 2 ^ 64)
    | _ => do
      let (low1, high1) := umul128 c m mul.2
      let (low0, high0) := umul128 c m mul.1
      let sum := wrap 64 (high0 + low1)
      let high1 := if sum < high0 then wrap 64 (high1 + 1) else high1
      let p ← pow5bits c (toI32 i)
      let p2 ← pow5bits c (toI32 base2)
      let delta := u32 (p - p2)
      let lo ← shiftright128 c low0 sum delta
      let word ← at_ POW5_OFFSETS base
      let adj ← shr 32 word offset
      let hi ← shiftright128 c sum high1 delta
      .ok (wrap 64 (lo + (adj &&& 1)), hi)

/-- `double_computeInvPow5`, d2s.h 124-142 with `HAS_UINT128` and 173-196 without. -/
def double_computeInvPow5 (c : Config) (i : Nat) : Exec (Nat × Nat) := do
  let base := subw 32 (wrap 32 (i + POW5_TABLE_SIZE)) 1 / POW5_TABLE_SIZE
  let base2 := wrap 32 (base * POW5_TABLE_SIZE)
  let offset := subw 32 base2 i
  let mul ← at_ DOUBLE_POW5_INV_SPLIT2 base
  if offset = 0 then .ok mul
  else
    let m ← at_ DOUBLE_POW5_TABLE offset
    match c.mul with
    | .uint128 => do
      let b0 := wrap 128 (m * subw 64 mul.1 1)
      let b2 := wrap 128 (m * mul.2)
      let p2 ← pow5bits c (toI32 base2)
      let p ← pow5bits c (toI32 i)
      let delta := u32 (p2 - p)
      let lo ← shr 128 b0 delta
      let hi ← shl 128 b2 (subw 32 64 delta)
      let word ← at_ POW5_INV_OFFSETS (i / 16)
      let adj ← shr 32 word (i % 16 * 2)
      let shiftedSum := wrap 128 (wrap 128 (wrap 128 (lo + hi) + 1) + (adj &&& 3))
      .ok (wrap 64 shiftedSum, shiftedSum / 2 ^ 64)
    | _ => do
      let (low1, high1) := umul128 c m mul.2
      let (low0, high0) := umul128 c m (subw 64 mul.1 1)
      let sum := wrap 64 (high0 + low1)
      let high1 := if sum < high0 then wrap 64 (high1 + 1) else high1
      let p2 ← pow5bits c (toI32 base2)
      let p ← pow5bits c (toI32 i)
      let delta := u32 (p2 - p)
      let lo ← shiftright128 c low0 sum delta
      let word ← at_ POW5_INV_OFFSETS (i / 16)
      let adj ← shr 32 word (i % 16 * 2)
      let hi ← shiftright128 c sum high1 delta
      .ok (wrap 64 (wrap 64 (lo + 1) + (adj &&& 3)), hi)

end Grisu.Ryu

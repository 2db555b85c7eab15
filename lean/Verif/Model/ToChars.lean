import Verif.Model.Compute

/-! # String generation: `fp_to_chars.h` and `fp_to_chars/fp_to_chars.cpp` -/

namespace Grisu

/-- The caller's buffer, the parameter `buffer` of fp_to_chars.h 34: `none` is a byte never written by the call. -/
abbrev Buffer := List (Option Char)

/-- `buffer[i] = ch`, as in fp_to_chars/fp_to_chars.cpp 176, as a bounds-checked write to the object `mem`. -/
def put (mem : Buffer) (i : Int) (ch : Char) : Exec Buffer :=
  if 0 ≤ i ∧ i < (mem.length : Int) then .ok (mem.set i.toNat (some ch)) else .fault .outOfBounds

/-- `memcpy` of the characters of `s` to `buffer + i`, as in fp_to_chars/fp_to_chars.cpp 145. -/
def putList (mem : Buffer) (i : Int) : List Char → Exec Buffer
  | [] => .ok mem
  | ch :: s => do
    let mem ← put mem i ch
    putList mem (i + 1) s

/-- `radix_100_table`, fp_to_chars.cpp 45-66. -/
def radix_100_table : List Char := [
  '0', '0', '0', '1', '0', '2', '0', '3', '0', '4',
  '0', '5', '0', '6', '0', '7', '0', '8', '0', '9',
  '1', '0', '1', '1', '1', '2', '1', '3', '1', '4',
  '1', '5', '1', '6', '1', '7', '1', '8', '1', '9',
  '2', '0', '2', '1', '2', '2', '2', '3', '2', '4',
  '2', '5', '2', '6', '2', '7', '2', '8', '2', '9',
  '3', '0', '3', '1', '3', '2', '3', '3', '3', '4',
  '3', '5', '3', '6', '3', '7', '3', '8', '3', '9',
  '4', '0', '4', '1', '4', '2', '4', '3', '4', '4',
  '4', '5', '4', '6', '4', '7', '4', '8', '4', '9',
  '5', '0', '5', '1', '5', '2', '5', '3', '5', '4',
  '5', '5', '5', '6', '5', '7', '5', '8', '5', '9',
  '6', '0', '6', '1', '6', '2', '6', '3', '6', '4',
  '6', '5', '6', '6', '6', '7', '6', '8', '6', '9',
  '7', '0', '7', '1', '7', '2', '7', '3', '7', '4',
  '7', '5', '7', '6', '7', '7', '7', '8', '7', '9',
  '8', '0', '8', '1', '8', '2', '8', '3', '8', '4',
  '8', '5', '8', '6', '8', '7', '8', '8', '8', '9',
  '9', '0', '9', '1', '9', '2', '9', '3', '9', '4',
  '9', '5', '9', '6', '9', '7', '9', '8', '9', '9'
]

/-- `radix_100_table[i]`, as in fp_to_chars.cpp 176. -/
def radix_at (i : Nat) : Exec Char :=
  match radix_100_table[i]? with
  | some ch => .ok ch
  | none => .fault .outOfBounds

/-- `memcpy(buffer + i, radix_100_table + t, 2)`, as in fp_to_chars.cpp 145. -/
def copy2 (mem : Buffer) (i : Int) (t : Nat) : Exec Buffer := do
  let a ← radix_at t
  let b ← radix_at (t + 1)
  putList mem i [a, b]

/-- `decimal_length<UInt>`, fp_to_chars.cpp 68-110. -/
def decimal_length (cfg : Cfg) (F : Fmt) (v : Nat) : Exec Nat :=
  match F with
  | .b32 => do
    cassert cfg (decide (v < 1000000000))
    .ok (if v ≥ 100000000 then 9
      else if v ≥ 10000000 then 8
      else if v ≥ 1000000 then 7
      else if v ≥ 100000 then 6
      else if v ≥ 10000 then 5
      else if v ≥ 1000 then 4
      else if v ≥ 100 then 3
      else if v ≥ 10 then 2
      else 1)
  | .b64 => do
    cassert cfg (decide (v < 100000000000000000))
    .ok (if v ≥ 10000000000000000 then 17
      else if v ≥ 1000000000000000 then 16
      else if v ≥ 100000000000000 then 15
      else if v ≥ 10000000000000 then 14
      else if v ≥ 1000000000000 then 13
      else if v ≥ 100000000000 then 12
      else if v ≥ 10000000000 then 11
      else if v ≥ 1000000000 then 10
      else if v ≥ 100000000 then 9
      else if v ≥ 10000000 then 8
      else if v ≥ 1000000 then 7
      else if v ≥ 100000 then 6
      else if v ≥ 10000 then 5
      else if v ≥ 1000 then 4
      else if v ≥ 100 then 3
      else if v ≥ 10 then 2
      else 1)

/-- The low eight digits of a wide significand, fp_to_chars.cpp 127-151: returns the buffer, the
remaining `output` and `i`.  `buf` is the offset of the C++ pointer `buffer` in the caller's array. -/
def print_high (F : Fmt) (mem : Buffer) (buf : Int) (output olength : Nat) : Exec (Buffer × Nat × Nat) :=
  match F with
  | .b32 => .ok (mem, output, 0)
  | .b64 =>
    if output / 2 ^ 32 ≠ 0 then do
      let quot := output / 100000000
      let output2 := subw 32 (wrap 32 output) (wrap 32 (100000000 * wrap 32 quot))
      let c := output2 % 10000
      let output2 := output2 / 10000
      let d := output2 % 10000
      let mem ← copy2 mem (buf + olength - 1) (c % 100 * 2)
      let mem ← copy2 mem (buf + olength - 3) (c / 100 * 2)
      let mem ← copy2 mem (buf + olength - 5) (d % 100 * 2)
      let mem ← copy2 mem (buf + olength - 7) (d / 100 * 2)
      .ok (mem, quot, 8)
    else .ok (mem, output, 0)

/-- The loop printing four digits at a time, fp_to_chars.cpp 154-166.  The clang-only line 156
computes the same value as `output2 % 10000`. -/
def print_loop (buf : Int) (olength : Nat) : Nat → Buffer → (output2 i : Nat) → Exec (Buffer × Nat × Nat)
  | 0, _, _, _ => .fault .loopFuel
  | fuel + 1, mem, output2, i =>
    if output2 ≥ 10000 then do
      let c := output2 % 10000
      let output2 := output2 / 10000
      let mem ← copy2 mem (buf + olength - i - 1) (c % 100 * 2)
      let mem ← copy2 mem (buf + olength - i - 3) (c / 100 * 2)
      print_loop buf olength fuel mem output2 (i + 4)
    else .ok (mem, output2, i)

/-- The remaining digits, fp_to_chars.cpp 167-181. -/
def print_rest (mem : Buffer) (buf : Int) (olength output2 i : Nat) : Exec Buffer := do
  let (mem, output2, i) ←
    (if output2 ≥ 100 then do
      let mem ← copy2 mem (buf + olength - i - 1) (output2 % 100 * 2)
      .ok (mem, output2 / 100, i + 2)
    else .ok (mem, output2, i) : Exec (Buffer × Nat × Nat))
  if output2 ≥ 10 then
    let a ← radix_at (output2 * 2 + 1)
    let mem ← put mem (buf + olength - i) a
    let b ← radix_at (output2 * 2)
    put mem buf b
  else put mem buf (Char.ofNat (48 + output2))

/-- The absolute value of the printed exponent, fp_to_chars.cpp 201-226. -/
def print_exponent (F : Fmt) (mem : Buffer) (buf : Int) (exp : Nat) : Exec (Buffer × Int) :=
  match F with
  | .b64 =>
    if exp ≥ 100 then do
      let c := exp % 10
      let mem ← copy2 mem buf (2 * (exp / 10))
      let mem ← put mem (buf + 2) (Char.ofNat (48 + c))
      .ok (mem, buf + 3)
    else if exp ≥ 10 then do
      let mem ← copy2 mem buf (2 * exp)
      .ok (mem, buf + 2)
    else do
      let mem ← put mem buf (Char.ofNat (48 + exp))
      .ok (mem, buf + 1)
  | .b32 =>
    if exp ≥ 10 then do
      let mem ← copy2 mem buf (2 * exp)
      .ok (mem, buf + 2)
    else do
      let mem ← put mem buf (Char.ofNat (48 + exp))
      .ok (mem, buf + 1)

/-- `fp_to_chars_impl<Float>`, fp_to_chars.cpp 112-229, also reached through `float_to_chars` and
`double_to_chars` (231-236).  Returns the buffer and the offset of the returned pointer. -/
def fp_to_chars_impl (cfg : Cfg) (F : Fmt) (significand : Nat) (exponent : Int) (mem : Buffer)
    (buf : Int) : Exec (Buffer × Int) := do
  let olength ← decimal_length cfg F significand
  let (mem, output, i) ← print_high F mem buf significand olength
  let (mem, output2, i) ← print_loop buf olength 4 mem (wrap 32 output) i
  let mem ← print_rest mem buf olength output2 i
  let (mem, buf) ←
    (if olength > 1 then do
      let mem ← put mem (buf + 1) '.'
      .ok (mem, buf + olength + 1)
    else .ok (mem, buf + 1) : Exec (Buffer × Int))
  let mem ← put mem buf 'E'
  let buf := buf + 1
  let exp : Int := exponent + olength - 1
  if exp < 0 then
    let mem ← put mem buf '-'
    print_exponent F mem (buf + 1) (-exp).toNat
  else print_exponent F mem buf exp.toNat

/-- The optional minus sign, fp_to_chars.h 40-43 and 68-71. -/
def put_sign (mem : Buffer) (negative : Bool) : Exec (Buffer × Int) :=
  if negative then do
    let mem ← put mem 0 '-'
    .ok (mem, 1)
  else .ok (mem, 0)

/-- `fp_to_chars_n`, fp_to_chars.h 29-76.  `x` is the bit pattern of the argument, `mem` the array
whose first element `buffer` points to. -/
def fp_to_chars_n (cfg : Cfg) (F : Fmt) (x : Nat) (mem : Buffer) (rounding_mode : RoundingMode)
    (crs : Crs) : Exec (Buffer × Int) := do
  let br := get_bit_representation F x
  if BitRep.is_finite F br then
    let (mem, buf) ← put_sign mem (BitRep.is_negative F br)
    if BitRep.is_nonzero F br then
      let v ← grisu_exact cfg F false x rounding_mode crs .assert_finite
      fp_to_chars_impl cfg F v.significand v.exponent mem buf
    else
      let mem ← putList mem buf ['0', 'E', '0']
      .ok (mem, buf + 3)
  else if wrap F.q (br * 2 ^ (F.exponent_bits + 1)) ≠ 0 then
    let mem ← putList mem 0 ['N', 'a', 'N']
    .ok (mem, 3)
  else
    let (mem, buf) ← put_sign mem (BitRep.is_negative F br)
    let mem ← putList mem buf ['I', 'n', 'f', 'i', 'n', 'i', 't', 'y']
    .ok (mem, buf + 8)

/-- `fp_to_chars`, fp_to_chars.h 78-92. -/
def fp_to_chars (cfg : Cfg) (F : Fmt) (x : Nat) (mem : Buffer) (rounding_mode : RoundingMode)
    (crs : Crs) : Exec (Buffer × Int) := do
  let (mem, ptr) ← fp_to_chars_n cfg F x mem rounding_mode crs
  let mem ← put mem ptr (Char.ofNat 0)
  .ok (mem, ptr)

end Grisu

import Verif.Model.Arith

/-!
# The integer utilities of `grisu_exact.h` on every platform

`Cfg` knows two platforms, x86-64 and the rest.  The preprocessor distinguishes more: here are the functions with their
`#if`s, for every combination of the macros they look at.  The intrinsics of MSVC are given by their documentation.
-/

namespace Grisu

/-- The macros looked at in grisu_exact.h 56-226: `__GNUC__` or `__clang__`, `__SIZEOF_INT128__`, `__x86_64__`,
`_MSC_VER`, `_M_X64`. -/
structure Platform where
  gnu : Bool
  int128 : Bool
  x86_64 : Bool
  msvc : Bool
  m_x64 : Bool
  deriving DecidableEq, Repr

namespace Platform

/-- The condition of grisu_exact.h 56, 96, 122 and 150. -/
def native (P : Platform) : Bool := P.gnu && P.int128 && P.x86_64

/-- The condition of grisu_exact.h 98, 125, 152 and 217. -/
def intrin (P : Platform) : Bool := P.msvc && P.m_x64

/-- `__emulu`, grisu_exact.h 88: the 64-bit product of two 32-bit integers. -/
def emulu (x y : Nat) : Nat := wrap 32 x * wrap 32 y

/-- `_umul128`, grisu_exact.h 100: the lower half, and the upper half stored through the pointer. -/
def umul128_intrin (x y : Nat) : Nat × Nat := (wrap 64 (x * y), wrap 64 (x * y / 2 ^ 64))

/-- `__umulh`, grisu_exact.h 126. -/
def umulh (x y : Nat) : Nat := wrap 64 (x * y / 2 ^ 64)

/-- `_addcarry_u64`, grisu_exact.h 154-155: the carry out, and the sum stored through the pointer. -/
def addcarry_u64 (carry a b : Nat) : Nat × Nat := (wrap 8 ((a + b + carry) / 2 ^ 64), wrap 64 (a + b + carry))

/-- `_BitScanForward` and `_BitScanForward64`, grisu_exact.h 220 and 223: the position of the lowest one bit; for 0 the
variable is not set. -/
def bitScanForward (w x : Nat) : Exec Nat := if x = 0 then .fault .ctzZero else .ok (ctz w x)

/-- The representation of `uint128` as one integer, grisu_exact.h 57: the constructor from two halves, 59-60. -/
def int128_of (high low : Nat) : Nat := wrap 128 low ||| wrap 128 (wrap 128 high * 2 ^ 64)

/-- `high()`, grisu_exact.h 64-66. -/
def int128_high (u : Nat) : Nat := wrap 64 (u / 2 ^ 64)

/-- `low()`, grisu_exact.h 67-69. -/
def int128_low (u : Nat) : Nat := wrap 64 u

/-- `uint128`, grisu_exact.h 53-84: one integer or two. -/
inductive Wide where
  | one (internal : Nat)
  | two (high low : Nat)
  deriving DecidableEq, Repr

/-- The constructor `uint128(high, low)`, grisu_exact.h 59-60 and 74-75. -/
def wide (P : Platform) (high low : Nat) : Wide :=
  if P.native then .one (int128_of high low) else .two high low

/-- `high()`, grisu_exact.h 64-66 and 77-79. -/
def Wide.high : Wide → Nat
  | .one u => int128_high u
  | .two h _ => h

/-- `low()`, grisu_exact.h 67-69 and 80-82. -/
def Wide.low : Wide → Nat
  | .one u => int128_low u
  | .two _ l => l

/-- `umul64`, grisu_exact.h 86-92. -/
def umul64 (P : Platform) (x y : Nat) : Nat := if P.msvc then emulu x y else wrap 64 (x * y)

/-- `umul128`, grisu_exact.h 94-118. -/
def umul128 (P : Platform) (x y : Nat) : Wide :=
  if P.native then .one (wrap 128 (x * y))
  else if P.intrin then
    let (low, high) := umul128_intrin x y
    .two high low
  else
    let a := wrap 32 (x / 2 ^ 32)
    let b := wrap 32 x
    let c := wrap 32 (y / 2 ^ 32)
    let d := wrap 32 y
    let ac := P.umul64 a c
    let bc := P.umul64 b c
    let ad := P.umul64 a d
    let bd := P.umul64 b d
    let intermediate := wrap 64 (wrap 64 (bd / 2 ^ 32 + wrap 32 ad) + wrap 32 bc)
    .two (wrap 64 (wrap 64 (wrap 64 (ac + intermediate / 2 ^ 32) + ad / 2 ^ 32) + bc / 2 ^ 32))
      (wrap 64 (wrap 64 (intermediate * 2 ^ 32) + wrap 32 bd))

/-- `umul128_upper64`, grisu_exact.h 120-142. -/
def umul128_upper64 (P : Platform) (x y : Nat) : Nat :=
  if P.native then wrap 64 (wrap 128 (x * y) / 2 ^ 64)
  else if P.intrin then umulh x y
  else
    let a := wrap 32 (x / 2 ^ 32)
    let b := wrap 32 x
    let c := wrap 32 (y / 2 ^ 32)
    let d := wrap 32 y
    let ac := P.umul64 a c
    let bc := P.umul64 b c
    let ad := P.umul64 a d
    let bd := P.umul64 b d
    let intermediate := wrap 64 (wrap 64 (bd / 2 ^ 32 + wrap 32 ad) + wrap 32 bc)
    wrap 64 (wrap 64 (wrap 64 (ac + intermediate / 2 ^ 32) + ad / 2 ^ 32) + bc / 2 ^ 32)

/-- `umul192_upper64`, grisu_exact.h 144-161. -/
def umul192_upper64 (P : Platform) (x : Nat) (y : Wide) : Nat :=
  let g0 := P.umul128 x y.high
  let g10 := P.umul128_upper64 x y.low
  match g0 with
  | .one internal => Wide.high (.one (wrap 128 (internal + g10)))
  | .two high low =>
    if P.intrin then
      let (carry, _) := addcarry_u64 0 low g10
      (addcarry_u64 carry high 0).2
    else
      let intermediate := wrap 64 (low + g10)
      wrap 64 (high + (if intermediate < g10 then 1 else 0))

/-- `umul96_upper32`, grisu_exact.h 163-181. -/
def umul96_upper32 (P : Platform) (x y : Nat) : Nat :=
  if P.x86_64 || P.m_x64 then wrap 32 (P.umul128_upper64 x y)
  else
    let b := x
    let c := wrap 32 (y / 2 ^ 32)
    let d := wrap 32 y
    let bc := P.umul64 b c
    let bd := P.umul64 b d
    let intermediate := wrap 64 (bd / 2 ^ 32 + bc)
    wrap 32 (intermediate / 2 ^ 32)

/-- `divisible_by_power_of_2<UInt>`, grisu_exact.h 193-233.  Whether lines 203 or 208 are compiled depends on the size of
`unsigned long`; both count the zeros of 32 bits. -/
def divisible_by_power_of_2 (P : Platform) (ndebug : Bool) (w x : Nat) (exp : Int) : Exec Bool := do
  cassert ⟨true, ndebug⟩ (decide (exp ≥ 1))
  cassert ⟨true, ndebug⟩ (decide (x ≠ 0))
  if P.gnu && P.x86_64 then
    if x = 0 then .fault .ctzZero
    else .ok (decide ((ctz w x : Int) ≥ exp))
  else if P.intrin then
    let index ← bitScanForward w x
    .ok (decide ((index : Int) ≥ exp))
  else if exp ≥ (w : Int) then .ok false
  else if exp < 0 then .fault .badShift
  else
    let mask := wrap w (subw w (wrap w (2 ^ exp.toNat)) 1)
    .ok (decide (x &&& mask = 0))

end Platform

end Grisu

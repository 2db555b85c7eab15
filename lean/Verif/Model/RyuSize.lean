import Verif.Model.Ryu
import Verif.Model.RyuSmall

/-!
# Ryu with `RYU_OPTIMIZE_SIZE`

The lines of d2s.c and f2s_intrinsics.h that are compiled with `RYU_OPTIMIZE_SIZE`.  They include `ryu/d2s_small_table.h`,
which is not in the repository; d2s.h has what is needed from it (`DOUBLE_POW5_INV_BITCOUNT`, `DOUBLE_POW5_BITCOUNT`,
`double_computePow5`, `double_computeInvPow5`), and stands for it here.
-/

namespace Grisu.Ryu

/-- Step 3 of `d2d` for `e2 >= 0`, d2s.c 122-156, with lines 129-132. -/
def d_step3_pos_size (c : Config) (m2 : Nat) (e2 : Int) (mmShift : Nat) (acceptBounds : Bool) : Exec (St × Int) := do
  let mv := wrap 64 (4 * m2)
  let q ← log10Pow2 c e2
  let q := subw 32 q (if e2 > 3 then 1 else 0)
  let e10 : Int := q
  let k := (small_pow5_inv_bitcount : Int) + (← pow5bits c q) - 1
  let i := -e2 + q + k
  let t ← double_computeInvPow5 c q
  let (vr, vp, vm) ← mulShiftAll64 c m2 t i mmShift
  if q ≤ 21 then
    let mvMod5 := rem32 mv 5 (div5 c mv)
    if mvMod5 = 0 then
      let z ← multipleOfPowerOf5 c mv q
      .ok (⟨vr, vp, vm, false, z, 0, 0⟩, e10)
    else if acceptBounds then
      let z ← multipleOfPowerOf5 c (subw 64 (subw 64 mv 1) mmShift) q
      .ok (⟨vr, vp, vm, z, false, 0, 0⟩, e10)
    else
      let z ← multipleOfPowerOf5 c (wrap 64 (mv + 2)) q
      .ok (⟨vr, subw 64 vp (if z then 1 else 0), vm, false, false, 0, 0⟩, e10)
  else .ok (⟨vr, vp, vm, false, false, 0, 0⟩, e10)

/-- Step 3 of `d2d` for `e2 < 0`, d2s.c 157-196, with lines 164-167. -/
def d_step3_neg_size (c : Config) (m2 : Nat) (e2 : Int) (mmShift : Nat) (acceptBounds : Bool) : Exec (St × Int) := do
  let mv := wrap 64 (4 * m2)
  let q ← log10Pow5 c (-e2)
  let q := subw 32 q (if -e2 > 1 then 1 else 0)
  let e10 : Int := q + e2
  let i := -e2 - q
  let k := (← pow5bits c i) - (small_pow5_bitcount : Int)
  let j := q - k
  let t ← double_computePow5 c (u32 i)
  let (vr, vp, vm) ← mulShiftAll64 c m2 t j mmShift
  if q ≤ 1 then
    if acceptBounds then .ok (⟨vr, vp, vm, decide (mmShift = 1), true, 0, 0⟩, e10)
    else .ok (⟨vr, subw 64 vp 1, vm, false, true, 0, 0⟩, e10)
  else if q < 63 then
    let z ← multipleOfPowerOf2 c mv q
    .ok (⟨vr, vp, vm, false, z, 0, 0⟩, e10)
  else .ok (⟨vr, vp, vm, false, false, 0, 0⟩, e10)

/-- `d2d`, d2s.c 91-312. -/
def d2d_size (c : Config) (ieeeMantissa ieeeExponent : Nat) : Exec FloatingDecimal := do
  let e2 : Int := if ieeeExponent = 0 then 1 - 1023 - 52 - 2 else ieeeExponent - 1023 - 52 - 2
  let m2 := if ieeeExponent = 0 then ieeeMantissa else 2 ^ 52 ||| ieeeMantissa
  let acceptBounds := decide (m2 &&& 1 = 0)
  let mmShift := if ieeeMantissa ≠ 0 ∨ ieeeExponent ≤ 1 then 1 else 0
  let (s, e10) ← if e2 ≥ 0 then d_step3_pos_size c m2 e2 mmShift acceptBounds else d_step3_neg_size c m2 e2 mmShift acceptBounds
  let (output, removed) ← d_step4 c acceptBounds s
  .ok ⟨output, e10 + removed⟩

/-- `d2s_buffered_n`, d2s.c 454-496. -/
def d2s_buffered_n_size (c : Config) (x : Nat) (mem : Buffer) : Exec (Buffer × Int) := do
  let bits := wrap 64 x
  let ieeeSign := decide (bits / 2 ^ 63 &&& 1 ≠ 0)
  let ieeeMantissa := bits &&& (2 ^ 52 - 1)
  let ieeeExponent := wrap 32 (bits / 2 ^ 52 &&& (2 ^ 11 - 1))
  if ieeeExponent = 2 ^ 11 - 1 ∨ (ieeeExponent = 0 ∧ ieeeMantissa = 0) then
    copy_special_str mem ieeeSign (decide (ieeeExponent ≠ 0)) (decide (ieeeMantissa ≠ 0))
  else
    let v ←
      match d2d_small_int ieeeMantissa ieeeExponent with
      | some v => small_int_loop c 18 v
      | none => d2d_size c ieeeMantissa ieeeExponent
    d_to_chars c v ieeeSign mem

/-- `d2s_buffered`, d2s.c 498-503. -/
def d2s_buffered_size (c : Config) (x : Nat) (mem : Buffer) : Exec Buffer := do
  let (mem, index) ← d2s_buffered_n_size c x mem
  put mem index (Char.ofNat 0)

/-- `d2s`, d2s.c 505-509: the fresh array of 25 bytes. -/
def d2s_size (c : Config) (x : Nat) : Exec Buffer := d2s_buffered_size c x (List.replicate 25 none)

/-- `FLOAT_POW5_INV_BITCOUNT`, f2s_full_table.h 21 and f2s_intrinsics.h 34. -/
def float_pow5_inv_bitcount_size (c : Config) : Int := if c.floatTable then 59 else (small_pow5_inv_bitcount : Int) - 64

/-- `FLOAT_POW5_BITCOUNT`, f2s_full_table.h 22 and f2s_intrinsics.h 35. -/
def float_pow5_bitcount_size (c : Config) : Int := if c.floatTable then 61 else (small_pow5_bitcount : Int) - 64

/-- `mulPow5InvDivPow2`, f2s_intrinsics.h 101-114, with lines 105-110. -/
def mulPow5InvDivPow2_size (c : Config) (m q : Nat) (j : Int) : Exec Nat := do
  if c.floatTable then
    let t ← at_ FLOAT_POW5_INV_SPLIT q
    mulShift32 c m t j
  else
    let t ← double_computeInvPow5 c q
    mulShift32 c m (wrap 64 (t.2 + 1)) j

/-- `mulPow5divPow2`, f2s_intrinsics.h 116-126, with lines 120-122. -/
def mulPow5divPow2_size (c : Config) (m i : Nat) (j : Int) : Exec Nat := do
  if c.floatTable then
    let t ← at_ FLOAT_POW5_SPLIT i
    mulShift32 c m t j
  else
    let t ← double_computePow5 c i
    mulShift32 c m t.2 j

/-- Step 3 of `f2d` for `e2 >= 0`, f2s.c 81-110. -/
def f_step3_pos_size (c : Config) (m2 : Nat) (e2 : Int) (mmShift : Nat) (acceptBounds : Bool) : Exec (St × Int) := do
  let mv := wrap 32 (4 * m2)
  let mp := wrap 32 (4 * m2 + 2)
  let mm := subw 32 (subw 32 (wrap 32 (4 * m2)) 1) mmShift
  let q ← log10Pow2 c e2
  let e10 : Int := q
  let k := float_pow5_inv_bitcount_size c + (← pow5bits c q) - 1
  let i := -e2 + q + k
  let vr ← mulPow5InvDivPow2_size c mv q i
  let vp ← mulPow5InvDivPow2_size c mp q i
  let vm ← mulPow5InvDivPow2_size c mm q i
  let last ←
    (if q ≠ 0 ∧ subw 32 vp 1 / 10 ≤ vm / 10 then do
      let l := float_pow5_inv_bitcount_size c + (← pow5bits c (subw 32 q 1)) - 1
      let r ← mulPow5InvDivPow2_size c mv (subw 32 q 1) (-e2 + q - 1 + l)
      .ok (wrap 8 (r % 10))
    else .ok 0 : Exec Nat)
  if q ≤ 9 then
    if mv % 5 = 0 then
      let z ← multipleOfPowerOf5_32 c mv q
      .ok (⟨vr, vp, vm, false, z, last, 0⟩, e10)
    else if acceptBounds then
      let z ← multipleOfPowerOf5_32 c mm q
      .ok (⟨vr, vp, vm, z, false, last, 0⟩, e10)
    else
      let z ← multipleOfPowerOf5_32 c mp q
      .ok (⟨vr, subw 32 vp (if z then 1 else 0), vm, false, false, last, 0⟩, e10)
  else .ok (⟨vr, vp, vm, false, false, last, 0⟩, e10)

/-- Step 3 of `f2d` for `e2 < 0`, f2s.c 111-146. -/
def f_step3_neg_size (c : Config) (m2 : Nat) (e2 : Int) (mmShift : Nat) (acceptBounds : Bool) : Exec (St × Int) := do
  let mv := wrap 32 (4 * m2)
  let mp := wrap 32 (4 * m2 + 2)
  let mm := subw 32 (subw 32 (wrap 32 (4 * m2)) 1) mmShift
  let q ← log10Pow5 c (-e2)
  let e10 : Int := q + e2
  let i := -e2 - q
  let k := (← pow5bits c i) - float_pow5_bitcount_size c
  let j := q - k
  let vr ← mulPow5divPow2_size c mv (u32 i) j
  let vp ← mulPow5divPow2_size c mp (u32 i) j
  let vm ← mulPow5divPow2_size c mm (u32 i) j
  let last ←
    (if q ≠ 0 ∧ subw 32 vp 1 / 10 ≤ vm / 10 then do
      let j := (q : Int) - 1 - ((← pow5bits c (i + 1)) - float_pow5_bitcount_size c)
      let r ← mulPow5divPow2_size c mv (u32 (i + 1)) j
      .ok (wrap 8 (r % 10))
    else .ok 0 : Exec Nat)
  if q ≤ 1 then
    if acceptBounds then .ok (⟨vr, vp, vm, decide (mmShift = 1), true, last, 0⟩, e10)
    else .ok (⟨vr, subw 32 vp 1, vm, false, true, last, 0⟩, e10)
  else if q < 31 then
    let z ← multipleOfPowerOf2_32 mv (subw 32 q 1)
    .ok (⟨vr, vp, vm, false, z, last, 0⟩, e10)
  else .ok (⟨vr, vp, vm, false, false, last, 0⟩, e10)

/-- `f2d`, f2s.c 50-228. -/
def f2d_size (c : Config) (ieeeMantissa ieeeExponent : Nat) : Exec FloatingDecimal := do
  let e2 : Int := if ieeeExponent = 0 then 1 - 127 - 23 - 2 else ieeeExponent - 127 - 23 - 2
  let m2 := if ieeeExponent = 0 then ieeeMantissa else 2 ^ 23 ||| ieeeMantissa
  let acceptBounds := decide (m2 &&& 1 = 0)
  let mmShift := if ieeeMantissa ≠ 0 ∨ ieeeExponent ≤ 1 then 1 else 0
  let (s, e10) ← if e2 ≥ 0 then f_step3_pos_size c m2 e2 mmShift acceptBounds else f_step3_neg_size c m2 e2 mmShift acceptBounds
  let (output, removed) ← f_step4 acceptBounds s
  .ok ⟨output, e10 + removed⟩

/-- `f2s_buffered_n`, f2s.c 308-332. -/
def f2s_buffered_n_size (c : Config) (x : Nat) (mem : Buffer) : Exec (Buffer × Int) := do
  let bits := wrap 32 x
  let ieeeSign := decide (bits / 2 ^ 31 &&& 1 ≠ 0)
  let ieeeMantissa := bits &&& (2 ^ 23 - 1)
  let ieeeExponent := bits / 2 ^ 23 &&& (2 ^ 8 - 1)
  if ieeeExponent = 2 ^ 8 - 1 ∨ (ieeeExponent = 0 ∧ ieeeMantissa = 0) then
    copy_special_str mem ieeeSign (decide (ieeeExponent ≠ 0)) (decide (ieeeMantissa ≠ 0))
  else
    let v ← f2d_size c ieeeMantissa ieeeExponent
    f_to_chars c v ieeeSign mem

/-- `f2s_buffered`, f2s.c 334-339. -/
def f2s_buffered_size (c : Config) (x : Nat) (mem : Buffer) : Exec Buffer := do
  let (mem, index) ← f2s_buffered_n_size c x mem
  put mem index (Char.ofNat 0)

/-- `f2s`, f2s.c 341-345: the fresh array of 16 bytes. -/
def f2s_size (c : Config) (x : Nat) : Exec Buffer := f2s_buffered_size c x (List.replicate 16 none)

end Grisu.Ryu

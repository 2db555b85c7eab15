import Verif.Model.RyuDebug
import Verif.Model.RyuSize

/-! # Ryu with both `RYU_DEBUG` and `RYU_OPTIMIZE_SIZE`

The functions of `RyuDebug.lean` with the lines of `RyuSize.lean`. -/

namespace Grisu.Ryu

open Grisu Printed

/-- Step 3 of `d2d` for `e2 >= 0`, d2s.c 122-156, with lines 129-132. -/
def d_step3_pos_size_debug (c : Config) (m2 : Nat) (e2 : Int) (mmShift : Nat) (acceptBounds : Bool) : Printed (St × Int) := do
  let mv := wrap 64 (4 * m2)
  let q ← run (log10Pow2 c e2)
  let q := subw 32 q (if e2 > 3 then 1 else 0)
  let e10 : Int := q
  let b ← run (pow5bits c q)
  let k := (small_pow5_inv_bitcount : Int) + b - 1
  let i := -e2 + q + k
  let t ← run (double_computeInvPow5 c q)
  let (vr, vp, vm) ← run (mulShiftAll64 c m2 t i mmShift)
  sayChars (decimal_nat mv ++ " * 2^".toList ++ decimal_int e2 ++ " / 10^".toList ++ decimal_nat q ++ "\n".toList)
  debug_v vp vr vm
  if q ≤ 21 then
    let mvMod5 := rem32 mv 5 (div5 c mv)
    if mvMod5 = 0 then do
      let z ← run (multipleOfPowerOf5 c mv q)
      pure (⟨vr, vp, vm, false, z, 0, 0⟩, e10)
    else if acceptBounds then do
      let z ← run (multipleOfPowerOf5 c (subw 64 (subw 64 mv 1) mmShift) q)
      pure (⟨vr, vp, vm, z, false, 0, 0⟩, e10)
    else do
      let z ← run (multipleOfPowerOf5 c (wrap 64 (mv + 2)) q)
      pure (⟨vr, subw 64 vp (if z then 1 else 0), vm, false, false, 0, 0⟩, e10)
  else pure (⟨vr, vp, vm, false, false, 0, 0⟩, e10)

/-- Step 3 of `d2d` for `e2 < 0`, d2s.c 157-196, with lines 164-167. -/
def d_step3_neg_size_debug (c : Config) (m2 : Nat) (e2 : Int) (mmShift : Nat) (acceptBounds : Bool) : Printed (St × Int) := do
  let mv := wrap 64 (4 * m2)
  let q ← run (log10Pow5 c (-e2))
  let q := subw 32 q (if -e2 > 1 then 1 else 0)
  let e10 : Int := q + e2
  let i := -e2 - q
  let b ← run (pow5bits c i)
  let k := b - (small_pow5_bitcount : Int)
  let j := q - k
  let t ← run (double_computePow5 c (u32 i))
  let (vr, vp, vm) ← run (mulShiftAll64 c m2 t j mmShift)
  sayChars (decimal_nat mv ++ " * 5^".toList ++ decimal_int (-e2) ++ " / 10^".toList ++ decimal_nat q ++ "\n".toList)
  sayChars (decimal_nat q ++ " ".toList ++ decimal_int i ++ " ".toList ++ decimal_int k ++ " ".toList ++ decimal_int j ++
    "\n".toList)
  debug_v vp vr vm
  if q ≤ 1 then
    if acceptBounds then pure (⟨vr, vp, vm, decide (mmShift = 1), true, 0, 0⟩, e10)
    else pure (⟨vr, subw 64 vp 1, vm, false, true, 0, 0⟩, e10)
  else if q < 63 then do
    let z ← run (multipleOfPowerOf2 c mv q)
    debug_flag "vr is trailing zeros=" z
    pure (⟨vr, vp, vm, false, z, 0, 0⟩, e10)
  else pure (⟨vr, vp, vm, false, false, 0, 0⟩, e10)

/-- `d2d`, d2s.c 91-312. -/
def d2d_size_debug (c : Config) (ieeeMantissa ieeeExponent : Nat) : Printed FloatingDecimal := do
  let e2 : Int := if ieeeExponent = 0 then 1 - 1023 - 52 - 2 else ieeeExponent - 1023 - 52 - 2
  let m2 := if ieeeExponent = 0 then ieeeMantissa else 2 ^ 52 ||| ieeeMantissa
  let acceptBounds := decide (m2 &&& 1 = 0)
  debug_value m2 e2
  let mmShift := if ieeeMantissa ≠ 0 ∨ ieeeExponent ≤ 1 then 1 else 0
  let (s, e10) ← (if e2 ≥ 0 then d_step3_pos_size_debug c m2 e2 mmShift acceptBounds
    else d_step3_neg_size_debug c m2 e2 mmShift acceptBounds : Printed (St × Int))
  debug_step3 s e10
  let (output, s) ← d_step4_debug c acceptBounds s
  debug_result s output (e10 + s.removed)
  pure ⟨output, e10 + s.removed⟩

/-- `d2s_buffered_n`, d2s.c 454-496. -/
def d2s_buffered_n_size_debug (c : Config) (x : Nat) (mem : Buffer) : Printed (Buffer × Int) := do
  let bits := wrap 64 x
  debug_in 64 bits
  let ieeeSign := decide (bits / 2 ^ 63 &&& 1 ≠ 0)
  let ieeeMantissa := bits &&& (2 ^ 52 - 1)
  let ieeeExponent := wrap 32 (bits / 2 ^ 52 &&& (2 ^ 11 - 1))
  if ieeeExponent = 2 ^ 11 - 1 ∨ (ieeeExponent = 0 ∧ ieeeMantissa = 0) then
    run (copy_special_str mem ieeeSign (decide (ieeeExponent ≠ 0)) (decide (ieeeMantissa ≠ 0)))
  else do
    let v ← (match d2d_small_int ieeeMantissa ieeeExponent with
      | some v => run (small_int_loop c 18 v)
      | none => d2d_size_debug c ieeeMantissa ieeeExponent)
    d_to_chars_debug c v ieeeSign mem

/-- `d2s_buffered`, d2s.c 498-503. -/
def d2s_buffered_size_debug (c : Config) (x : Nat) (mem : Buffer) : Printed Buffer := do
  let (mem, index) ← d2s_buffered_n_size_debug c x mem
  run (put mem index (Char.ofNat 0))

/-- `d2s`, d2s.c 505-509: the fresh array of 25 bytes. -/
def d2s_size_debug (c : Config) (x : Nat) : Printed Buffer := d2s_buffered_size_debug c x (List.replicate 25 none)

/-- Step 3 of `f2d` for `e2 >= 0`, f2s.c 81-110. -/
def f_step3_pos_size_debug (c : Config) (m2 : Nat) (e2 : Int) (mmShift : Nat) (acceptBounds : Bool) : Printed (St × Int) := do
  let mv := wrap 32 (4 * m2)
  let mp := wrap 32 (4 * m2 + 2)
  let mm := subw 32 (subw 32 (wrap 32 (4 * m2)) 1) mmShift
  let q ← run (log10Pow2 c e2)
  let e10 : Int := q
  let b ← run (pow5bits c q)
  let k := float_pow5_inv_bitcount_size c + b - 1
  let i := -e2 + q + k
  let vr ← run (mulPow5InvDivPow2_size c mv q i)
  let vp ← run (mulPow5InvDivPow2_size c mp q i)
  let vm ← run (mulPow5InvDivPow2_size c mm q i)
  sayChars (decimal_nat mv ++ " * 2^".toList ++ decimal_int e2 ++ " / 10^".toList ++ decimal_nat q ++ "\n".toList)
  debug_v vp vr vm
  let last ← run
    (if q ≠ 0 ∧ subw 32 vp 1 / 10 ≤ vm / 10 then do
      let l := float_pow5_inv_bitcount_size c + (← pow5bits c (subw 32 q 1)) - 1
      let r ← mulPow5InvDivPow2_size c mv (subw 32 q 1) (-e2 + q - 1 + l)
      .ok (wrap 8 (r % 10))
    else .ok 0 : Exec Nat)
  if q ≤ 9 then
    if mv % 5 = 0 then do
      let z ← run (multipleOfPowerOf5_32 c mv q)
      pure (⟨vr, vp, vm, false, z, last, 0⟩, e10)
    else if acceptBounds then do
      let z ← run (multipleOfPowerOf5_32 c mm q)
      pure (⟨vr, vp, vm, z, false, last, 0⟩, e10)
    else do
      let z ← run (multipleOfPowerOf5_32 c mp q)
      pure (⟨vr, subw 32 vp (if z then 1 else 0), vm, false, false, last, 0⟩, e10)
  else pure (⟨vr, vp, vm, false, false, last, 0⟩, e10)

/-- Step 3 of `f2d` for `e2 < 0`, f2s.c 111-146. -/
def f_step3_neg_size_debug (c : Config) (m2 : Nat) (e2 : Int) (mmShift : Nat) (acceptBounds : Bool) : Printed (St × Int) := do
  let mv := wrap 32 (4 * m2)
  let mp := wrap 32 (4 * m2 + 2)
  let mm := subw 32 (subw 32 (wrap 32 (4 * m2)) 1) mmShift
  let q ← run (log10Pow5 c (-e2))
  let e10 : Int := q + e2
  let i := -e2 - q
  let b ← run (pow5bits c i)
  let k := b - float_pow5_bitcount_size c
  let j := q - k
  let vr ← run (mulPow5divPow2_size c mv (u32 i) j)
  let vp ← run (mulPow5divPow2_size c mp (u32 i) j)
  let vm ← run (mulPow5divPow2_size c mm (u32 i) j)
  sayChars (decimal_nat mv ++ " * 5^".toList ++ decimal_int (-e2) ++ " / 10^".toList ++ decimal_nat q ++ "\n".toList)
  sayChars (decimal_nat q ++ " ".toList ++ decimal_int i ++ " ".toList ++ decimal_int k ++ " ".toList ++ decimal_int j ++
    "\n".toList)
  debug_v vp vr vm
  let last ← run
    (if q ≠ 0 ∧ subw 32 vp 1 / 10 ≤ vm / 10 then do
      let j := (q : Int) - 1 - ((← pow5bits c (i + 1)) - float_pow5_bitcount_size c)
      let r ← mulPow5divPow2_size c mv (u32 (i + 1)) j
      .ok (wrap 8 (r % 10))
    else .ok 0 : Exec Nat)
  if q ≤ 1 then
    if acceptBounds then pure (⟨vr, vp, vm, decide (mmShift = 1), true, last, 0⟩, e10)
    else pure (⟨vr, subw 32 vp 1, vm, false, true, last, 0⟩, e10)
  else if q < 31 then do
    let z ← run (multipleOfPowerOf2_32 mv (subw 32 q 1))
    debug_flag "vr is trailing zeros=" z
    pure (⟨vr, vp, vm, false, z, last, 0⟩, e10)
  else pure (⟨vr, vp, vm, false, false, last, 0⟩, e10)

/-- `f2d`, f2s.c 50-228. -/
def f2d_size_debug (c : Config) (ieeeMantissa ieeeExponent : Nat) : Printed FloatingDecimal := do
  let e2 : Int := if ieeeExponent = 0 then 1 - 127 - 23 - 2 else ieeeExponent - 127 - 23 - 2
  let m2 := if ieeeExponent = 0 then ieeeMantissa else 2 ^ 23 ||| ieeeMantissa
  let acceptBounds := decide (m2 &&& 1 = 0)
  debug_value m2 e2
  let mmShift := if ieeeMantissa ≠ 0 ∨ ieeeExponent ≤ 1 then 1 else 0
  let (s, e10) ← (if e2 ≥ 0 then f_step3_pos_size_debug c m2 e2 mmShift acceptBounds
    else f_step3_neg_size_debug c m2 e2 mmShift acceptBounds : Printed (St × Int))
  debug_step3 s e10
  let (output, s) ← f_step4_debug acceptBounds s
  debug_result s output (e10 + s.removed)
  pure ⟨output, e10 + s.removed⟩

/-- `f2s_buffered_n`, f2s.c 308-332. -/
def f2s_buffered_n_size_debug (c : Config) (x : Nat) (mem : Buffer) : Printed (Buffer × Int) := do
  let bits := wrap 32 x
  debug_in 32 bits
  let ieeeSign := decide (bits / 2 ^ 31 &&& 1 ≠ 0)
  let ieeeMantissa := bits &&& (2 ^ 23 - 1)
  let ieeeExponent := bits / 2 ^ 23 &&& (2 ^ 8 - 1)
  if ieeeExponent = 2 ^ 8 - 1 ∨ (ieeeExponent = 0 ∧ ieeeMantissa = 0) then
    run (copy_special_str mem ieeeSign (decide (ieeeExponent ≠ 0)) (decide (ieeeMantissa ≠ 0)))
  else do
    let v ← f2d_size_debug c ieeeMantissa ieeeExponent
    f_to_chars_debug c v ieeeSign mem

/-- `f2s_buffered`, f2s.c 334-339. -/
def f2s_buffered_size_debug (c : Config) (x : Nat) (mem : Buffer) : Printed Buffer := do
  let (mem, index) ← f2s_buffered_n_size_debug c x mem
  run (put mem index (Char.ofNat 0))

/-- `f2s`, f2s.c 341-345: the fresh array of 16 bytes. -/
def f2s_size_debug (c : Config) (x : Nat) : Printed Buffer := f2s_buffered_size_debug c x (List.replicate 16 none)

end Grisu.Ryu

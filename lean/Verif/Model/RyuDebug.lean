import Verif.Model.Ryu
import Verif.Model.Console

/-! # Ryu built with `RYU_DEBUG`

With `RYU_DEBUG` defined (d2s.c 19, f2s.c 19) the printers of `benchmark/ryu` also write a trace to the standard output.
Here are the functions of `Ryu.lean` that do so, with the `printf`s at their places; the loops and the functions without a
`printf` are those of `Ryu.lean`.  Writing to the standard output is taken to succeed. -/

namespace Grisu.Ryu

open Grisu Printed

/-- `printf("V+=%u\nV =%u\nV-=%u\n", vp, vr, vm)`, as in d2s.c 138 and f2s.c 91. -/
def debug_v (vp vr vm : Nat) : Printed Unit :=
  sayChars ("V+=".toList ++ decimal_nat vp ++ "\nV =".toList ++ decimal_nat vr ++ "\nV-=".toList ++ decimal_nat vm ++
    "\n".toList)

/-- `printf("..=%s\n", b ? "true" : "false")`, as in d2s.c 194 and f2s.c 143. -/
def debug_flag (name : String) (b : Bool) : Printed Unit :=
  sayChars (name.toList ++ (if b then "true".toList else "false".toList) ++ "\n".toList)

/-- `printf("IN=")`, the loop over the bits and `printf("\n")`, d2s.c 459-463 (`width` 64) and f2s.c 313-317 (32).  The
loop runs from the highest bit to the lowest. -/
def debug_in (width bits : Nat) : Printed Unit :=
  sayChars ("IN=".toList ++ (List.range width).reverse.flatMap (fun bit => decimal_nat (bits / 2 ^ bit &&& 1)) ++
    "\n".toList)

/-- The first line of `d2d` and of `f2d`, d2s.c 106 and f2s.c 65. -/
def debug_value (m2 : Nat) (e2 : Int) : Printed Unit :=
  sayChars ("-> ".toList ++ decimal_nat m2 ++ " * 2^".toList ++ decimal_int (e2 + 2) ++ "\n".toList)

/-- After step 3, d2s.c 199-202 and f2s.c 148-151. -/
def debug_step3 (s : St) (e10 : Int) : Printed Unit := do
  sayChars ("e10=".toList ++ decimal_int e10 ++ "\n".toList)
  debug_v s.vp s.vr s.vm
  debug_flag "vm is trailing zeros=" s.vmZ
  debug_flag "vr is trailing zeros=" s.vrZ

/-- At the end of `d2d` and of `f2d`, d2s.c 303-305 and f2s.c 219-221. -/
def debug_result (s : St) (output : Nat) (exp : Int) : Printed Unit := do
  debug_v s.vp s.vr s.vm
  sayChars ("O=".toList ++ decimal_nat output ++ "\n".toList)
  sayChars ("EXP=".toList ++ decimal_int exp ++ "\n".toList)

/-- In `to_chars`, d2s.c 325-327 and f2s.c 241-243.  The last sum is one of an `int32_t` and a `uint32_t`. -/
def debug_digits (v : FloatingDecimal) (olength : Nat) : Printed Unit := do
  sayChars ("DIGITS=".toList ++ decimal_nat v.mantissa ++ "\n".toList)
  sayChars ("OLEN=".toList ++ decimal_nat olength ++ "\n".toList)
  sayChars ("EXP=".toList ++ decimal_nat (u32 (v.exponent + olength)) ++ "\n".toList)

/-! ## `d2s.c` -/

/-- Step 3 of `d2d` for `e2 >= 0`, d2s.c 122-156. -/
def d_step3_pos_debug (c : Config) (m2 : Nat) (e2 : Int) (mmShift : Nat) (acceptBounds : Bool) : Printed (St × Int) := do
  let mv := wrap 64 (4 * m2)
  let q ← run (log10Pow2 c e2)
  let q := subw 32 q (if e2 > 3 then 1 else 0)
  let e10 : Int := q
  let b ← run (pow5bits c q)
  let k := 125 + b - 1
  let i := -e2 + q + k
  let t ← run (at_ DOUBLE_POW5_INV_SPLIT q)
  let (vr, vp, vm) ← run (mulShiftAll64 c m2 t i mmShift)
  sayChars (decimal_nat mv ++ " * 2^".toList ++ decimal_int e2 ++ " / 10^".toList ++ decimal_nat q ++ "\n".toList)
  debug_v vp vr vm
  if q ≤ 21 then
    let mvMod5 := rem32 mv 5 (div5 c mv)
    if mvMod5 = 0 then do
      let z ← run (multipleOfPowerOf5 c mv q)
      pure (⟨vr, vp, vm, false, z, 0, 0⟩, e10)
    else if acceptBounds then do
      let z ← run (multipleOfPowerOf5 c (subw 64 (subw 64 mv 1) mmShift) q)
      pure (⟨vr, vp, vm, z, false, 0, 0⟩, e10)
    else do
      let z ← run (multipleOfPowerOf5 c (wrap 64 (mv + 2)) q)
      pure (⟨vr, subw 64 vp (if z then 1 else 0), vm, false, false, 0, 0⟩, e10)
  else pure (⟨vr, vp, vm, false, false, 0, 0⟩, e10)

/-- Step 3 of `d2d` for `e2 < 0`, d2s.c 157-196. -/
def d_step3_neg_debug (c : Config) (m2 : Nat) (e2 : Int) (mmShift : Nat) (acceptBounds : Bool) : Printed (St × Int) := do
  let mv := wrap 64 (4 * m2)
  let q ← run (log10Pow5 c (-e2))
  let q := subw 32 q (if -e2 > 1 then 1 else 0)
  let e10 : Int := q + e2
  let i := -e2 - q
  let b ← run (pow5bits c i)
  let k := b - 125
  let j := q - k
  let t ← run (at_ DOUBLE_POW5_SPLIT (u32 i))
  let (vr, vp, vm) ← run (mulShiftAll64 c m2 t j mmShift)
  sayChars (decimal_nat mv ++ " * 5^".toList ++ decimal_int (-e2) ++ " / 10^".toList ++ decimal_nat q ++ "\n".toList)
  sayChars (decimal_nat q ++ " ".toList ++ decimal_int i ++ " ".toList ++ decimal_int k ++ " ".toList ++ decimal_int j ++
    "\n".toList)
  debug_v vp vr vm
  if q ≤ 1 then
    if acceptBounds then pure (⟨vr, vp, vm, decide (mmShift = 1), true, 0, 0⟩, e10)
    else pure (⟨vr, subw 64 vp 1, vm, false, true, 0, 0⟩, e10)
  else if q < 63 then do
    let z ← run (multipleOfPowerOf2 c mv q)
    debug_flag "vr is trailing zeros=" z
    pure (⟨vr, vp, vm, false, z, 0, 0⟩, e10)
  else pure (⟨vr, vp, vm, false, false, 0, 0⟩, e10)

/-- Step 4 of `d2d`, d2s.c 205-301: `output` and the variables. -/
def d_step4_debug (c : Config) (acceptBounds : Bool) (s : St) : Printed (Nat × St) :=
  if s.vmZ || s.vrZ then do
    let s ← run (d_general_loop c 21 s)
    debug_v s.vp s.vr s.vm
    debug_flag "d-10=" s.vmZ
    let s ← run (if s.vmZ then d_trailing_loop c 21 s else .ok s)
    sayChars (decimal_nat s.vr ++ " ".toList ++ decimal_nat s.last ++ "\n".toList)
    debug_flag "vr is trailing zeros=" s.vrZ
    pure (general_output 64 acceptBounds s, s)
  else do
    let vpDiv100 := div100 c s.vp
    let vmDiv100 := div100 c s.vm
    let (s, up) :=
      if vpDiv100 > vmDiv100 then
        let vrDiv100 := div100 c s.vr
        let vrMod100 := rem32 s.vr 100 vrDiv100
        ((⟨vrDiv100, vpDiv100, vmDiv100, s.vmZ, s.vrZ, s.last, s.removed + 2⟩ : St), decide (vrMod100 ≥ 50))
      else (s, false)
    let (s, up) ← run (d_common_loop c 21 s up)
    sayChars (decimal_nat s.vr ++ " ".toList)
    debug_flag "roundUp=" up
    debug_flag "vr is trailing zeros=" s.vrZ
    pure (wrap 64 (s.vr + if decide (s.vr = s.vm) || up then 1 else 0), s)

/-- `d2d`, d2s.c 91-312. -/
def d2d_debug (c : Config) (ieeeMantissa ieeeExponent : Nat) : Printed FloatingDecimal := do
  let e2 : Int := if ieeeExponent = 0 then 1 - 1023 - 52 - 2 else ieeeExponent - 1023 - 52 - 2
  let m2 := if ieeeExponent = 0 then ieeeMantissa else 2 ^ 52 ||| ieeeMantissa
  let acceptBounds := decide (m2 &&& 1 = 0)
  debug_value m2 e2
  let mmShift := if ieeeMantissa ≠ 0 ∨ ieeeExponent ≤ 1 then 1 else 0
  let (s, e10) ← (if e2 ≥ 0 then d_step3_pos_debug c m2 e2 mmShift acceptBounds
    else d_step3_neg_debug c m2 e2 mmShift acceptBounds : Printed (St × Int))
  debug_step3 s e10
  let (output, s) ← d_step4_debug c acceptBounds s
  debug_result s output (e10 + s.removed)
  pure ⟨output, e10 + s.removed⟩

/-- `to_chars` of d2s.c, 314-420.  What comes before the `printf`s, 316-322, is computed once for itself, for the faults it
can have and for `olength`, and once more as the beginning of `d_to_chars`. -/
def d_to_chars_debug (c : Config) (v : FloatingDecimal) (sign : Bool) (mem : Buffer) : Printed (Buffer × Int) := do
  let _ ← run (if sign then put mem 0 '-' else .ok mem)
  let olength ← run (decimalLength17 c v.mantissa)
  debug_digits v olength
  run (d_to_chars c v sign mem)

/-- `d2s_buffered_n`, d2s.c 454-496. -/
def d2s_buffered_n_debug (c : Config) (x : Nat) (mem : Buffer) : Printed (Buffer × Int) := do
  let bits := wrap 64 x
  debug_in 64 bits
  let ieeeSign := decide (bits / 2 ^ 63 &&& 1 ≠ 0)
  let ieeeMantissa := bits &&& (2 ^ 52 - 1)
  let ieeeExponent := wrap 32 (bits / 2 ^ 52 &&& (2 ^ 11 - 1))
  if ieeeExponent = 2 ^ 11 - 1 ∨ (ieeeExponent = 0 ∧ ieeeMantissa = 0) then
    run (copy_special_str mem ieeeSign (decide (ieeeExponent ≠ 0)) (decide (ieeeMantissa ≠ 0)))
  else do
    let v ← (match d2d_small_int ieeeMantissa ieeeExponent with
      | some v => run (small_int_loop c 18 v)
      | none => d2d_debug c ieeeMantissa ieeeExponent)
    d_to_chars_debug c v ieeeSign mem

/-- `d2s_buffered`, d2s.c 498-503. -/
def d2s_buffered_debug (c : Config) (x : Nat) (mem : Buffer) : Printed Buffer := do
  let (mem, index) ← d2s_buffered_n_debug c x mem
  run (put mem index (Char.ofNat 0))

/-- `d2s`, d2s.c 505-509: the fresh array of 25 bytes. -/
def d2s_debug (c : Config) (x : Nat) : Printed Buffer := d2s_buffered_debug c x (List.replicate 25 none)

/-! ## `f2s.c` -/

/-- Step 3 of `f2d` for `e2 >= 0`, f2s.c 81-110. -/
def f_step3_pos_debug (c : Config) (m2 : Nat) (e2 : Int) (mmShift : Nat) (acceptBounds : Bool) : Printed (St × Int) := do
  let mv := wrap 32 (4 * m2)
  let mp := wrap 32 (4 * m2 + 2)
  let mm := subw 32 (subw 32 (wrap 32 (4 * m2)) 1) mmShift
  let q ← run (log10Pow2 c e2)
  let e10 : Int := q
  let b ← run (pow5bits c q)
  let k := float_pow5_inv_bitcount c + b - 1
  let i := -e2 + q + k
  let vr ← run (mulPow5InvDivPow2 c mv q i)
  let vp ← run (mulPow5InvDivPow2 c mp q i)
  let vm ← run (mulPow5InvDivPow2 c mm q i)
  sayChars (decimal_nat mv ++ " * 2^".toList ++ decimal_int e2 ++ " / 10^".toList ++ decimal_nat q ++ "\n".toList)
  debug_v vp vr vm
  let last ← run
    (if q ≠ 0 ∧ subw 32 vp 1 / 10 ≤ vm / 10 then do
      let l := float_pow5_inv_bitcount c + (← pow5bits c (subw 32 q 1)) - 1
      let r ← mulPow5InvDivPow2 c mv (subw 32 q 1) (-e2 + q - 1 + l)
      .ok (wrap 8 (r % 10))
    else .ok 0 : Exec Nat)
  if q ≤ 9 then
    if mv % 5 = 0 then do
      let z ← run (multipleOfPowerOf5_32 c mv q)
      pure (⟨vr, vp, vm, false, z, last, 0⟩, e10)
    else if acceptBounds then do
      let z ← run (multipleOfPowerOf5_32 c mm q)
      pure (⟨vr, vp, vm, z, false, last, 0⟩, e10)
    else do
      let z ← run (multipleOfPowerOf5_32 c mp q)
      pure (⟨vr, subw 32 vp (if z then 1 else 0), vm, false, false, last, 0⟩, e10)
  else pure (⟨vr, vp, vm, false, false, last, 0⟩, e10)

/-- Step 3 of `f2d` for `e2 < 0`, f2s.c 111-146. -/
def f_step3_neg_debug (c : Config) (m2 : Nat) (e2 : Int) (mmShift : Nat) (acceptBounds : Bool) : Printed (St × Int) := do
  let mv := wrap 32 (4 * m2)
  let mp := wrap 32 (4 * m2 + 2)
  let mm := subw 32 (subw 32 (wrap 32 (4 * m2)) 1) mmShift
  let q ← run (log10Pow5 c (-e2))
  let e10 : Int := q + e2
  let i := -e2 - q
  let b ← run (pow5bits c i)
  let k := b - float_pow5_bitcount c
  let j := q - k
  let vr ← run (mulPow5divPow2 c mv (u32 i) j)
  let vp ← run (mulPow5divPow2 c mp (u32 i) j)
  let vm ← run (mulPow5divPow2 c mm (u32 i) j)
  sayChars (decimal_nat mv ++ " * 5^".toList ++ decimal_int (-e2) ++ " / 10^".toList ++ decimal_nat q ++ "\n".toList)
  sayChars (decimal_nat q ++ " ".toList ++ decimal_int i ++ " ".toList ++ decimal_int k ++ " ".toList ++ decimal_int j ++
    "\n".toList)
  debug_v vp vr vm
  let last ← run
    (if q ≠ 0 ∧ subw 32 vp 1 / 10 ≤ vm / 10 then do
      let j := (q : Int) - 1 - ((← pow5bits c (i + 1)) - float_pow5_bitcount c)
      let r ← mulPow5divPow2 c mv (u32 (i + 1)) j
      .ok (wrap 8 (r % 10))
    else .ok 0 : Exec Nat)
  if q ≤ 1 then
    if acceptBounds then pure (⟨vr, vp, vm, decide (mmShift = 1), true, last, 0⟩, e10)
    else pure (⟨vr, subw 32 vp 1, vm, false, true, last, 0⟩, e10)
  else if q < 31 then do
    let z ← run (multipleOfPowerOf2_32 mv (subw 32 q 1))
    debug_flag "vr is trailing zeros=" z
    pure (⟨vr, vp, vm, false, z, last, 0⟩, e10)
  else pure (⟨vr, vp, vm, false, false, last, 0⟩, e10)

/-- Step 4 of `f2d`, f2s.c 154-215: `output` and the variables. -/
def f_step4_debug (acceptBounds : Bool) (s : St) : Printed (Nat × St) :=
  if s.vmZ || s.vrZ then do
    let s ← run (f_general_loop 21 s)
    debug_v s.vp s.vr s.vm
    debug_flag "d-10=" s.vmZ
    let s ← run (if s.vmZ then f_trailing_loop 21 s else .ok s)
    sayChars (decimal_nat s.vr ++ " ".toList ++ decimal_nat s.last ++ "\n".toList)
    debug_flag "vr is trailing zeros=" s.vrZ
    pure (general_output 32 acceptBounds s, s)
  else do
    let s ← run (f_common_loop 21 s)
    sayChars (decimal_nat s.vr ++ " ".toList ++ decimal_nat s.last ++ "\n".toList)
    debug_flag "vr is trailing zeros=" s.vrZ
    pure (wrap 32 (s.vr + if decide (s.vr = s.vm) || decide (s.last ≥ 5) then 1 else 0), s)

/-- `f2d`, f2s.c 50-228. -/
def f2d_debug (c : Config) (ieeeMantissa ieeeExponent : Nat) : Printed FloatingDecimal := do
  let e2 : Int := if ieeeExponent = 0 then 1 - 127 - 23 - 2 else ieeeExponent - 127 - 23 - 2
  let m2 := if ieeeExponent = 0 then ieeeMantissa else 2 ^ 23 ||| ieeeMantissa
  let acceptBounds := decide (m2 &&& 1 = 0)
  debug_value m2 e2
  let mmShift := if ieeeMantissa ≠ 0 ∨ ieeeExponent ≤ 1 then 1 else 0
  let (s, e10) ← (if e2 ≥ 0 then f_step3_pos_debug c m2 e2 mmShift acceptBounds
    else f_step3_neg_debug c m2 e2 mmShift acceptBounds : Printed (St × Int))
  debug_step3 s e10
  let (output, s) ← f_step4_debug acceptBounds s
  debug_result s output (e10 + s.removed)
  pure ⟨output, e10 + s.removed⟩

/-- `to_chars` of f2s.c, 230-306; see `d_to_chars_debug`. -/
def f_to_chars_debug (c : Config) (v : FloatingDecimal) (sign : Bool) (mem : Buffer) : Printed (Buffer × Int) := do
  let _ ← run (if sign then put mem 0 '-' else .ok mem)
  let olength ← run (decimalLength9 c v.mantissa)
  debug_digits v olength
  run (f_to_chars c v sign mem)

/-- `f2s_buffered_n`, f2s.c 308-332. -/
def f2s_buffered_n_debug (c : Config) (x : Nat) (mem : Buffer) : Printed (Buffer × Int) := do
  let bits := wrap 32 x
  debug_in 32 bits
  let ieeeSign := decide (bits / 2 ^ 31 &&& 1 ≠ 0)
  let ieeeMantissa := bits &&& (2 ^ 23 - 1)
  let ieeeExponent := bits / 2 ^ 23 &&& (2 ^ 8 - 1)
  if ieeeExponent = 2 ^ 8 - 1 ∨ (ieeeExponent = 0 ∧ ieeeMantissa = 0) then
    run (copy_special_str mem ieeeSign (decide (ieeeExponent ≠ 0)) (decide (ieeeMantissa ≠ 0)))
  else do
    let v ← f2d_debug c ieeeMantissa ieeeExponent
    f_to_chars_debug c v ieeeSign mem

/-- `f2s_buffered`, f2s.c 334-339. -/
def f2s_buffered_debug (c : Config) (x : Nat) (mem : Buffer) : Printed Buffer := do
  let (mem, index) ← f2s_buffered_n_debug c x mem
  run (put mem index (Char.ofNat 0))

/-- `f2s`, f2s.c 341-345: the fresh array of 16 bytes. -/
def f2s_debug (c : Config) (x : Nat) : Printed Buffer := f2s_buffered_debug c x (List.replicate 16 none)

end Grisu.Ryu

import Verif.Proofs.GenerateCache

/-! # The generator of the cache tables -/

namespace Grisu

/-- C58 (`float`): whatever a shift by 64 does, and with assertions on or off, the tool writes exactly the 77
constants of the header. -/
theorem C58_float (cfg : Cfg) (shl64 : Exec Nat) : generate_cache cfg shl64 .b32 = .ok cache32 :=
  Gen.generate32 cfg shl64

/-- C58 (`double`): if the undefined shift by 64 produces some value, no matter which, the tool writes exactly
the 616 pairs of the header.  Missing: that no undefined operation is executed, see `C58_undefined_shift`. -/
theorem C58_double_partial (cfg : Cfg) (v : Nat) :
    generate_cache cfg (.ok v) .b64 = .ok (cache64.map fun e => e.high * 2 ^ 64 + e.low) :=
  Gen.generate64 cfg v

/-- C58 fails in the strict sense for `double`: the tool does execute a shift of a 64-bit word by 64, so that
if this shift is a fault the tool faults. -/
theorem C58_undefined_shift (cfg : Cfg) (f : Fault) : generate_cache cfg (.fault f) .b64 = .fault f :=
  Gen.generate64_over cfg f

/-- The tables are not empty and not constant. -/
example : cache32.length = 77 ∧ cache32[0]? = some 0xa2425ff75e14fc32 ∧ cache32[30]? = some (2 ^ 63) ∧
    (cache64.map fun e => e.high * 2 ^ 64 + e.low).length = 616 := by decide +kernel

end Grisu

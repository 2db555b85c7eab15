import Verif.Proofs.WriteCache

/-! # The files written by the generator of the cache tables -/

namespace Grisu
open ResultFiles

/-- **C77** (`float`): in every build, and whatever a shift by 64 does, the tool writes exactly the text of the
checked-in file, character by character, and prints no message about an overflow. -/
theorem C77_float (cfg : Cfg) (shl64 : Exec Nat) :
    generate_cache_file cfg shl64 .b32 = .ok (text binary32_generated_cache, []) := Gen.file32 cfg shl64

/-- **C77** (`double`): the same if the undefined shift by 64 of C58 produces some value, no matter which. -/
theorem C77_double (cfg : Cfg) (v : Nat) :
    generate_cache_file cfg (.ok v) .b64 = .ok (text binary64_generated_cache, []) := Gen.file64 cfg v

/-- **C77**: read as C++, the checked-in file is the table of the header. -/
theorem C77_float_constants : hexConstants none (text binary32_generated_cache) = cache32 :=
  Gen.constants32

/-- **C77** for `double`, each entry being its high and its low half. -/
theorem C77_double_constants : hexConstants none (text binary64_generated_cache) =
    (cache64.map fun e => [e.high, e.low]).flatten := Gen.constants64

example : hexConstants none "{ 0x1f, 0x00 }".toList = [31, 0] := by decide +kernel
-- the message would be printed if an increment carried into the high half
example : write_negative .b64 [2 ^ 64 - 1] 1 0 =
    .ok ("\n\t{ 0x0000000000000000, 0x0000000000000000 },".toList,
      "Overflow detected while generating caches for binary64!\n".toList) := by decide +kernel

end Grisu

import Verif.Model.GenerateCache

/-! # The text written by the tool that generates the cache tables, tests/generate_cache.cpp 192-270

`GenerateCache.lean` models the values; here is what is written to the files and to the console, character by character. -/

namespace Grisu
open Big

/-- `std::hex << std::setw(16) << std::setfill('0') << value`, tests/generate_cache.cpp 248, 264 and 265. -/
def hex16 (value : Nat) : List Char :=
  let digits := Nat.toDigits 16 value
  List.replicate (16 - digits.length) '0' ++ digits

/-- `element_printer`, tests/generate_cache.cpp 247-249 and 263-267.  For `double` the value is the pair of its high and
low 64 bits (lines 40-55). -/
def element_printer (F : Fmt) (value : Nat) : List Char :=
  match F with
  | .b32 => "0x".toList ++ hex16 value
  | .b64 => "{ 0x".toList ++ hex16 (value / 2 ^ 64) ++ ", 0x".toList ++ hex16 (value % 2 ^ 64) ++ " }".toList

/-- What `detect_overflow_and_increment` returns, tests/generate_cache.cpp 243-246 and 259-262; the incremented value is
`increment F value`. -/
def detect_overflow (F : Fmt) (value : Nat) : Bool :=
  match F with
  | .b32 => decide (increment F value = 0)
  | .b64 => decide (increment F value % 2 ^ 64 = 0)

/-- The argument `ieee_754_type_name_string`, tests/generate_cache.cpp 242 and 258. -/
def ieee_754_type_name : Fmt → List Char
  | .b32 => "binary32".toList
  | .b64 => "binary64".toList

/-- The argument `cache_type_name_string`, tests/generate_cache.cpp 242 and 258. -/
def cache_type_name : Fmt → List Char
  | .b32 => "std::uint64_t".toList
  | .b64 => "uint128".toList

/-- The message of tests/generate_cache.cpp 214-215. -/
def overflow_message (F : Fmt) : List Char :=
  "Overflow detected while generating caches for ".toList ++ ieee_754_type_name F ++ "!\n".toList

/-- The loop of tests/generate_cache.cpp 209-221, `count` values from the index `idx` on: what goes to the file and
what goes to the console. -/
def write_negative (F : Fmt) (cache : List Nat) : Nat → Nat → Exec (List Char × List Char)
  | 0, _ => .ok ([], [])
  | count + 1, idx => do
    let value ← rd cache idx
    let message := if detect_overflow F value then overflow_message F else []
    let (out, cout) ← write_negative F cache count (idx + 1)
    .ok ("\n\t".toList ++ element_printer F (increment F value) ++ ",".toList ++ out, message ++ cout)

/-- The loop of tests/generate_cache.cpp 222-228, `count` values from the index `idx` on. -/
def write_positive (F : Fmt) (cache : List Nat) : Nat → Nat → Exec (List Char)
  | 0, _ => .ok []
  | count + 1, idx => do
    let value ← rd cache idx
    let out ← write_positive F cache count (idx + 1)
    .ok ("\n\t".toList ++ element_printer F value ++ ",".toList ++ out)

/-- `write_file`, tests/generate_cache.cpp 198-232: file and console. -/
def write_file (F : Fmt) (cache : List Nat) : Exec (List Char × List Char) := do
  let m := (-F.min_k).toNat
  let (out1, cout) ← write_negative F cache m 0
  let out2 ← write_positive F cache F.max_k.toNat m
  let value ← rd cache (cache.length - 1)
  .ok ("static constexpr ".toList ++ cache_type_name F ++ " cache[] = {".toList ++ out1 ++ out2 ++
    "\n\t".toList ++ element_printer F value ++ "\n};".toList, cout)

/-- The call of `generate_cache_bitset` and that of `write_file` for one format, tests/generate_cache.cpp 236-250 and
252-268. -/
def generate_cache_file (cfg : Cfg) (shl64 : Exec Nat) (F : Fmt) : Exec (List Char × List Char) := do
  let l ← floor_log2_pow10 cfg F.max_k
  let bits := (l - F.max_k + 1).toNat
  let m := (-F.min_k).toNat
  let cache_bitset ← generate_cache_bitset cfg shl64 (2 * F.q) ((bits + 63) / 64) m F.max_k.toNat
  write_file F cache_bitset

end Grisu

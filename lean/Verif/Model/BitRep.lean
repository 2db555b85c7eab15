import Verif.Model.Info

/-! # `bit_representation_t`, grisu_exact.h 1217-1344

A C++ `float`/`double` is modelled by its bit pattern, a natural number below `2^32`/`2^64`. -/

namespace Grisu

/-- `get_bit_representation`, grisu_exact.h 1339-1344: a `memcpy` of the object representation.
`Float` objects are modelled by their bit patterns, so this is the identity on patterns. -/
def get_bit_representation (F : Fmt) (x : Nat) : Nat := wrap F.q x

namespace BitRep

variable (F : Fmt)

/-- `as_ieee754`, grisu_exact.h 1241-1245. -/
def as_ieee754 (f : Nat) : Nat := wrap F.q f

/-- `extract_significand_bits`, grisu_exact.h 1247-1251. -/
def extract_significand_bits (f : Nat) : Nat := f &&& (2 ^ F.p - 1)

/-- `extract_exponent_bits`, grisu_exact.h 1253-1257. -/
def extract_exponent_bits (f : Nat) : Nat := wrap 32 (f / 2 ^ F.p) &&& (2 ^ F.exponent_bits - 1)

/-- `is_finite`, grisu_exact.h 1259-1261. -/
def is_finite (f : Nat) : Bool := f &&& F.exponent_bits_mask ≠ F.exponent_bits_mask

/-- `is_nonzero`, grisu_exact.h 1263-1269. -/
def is_nonzero (f : Nat) : Bool := wrap F.q (f * 2) ≠ 0

/-- `is_subnormal`, grisu_exact.h 1272-1274. -/
def is_subnormal (f : Nat) : Bool := f &&& F.exponent_bits_mask = 0

/-- `is_negative`, grisu_exact.h 1277-1283. -/
def is_negative (f : Nat) : Bool := f / 2 ^ (F.q - 1) ≠ 0

/-- `is_positive`, grisu_exact.h 1286-1290. -/
def is_positive (f : Nat) : Bool := f / 2 ^ (F.q - 1) = 0

/-- `is_positive_infinity`, grisu_exact.h 1292-1295. -/
def is_positive_infinity (f : Nat) : Bool := f = F.exponent_bits_mask

/-- `is_negative_infinity`, grisu_exact.h 1297-1300. -/
def is_negative_infinity (f : Nat) : Bool := f = F.exponent_bits_mask ||| F.sign_bit_mask

/-- `is_infinity`, grisu_exact.h 1303-1305. -/
def is_infinity (f : Nat) : Bool := is_positive_infinity F f || is_negative_infinity F f

/-- `is_nan`, grisu_exact.h 1307-1309. -/
def is_nan (f : Nat) : Bool := !is_finite F f && extract_significand_bits F f ≠ 0

/-- `is_quiet_nan`, grisu_exact.h 1311-1325.  `std::numeric_limits<Float>::quiet_NaN()` is taken to
have its indicator bit set (`0x7fc00000` / `0x7ff8000000000000`), as on x86 and ARM. -/
def is_quiet_nan (f : Nat) : Bool :=
  if !is_nan F f then false
  else
    let quiet_or_signal_indicator := 2 ^ (F.p - 1)
    let quiet_or_signal := f &&& quiet_or_signal_indicator
    let a_quiet_nan := F.exponent_bits_mask ||| 2 ^ (F.p - 1)
    a_quiet_nan &&& quiet_or_signal_indicator = quiet_or_signal

/-- `is_signaling_nan`, grisu_exact.h 1327-1329. -/
def is_signaling_nan (f : Nat) : Bool := is_nan F f && !is_quiet_nan F f

/-- `get_nan_payload`, grisu_exact.h 1332-1336, as a number below `2^(precision - 1)`. -/
def get_nan_payload (f : Nat) : Nat := f &&& (2 ^ (F.p - 1) - 1)

end BitRep

end Grisu

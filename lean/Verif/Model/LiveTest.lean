import Verif.Model.UniformTest

/-! # The interactive test: `tests/live_test.cpp` -/

namespace Grisu

/-- `decompose_float<Float>`, tests/live_test.cpp 20-41.  `x` is the bit pattern that the `memcpy` copies into the
significand.  `extended_precision` is a `std::size_t`, so the addition to `exponent` (line 35) is done in `size_t`
and converted back to `int`; the sum always fits an `int`, and is modelled as an integer. -/
def decompose_float (cfg : Cfg) (F : Fmt) (x : Nat) : Exec FpT := do
  let significand := wrap F.q x
  let is_negative := decide (significand &&& F.sign_bit_mask ≠ 0)
  let exponent : Int := (wrap F.q (significand * 2) / 2 ^ (F.p + 1) : Nat)
  let significand := wrap F.q (significand * 2 ^ (F.q - F.p - 1))
  let significand := significand ||| (if exponent = 0 then 0 else F.sign_bit_mask)
  let exponent := exponent + (F.exponent_bias - F.q + 1)
  cassert cfg (decide (exponent ≠ 1 - F.exponent_bias))
  .ok ⟨significand, exponent, some is_negative⟩

/-! ## The loop

The program never ends; what is modelled is what it writes up to and including its reaction to the `n`-th call of
`std::getline`.  `parse` is `std::stof` or `std::stod`: the bit pattern of the number, or nothing if it throws. -/

/-- `std::cin`: the lines still to be read, whether the last one ends with a newline, and whether neither `eofbit` nor
`failbit` is set.  Used in tests/live_test.cpp 56. -/
structure Stdin where
  lines : List (List Char)
  terminated : Bool
  good : Bool

/-- `std::getline(std::cin, x_str)`, tests/live_test.cpp 56.  Once the stream is not good the string is left as it is. -/
def getline (input : Stdin) (x_str : List Char) : Stdin × List Char :=
  if input.good = false then (input, x_str)
  else match input.lines with
    | [] => (⟨[], input.terminated, false⟩, [])
    | [l] => (⟨[], input.terminated, input.terminated⟩, l)
    | l :: rest => (⟨rest, input.terminated, true⟩, l)

/-- `std::cout << value` for an `int`, tests/live_test.cpp 74. -/
def decimal_int (value : Int) : List Char :=
  (if value < 0 then ['-'] else []) ++ Nat.toDigits 10 value.natAbs

/-- `std::hex << std::setfill('0') << std::setw(..) << xx.significand`, tests/live_test.cpp 75-82. -/
def hex_significand (F : Fmt) (significand : Nat) : List Char :=
  let digits := Nat.toDigits 16 significand
  List.replicate ((match F with | .b32 => 8 | .b64 => 16) - digits.length) '0' ++ digits

/-- The reaction to a number, tests/live_test.cpp 72-85.  `std::setfill` stays in force, but without a width it has no
effect on the exponent of the next round. -/
def live_reply (cfg : Cfg) (F : Fmt) (x : Nat) (buffer : Buffer) : Exec (List Char × Buffer) := do
  let xx ← decompose_float cfg F x
  let (buffer, _) ← fp_to_chars cfg F x buffer .nearest_to_even .tie_to_even
  let view ← string_view buffer
  .ok ("               sign: ".toList ++ (if xx.is_negative = some true then "-" else "+").toList ++ "\n".toList ++
    "           exponent: ".toList ++ decimal_int xx.exponent ++ "\n".toList ++
    "        significand: ".toList ++ "0x".toList ++ hex_significand F xx.significand ++ "\n".toList ++
    " Grisu-Exact output: ".toList ++ view ++ "\n".toList, buffer)

/-- The two loops of tests/live_test.cpp 52-86, `n` calls of `std::getline`.  A line that is not accepted stays in
`x_str`, which is constructed anew after one that is. -/
def live_loop (cfg : Cfg) (F : Fmt) (parse : List Char → Option Nat) :
    Nat → Stdin → List Char → Buffer → Exec (List Char)
  | 0, _, _, _ => .ok []
  | n + 1, input, x_str, buffer => do
    let (input, x_str) := getline input x_str
    match parse x_str with
    | none =>
      let out ← live_loop cfg F parse n input x_str buffer
      .ok ("Not a valid input; input again.\n".toList ++ out)
    | some x =>
      let (reply, buffer) ← live_reply cfg F x buffer
      let out ← live_loop cfg F parse n input [] buffer
      .ok (reply ++ out)

/-- `live_test_float` and `live_test_double`, tests/live_test.cpp 88-95, with the array of 41 characters of line 50. -/
def live_test (cfg : Cfg) (F : Fmt) (parse : List Char → Option Nat) (n : Nat) (input : Stdin) : Exec (List Char) := do
  let out ← live_loop cfg F parse n input [] (List.replicate 41 none)
  .ok ((match F with
    | .b32 => "[Start live test for float's]\n"
    | .b64 => "[Start live test for double's]\n").toList ++ out)

end Grisu

/-! # Reading the hexadecimal constants of a source text -/

namespace Grisu

/-- The value of a digit of a hexadecimal constant. -/
def hexValue (c : Char) : Option Nat :=
  if '0' ≤ c ∧ c ≤ '9' then some (c.toNat - '0'.toNat)
  else if 'a' ≤ c ∧ c ≤ 'f' then some (c.toNat - 'a'.toNat + 10) else none

/-- The hexadecimal constants of a C++ source text, in order.  The first argument is the constant being read. -/
def hexConstants : Option Nat → List Char → List Nat
  | none, '0' :: 'x' :: rest => hexConstants (some 0) rest
  | none, _ :: rest => hexConstants none rest
  | none, [] => []
  | some v, [] => [v]
  | some v, c :: rest => match hexValue c with
    | some d => hexConstants (some (16 * v + d)) rest
    | none => v :: hexConstants none rest

end Grisu

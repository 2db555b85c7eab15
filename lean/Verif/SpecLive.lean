import Verif.SpecBenchmark

/-! # Specification of the dialogue of the interactive test -/

namespace Grisu.Spec

/-- The reply to a line that holds the number with the bit pattern `x`: its sign, a significand and a binary exponent
that multiply to its magnitude (to half of it for a subnormal number, see C66), and a text that denotes it. -/
def NumberReply (F : Fmt) (x : Nat) (reply : List Char) : Prop :=
  ∃ (exponent : Int) (significand : Nat) (hex text : List Char),
    reply =
      "               sign: ".toList ++ (if isNeg F x then "-" else "+").toList ++ "\n".toList ++
      "           exponent: ".toList ++ ((if exponent < 0 then ['-'] else []) ++ Nat.toDigits 10 exponent.natAbs) ++
      "\n".toList ++
      "        significand: ".toList ++ hex ++ "\n".toList ++
      " Grisu-Exact output: ".toList ++ text ++ "\n".toList ∧
    hexConstants none hex = [significand] ∧ hex.length = width F / 4 + 2 ∧
    (significand : ℚ) * 2 ^ exponent = value F (mag F x) / (if mag F x < 2 ^ mantBits F then 2 else 1) ∧
    Denotes F x text

/-- The reply to a line: `none` stands for a line that does not hold a number. -/
def Reply (F : Fmt) : Option Nat → List Char → Prop
  | none, reply => reply = "Not a valid input; input again.\n".toList
  | some x, reply => NumberReply F x reply

/-- The lines that `n` requests for input deliver: after the last one every request fails, which counts as a line
without a number. -/
def requests (parse : List Char → Option Nat) (lines : List (List Char)) (n : Nat) : List (Option Nat) :=
  ((lines.take n).map parse) ++ List.replicate (n - lines.length) none

end Grisu.Spec

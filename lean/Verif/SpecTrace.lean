import Verif.Spec
import Mathlib.Data.Rat.Floor

/-! # The trace of a conversion

What the lines written by a build of Ryu with `RYU_DEBUG` say, without reference to how they come about. -/

namespace Grisu.Spec

/-- A natural number in decimal. -/
def natText (n : Nat) : List Char := Nat.toDigits 10 n

/-- An integer in decimal. -/
def intText (n : Int) : List Char := (if n < 0 then ['-'] else []) ++ Nat.toDigits 10 n.natAbs

/-- `text` is the number `x` in binary with `n` digits. -/
def IsBinary (n x : Nat) (text : List Char) : Prop :=
  text.length = n ∧ (∀ ch ∈ text, ch = '0' ∨ ch = '1') ∧
    text.foldl (fun v ch => 2 * v + if ch = '1' then 1 else 0) 0 = x

/-- The lines with the upper end, the number itself and the lower end. -/
def threeText (a b c : Nat) : List Char :=
  "V+=".toList ++ natText a ++ "\nV =".toList ++ natText b ++ "\nV-=".toList ++ natText c ++ "\n".toList

/-- A line with a truth value. -/
def flagText (name : String) (b : Bool) : List Char :=
  name.toList ++ (if b then "true".toList else "false".toList) ++ "\n".toList

/-- The lines of the digit removal.  `V` is the integer part of the number `v` in units of `10 ^ k`, `P` and `M` are those of
the ends, `r` is the number of digits removed in the end, `vmZ` and `vrZ` are the two truth values shown before.  `text` shows
* if one of them is true, the three integers after the removal of `a` digits, which is as many as can be without `P` and `M`
  becoming equal, and whether the lower end is still exact; if so, its trailing zeros are removed too;
* `V` without its last `r` digits;
* the first digit `d` of `v` that is not part of that (for doubles, in the common case, only whether it is at least 5);
* a truth value `z`, which together with `d = 5` says that `v` is halfway between two multiples of `10 ^ (k + r)`. -/
def IsRemoval (F : Fmt) (v : ℚ) (k : Int) (P V M r : Nat) (vmZ vrZ : Bool) (text : List Char) : Prop :=
  ∃ (a d : Nat) (z : Bool),
    a ≤ r ∧ P / 10 ^ (a + 1) ≤ M / 10 ^ (a + 1) ∧ (a = 0 ∨ M / 10 ^ a < P / 10 ^ a) ∧
    (vmZ = true ∧ 10 ^ a ∣ M → 10 ^ r ∣ M ∧ ¬ 10 ^ (r + 1) ∣ M) ∧ (¬ (vmZ = true ∧ 10 ^ a ∣ M) → r = a) ∧
    d = ⌊v / 10 ^ (k + r - 1)⌋₊ % 10 ∧
    (z = true → vrZ = true ∧ 10 ^ (r - 1) ∣ V) ∧
    (vrZ = true → 10 ^ (r - 1) ∣ V → v = V * 10 ^ k → z = true) ∧
    (z = true ∧ d = 5 ↔ 2 * v = (2 * ⌊v / 10 ^ (k + r)⌋₊ + 1) * 10 ^ (k + r)) ∧
    text =
      if vmZ || vrZ then
        threeText (P / 10 ^ a) (V / 10 ^ a) (M / 10 ^ a) ++ flagText "d-10=" (vmZ && decide (10 ^ a ∣ M)) ++
        natText (V / 10 ^ r) ++ " ".toList ++ natText d ++ "\n".toList ++ flagText "vr is trailing zeros=" z
      else
        natText (V / 10 ^ r) ++ " ".toList ++
        (match F with
          | .b32 => natText d ++ "\n".toList
          | .b64 => flagText "roundUp=" (decide (5 ≤ d))) ++
        flagText "vr is trailing zeros=" z

/-- The lines of a conversion that does not take the short cut for integers: `text` shows
* the magnitude `m` as a significand times a power of two;
* the quotient that is to be computed and, for a negative exponent, the index of the power of five that is used, its number
  of bits less the number `kept` of bits kept, and by how much the product is shifted;
* the integer parts of the upper end of the rounding interval of `m`, of `m` itself and of the lower end, all in units of
  `10 ^ k`, then `k`, and these three again, the upper one less by one if the end is excluded and is that integer;
* whether the lower end belongs to the interval and is an integer (at least if it is a multiple of ten), and whether `m`
  is an integer (at least if it is a multiple of five; that it is half an integer is not excluded), all in these units;
* the removal of `r` digits;
* in the end the three in units of `10 ^ t`, and the decimal `s * 10 ^ t`. -/
def IsTrace (F : Fmt) (kept m s : Nat) (t : Int) (text : List Char) : Prop :=
  ∃ (sig q r p : Nat) (e k i b : Int) (upper lower : ℚ) (vmZ vrZ : Bool) (flag rest : List Char),
    value F m = sig * 2 ^ e ∧ sig < 2 ^ (mantBits F + 1) ∧ k = (if 2 ≤ e then (q : Int) else q + e - 2) ∧
    i = 2 - e - q ∧ (e < 2 → 0 ≤ i ∧ b = ((5 ^ i.toNat).log2 + 1 : Nat) - (kept : Int)) ∧
    upper = (value F m + value F (m + 1)) / 2 ∧ lower = (value F (m - 1) + value F m) / 2 ∧
    (p = ⌊upper / 10 ^ k⌋₊ ∨ sig % 2 = 1 ∧ upper = (p + 1) * 10 ^ k) ∧
    (vmZ = true → sig % 2 = 0 ∧ ∃ n : Nat, lower = n * 10 ^ k) ∧
    (sig % 2 = 0 → (∃ n : Nat, lower = n * 10 ^ (k + 1)) → vmZ = true) ∧
    (vrZ = true → ∃ n : Nat, 2 * value F m = n * 10 ^ k) ∧
    ((∃ n : Nat, value F m = n * (5 * 10 ^ k)) → vrZ = true) ∧
    t = k + r ∧ IsRemoval F (value F m) k p ⌊value F m / 10 ^ k⌋₊ ⌊lower / 10 ^ k⌋₊ r vmZ vrZ rest ∧
    (flag = [] ∨ flag = flagText "vr is trailing zeros=" vrZ) ∧
    text = "-> ".toList ++ natText sig ++ " * 2^".toList ++ intText e ++ "\n".toList ++
      natText (4 * sig) ++ (if 2 ≤ e then " * 2^".toList else " * 5^".toList) ++ natText (e - 2).natAbs ++
      " / 10^".toList ++ natText q ++ "\n".toList ++
      (if 2 ≤ e then [] else natText q ++ " ".toList ++ intText i ++ " ".toList ++ intText b ++ " ".toList ++
        intText (q - b) ++ "\n".toList) ++
      threeText ⌊upper / 10 ^ k⌋₊ ⌊value F m / 10 ^ k⌋₊ ⌊lower / 10 ^ k⌋₊ ++ flag ++
      "e10=".toList ++ intText k ++ "\n".toList ++
      threeText p ⌊value F m / 10 ^ k⌋₊ ⌊lower / 10 ^ k⌋₊ ++
      flagText "vm is trailing zeros=" vmZ ++ flagText "vr is trailing zeros=" vrZ ++ rest ++
      threeText (p / 10 ^ r) ⌊value F m / 10 ^ t⌋₊ ⌊lower / 10 ^ t⌋₊ ++
      "O=".toList ++ natText s ++ "\nEXP=".toList ++ intText t ++ "\n".toList

end Grisu.Spec

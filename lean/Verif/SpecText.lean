import Verif.Spec
import Verif.Model.ToChars

/-!
# Specification of the printed text

Texts are lists of characters.  `sci` writes a decimal number in scientific notation, `readText` reads
such a text; neither refers to the code.
`Prints` and `PrintsTerminated` say what a call does to the caller's buffer.
-/

namespace Grisu.Spec

/-- `12345e-2` is written `1.2345E2`: the decimal digits of `s` with a point after the first one
unless it is the only one, `E`, and the exponent (no plus sign, no leading zero). -/
def sci (neg : Bool) (s : Nat) (t : Int) : List Char :=
  let ds := Nat.toDigits 10 s
  let e : Int := t + ds.length - 1
  (if neg then ['-'] else []) ++ (ds.take 1 ++ (if ds.length > 1 then '.' :: ds.drop 1 else []) ++
    'E' :: ((if e < 0 then ['-'] else []) ++ Nat.toDigits 10 e.natAbs))

/-- The number written by a list of decimal digits. -/
def digitsValue (ds : List Char) : Nat := ds.foldl (fun n ch => 10 * n + (ch.toNat - 48)) 0

/-- Reads digits up to the first other character. -/
def readDigits (text : List Char) : List Char × List Char :=
  (text.takeWhile Char.isDigit, text.dropWhile Char.isDigit)

/-- Reads an optional minus sign. -/
def readSign : List Char → Bool × List Char
  | '-' :: text => (true, text)
  | text => (false, text)

/-- Reads an optional point followed by digits. -/
def readFraction : List Char → List Char × List Char
  | '.' :: text => readDigits text
  | text => ([], text)

/-- Reads `-12.345E-6` as the sign and the magnitude `12345 * 10^(-9)`.  At least one digit is required
before the point and after the `E`; nothing may follow. -/
def readText (text : List Char) : Option (Bool × ℚ) :=
  let (neg, text) := readSign text
  let (ip, text) := readDigits text
  let (fp, text) := readFraction text
  match text with
  | 'E' :: text =>
    let (eneg, text) := readSign text
    let (ex, text) := readDigits text
    if ip = [] ∨ ex = [] ∨ text ≠ [] then none
    else
      let e : Int := if eneg then -(digitsValue ex : Int) else digitsValue ex
      some (neg, (digitsValue (ip ++ fp) : ℚ) * 10 ^ (e - fp.length))
  | _ => none

/-- Largest number of characters written, without terminating NUL. -/
def maxText : Fmt → Nat
  | .b32 => 15
  | .b64 => 24

/-- `fp_to_chars_n(x, buffer, mode, crs)` writes exactly `text`: for every buffer of at least that length
it returns the position after the last character, these characters are at the start of the buffer, and
every other byte is as before. -/
def Prints (cfg : Cfg) (F : Fmt) (x : Nat) (mode : RoundingMode) (crs : Crs) (text : List Char) : Prop :=
  ∀ mem : Buffer, text.length ≤ mem.length →
    fp_to_chars_n cfg F x mem mode crs = .ok (text.map some ++ mem.drop text.length, text.length)

/-- The same for `fp_to_chars`, which adds a NUL and returns its position. -/
def PrintsTerminated (cfg : Cfg) (F : Fmt) (x : Nat) (mode : RoundingMode) (crs : Crs) (text : List Char) :
    Prop :=
  ∀ mem : Buffer, text.length + 1 ≤ mem.length →
    fp_to_chars cfg F x mem mode crs =
      .ok ((text ++ ['\x00']).map some ++ mem.drop (text.length + 1), text.length)

end Grisu.Spec

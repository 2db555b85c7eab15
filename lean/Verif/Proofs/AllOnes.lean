import Verif.Proofs.Bounds
import Verif.SpecTruncating

/-! # Left-closed directed rounding of significands with all bits set: what is checked per exponent -/

namespace Grisu

open Spec (faultFields longFields farFields)

/-- The positive number with exponent field `E` whose stored significand bits are all ones. -/
def onesPattern (F : Fmt) (E : Nat) : Nat := E * 2 ^ F.p + (2 ^ F.p - 1)

/-- Steps 2 to 4 on it. -/
def onesRun (cfg : Cfg) (F : Fmt) (crs : Crs) (E : Nat) : Exec (Nat × Int) :=
  (ctxOf cfg F .left_closed_directed crs (onesPattern F E)).run

/-- What is checked: the portable code without asserts returns a number of the interval, which is
shortest unless `E` is listed, and closest unless there is a multiple of its power of ten next to the
left endpoint and exactly unless `E` is listed; the other builds return the same, or fault if `E` is listed. -/
def onesCheck (F : Fmt) (crs : Crs) (E : Nat) : Bool :=
  match onesRun ⟨false, true⟩ F crs E with
  | .fault _ => false
  | .ok (s, t) =>
    let lo := loOf true (XOf F .left_closed_directed (onesPattern F E)) (BOf F (onesPattern F E))
    let hi := hiOf false (ZOf F .left_closed_directed (onesPattern F E)) (BOf F (onesPattern F E))
    let mk := mkOf (expOf F (onesPattern F E))
    let κ := (t - mk).toNat
    decide (mk ≤ t) && decide (κ ≤ 18) && decide (lo ≤ s * 10 ^ κ) && decide (s * 10 ^ κ ≤ hi) &&
    (decide (hi / 10 ^ (κ + 1) * 10 ^ (κ + 1) < lo) == !(longFields F).contains E) &&
    (!(longFields F).contains E ||
      (List.range 19).any fun j => decide (hi / 10 ^ (κ + 1) < 10 ^ j) && decide (10 ^ j ≤ s)) &&
    (decide (crs = .do_not_care) || decide (lo % 10 ^ κ = 0) || decide ((lo - 1) % 10 ^ κ = 0) ||
      decide ((s - 1) * 10 ^ κ < lo)) &&
    (decide (crs = .do_not_care) || decide ((s - 1) * 10 ^ κ < lo) == !(farFields F).contains E) &&
    decide (s < 10 ^ maxDigits F) && decide (s % 10 ≠ 0) &&
    decide (onesRun ⟨true, true⟩ F crs E =
      if (faultFields F).contains E then .fault .ctzZero else .ok (s, t)) &&
    decide (onesRun ⟨true, false⟩ F crs E =
      if (faultFields F).contains E then .fault .assertion else .ok (s, t)) &&
    decide (onesRun ⟨false, false⟩ F crs E =
      if (faultFields F).contains E then .fault .assertion else .ok (s, t))

theorem onesCheck32 : ∀ E ∈ List.range' 1 254, onesCheck .b32 .do_not_care E = true ∧
    onesCheck .b32 .tie_to_even E = true := by decide +kernel

end Grisu

import Verif.Proofs.Short

/-!
# Short decimals survive

Property C38.  A decimal with at most 6 (`float`) or 15 (`double`) digits that a parser reads as the
normal number `x` is recovered by `grisu_exact(x)`.
-/

namespace Grisu

open Spec (RoundsTo value mag isNeg FiniteNonzero dec numDigits IsTruncating NotShortest mantBits)

/-- **C38**: in the to-nearest modes and the directed modes that round away from zero.  Parser and
printer use the same rounding mode; the policy does not matter. -/
theorem C38_short_decimals (cfg : Cfg) (F : Fmt) (rs : Bool) (x : Nat) (mode : RoundingMode) (crs : Crs)
    (handler : CaseHandler) (h : FiniteNonzero F x) (hm : IsTruncating (isNeg F x) mode = false)
    (normal : 2 ^ mantBits F ≤ mag F x) (d : Nat) (t : Int) (hd : numDigits d ≤ if F = .b32 then 6 else 15)
    (hread : RoundsTo F mode (isNeg F x) (dec d t) (mag F x)) :
    ∃ r, grisu_exact cfg F rs x mode crs handler = .ok r ∧ dec r.significand r.exponent = dec d t := by
  have hs : (if F = .b32 then 6 else 15) = safeDigits F := by cases F <;> rfl
  rw [hs] at hd
  rw [mant_eq] at normal
  obtain ⟨s, t', h1, h2⟩ := main cfg rs handler crs h hm
  have h3 := h2.shortest (reads_interval_left h mode) hread
  exact ⟨_, h1, short_unique h normal (numDigits_le_iff.mp (h3.trans hd)) (numDigits_le_iff.mp hd) h2.mem hread⟩

-- 0.123456 read as a float, 0.1 read as a double
example : FiniteNonzero .b32 0x3DFCD680 ∧ 2 ^ mantBits .b32 ≤ mag .b32 0x3DFCD680 ∧ numDigits 123456 ≤ 6 :=
  ⟨⟨by decide, by decide, by decide⟩, by decide, by unfold numDigits; norm_num⟩
example : grisu_exact ⟨true, false⟩ .b32 true 0x3DFCD680 .nearest_to_even .do_not_care .assert_finite =
    .ok ⟨123456, -6, some false⟩ := by decide +kernel
example : RoundsTo .b32 .away_from_zero false (dec 5 (-1)) 0x3F000000 := by
  refine ⟨by decide, by decide, ?_, ?_⟩ <;> norm_num [value, mantBits, Spec.ulpExp, dec]

/-- **C38** in the modes that round toward zero, when the call returns. -/
theorem C38_short_decimals_truncating (cfg : Cfg) (F : Fmt) (rs : Bool) (x : Nat) (mode : RoundingMode) (crs : Crs)
    (handler : CaseHandler) (h : FiniteNonzero F x) (hm : IsTruncating (isNeg F x) mode = true)
    (normal : 2 ^ mantBits F ≤ mag F x) (d : Nat) (t : Int) (hd : numDigits d ≤ if F = .b32 then 6 else 15)
    (hread : RoundsTo F mode (isNeg F x) (dec d t) (mag F x)) (r : FpT)
    (hr : grisu_exact cfg F rs x mode crs handler = .ok r) :
    dec r.significand r.exponent = dec d t := by
  have hs : (if F = .b32 then 6 else 15) = safeDigits F := by cases F <;> rfl
  rw [hs] at hd
  rw [mant_eq] at normal
  have hx : ¬ NotShortest F x := fun hx => notShortest_no_short h hm hx (numDigits_le_iff.mp hd) hread
  obtain ⟨h1, -, h3, -⟩ := truncating_ok h hm hr
  have h4 := (h3 hx).shortest (reads_interval_left h mode) hread
  exact short_unique h normal (numDigits_le_iff.mp (h4.trans hd)) (numDigits_le_iff.mp hd) h1 hread

-- 0.1 truncated to a double is 0x3FB9999999999999, and comes back
example : RoundsTo .b64 .toward_zero false (dec 1 (-1)) 0x3FB9999999999999 := by
  refine ⟨by decide, ?_, ?_⟩ <;> norm_num [value, mantBits, Spec.ulpExp, dec]
example : grisu_exact ⟨true, false⟩ .b64 true 0x3FB9999999999999 .toward_zero .tie_to_even .assert_finite =
    .ok ⟨1, -1, some false⟩ := by decide +kernel

/-- The digit counts cannot be raised: two decimals with 7 digits read as the same float, two with 16
digits as the same double. -/
theorem C38_more_digits :
    (RoundsTo .b32 .toward_zero false (dec 9007210 9) 0x5A00000A ∧
      RoundsTo .b32 .toward_zero false (dec 9007211 9) 0x5A00000A) ∧
    (RoundsTo .b64 .toward_zero false (dec 7205759403792794 1) 0x4370000000000000 ∧
      RoundsTo .b64 .toward_zero false (dec 7205759403792795 1) 0x4370000000000000) := by
  refine ⟨⟨?_, ?_⟩, ?_, ?_⟩ <;> refine ⟨by decide, ?_, ?_⟩ <;> norm_num [value, mantBits, Spec.ulpExp, dec]

end Grisu

import Verif.Proofs.Unique

/-!
# Conversion: to-nearest modes and directed modes that round away from zero

Properties C01-C06, C11, C14-C17, C25, C26.  `x` is the bit pattern of the argument,
`FiniteNonzero F x` says that it is one of a nonzero finite number, and
`RoundsTo F mode (isNeg F x) d (mag F x)` that a correct parser reads the magnitude `d` (with the
sign of `x`) back as `x`.  `IsTruncating (isNeg F x) mode = false` selects the ten to-nearest modes
and the directed modes that round the magnitude of `x` away from zero.
-/

namespace Grisu

open Spec (RoundsTo value mag isNeg FiniteNonzero dec numDigits TieChoice IsNearest IsAway IsTruncating)

variable {F : Fmt} {x : Nat}

theorem main_ok {cfg : Cfg} {rs : Bool} {handler : CaseHandler} {mode : RoundingMode} {crs : Crs} {r : FpT}
    (h : FiniteNonzero F x) (hm : IsTruncating (isNeg F x) mode = false)
    (hr : grisu_exact cfg F rs x mode crs handler = .ok r) :
    Output (Reads F mode x) r.significand r.exponent := by
  obtain ⟨s, t, h1, h2⟩ := main cfg rs handler crs h hm
  rw [h1] at hr
  cases hr
  exact h2

theorem reads_interval (h : FiniteNonzero F x) (mode : RoundingMode) : Interval? (Reads F mode x) := by
  rw [reads_eq h]; exact interval? _ (FiniteNonzero.input h)

theorem not_truncating {mode : RoundingMode} {neg : Bool} (h : IsNearest mode = true) :
    IsTruncating neg mode = false := by
  cases mode <;> simp_all [IsNearest, IsTruncating]

theorem not_truncating_away {mode : RoundingMode} {neg : Bool} (h : IsAway neg mode = true) :
    IsTruncating neg mode = false := by
  cases mode <;> simp_all [IsAway, IsTruncating]

/-! ## C01 -/

/-- **C01**: `grisu_exact` returns normally; no assertion failure, no undefined behaviour, and every
loop ends. -/
theorem C01_returns (cfg : Cfg) (F : Fmt) (rs : Bool) (x : Nat) (mode : RoundingMode) (crs : Crs)
    (handler : CaseHandler) (h : FiniteNonzero F x) (hm : IsTruncating (isNeg F x) mode = false) :
    ∃ r, grisu_exact cfg F rs x mode crs handler = .ok r := by
  obtain ⟨s, t, h1, -⟩ := main cfg rs handler crs h hm
  exact ⟨_, h1⟩

-- `-1.234e5` as a double, in the default mode; the smallest and the largest float in directed modes
example : FiniteNonzero .b64 0xC0FE208000000000 := ⟨by decide, by decide, by decide⟩
example : IsTruncating (isNeg .b64 0xC0FE208000000000) .nearest_to_even = false := rfl
example : IsTruncating (isNeg .b64 0xC0FE208000000000) .toward_minus_infinity = false := rfl
example : IsTruncating (isNeg .b32 0x00000001) .toward_plus_infinity = false := rfl
example : grisu_exact ⟨true, false⟩ .b64 true 0xC0FE208000000000 .nearest_to_even .tie_to_even .assert_finite =
    .ok ⟨1234, 2, some true⟩ := by decide +kernel
example : grisu_exact ⟨false, false⟩ .b32 true 0x00000001 .toward_plus_infinity .tie_to_even .assert_finite =
    .ok ⟨1, -45, some false⟩ := by decide +kernel

/-! ## C02 -/

/-- **C02**: round trip in the to-nearest modes. -/
theorem C02_roundtrip_nearest (cfg : Cfg) (F : Fmt) (rs : Bool) (x : Nat) (mode : RoundingMode) (crs : Crs)
    (handler : CaseHandler) (h : FiniteNonzero F x) (hm : IsNearest mode = true) :
    ∃ r, grisu_exact cfg F rs x mode crs handler = .ok r ∧
      RoundsTo F mode (isNeg F x) (dec r.significand r.exponent) (mag F x) := by
  obtain ⟨s, t, h1, h2⟩ := main cfg rs handler crs h (not_truncating hm)
  exact ⟨_, h1, h2.mem⟩

-- the largest double, halfway rounding to odd
example : FiniteNonzero .b64 0x7FEFFFFFFFFFFFFF ∧ IsNearest .nearest_to_odd = true :=
  ⟨⟨by decide, by decide, by decide⟩, rfl⟩
example : grisu_exact ⟨true, false⟩ .b64 true 0x7FEFFFFFFFFFFFFF .nearest_to_odd .tie_to_even .assert_finite =
    .ok ⟨17976931348623157, 292, some false⟩ := by decide +kernel

/-! ## C03 -/

/-- **C03**: in the to-nearest modes no decimal that reads back as `x` has fewer digits. -/
theorem C03_shortest_nearest (cfg : Cfg) (F : Fmt) (rs : Bool) (x : Nat) (mode : RoundingMode) (crs : Crs)
    (handler : CaseHandler) (h : FiniteNonzero F x) (hm : IsNearest mode = true) :
    ∃ r, grisu_exact cfg F rs x mode crs handler = .ok r ∧
      ∀ s' t', RoundsTo F mode (isNeg F x) (dec s' t') (mag F x) → numDigits r.significand ≤ numDigits s' := by
  obtain ⟨s, t, h1, h2⟩ := main cfg rs handler crs h (not_truncating hm)
  exact ⟨_, h1, fun s' t' h' => h2.shortest (reads_interval h mode) h'⟩

-- 5e-324 could also be written 4.9e-324 or 4.94e-324: the shortest is one digit
example : FiniteNonzero .b64 1 ∧ IsNearest .nearest_to_even = true := ⟨⟨by decide, by decide, by decide⟩, rfl⟩
example : grisu_exact ⟨true, false⟩ .b64 true 1 .nearest_to_even .tie_to_even .assert_finite =
    .ok ⟨5, -324, some false⟩ := by decide +kernel

/-! ## C04 -/

/-- **C04**: in the to-nearest modes, with a correct rounding policy, no decimal with the same number
of digits (or fewer) that reads back as `x` is closer to `x`. -/
theorem C04_closest_nearest (cfg : Cfg) (F : Fmt) (rs : Bool) (x : Nat) (mode : RoundingMode) (crs : Crs)
    (handler : CaseHandler) (h : FiniteNonzero F x) (hm : IsNearest mode = true) (hc : crs ≠ .do_not_care) :
    ∃ r, grisu_exact cfg F rs x mode crs handler = .ok r ∧
      ∀ s' t', RoundsTo F mode (isNeg F x) (dec s' t') (mag F x) → numDigits s' ≤ numDigits r.significand →
        |dec r.significand r.exponent - value F (mag F x)| ≤ |dec s' t' - value F (mag F x)| := by
  obtain ⟨s, t, h1, -, h3⟩ := main_nearest_closest cfg rs handler h hm hc
  exact ⟨_, h1, fun s' t' h' hd => (h3 s' t' h' hd).1⟩

-- the power of two at the exponent 59 treated specially by the code (float)
example : FiniteNonzero .b32 0x6D000000 ∧ IsNearest .nearest_away_from_zero = true ∧ Crs.tie_to_even ≠ .do_not_care :=
  ⟨⟨by decide, by decide, by decide⟩, rfl, by decide⟩

/-! ## C05 -/

/-- **C05**: if another decimal with as many digits (or fewer) reads back as `x` and is equally close to
`x`, then it has the same exponent and the returned significand is the one the policy asks for. -/
theorem C05_tie_policy (cfg : Cfg) (F : Fmt) (rs : Bool) (x : Nat) (mode : RoundingMode) (crs : Crs)
    (handler : CaseHandler) (h : FiniteNonzero F x) (hm : IsNearest mode = true) (hc : crs ≠ .do_not_care) :
    ∃ r, grisu_exact cfg F rs x mode crs handler = .ok r ∧
      ∀ s' t', RoundsTo F mode (isNeg F x) (dec s' t') (mag F x) → numDigits s' ≤ numDigits r.significand →
        (s', t') ≠ (r.significand, r.exponent) →
        |dec r.significand r.exponent - value F (mag F x)| = |dec s' t' - value F (mag F x)| →
        t' = r.exponent ∧
        (crs = .tie_to_even → r.significand % 2 = 0) ∧ (crs = .tie_to_odd → r.significand % 2 = 1) ∧
        (crs = .tie_to_up → s' < r.significand) ∧ (crs = .tie_to_down → r.significand < s') := by
  obtain ⟨s, t, h1, -, h3⟩ := main_nearest_closest cfg rs handler h hm hc
  refine ⟨_, h1, fun s' t' h' hd hne heq => ?_⟩
  obtain ⟨g1, g2⟩ := (h3 s' t' h' hd).2 hne heq
  refine ⟨g1, ?_, ?_, ?_, ?_⟩ <;> rintro rfl <;> exact g2

-- 2097152.25 as a float lies halfway between 2097152.2 and 2097152.3, which both read back as it
example : FiniteNonzero .b32 0x4A000001 ∧ IsNearest .nearest_to_even = true := ⟨⟨by decide, by decide, by decide⟩, rfl⟩
example : ∀ crs handler, crs ≠ .do_not_care →
    grisu_exact ⟨true, false⟩ .b32 true 0x4A000001 .nearest_to_even crs handler =
      .ok ⟨if crs = .tie_to_even ∨ crs = .tie_to_down then 20971522 else 20971523, -1, some false⟩ := by
  intro crs handler; cases crs <;> cases handler <;> decide +kernel
example : |dec 20971522 (-1) - value .b32 0x4A000001| = |dec 20971523 (-1) - value .b32 0x4A000001| ∧
    dec 20971522 (-1) ≠ dec 20971523 (-1) := by
  have h1 : (0x4A000001 : Nat) / 2 ^ 23 = 148 := by decide
  have h2 : (0x4A000001 : Nat) % 2 ^ 23 = 1 := by decide
  simp only [value, Spec.mantBits, Spec.ulpExp, h1, h2, dec]
  norm_num [abs]

/-! ## C06 -/

/-- **C06**, round trip: in the directed modes that round away from zero. -/
theorem C06_roundtrip_away (cfg : Cfg) (F : Fmt) (rs : Bool) (x : Nat) (mode : RoundingMode) (crs : Crs)
    (handler : CaseHandler) (h : FiniteNonzero F x) (hm : IsAway (isNeg F x) mode = true) :
    ∃ r, grisu_exact cfg F rs x mode crs handler = .ok r ∧
      RoundsTo F mode (isNeg F x) (dec r.significand r.exponent) (mag F x) ∧
      value F (mag F x - 1) < dec r.significand r.exponent ∧
      dec r.significand r.exponent ≤ value F (mag F x) := by
  obtain ⟨s, t, h1, h2⟩ := main cfg rs handler crs h (not_truncating_away hm)
  have h3 : Spec.AwayFromZero F (dec s t) (mag F x) := by
    have := h2.mem
    unfold Reads at this
    generalize isNeg F x = neg at *
    cases mode <;> simp_all [IsAway, RoundsTo]
  exact ⟨_, h1, h2.mem, h3.2.2.1, h3.2.2.2⟩

/-- **C06**, shortest. -/
theorem C06_shortest_away (cfg : Cfg) (F : Fmt) (rs : Bool) (x : Nat) (mode : RoundingMode) (crs : Crs)
    (handler : CaseHandler) (h : FiniteNonzero F x) (hm : IsAway (isNeg F x) mode = true) :
    ∃ r, grisu_exact cfg F rs x mode crs handler = .ok r ∧
      ∀ s' t', RoundsTo F mode (isNeg F x) (dec s' t') (mag F x) → numDigits r.significand ≤ numDigits s' := by
  obtain ⟨s, t, h1, h2⟩ := main cfg rs handler crs h (not_truncating_away hm)
  exact ⟨_, h1, fun s' t' h' => h2.shortest (reads_interval h mode) h'⟩

/-- **C06**, closest: every other decimal with as many digits (or fewer) that reads back as `x` is
strictly farther from `x`. -/
theorem C06_closest_away (cfg : Cfg) (F : Fmt) (rs : Bool) (x : Nat) (mode : RoundingMode) (crs : Crs)
    (handler : CaseHandler) (h : FiniteNonzero F x) (hm : IsAway (isNeg F x) mode = true) :
    ∃ r, grisu_exact cfg F rs x mode crs handler = .ok r ∧
      ∀ s' t', RoundsTo F mode (isNeg F x) (dec s' t') (mag F x) → numDigits s' ≤ numDigits r.significand →
        (s', t') ≠ (r.significand, r.exponent) →
        |dec r.significand r.exponent - value F (mag F x)| < |dec s' t' - value F (mag F x)| := by
  obtain ⟨s, t, h1, h2, h3⟩ := main_top cfg rs handler h (crs := crs) (Or.inr hm) (by simp [not_truncating_away hm])
  refine ⟨_, h1, fun s' t' h' hd hne => ?_⟩
  obtain ⟨g1, g2⟩ := closest_away h hm h2 h3 h' hd
  rcases g1.lt_or_eq with g | g
  · exact g
  · exact absurd (g2 g) hne

-- the float nearest to 0.1 is above 0.1: rounding up from below, the shortest decimal is 0.1 itself
example : FiniteNonzero .b32 0x3DCCCCCD ∧ IsAway (isNeg .b32 0x3DCCCCCD) .toward_plus_infinity = true :=
  ⟨⟨by decide, by decide, by decide⟩, rfl⟩
example : grisu_exact ⟨true, false⟩ .b32 true 0x3DCCCCCD .toward_plus_infinity .tie_to_even .assert_finite =
    .ok ⟨1, -1, some false⟩ := by decide +kernel

/-! ## C11 -/

/-- **C11**: with `do_not_care` the result reads back as `x`, is shortest, and is the largest decimal
with its exponent that reads back as `x`. -/
theorem C11_do_not_care (cfg : Cfg) (F : Fmt) (rs : Bool) (x : Nat) (mode : RoundingMode)
    (handler : CaseHandler) (h : FiniteNonzero F x) (hm : IsTruncating (isNeg F x) mode = false) :
    ∃ r, grisu_exact cfg F rs x mode .do_not_care handler = .ok r ∧
      RoundsTo F mode (isNeg F x) (dec r.significand r.exponent) (mag F x) ∧
      (∀ s' t', RoundsTo F mode (isNeg F x) (dec s' t') (mag F x) → numDigits r.significand ≤ numDigits s') ∧
      (∀ s', RoundsTo F mode (isNeg F x) (dec s' r.exponent) (mag F x) → s' ≤ r.significand) := by
  obtain ⟨s, t, h1, h2, h3⟩ := main_top cfg rs handler h (crs := .do_not_care) (mode := mode) (Or.inl rfl)
    (by simp [hm])
  exact ⟨_, h1, h2.mem, fun s' t' h' => h2.shortest (reads_interval h mode) h', fun s' h' => h3 s' h'⟩

-- 5e-324 is not the largest one-digit decimal that reads back as the smallest double
example : FiniteNonzero .b64 1 := ⟨by decide, by decide, by decide⟩
example : grisu_exact ⟨true, false⟩ .b64 true 1 .nearest_to_even .do_not_care .assert_finite =
    .ok ⟨7, -324, some false⟩ := by decide +kernel

/-! ## C14 -/

/-- **C14**: the significand is nonzero and has no trailing zero. -/
theorem C14_no_trailing_zero (cfg : Cfg) (F : Fmt) (rs : Bool) (x : Nat) (mode : RoundingMode) (crs : Crs)
    (handler : CaseHandler) (h : FiniteNonzero F x) (hm : IsTruncating (isNeg F x) mode = false) :
    ∃ r, grisu_exact cfg F rs x mode crs handler = .ok r ∧ r.significand ≠ 0 ∧ r.significand % 10 ≠ 0 := by
  obtain ⟨s, t, h1, h2⟩ := main cfg rs handler crs h hm
  have hp := h2.pos (reads_interval h mode)
  exact ⟨_, h1, by simp; omega, h2.no_trailing_zero⟩

-- 1e22 as a double
example : FiniteNonzero .b64 0x4480F0CF064DD592 := ⟨by decide, by decide, by decide⟩
example : grisu_exact ⟨true, false⟩ .b64 true 0x4480F0CF064DD592 .nearest_to_even .tie_to_even .assert_finite =
    .ok ⟨1, 22, some false⟩ := by decide +kernel

/-! ## C15 -/

/-- **C15**: at most 9 digits for `float`, at most 17 for `double`. -/
theorem C15_digits (cfg : Cfg) (F : Fmt) (rs : Bool) (x : Nat) (mode : RoundingMode) (crs : Crs)
    (handler : CaseHandler) (h : FiniteNonzero F x) (hm : IsTruncating (isNeg F x) mode = false) :
    ∃ r, grisu_exact cfg F rs x mode crs handler = .ok r ∧
      r.significand < (match (generalizing := false) F with | .b32 => 10 ^ 9 | .b64 => 10 ^ 17) := by
  obtain ⟨s, t, h1, h2⟩ := main cfg rs handler crs h hm
  rw [reads_eq h] at h2
  have h3 := digits_bound _ (FiniteNonzero.input h) h2
  refine ⟨_, h1, ?_⟩
  have := numDigits_le_iff.mp h3
  cases F <;> simpa [maxDigits] using this

-- a double that needs 17 digits
example : FiniteNonzero .b64 0x4340000000000001 := ⟨by decide, by decide, by decide⟩
example : grisu_exact ⟨true, false⟩ .b64 true 0x7FEFFFFFFFFFFFFF .nearest_to_even .tie_to_even .assert_finite =
    .ok ⟨17976931348623157, 292, some false⟩ := by decide +kernel

/-! ## C16 -/

/-- **C16**: the exponent of the scientific notation is in `[-45, 38]` for `float` and `[-324, 308]` for
`double`. -/
theorem C16_exponent (cfg : Cfg) (F : Fmt) (rs : Bool) (x : Nat) (mode : RoundingMode) (crs : Crs)
    (handler : CaseHandler) (h : FiniteNonzero F x) (hm : IsTruncating (isNeg F x) mode = false) :
    ∃ r, grisu_exact cfg F rs x mode crs handler = .ok r ∧
      match (generalizing := false) F with
      | .b32 => -45 ≤ r.exponent + numDigits r.significand - 1 ∧ r.exponent + numDigits r.significand - 1 ≤ 38
      | .b64 => -324 ≤ r.exponent + numDigits r.significand - 1 ∧ r.exponent + numDigits r.significand - 1 ≤ 308 := by
  obtain ⟨s, t, h1, h2⟩ := main cfg rs handler crs h hm
  rw [reads_eq h] at h2
  have h3 := sciExp_bounds _ h h2
  refine ⟨_, h1, ?_⟩
  cases F <;> simpa [minSci, maxSci] using h3

-- both ends occur
example : FiniteNonzero .b32 1 ∧ FiniteNonzero .b32 0x7F7FFFFF :=
  ⟨⟨by decide, by decide, by decide⟩, ⟨by decide, by decide, by decide⟩⟩
example : grisu_exact ⟨true, false⟩ .b32 true 1 .nearest_to_even .tie_to_even .assert_finite =
    .ok ⟨1, -45, some false⟩ := by decide +kernel
example : grisu_exact ⟨true, false⟩ .b32 true 0x7F7FFFFF .nearest_to_even .tie_to_even .assert_finite =
    .ok ⟨34028235, 31, some false⟩ := by decide +kernel

/-! ## C17 -/

/-- **C17**: the x86-64 and the portable code, with asserts enabled or not, return the same result. -/
theorem C17_portable (cfg cfg' : Cfg) (F : Fmt) (rs : Bool) (x : Nat) (mode : RoundingMode) (crs : Crs)
    (handler : CaseHandler) (h : FiniteNonzero F x) (hm : IsTruncating (isNeg F x) mode = false) :
    ∃ r, grisu_exact cfg F rs x mode crs handler = .ok r ∧ grisu_exact cfg' F rs x mode crs handler = .ok r := by
  obtain ⟨s, t, h1, h2⟩ := main_unique cfg cfg' rs rs handler handler crs h hm
  exact ⟨_, h1, h2⟩

example : FiniteNonzero .b64 0x3FB999999999999A ∧ (⟨true, true⟩ : Cfg) ≠ ⟨false, false⟩ :=
  ⟨⟨by decide, by decide, by decide⟩, by decide⟩

/-! ## C25 -/

/-- **C25**: inputs with the same result are equal, whatever the policies and configurations used. -/
theorem C25_injective (cfg cfg' : Cfg) (F : Fmt) (x y : Nat) (mode : RoundingMode) (crs crs' : Crs)
    (handler handler' : CaseHandler) (hx : FiniteNonzero F x) (hy : FiniteNonzero F y)
    (hmx : IsTruncating (isNeg F x) mode = false) (hmy : IsTruncating (isNeg F y) mode = false) :
    ∃ r r', grisu_exact cfg F true x mode crs handler = .ok r ∧
      grisu_exact cfg' F true y mode crs' handler' = .ok r' ∧ (r = r' → x = y) := by
  obtain ⟨s, t, h1, h2⟩ := main cfg true handler crs hx hmx
  obtain ⟨s', t', h1', h2'⟩ := main cfg' true handler' crs' hy hmy
  refine ⟨_, _, h1, h1', fun he => ?_⟩
  simp only [FpT.mk.injEq, if_true, Option.some.injEq] at he
  obtain ⟨rfl, rfl, hs⟩ := he
  refine eq_of_mag hx hy hs ?_
  have g1 := h2.mem
  have g2 := h2'.mem
  unfold Reads at g1 g2
  rw [hs] at g1
  exact Spec.RoundsTo.unique g1 g2

example : FiniteNonzero .b64 0x3FB999999999999A ∧ FiniteNonzero .b64 0xBFB999999999999B ∧
    IsTruncating (isNeg .b64 0x3FB999999999999A) .nearest_toward_zero = false ∧
    IsTruncating (isNeg .b64 0xBFB999999999999B) .nearest_toward_zero = false :=
  ⟨⟨by decide, by decide, by decide⟩, ⟨by decide, by decide, by decide⟩, rfl, rfl⟩

/-! ## C26 -/

/-- **C26**: for numbers of the same sign, the larger magnitude has the larger decimal; the policies
and configurations may differ. -/
theorem C26_monotone (cfg cfg' : Cfg) (F : Fmt) (x y : Nat) (mode : RoundingMode) (crs crs' : Crs)
    (handler handler' : CaseHandler) (hx : FiniteNonzero F x) (hy : FiniteNonzero F y)
    (hs : isNeg F x = isNeg F y) (hlt : value F (mag F x) < value F (mag F y))
    (hm : IsTruncating (isNeg F x) mode = false) :
    ∃ r r', grisu_exact cfg F true x mode crs handler = .ok r ∧
      grisu_exact cfg' F true y mode crs' handler' = .ok r' ∧
      dec r.significand r.exponent < dec r'.significand r'.exponent := by
  obtain ⟨s, t, h1, h2⟩ := main cfg true handler crs hx hm
  obtain ⟨s', t', h1', h2'⟩ := main cfg' true handler' crs' hy (hs ▸ hm)
  exact ⟨_, _, h1, h1', reads_lt hx hy hs (Spec.value_strictMono.lt_iff_lt.mp hlt) h2.mem h2'.mem⟩

-- two neighbouring floats
example : FiniteNonzero .b32 0x3DCCCCCD ∧ FiniteNonzero .b32 0x3DCCCCCE ∧
    isNeg .b32 0x3DCCCCCD = isNeg .b32 0x3DCCCCCE :=
  ⟨⟨by decide, by decide, by decide⟩, ⟨by decide, by decide, by decide⟩, rfl⟩
example : value .b32 (mag .b32 0x3DCCCCCD) < value .b32 (mag .b32 0x3DCCCCCE) :=
  Spec.value_strictMono (by decide)

end Grisu

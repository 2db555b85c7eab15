import Verif.Properties.Best
import Verif.Properties.TruncatingExact

/-! # C89: no decimal of the output's length lies between input and output -/

namespace Grisu

open Spec (RoundsTo value mag isNeg FiniteNonzero dec numDigits IsNearest IsAway IsTruncating IsScale StopsEarly
  AllOnesSignificand exponentField farFields)

theorem between_of_closest {F : Fmt} {x : Nat} {mode : RoundingMode} {s : Nat} {t : Int} (h : FiniteNonzero F x)
    (hm : RoundsTo F mode (isNeg F x) (dec s t) (mag F x))
    (hc : ∀ s' t', RoundsTo F mode (isNeg F x) (dec s' t') (mag F x) → numDigits s' ≤ numDigits s →
      |dec s t - value F (mag F x)| ≤ |dec s' t' - value F (mag F x)|)
    (s' : Nat) (t' : Int) (hd : numDigits s' ≤ numDigits s) :
    (dec s' t' ≤ value F (mag F x) → dec s' t' ≤ dec s t) ∧ (value F (mag F x) ≤ dec s' t' → dec s t ≤ dec s' t') := by
  have hI : Interval? (Reads F mode x) := reads_interval h mode
  have hv : Reads F mode x (value F (mag F x)) := value_reads h mode
  constructor
  · intro h1
    by_contra h2
    rw [not_le] at h2
    have := hc s' t' (hI.convex _ _ _ hm hv h2.le h1) hd
    rw [abs_of_nonpos (by linarith), abs_of_nonpos (by linarith)] at this
    linarith
  · intro h1
    by_contra h2
    rw [not_le] at h2
    have := hc s' t' (hI.convex _ _ _ hv hm h1 h2.le) hd
    rw [abs_of_nonneg (by linarith), abs_of_nonneg (by linarith)] at this
    linarith

/-- **C89**: in the to-nearest modes with a tie policy, and in the modes that round away from zero, no decimal with at most
as many digits as the output lies between the input and the output: the output is the input rounded down, or up, to its
number of digits.  In particular this holds for the powers of ten, which have one digit. -/
theorem C89_between (cfg : Cfg) (F : Fmt) (rs : Bool) (x : Nat) (mode : RoundingMode) (crs : Crs)
    (handler : CaseHandler) (h : FiniteNonzero F x)
    (hm : IsNearest mode = true ∧ crs ≠ .do_not_care ∨ IsAway (isNeg F x) mode = true) :
    ∃ r, grisu_exact cfg F rs x mode crs handler = .ok r ∧
      ∀ s' t', numDigits s' ≤ numDigits r.significand →
        (dec s' t' ≤ value F (mag F x) → dec s' t' ≤ dec r.significand r.exponent) ∧
        (value F (mag F x) ≤ dec s' t' → dec r.significand r.exponent ≤ dec s' t') := by
  rcases hm with ⟨hm, hc⟩ | hm
  · obtain ⟨r, h1, h2⟩ := C04_closest_nearest cfg F rs x mode crs handler h hm hc
    obtain ⟨r', h1', h3⟩ := C02_roundtrip_nearest cfg F rs x mode crs handler h hm
    rw [h1] at h1'
    cases h1'
    exact ⟨r, h1, between_of_closest h h3 h2⟩
  · obtain ⟨r, h1, h2⟩ := C06_closest_away cfg F rs x mode crs handler h hm
    obtain ⟨r', h1', h3, -⟩ := C06_roundtrip_away cfg F rs x mode crs handler h hm
    rw [h1] at h1'
    cases h1'
    refine ⟨r, h1, between_of_closest h h3 fun s' t' hr hd => ?_⟩
    by_cases he : (s', t') = (r.significand, r.exponent)
    · cases he
      exact le_rfl
    · exact (h2 s' t' hr hd he).le

/-- In a mode that truncates, what reads back as `x` is not below `x`. -/
theorem truncating_between {F : Fmt} {x : Nat} {mode : RoundingMode} {s : Nat} {t : Int} (h : FiniteNonzero F x)
    (ht : IsTruncating (isNeg F x) mode = true) (hm : RoundsTo F mode (isNeg F x) (dec s t) (mag F x)) :
    (∀ s' t', numDigits s' ≤ numDigits s → value F (mag F x) ≤ dec s' t' → dec s t ≤ dec s' t') ↔
    ∀ s' t', RoundsTo F mode (isNeg F x) (dec s' t') (mag F x) → numDigits s' ≤ numDigits s →
      |dec s t - value F (mag F x)| ≤ |dec s' t' - value F (mag F x)| := by
  have hge : ∀ v, RoundsTo F mode (isNeg F x) v (mag F x) → value F (mag F x) ≤ v := by
    intro v hv
    have hn : Reads F mode x v := hv
    rw [reads_eq h, provider_left ht] at hn
    rw [value_mag (FiniteNonzero.lt h)]
    rcases hn.1 with h | h
    · exact h.le
    · exact h.1.le
  constructor
  · intro hb s' t' hr hd
    have h1 := hge _ hr
    have h2 := hge _ hm
    rw [abs_of_nonneg (by linarith), abs_of_nonneg (by linarith)]
    linarith [hb s' t' hd h1]
  · exact fun hc s' t' hd => (between_of_closest h hm hc s' t' hd).2

/-- **C89** in the modes that truncate, whose output is not below the input: no decimal with at most as many digits lies
between them, in other words the output is the input rounded up to its number of digits, if and only if the search for the
closest decimal does not stop early (compare C09). -/
theorem C89_truncating (cfg : Cfg) (F : Fmt) (rs : Bool) (x : Nat) (mode : RoundingMode) (crs : Crs)
    (handler : CaseHandler) (h : FiniteNonzero F x) (hm : IsTruncating (isNeg F x) mode = true)
    (hc : crs ≠ .do_not_care) (hx : ¬ (AllOnesSignificand F x ∧ exponentField F x ≠ 0)) (r : FpT)
    (hr : grisu_exact cfg F rs x mode crs handler = .ok r) (g : ℚ) (hg : IsScale F x g) (s0 : Nat)
    (h0 : RoundsTo F mode (isNeg F x) (dec s0 r.exponent) (mag F x))
    (h0' : ∀ n, RoundsTo F mode (isNeg F x) (dec n r.exponent) (mag F x) → n ≤ s0) :
    (∀ s' t', numDigits s' ≤ numDigits r.significand → value F (mag F x) ≤ dec s' t' →
      dec r.significand r.exponent ≤ dec s' t') ↔ ¬ StopsEarly F x g s0 r.exponent :=
  (truncating_between h hm (truncating_ok h hm hr).1).trans
    (C09_iff cfg F rs x mode crs handler h hm hc hx r hr g hg s0 h0 h0')

/-- **C89** in the modes that truncate, for normal numbers whose significand is all ones. -/
theorem C89_truncating_ones (cfg : Cfg) (F : Fmt) (rs : Bool) (x : Nat) (mode : RoundingMode) (crs : Crs)
    (handler : CaseHandler) (h : FiniteNonzero F x) (hm : IsTruncating (isNeg F x) mode = true)
    (hc : crs ≠ .do_not_care) (hx : AllOnesSignificand F x) (h0 : exponentField F x ≠ 0) (r : FpT)
    (hr : grisu_exact cfg F rs x mode crs handler = .ok r) :
    (∀ s' t', numDigits s' ≤ numDigits r.significand → value F (mag F x) ≤ dec s' t' →
      dec r.significand r.exponent ≤ dec s' t') ↔ exponentField F x ∉ farFields F :=
  (truncating_between h hm (truncating_ok h hm hr).1).trans
    (C09_iff_ones cfg F rs x mode crs handler h hm hc hx h0 r hr)

-- 0x40FFFFFF is 7.9999995231628..., its output 7.9999997, and 7.9999996 lies between; 0x4EFFFFFF is 2147483520 and its
-- output 2147483600
example : FiniteNonzero .b32 0x40FFFFFF ∧ IsTruncating (isNeg .b32 0x40FFFFFF) .toward_zero = true ∧
    AllOnesSignificand .b32 0x40FFFFFF ∧ exponentField .b32 0x40FFFFFF ∈ farFields .b32 :=
  ⟨⟨by decide, by decide, by decide⟩, by decide, by unfold AllOnesSignificand; decide, by decide⟩
example : FiniteNonzero .b32 0x4EFFFFFF ∧ AllOnesSignificand .b32 0x4EFFFFFF ∧ exponentField .b32 0x4EFFFFFF ∉ farFields .b32 :=
  ⟨⟨by decide, by decide, by decide⟩, by unfold AllOnesSignificand; decide, by decide⟩
example : grisu_exact ⟨false, true⟩ .b32 true 0x40FFFFFF .toward_zero .tie_to_even .assert_finite =
    .ok ⟨79999997, -7, some false⟩ := by decide +kernel
example : value .b32 0x40FFFFFF ≤ dec 79999996 (-7) ∧ dec 79999996 (-7) < dec 79999997 (-7) := by
  rw [show value .b32 0x40FFFFFF = ((2 ^ 24 - 1 : Nat) : ℚ) * 2 ^ (-21 : Int) from Spec.value_eq _]
  norm_num [dec]
example : grisu_exact ⟨true, false⟩ .b32 true 0x4EFFFFFF .toward_zero .tie_to_even .assert_finite =
    .ok ⟨21474836, 2, some false⟩ := by decide +kernel

/-- **C89**, the exponent printed: the text `d.dddE e` has the order of magnitude of the input, `10^e ≤ |x| < 10^(e+1)`,
except that the input may be smaller than `10^e` if the text is `1Ee`; when rounding away from zero, not even then. -/
theorem C89_exponent (cfg : Cfg) (F : Fmt) (x : Nat) (mode : RoundingMode) (crs : Crs) (h : FiniteNonzero F x)
    (hm : IsNearest mode = true ∧ crs ≠ .do_not_care ∨ IsAway (isNeg F x) mode = true) :
    ∃ (s : Nat) (t e : Int), e = t + numDigits s - 1 ∧ Spec.Prints cfg F x mode crs (Spec.sci (isNeg F x) s t) ∧
      value F (mag F x) < 10 ^ (e + 1) ∧
      (10 ^ e ≤ value F (mag F x) ∨ s = 1 ∧ t = e ∧ IsAway (isNeg F x) mode = false) := by
  obtain ⟨r, h1, h2⟩ := C89_between cfg F false x mode crs .assert_finite h hm
  have ht : IsTruncating (isNeg F x) mode = false := hm.elim (fun h => not_truncating h.1) not_truncating_away
  obtain ⟨r', h1', h3, h4⟩ := C14_no_trailing_zero cfg F false x mode crs .assert_finite h ht
  rw [h1] at h1'
  cases h1'
  have hpos : 0 < r.significand := Nat.pos_of_ne_zero h3
  have hn : 1 ≤ numDigits r.significand := numDigits_pos hpos
  have h1d : numDigits 1 ≤ numDigits r.significand := by
    rw [show numDigits 1 = 1 by decide]
    exact hn
  refine ⟨r.significand, r.exponent, _, rfl, prints_finite h h1, ?_, ?_⟩
  · by_contra hc
    rw [not_lt] at hc
    have := (h2 1 (r.exponent + numDigits r.significand) h1d).1 (by
      rw [dec_one]
      rwa [show r.exponent + (numDigits r.significand : Int) - 1 + 1 = r.exponent + numDigits r.significand by ring] at hc)
    rw [dec_one] at this
    exact absurd this (not_le.mpr (dec_lt_pow _ _))
  · by_cases hc : 10 ^ (r.exponent + numDigits r.significand - 1) ≤ value F (mag F x)
    · exact Or.inl hc
    · right
      have h5 := (h2 1 (r.exponent + numDigits r.significand - 1) h1d).2 (by rw [dec_one]; exact (not_le.mp hc).le)
      have h6 : dec r.significand r.exponent = dec 1 (r.exponent + numDigits r.significand - 1) := by
        refine le_antisymm h5 ?_
        rw [dec_one]
        exact pow_le_dec hpos _
      -- a power of ten without trailing zeros is 1
      have h7 : r.significand = 10 ^ (numDigits r.significand - 1) := by
        have e : dec 1 (r.exponent + numDigits r.significand - 1) =
            dec (1 * 10 ^ (numDigits r.significand - 1)) r.exponent := by
          rw [← dec_shift]
          congr 1
          omega
        rw [e, one_mul] at h6
        exact le_antisymm (dec_le_dec.mp h6.le) (dec_le_dec.mp h6.ge)
      have h8 : numDigits r.significand = 1 := by
        by_contra hne
        obtain ⟨k, hk⟩ : ∃ k, numDigits r.significand - 1 = k + 1 := ⟨numDigits r.significand - 2, by omega⟩
        rw [hk, pow_succ] at h7
        rw [h7, Nat.mul_mod_left] at h4
        exact h4 rfl
      refine ⟨by rw [h7, h8]; rfl, by omega, ?_⟩
      by_contra hne
      obtain ⟨r', h9, -, -, h10⟩ := C06_roundtrip_away cfg F false x mode crs .assert_finite h (by simpa using hne)
      rw [h1] at h9
      cases h9
      exact hc ((pow_le_dec hpos _).trans h10)

-- 1e23 as a double is below 10^23 and prints as 1E23
example : FiniteNonzero .b64 0x44B52D02C7E14AF6 ∧ IsNearest .nearest_to_even = true ∧ Crs.tie_to_even ≠ .do_not_care :=
  ⟨⟨by decide, by decide, by decide⟩, rfl, by decide⟩
example : grisu_exact ⟨true, false⟩ .b64 false 0x44B52D02C7E14AF6 .nearest_to_even .tie_to_even .assert_finite =
    .ok ⟨1, 23, none⟩ := by decide +kernel
example : value .b64 0x44B52D02C7E14AF6 < 10 ^ (23 : Int) := by
  rw [show value .b64 0x44B52D02C7E14AF6 = ((5960464477539062 : Nat) : ℚ) * 2 ^ (24 : Int) from Spec.value_eq _]
  norm_num

end Grisu

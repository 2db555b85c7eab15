import Verif.Proofs.LastUnit
import Verif.Properties.Best

/-!
# The unit of the last digit

Property C99.
-/

namespace Grisu

open Spec

theorem output_of {cfg : Cfg} {F : Fmt} {rs : Bool} {x : Nat} {mode : RoundingMode} {crs : Crs} {handler : CaseHandler}
    {r : FpT} (h : FiniteNonzero F x) (hm : IsTruncating (isNeg F x) mode = true → ¬ NotShortest F x)
    (hr : grisu_exact cfg F rs x mode crs handler = .ok r) : Output (Reads F mode x) r.significand r.exponent := by
  cases ht : IsTruncating (isNeg F x) mode with
  | false => exact main_ok h ht hr
  | true => exact (truncating_ok h ht hr).2.2.1 (hm ht)

/-- **C99**: the unit of the last digit is more than a tenth of the distance to the next number toward zero. -/
theorem C99_unit (cfg : Cfg) (F : Fmt) (rs : Bool) (x : Nat) (mode : RoundingMode) (crs : Crs) (handler : CaseHandler)
    (r : FpT) (h : FiniteNonzero F x) (hm : IsTruncating (isNeg F x) mode = true → ¬ NotShortest F x)
    (hr : grisu_exact cfg F rs x mode crs handler = .ok r) :
    (value F (mag F x) - value F (mag F x - 1)) / 10 < 10 ^ r.exponent := by
  have := last_core h (output_of h hm hr)
  rw [zpow_add_one₀ (by norm_num)] at this
  linarith

/-- **C99**: a multiple of a power of ten is converted to a multiple of it; in particular, integers to integers. -/
theorem C99_multiple (cfg : Cfg) (F : Fmt) (rs : Bool) (x : Nat) (mode : RoundingMode) (crs : Crs) (handler : CaseHandler)
    (r : FpT) (h : FiniteNonzero F x) (hm : IsTruncating (isNeg F x) mode = true → ¬ NotShortest F x)
    (hr : grisu_exact cfg F rs x mode crs handler = .ok r) (n : Nat) (k : Int) (hn : value F (mag F x) = n * 10 ^ k) :
    k ≤ r.exponent :=
  multiple_core h (output_of h hm hr) hn

/-- **C99**: a subnormal number, `m` times the smallest one, is converted with at most one digit more than `m` has, in every
mode. -/
theorem C99_subnormal (cfg : Cfg) (F : Fmt) (rs : Bool) (x : Nat) (mode : RoundingMode) (crs : Crs) (handler : CaseHandler)
    (r : FpT) (h : FiniteNonzero F x) (subnormal : mag F x < 2 ^ mantBits F)
    (hr : grisu_exact cfg F rs x mode crs handler = .ok r) : numDigits r.significand ≤ numDigits (mag F x) + 1 := by
  have hE : exponentField F x = 0 := Nat.div_eq_of_lt subnormal
  have hm : IsTruncating (isNeg F x) mode = true → ¬ NotShortest F x := by
    intro _ hx
    have := hx.2
    rw [hE] at this
    revert this
    cases F <;> decide
  have o := output_of h hm hr
  have hu := C99_unit cfg F rs x mode crs handler r h hm hr
  have hnear := reads_near h o.mem
  have h0 := h.nonzero
  have hsg : sg F (mag F x) = mag F x := by
    unfold sg
    rw [show mag F x / 2 ^ mantBits F = 0 from hE, if_pos rfl]
    exact Nat.mod_eq_of_lt subnormal
  have hcl : ¬ Closer F (mag F x) := by
    intro hc
    have := hc.2
    rw [show mag F x / 2 ^ mantBits F = 0 from hE] at this
    omega
  rw [value_pred_generic h0 hcl, value_eq, hsg] at hu
  rw [value_succ, value_eq, hsg] at hnear
  have hlt := (abs_lt.mp hnear).2
  have hp : (0 : ℚ) < 2 ^ ex F (mag F x) := zpow_pos (by norm_num) _
  have hT := ten_zpow_pos r.exponent
  have key : (r.significand : ℚ) < 10 * (mag F x + 1 : Nat) := by
    by_contra hc
    have hc := not_lt.mp hc
    have e1 : dec r.significand r.exponent = r.significand * 10 ^ r.exponent := rfl
    rw [e1] at hlt
    push_cast at hc
    have e2 := mul_le_mul_of_nonneg_right hc hT.le
    have e3 : (10 * ((mag F x : ℚ) + 1)) * (2 ^ ex F (mag F x) / 10) ≤ 10 * ((mag F x : ℚ) + 1) * 10 ^ r.exponent :=
      mul_le_mul_of_nonneg_left (by linarith) (by positivity)
    linarith
  have key' : r.significand < 10 * (mag F x + 1) := by exact_mod_cast key
  rw [numDigits_le_iff, pow_succ]
  have := numDigits_le_iff.mp (le_refl (numDigits (mag F x)))
  omega

/-! ### Cases -/

-- 2⁴² + 21·2⁻¹⁰: the unit 10⁻⁴ of the last digit is about 0.1024 times the distance 2⁻¹⁰ to the number below
example (cfg : Cfg) : FiniteNonzero .b64 0x4290000000000015 ∧
    grisu_exact cfg .b64 false 0x4290000000000015 .nearest_to_even .tie_to_even .assert_finite =
      .ok ⟨43980465111040205, -4, none⟩ ∧
    value .b64 (mag .b64 0x4290000000000015) - value .b64 (mag .b64 0x4290000000000015 - 1) = 2 ^ (-10 : Int) := by
  have b0 : value .b64 (mag .b64 0x4290000000000015) = ((4503599627370517 : Nat) : ℚ) * 2 ^ (-10 : Int) := value_eq _
  have b1 : value .b64 (mag .b64 0x4290000000000015 - 1) = ((4503599627370516 : Nat) : ℚ) * 2 ^ (-10 : Int) := value_eq _
  refine ⟨⟨by decide, by decide, by decide⟩, ?_, ?_⟩
  · obtain ⟨x64, ndebug⟩ := cfg
    cases x64 <;> cases ndebug <;> decide +kernel
  · rw [b0, b1]; norm_num

-- 2⁵³ + 2 is an integer, and toward zero it is converted to an integer (not to itself, see C09)
example (cfg : Cfg) : FiniteNonzero .b64 0x4340000000000001 ∧ ¬ NotShortest .b64 0x4340000000000001 ∧
    grisu_exact cfg .b64 false 0x4340000000000001 .toward_zero .tie_to_even .assert_finite =
      .ok ⟨9007199254740995, 0, none⟩ ∧
    value .b64 (mag .b64 0x4340000000000001) = (9007199254740994 : Nat) * 10 ^ (0 : Int) := by
  have b0 : value .b64 (mag .b64 0x4340000000000001) = ((4503599627370497 : Nat) : ℚ) * 2 ^ (1 : Int) := value_eq _
  refine ⟨⟨by decide, by decide, by decide⟩, ?_, ?_, ?_⟩
  · exact fun hx => absurd hx.1 (by unfold AllOnesSignificand; decide)
  · obtain ⟨x64, ndebug⟩ := cfg
    cases x64 <;> cases ndebug <;> decide +kernel
  · rw [b0]; norm_num

-- nine times the smallest `double` is converted with two digits
example (cfg : Cfg) : FiniteNonzero .b64 9 ∧ mag .b64 9 < 2 ^ mantBits .b64 ∧
    grisu_exact cfg .b64 false 9 .nearest_to_even .tie_to_even .assert_finite = .ok ⟨44, -324, none⟩ ∧
    numDigits 44 = numDigits (mag .b64 9) + 1 := by
  refine ⟨⟨by decide, by decide, by decide⟩, by decide, ?_, by decide +kernel⟩
  obtain ⟨x64, ndebug⟩ := cfg
  cases x64 <;> cases ndebug <;> decide +kernel

end Grisu

import Verif.Proofs.Best
import Verif.Properties.Nearest
import Verif.Properties.Truncating

/-!
# How far the decimal is from the number

Property C101.
-/

namespace Grisu

open Spec

theorem reads_of_ok {cfg : Cfg} {F : Fmt} {rs : Bool} {x : Nat} {mode : RoundingMode} {crs : Crs} {handler : CaseHandler}
    {r : FpT} (h : FiniteNonzero F x) (hr : grisu_exact cfg F rs x mode crs handler = .ok r) :
    Reads F mode x (dec r.significand r.exponent) := by
  cases ht : IsTruncating (isNeg F x) mode with
  | false => exact (main_ok h ht hr).mem
  | true => exact (truncating_ok h ht hr).1

/-- The distance to the next number of a normal number. -/
theorem gap_normal {F : Fmt} {m : Nat} (hm : 2 ^ mantBits F ≤ m) : value F (m + 1) - value F m ≤ value F m / 2 ^ mantBits F := by
  have hq : m / 2 ^ mantBits F ≠ 0 := by
    have := Nat.div_pos hm (by positivity)
    omega
  have hs : 2 ^ mantBits F ≤ sg F m := by
    unfold sg
    rw [if_neg hq]
    omega
  have hs' : (2 : ℚ) ^ mantBits F ≤ sg F m := by exact_mod_cast hs
  have hp := two_zpow_pos (ex F m)
  rw [value_succ, value_eq, le_div_iff₀ (by positivity)]
  nlinarith

theorem nearest_half {F : Fmt} {prefers : Nat → Nat → Prop} {v : ℚ} {m : Nat} (h0 : 0 < m) (h1 : m < infPattern F)
    (h : Spec.Nearest F prefers v m) :
    (value F (m - 1) - value F m) / 2 ≤ v - value F m ∧ v - value F m ≤ (value F (m + 1) - value F m) / 2 := by
  have a : |v - value F m| ≤ |v - value F (m - 1)| := by
    rcases h.2 (m - 1) (by omega) (by omega) with g | g
    · exact g.le
    · exact g.1.le
  have b : |v - value F m| ≤ |v - value F (m + 1)| := by
    rcases h.2 (m + 1) (by omega) (by omega) with g | g
    · exact g.le
    · exact g.1.le
  have up := Spec.value_lt_succ (F := F) m
  have dn : value F (m - 1) < value F m := Spec.value_strictMono (by omega)
  constructor
  · by_contra hc
    rw [abs_of_neg (by linarith)] at a
    rcases abs_cases (v - value F (m - 1)) with ⟨e, -⟩ | ⟨e, -⟩ <;> linarith
  · by_contra hc
    rw [abs_of_pos (by linarith)] at b
    rcases abs_cases (v - value F (m + 1)) with ⟨e, -⟩ | ⟨e, -⟩ <;> linarith

/-! ## C101 -/

/-- **C101**, to nearest: the decimal is at most half the way to the next floating-point number on either side. -/
theorem C101_half (cfg : Cfg) (F : Fmt) (rs : Bool) (x : Nat) (mode : RoundingMode) (crs : Crs) (handler : CaseHandler)
    (r : FpT) (h : FiniteNonzero F x) (hm : IsNearest mode = true)
    (hr : grisu_exact cfg F rs x mode crs handler = .ok r) :
    (value F (mag F x - 1) - value F (mag F x)) / 2 ≤ dec r.significand r.exponent - value F (mag F x) ∧
    dec r.significand r.exponent - value F (mag F x) ≤ (value F (mag F x + 1) - value F (mag F x)) / 2 := by
  have hb : RoundsTo F mode (isNeg F x) (dec r.significand r.exponent) (mag F x) := reads_of_ok h hr
  have h0 := h.nonzero
  have h1 := h.finite
  cases mode <;> first | exact absurd hm (by decide) | skip
  all_goals
    unfold RoundsTo at hb
    dsimp only at hb
    first
    | exact nearest_half h0 h1 hb
    | (split at hb <;> exact nearest_half h0 h1 hb)

/-- **C101**, relative error to nearest: for a normal number at most `2 ^ -24` (`float`) or `2 ^ -53` (`double`). -/
theorem C101_relative (cfg : Cfg) (F : Fmt) (rs : Bool) (x : Nat) (mode : RoundingMode) (crs : Crs) (handler : CaseHandler)
    (r : FpT) (h : FiniteNonzero F x) (hn : 2 ^ mantBits F ≤ mag F x) (hm : IsNearest mode = true)
    (hr : grisu_exact cfg F rs x mode crs handler = .ok r) :
    |dec r.significand r.exponent - value F (mag F x)| ≤ value F (mag F x) / 2 ^ (mantBits F + 1) := by
  obtain ⟨a, b⟩ := C101_half cfg F rs x mode crs handler r h hm hr
  have g := gap_normal hn
  have gap := pred_gap (F := F) h.nonzero
  have e : value F (mag F x) / 2 ^ (mantBits F + 1) = value F (mag F x) / 2 ^ mantBits F / 2 := by
    rw [pow_succ, div_div]
  rw [e, abs_le]
  constructor <;> linarith

/-- **C101**, relative error in every mode: for a normal number less than `2 ^ -23` (`float`) or `2 ^ -52` (`double`). -/
theorem C101_relative_directed (cfg : Cfg) (F : Fmt) (rs : Bool) (x : Nat) (mode : RoundingMode) (crs : Crs)
    (handler : CaseHandler) (r : FpT) (h : FiniteNonzero F x) (hn : 2 ^ mantBits F ≤ mag F x)
    (hr : grisu_exact cfg F rs x mode crs handler = .ok r) :
    |dec r.significand r.exponent - value F (mag F x)| < value F (mag F x) / 2 ^ mantBits F :=
  lt_of_lt_of_le (reads_near h (reads_of_ok h hr)) (gap_normal hn)

/-- **C101**: the two directed modes enclose the number: what is printed for a reader that rounds upward is at most the number,
what is printed for a reader that rounds downward is at least the number, and neither is as far from it as the next
floating-point number. -/
theorem C101_enclose (cfg cfg' : Cfg) (F : Fmt) (rs rs' : Bool) (x : Nat) (crs crs' : Crs) (handler handler' : CaseHandler)
    (r r' : FpT) (h : FiniteNonzero F x)
    (hr : grisu_exact cfg F rs x .toward_plus_infinity crs handler = .ok r)
    (hr' : grisu_exact cfg' F rs' x .toward_minus_infinity crs' handler' = .ok r') :
    if isNeg F x then
      -value F (mag F x + 1) < -dec r.significand r.exponent ∧ -dec r.significand r.exponent ≤ -value F (mag F x) ∧
      -value F (mag F x) ≤ -dec r'.significand r'.exponent ∧ -dec r'.significand r'.exponent < -value F (mag F x - 1)
    else
      value F (mag F x - 1) < dec r.significand r.exponent ∧ dec r.significand r.exponent ≤ value F (mag F x) ∧
      value F (mag F x) ≤ dec r'.significand r'.exponent ∧ dec r'.significand r'.exponent < value F (mag F x + 1) := by
  have a : RoundsTo F .toward_plus_infinity (isNeg F x) (dec r.significand r.exponent) (mag F x) := reads_of_ok h hr
  have b : RoundsTo F .toward_minus_infinity (isNeg F x) (dec r'.significand r'.exponent) (mag F x) := reads_of_ok h hr'
  unfold RoundsTo at a b
  dsimp only at a b
  cases hs : isNeg F x with
  | true =>
    rw [hs, if_pos rfl] at a b
    rw [if_pos rfl]
    obtain ⟨-, a1, a2⟩ := a
    obtain ⟨-, -, b1, b2⟩ := b
    exact ⟨by linarith, by linarith, by linarith, by linarith⟩
  | false =>
    rw [hs, if_neg (by decide)] at a b
    rw [if_neg (by decide)]
    obtain ⟨-, -, a1, a2⟩ := a
    obtain ⟨-, b1, b2⟩ := b
    exact ⟨a1, a2, b1, b2⟩

/-! ### Cases -/

-- 2⁵⁴ + 8: the distance 2 is half the distance 4 to the next number on either side, so the bound of `C101_half` is attained
example (cfg : Cfg) : FiniteNonzero .b64 0x4350000000000002 ∧ 2 ^ mantBits .b64 ≤ mag .b64 0x4350000000000002 ∧
    grisu_exact cfg .b64 false 0x4350000000000002 .nearest_to_even .tie_to_even .assert_finite =
      .ok ⟨1801439850948199, 1, none⟩ ∧
    dec 1801439850948199 1 - value .b64 (mag .b64 0x4350000000000002) =
      (value .b64 (mag .b64 0x4350000000000002 - 1) - value .b64 (mag .b64 0x4350000000000002)) / 2 := by
  have b0 : value .b64 (mag .b64 0x4350000000000002) = ((4503599627370498 : Nat) : ℚ) * 2 ^ (2 : Int) := value_eq _
  have b1 : value .b64 (mag .b64 0x4350000000000002 - 1) = ((4503599627370497 : Nat) : ℚ) * 2 ^ (2 : Int) := value_eq _
  refine ⟨⟨by decide, by decide, by decide⟩, by decide, ?_, ?_⟩
  · obtain ⟨x64, ndebug⟩ := cfg
    cases x64 <;> cases ndebug <;> decide +kernel
  · rw [b0, b1]
    norm_num [dec]

-- the double 1.1 and the float -0.1 in the two directed modes
example (cfg : Cfg) : FiniteNonzero .b64 0x3FF199999999999A ∧
    grisu_exact cfg .b64 false 0x3FF199999999999A .toward_plus_infinity .tie_to_even .assert_finite = .ok ⟨11, -1, none⟩ ∧
    grisu_exact cfg .b64 false 0x3FF199999999999A .toward_minus_infinity .tie_to_even .assert_finite =
      .ok ⟨11000000000000001, -16, none⟩ := by
  refine ⟨⟨by decide, by decide, by decide⟩, ?_, ?_⟩
  all_goals
    obtain ⟨x64, ndebug⟩ := cfg
    cases x64 <;> cases ndebug <;> decide +kernel
example (cfg : Cfg) : FiniteNonzero .b32 0xBDCCCCCD ∧ isNeg .b32 0xBDCCCCCD = true ∧
    grisu_exact cfg .b32 false 0xBDCCCCCD .toward_plus_infinity .tie_to_even .assert_finite =
      .ok ⟨100000002, -9, none⟩ ∧
    grisu_exact cfg .b32 false 0xBDCCCCCD .toward_minus_infinity .tie_to_even .assert_finite = .ok ⟨1, -1, none⟩ := by
  refine ⟨⟨by decide, by decide, by decide⟩, by decide, ?_, ?_⟩
  all_goals
    obtain ⟨x64, ndebug⟩ := cfg
    cases x64 <;> cases ndebug <;> decide +kernel

end Grisu

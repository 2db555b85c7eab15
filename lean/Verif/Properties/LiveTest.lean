import Verif.Proofs.LiveTest

/-! # The decomposition shown by the interactive test -/

namespace Grisu
open Spec (value mag isNeg width mantBits infPattern)

/-! ## C66 -/

/-- **C66**: the decomposition of a normal number is its sign and its value, with the leading bit of the
significand set.  *Partial*: this fails for every subnormal number (`C66_subnormal`). -/
theorem C66_normal_partial (cfg : Cfg) (F : Fmt) (x : Nat) (hx : x < 2 ^ width F) (hn : 2 ^ mantBits F ≤ mag F x)
    (hf : mag F x < infPattern F) :
    ∃ r, decompose_float cfg F x = .ok r ∧ r.is_negative = some (isNeg F x) ∧
      (r.significand : ℚ) * 2 ^ r.exponent = value F (mag F x) ∧
      2 ^ (width F - 1) ≤ r.significand ∧ r.significand < 2 ^ width F := by
  have hz : mag F x / 2 ^ mantBits F ≠ 0 := by
    rw [Nat.div_ne_zero_iff]; exact ⟨by positivity, hn⟩
  refine ⟨_, decompose_float_eq cfg F x hx, rfl, decompose_value hz, ?_, ?_⟩
  · simp only [if_neg hz]; omega
  · simp only [if_neg hz]
    have := Nat.mod_lt (mag F x) (Nat.two_pow_pos (mantBits F))
    cases F <;> simp only [width, mantBits] at * <;> omega

-- -1.5; and the largest float
example : decompose_float ⟨true, false⟩ .b32 0xBFC00000 = .ok ⟨0xC0000000, -31, some true⟩ := by decide
example : 2 ^ mantBits .b32 ≤ mag .b32 0x7F7FFFFF ∧ mag .b32 0x7F7FFFFF < infPattern .b32 := by decide

/-- **C66**, negation: for a subnormal number or zero the decomposition is half of the value. -/
theorem C66_subnormal (cfg : Cfg) (F : Fmt) (x : Nat) (hx : x < 2 ^ width F) (hn : mag F x < 2 ^ mantBits F) :
    ∃ r, decompose_float cfg F x = .ok r ∧ r.is_negative = some (isNeg F x) ∧
      (r.significand : ℚ) * 2 ^ r.exponent = value F (mag F x) / 2 := by
  have hz : mag F x / 2 ^ mantBits F = 0 := Nat.div_eq_of_lt hn
  refine ⟨_, decompose_float_eq cfg F x hx, rfl, ?_⟩
  simp only [hz, value, zero_add, Nat.cast_zero]
  have he : Spec.ulpExp F - ((width F - mantBits F : Nat) : Int) = Spec.ulpExp F - (width F - mantBits F - 1 : Nat) - 1 := by
    cases F <;> decide
  rw [he, zpow_sub₀ (by norm_num), zpow_sub₀ (by norm_num), zpow_natCast]
  push_cast
  field_simp
  rw [zero_add]

-- 2^-1074 is shown as 2^11 * 2^-1086
example : decompose_float ⟨true, false⟩ .b64 1 = .ok ⟨2048, -1086, some false⟩ := by decide

/-! ## C67 -/

/-- **C67**: the assertion that the number is finite never fails: every bit pattern is decomposed, and infinities
and NaNs to the significand and exponent one would expect of a finite number of that biased exponent. -/
theorem C67_not_checked (cfg : Cfg) (F : Fmt) (x : Nat) (hx : x < 2 ^ width F) (hn : infPattern F ≤ mag F x) :
    ∃ r, decompose_float cfg F x = .ok r ∧ (r.significand : ℚ) * 2 ^ r.exponent = value F (mag F x) := by
  have hz : mag F x / 2 ^ mantBits F ≠ 0 := by
    rw [Nat.div_ne_zero_iff]; exact ⟨by positivity, le_trans (by cases F <;> decide) hn⟩
  exact ⟨_, decompose_float_eq cfg F x hx, decompose_value hz⟩

-- infinity and a NaN
example : infPattern .b64 ≤ mag .b64 0xFFF0000000000000 ∧ infPattern .b32 ≤ mag .b32 0x7FC00000 := by decide
example : decompose_float ⟨true, false⟩ .b32 0x7F800000 = .ok ⟨0x80000000, 97, some false⟩ := by decide

end Grisu

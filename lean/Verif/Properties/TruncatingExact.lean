import Verif.Proofs.TruncatingExact
import Verif.Properties.Truncating

/-! # Exactly when the truncating modes return the closest decimal -/

namespace Grisu
open Spec (RoundsTo value mag isNeg FiniteNonzero dec numDigits IsTruncating IsScale approxInput lastStep StopsEarly
  AllOnesSignificand exponentField farFields)

/-- The rounded input is less than one unit below the input. -/
theorem approx_lt {F : Fmt} {x : Nat} {g : ℚ} (h : FiniteNonzero F x) (hg : 0 < g) :
    value F (mag F x) < (approxInput F x g + 1) * g := by
  have hx := FiniteNonzero.lt h
  have h1 := Nat.lt_floor_add_one (value F (mag F x + 1) / g)
  have hu : 0 ≤ value F (mag F x) := by
    rw [value_mag hx]
    have := ulpq_pos (F := F) (x := x)
    positivity
  have hlen : 0 ≤ value F (mag F x + 1) - value F (mag F x) := by
    rw [value_mag hx, value_mag_succ hx]
    have := ulpq_pos (F := F) (x := x)
    push_cast
    linarith
  have h2 : (⌊(value F (mag F x + 1) - value F (mag F x)) / g⌋₊ : ℚ) ≤ (value F (mag F x + 1) - value F (mag F x)) / g :=
    Nat.floor_le (div_nonneg hlen hg.le)
  have h3 : ⌊(value F (mag F x + 1) - value F (mag F x)) / g⌋₊ ≤ ⌊value F (mag F x + 1) / g⌋₊ :=
    Nat.floor_le_floor (div_le_div_of_nonneg_right (by linarith) hg.le)
  have h4 : (approxInput F x g : ℚ) =
      ⌊value F (mag F x + 1) / g⌋₊ - ⌊(value F (mag F x + 1) - value F (mag F x)) / g⌋₊ := by
    unfold approxInput
    rw [Nat.cast_sub h3]
  rw [← div_lt_iff₀ hg, h4]
  have h5 : value F (mag F x) / g =
      value F (mag F x + 1) / g - (value F (mag F x + 1) - value F (mag F x)) / g := by
    rw [← sub_div]; congr 1; ring
  linarith

/-- **C09** for normal numbers whose significand is all ones: the result is the closest among the decimals with as many
digits (or fewer) that read back as `x` if and only if the exponent field is not listed. -/
theorem C09_iff_ones (cfg : Cfg) (F : Fmt) (rs : Bool) (x : Nat) (mode : RoundingMode) (crs : Crs)
    (handler : CaseHandler) (h : FiniteNonzero F x) (hm : IsTruncating (isNeg F x) mode = true)
    (hc : crs ≠ .do_not_care) (hx : AllOnesSignificand F x) (h0 : exponentField F x ≠ 0) (r : FpT)
    (hr : grisu_exact cfg F rs x mode crs handler = .ok r) :
    (∀ s' t', RoundsTo F mode (isNeg F x) (dec s' t') (mag F x) → numDigits s' ≤ numDigits r.significand →
      |dec r.significand r.exponent - value F (mag F x)| ≤ |dec s' t' - value F (mag F x)|) ↔
    exponentField F x ∉ farFields F := by
  obtain ⟨k1, -, -, -, -, ⟨κ, k6, k7⟩, -, k8⟩ := truncating_ok h hm hr
  rw [← ones_smallest cfg rs handler h hm hc (allOnes_iff.mpr ⟨hx, h0⟩) hr]
  exact closest_iff_smallest h hm k6 k7 k1 k8

/-- **C09**, exactly when it holds, on all other inputs: the result is the closest among the decimals with as many
digits (or fewer) that read back as `x` if and only if the search does not stop early. -/
theorem C09_iff (cfg : Cfg) (F : Fmt) (rs : Bool) (x : Nat) (mode : RoundingMode) (crs : Crs)
    (handler : CaseHandler) (h : FiniteNonzero F x) (hm : IsTruncating (isNeg F x) mode = true)
    (hc : crs ≠ .do_not_care) (hx : ¬ (AllOnesSignificand F x ∧ exponentField F x ≠ 0)) (r : FpT)
    (hr : grisu_exact cfg F rs x mode crs handler = .ok r) (g : ℚ) (hg : IsScale F x g) (s0 : Nat)
    (h0 : RoundsTo F mode (isNeg F x) (dec s0 r.exponent) (mag F x))
    (h0' : ∀ n, RoundsTo F mode (isNeg F x) (dec n r.exponent) (mag F x) → n ≤ s0) :
    (∀ s' t', RoundsTo F mode (isNeg F x) (dec s' t') (mag F x) → numDigits s' ≤ numDigits r.significand →
      |dec r.significand r.exponent - value F (mag F x)| ≤ |dec s' t' - value F (mag F x)|) ↔
    ¬ StopsEarly F x g s0 r.exponent := by
  have ha : ¬ AllOnes F x := fun hc => hx (allOnes_iff.mp hc)
  have hns : ¬ Spec.NotShortest F x := fun hc => hx ⟨hc.1, fun h0 => by have := hc.2; rw [h0] at this; cases F <;> revert this <;> decide⟩
  rw [scale_unique h hg]
  obtain ⟨e1, e2⟩ := left_exact cfg rs handler h hm hc ha hr h0 h0'
  obtain ⟨k1, -, k3, -, -, ⟨κ, k6, k7⟩, -⟩ := truncating_ok h hm hr
  have hp := provider_left hm
  have hge : ∀ n, Reads F mode x (dec n r.exponent) → value F (mag F x) ≤ dec n r.exponent := by
    intro n hn
    rw [reads_eq h, hp] at hn
    rw [value_mag (FiniteNonzero.lt h)]
    rcases hn.1 with h | h
    · exact h.le
    · exact h.1.le
  have hmem : ∀ n, value F (mag F x) ≤ dec n r.exponent → n ≤ s0 → Reads F mode x (dec n r.exponent) := by
    intro n h1 h2
    have h3 : Reads F mode x (dec s0 r.exponent) := h0
    rw [reads_eq h, hp] at h3 ⊢
    rw [value_mag (FiniteNonzero.lt h)] at h1
    refine ⟨?_, ?_⟩
    · rcases lt_or_eq_of_le h1 with h | h
      · exact Or.inl h
      · exact Or.inr ⟨h, rfl⟩
    · have h4 := dec_le_dec (t := r.exponent).mpr h2
      rcases h3.2 with h | h
      · exact Or.inl (lt_of_le_of_lt h4 h)
      · exact absurd h.2 (by show ¬ (false = true); simp)
  have hg0 : (0 : ℚ) < 10 ^ mkOf (expOf F x) := ten_zpow_pos _
  constructor
  · rintro hcl ⟨m, n, a1, a2, a3, a4, a5⟩
    have hs := e1 m n a1 a2 a3 a4
    have hL : 1 ≤ lastStep (s0 % 10 / 2) n := by
      unfold lastStep
      split
      · omega
      · split <;> omega
    have hcase : ∃ s', Reads F mode x (dec s' r.exponent) ∧ s' < r.significand := by
      by_cases hv : value F (mag F x) ≤ approxInput F x (10 ^ mkOf (expOf F x)) * 10 ^ mkOf (expOf F x)
      · exact ⟨m, hmem m (by rw [← a1]; exact hv) (by omega), by omega⟩
      · have h2 := a5.resolve_left hv
        refine ⟨m + 1, hmem (m + 1) ?_ (by omega), by omega⟩
        have h3 := approx_lt h hg0
        have h4 : dec (m + 1) r.exponent = dec m r.exponent + 10 ^ r.exponent := by
          unfold dec; push_cast; ring
        have h5 : (10 : ℚ) ^ mkOf (expOf F x) ≤ 10 ^ r.exponent := by
          rw [k7]
          exact zpow_le_zpow_right₀ (by norm_num) (by omega)
        rw [h4, ← a1]
        linarith
    obtain ⟨s', b1, b2⟩ := hcase
    have b3 := hcl s' r.exponent b1 (numDigits_le_iff.mpr (lt_trans b2 (lt_pow_numDigits _)))
    have b4 := hge _ b1
    have b5 := hge _ k1
    rw [abs_of_nonneg (by linarith), abs_of_nonneg (by linarith)] at b3
    have b6 := dec_le_dec (t := r.exponent).mp (by linarith : dec r.significand r.exponent ≤ dec s' r.exponent)
    omega
  · intro hno
    have hsm : Smallest (Reads F mode x) r.significand r.exponent := by
      by_cases ht : ∃ m n, (approxInput F x (10 ^ mkOf (expOf F x)) : ℚ) * 10 ^ mkOf (expOf F x) = dec m r.exponent ∧
          s0 = m + n ∧ 1 ≤ n ∧ 2 ≤ s0 % 10
      · obtain ⟨m, n, a1, a2, a3, a4⟩ := ht
        have hs := e1 m n a1 a2 a3 a4
        have h1 : ¬ value F (mag F x) ≤ approxInput F x (10 ^ mkOf (expOf F x)) * 10 ^ mkOf (expOf F x) :=
          fun hv => hno ⟨m, n, a1, a2, a3, a4, Or.inl hv⟩
        have h2 : ¬ 2 ≤ lastStep (s0 % 10 / 2) n := fun hv => hno ⟨m, n, a1, a2, a3, a4, Or.inr hv⟩
        intro n' hn'
        have h3 := hge _ hn'
        rw [a1] at h1
        have h4 : dec m r.exponent < dec n' r.exponent := by linarith
        have h5 : m < n' := by
          by_contra hc
          have := dec_le_dec (t := r.exponent).mpr (not_lt.mp hc)
          linarith
        omega
      · exact e2 ht
    have h9 := k3 hns
    rw [k7] at hsm h9 ⊢
    exact fun s' t' h' hd => closest_left h hm k6 h9 hsm h' hd

/-- The input of `C09_not_closest`: the search stops early, two steps above the lower end. -/
example : IsScale .b32 0x01000000 (10 ^ (-46 : Int)) ∧ ¬ AllOnesSignificand .b32 0x01000000 ∧
    StopsEarly .b32 0x01000000 (10 ^ (-46 : Int)) 23509889 (-45) := by
  have hv0 : value .b32 (mag .b32 0x01000000) = 2 ^ 23 * 2 ^ (-148 : Int) := by
    have h1 : mag .b32 0x01000000 / 2 ^ Spec.mantBits .b32 = 2 := by decide
    have h2 : mag .b32 0x01000000 % 2 ^ Spec.mantBits .b32 = 0 := by decide
    unfold value
    rw [h1, h2, if_neg (by decide)]
    norm_num [Spec.mantBits, Spec.ulpExp]
  have hv1 : value .b32 (mag .b32 0x01000000 + 1) = (2 ^ 23 + 1) * 2 ^ (-148 : Int) := by
    have h1 : (mag .b32 0x01000000 + 1) / 2 ^ Spec.mantBits .b32 = 2 := by decide
    have h2 : (mag .b32 0x01000000 + 1) % 2 ^ Spec.mantBits .b32 = 1 := by decide
    unfold value
    rw [h1, h2, if_neg (by decide)]
    norm_num [Spec.mantBits, Spec.ulpExp]
  have hA : approxInput .b32 0x01000000 (10 ^ (-46 : Int)) = 235098870 := by
    unfold approxInput
    rw [hv0, hv1]
    have f1 : ⌊((2 ^ 23 + 1) * 2 ^ (-148 : Int) : ℚ) / 10 ^ (-46 : Int)⌋₊ = 235098898 := by
      rw [Nat.floor_eq_iff (by positivity)]
      constructor <;> norm_num
    have f2 : ⌊((2 ^ 23 + 1) * 2 ^ (-148 : Int) - 2 ^ 23 * 2 ^ (-148 : Int) : ℚ) / 10 ^ (-46 : Int)⌋₊ = 28 := by
      rw [Nat.floor_eq_iff (by norm_num)]
      constructor <;> norm_num
    rw [f1, f2]
  refine ⟨⟨-46, rfl, ?_, ?_⟩, by unfold AllOnesSignificand; decide, 23509887, 2, ?_, rfl, by decide, by decide, Or.inr (by decide)⟩
  · rw [hv0, hv1]; norm_num [Spec.guard]
  · rw [hv0, hv1]; norm_num [Spec.guard]
  · rw [hA]; norm_num [dec]

-- all ones: 0x40FFFFFF (field 129) is not printed closest, 0x4EFFFFFF (field 157) is
example : FiniteNonzero .b32 0x40FFFFFF ∧ AllOnesSignificand .b32 0x40FFFFFF ∧ exponentField .b32 0x40FFFFFF = 129 ∧
    129 ∈ farFields .b32 ∧ IsTruncating (isNeg .b32 0x40FFFFFF) .toward_zero = true :=
  ⟨⟨by decide, by decide, by decide⟩, by unfold AllOnesSignificand; decide, by decide, by decide, by decide⟩
example : (∃ r, grisu_exact ⟨false, true⟩ .b32 true 0x40FFFFFF .toward_zero .tie_to_even .assert_finite = .ok r) ∧
    (∃ r, grisu_exact ⟨true, false⟩ .b32 true 0x4EFFFFFF .toward_zero .tie_to_even .assert_finite = .ok r) :=
  ⟨⟨_, rfl⟩, ⟨_, rfl⟩⟩
example : FiniteNonzero .b32 0x4EFFFFFF ∧ AllOnesSignificand .b32 0x4EFFFFFF ∧ exponentField .b32 0x4EFFFFFF = 157 ∧
    157 ∉ farFields .b32 :=
  ⟨⟨by decide, by decide, by decide⟩, by unfold AllOnesSignificand; decide, by decide, by decide⟩

end Grisu

import Verif.Proofs.ShortText

/-!
# No shorter text

Property C94.
-/

namespace Grisu

open Spec (FiniteNonzero RoundsTo isNeg mag value dec numDigits IsTruncating sci readText OneDigitFirst NotShortest Prints
  PrintsTerminated)

/-- **C94**: no text in scientific notation that reads back as `x` is shorter than the printed one; but for the inputs
of C08 (eight floats and two doubles, in the truncating modes), on which the significand is too long. -/
theorem C94_shortest_text (cfg : Cfg) (F : Fmt) (x : Nat) (mode : RoundingMode) (crs : Crs) (text : List Char)
    (h : FiniteNonzero F x) (hx : IsTruncating (isNeg F x) mode = true → ¬ NotShortest F x)
    (hp : Prints cfg F x mode crs text) (text' : List Char) (v : ℚ) (hs : OneDigitFirst text')
    (hr : readText text' = some (isNeg F x, v)) (hv : RoundsTo F mode (isNeg F x) v (mag F x)) :
    text.length ≤ text'.length := by
  obtain ⟨r, hr', rfl⟩ := prints_inv h hp
  have hpr := (printable h hr').1
  have o : Output (Reads F mode x) r.significand r.exponent := by
    cases hm : IsTruncating (isNeg F x) mode with
    | false => exact main_ok h hm hr'
    | true => exact (truncating_ok h hm hr').2.2.1 (hx hm)
  obtain ⟨K, S, f, h1, h2, rfl, h4⟩ := readText_inv hr hs
  have hS : 0 < S := by
    rcases Nat.eq_zero_or_pos S with rfl | h0
    · have := (reads_interval h mode).pos _ hv
      simp [dec] at this
    · exact h0
  have h5 := short_core h o hpr hS hv
  have h6 := strip_zeros (K := K) (f := f) hS h2
  rw [length_sci _ hpr.pos]
  omega

-- 1e23 as a double and 12000 as a float; without the condition on the first digit `12E3` is shorter than `1.2E4`
example : Prints ⟨true, false⟩ .b64 0x44B52D02C7E14AF6 .nearest_to_even .tie_to_even "1E23".toList :=
  prints_finite (r := ⟨1, 23, none⟩) ⟨by decide, by decide, by decide⟩ (by decide +kernel)
example : OneDigitFirst "9.999999999999999E22".toList ∧ ¬ OneDigitFirst "12E3".toList := by
  constructor
  · show (1 : Nat) = 1; rfl
  · show ¬ (2 : Nat) = 1; decide
example : FiniteNonzero .b32 0x463B8000 ∧ IsTruncating (isNeg .b32 0x463B8000) .nearest_to_even = false ∧
    Prints ⟨true, false⟩ .b32 0x463B8000 .nearest_to_even .tie_to_even "1.2E4".toList :=
  ⟨⟨by decide, by decide, by decide⟩, rfl,
    prints_finite (r := ⟨12, 3, none⟩) ⟨by decide, by decide, by decide⟩ (by decide +kernel)⟩

/-- **C94**, on the inputs of C08 a shorter text does exist. -/
theorem C94_exceptions (cfg : Cfg) (F : Fmt) (x : Nat) (mode : RoundingMode) (crs : Crs) (text : List Char)
    (h : FiniteNonzero F x) (hm : IsTruncating (isNeg F x) mode = true) (hx : NotShortest F x)
    (hp : Prints cfg F x mode crs text) :
    ∃ text' v, OneDigitFirst text' ∧ readText text' = some (isNeg F x, v) ∧ RoundsTo F mode (isNeg F x) v (mag F x) ∧
      text'.length < text.length := by
  obtain ⟨r, hr', rfl⟩ := prints_inv h hp
  have hpr := (printable h hr').1
  obtain ⟨n, h1, h2⟩ := (truncating_ok h hm hr').2.2.2.1 hx
  have hI := reads_interval h mode
  have hn : 0 < n := by
    rcases Nat.eq_zero_or_pos n with rfl | h0
    · have := hI.pos _ h1
      simp [dec] at this
    · exact h0
  refine ⟨sci (isNeg F x) n (r.exponent + 1), _, ?_, read_sci _ _ _, h1, ?_⟩
  · exact sci_oneDigitFirst _ _ _
  · rw [length_sci _ hn, length_sci _ hpr.pos]
    have h3 := numDigits_pos hn
    have h4 : 0 ≤ r.exponent + 1 + numDigits n - 1 := by
      have g1 := (toward_zero_of hm h1).1
      have g2 : (1 : ℚ) ≤ value F (mag F x) := notShortest_ge_one hx
      have g3 := (dec_bounds hn (r.exponent + 1)).2
      have g4 : (10 : ℚ) ^ (0 : Int) < 10 ^ (r.exponent + 1 + numDigits n - 1 + 1) := by
        rw [zpow_zero]; linarith
      have := ten_zpow_lt_of_lt g4
      omega
    have h5 := elen_pos_mono (e := r.exponent + numDigits r.significand - 1) (e' := r.exponent + 1 + numDigits n - 1)
      (by omega) h4
    have h6 : (if 1 < numDigits n then 1 else 0) ≤ (if 1 < numDigits r.significand then 1 else 0) := by
      split <;> split <;> omega
    omega

-- the float 0x54FFFFFF in `toward_zero`: `8.796093E12` reads back as well
example : FiniteNonzero .b32 0x54FFFFFF ∧ NotShortest .b32 0x54FFFFFF ∧
    IsTruncating (isNeg .b32 0x54FFFFFF) .toward_zero = true ∧
    Prints ⟨true, false⟩ .b32 0x54FFFFFF .toward_zero .tie_to_even "8.7960929E12".toList :=
  ⟨⟨by decide, by decide, by decide⟩, ⟨by unfold Spec.AllOnesSignificand; decide, by decide⟩, rfl,
    prints_finite (r := ⟨87960929, 5, none⟩) ⟨by decide, by decide, by decide⟩ (by decide +kernel)⟩

end Grisu

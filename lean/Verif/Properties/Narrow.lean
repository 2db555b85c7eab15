import Verif.Proofs.Narrow
import Verif.Properties.CrossReading

/-!
# A `double` printed and read as a `float`

Property C95.
-/

namespace Grisu

open Spec

/-- **C95**: unless the `double` is half way between two neighbouring `float`s, its text is read to nearest as the `float`
to which the `double` itself is converted in the same way; in whatever mode it was printed. -/
theorem C95_nearest (cfg : Cfg) (x : Nat) (mode mode' : RoundingMode) (crs : Crs) (text : List Char)
    (h : FiniteNonzero .b64 x) (hp : Prints cfg .b64 x mode crs text) (hm : IsNearest mode' = true)
    (hx : ∀ n < infPattern .b32, value .b64 (mag .b64 x) ≠ (value .b32 n + value .b32 (n + 1)) / 2) :
    ∃ v, readText text = some (isNeg .b64 x, v) ∧
      ∀ m, RoundsTo .b32 mode' (isNeg .b64 x) v m ↔ RoundsTo .b32 mode' (isNeg .b64 x) (value .b64 (mag .b64 x)) m := by
  obtain ⟨r, hr, rfl⟩ := prints_inv h hp
  have hu := returned_reads h hr
  refine ⟨_, read_sci _ _ _, fun m => ?_⟩
  have key : ∀ {P : Nat → Nat → Prop}, Nearest .b32 P (dec r.significand r.exponent) m ↔
      Nearest .b32 P (value .b64 (mag .b64 x)) m := by
    intro P
    refine nearest_same fun n hn => ?_
    obtain ⟨a, b, c⟩ := same_side h hu (mid32_is n) (Ne.symm (hx n hn))
    exact ⟨a, b, c, hx n hn⟩
  generalize isNeg .b64 x = neg
  cases mode' <;> first | (exact absurd hm (by decide)) | (cases neg <;> exact key)

/-- **C95**, directed modes: the same, unless the `double` is a `float`. -/
theorem C95_directed (cfg : Cfg) (x : Nat) (mode mode' : RoundingMode) (crs : Crs) (text : List Char)
    (h : FiniteNonzero .b64 x) (hp : Prints cfg .b64 x mode crs text) (hm : IsNearest mode' = false)
    (hx : ∀ n ≤ infPattern .b32, value .b64 (mag .b64 x) ≠ value .b32 n) :
    ∃ v, readText text = some (isNeg .b64 x, v) ∧
      ∀ m, RoundsTo .b32 mode' (isNeg .b64 x) v m ↔ RoundsTo .b32 mode' (isNeg .b64 x) (value .b64 (mag .b64 x)) m := by
  obtain ⟨r, hr, rfl⟩ := prints_inv h hp
  have hu := returned_reads h hr
  refine ⟨_, read_sci _ _ _, fun m => ?_⟩
  have side := fun n hn => same_side h hu (value32_is n) (Ne.symm (hx n hn))
  have zero : TowardZero .b32 (dec r.significand r.exponent) m ↔ TowardZero .b32 (value .b64 (mag .b64 x)) m := by
    refine and_congr_right fun hi => ?_
    rw [← not_lt, ← not_lt (a := value .b64 (mag .b64 x)), (side m hi.le).1, (side (m + 1) hi).1]
  have away : AwayFromZero .b32 (dec r.significand r.exponent) m ↔ AwayFromZero .b32 (value .b64 (mag .b64 x)) m := by
    refine and_congr_right fun h0 => and_congr_right fun hi => ?_
    rw [← not_lt, ← not_lt (a := value .b32 m), (side m hi).2.1, (side (m - 1) (by omega)).2.1]
  generalize isNeg .b64 x = neg
  cases mode' <;> first | (exact absurd hm (by decide)) | (cases neg <;> first | exact zero | exact away)

/-- **C95**, the `double`s left out by `C95_nearest`: half way between two neighbouring `float`s, the side on which the
printed decimal is decides which of the two is read, in every mode. -/
theorem C95_midpoint (cfg : Cfg) (x : Nat) (mode mode' : RoundingMode) (crs : Crs) (text : List Char)
    (h : FiniteNonzero .b64 x) (hp : Prints cfg .b64 x mode crs text) (hm : IsNearest mode' = true) (n : Nat)
    (hn : n < infPattern .b32) (hx : value .b64 (mag .b64 x) = (value .b32 n + value .b32 (n + 1)) / 2) :
    ∃ v, readText text = some (isNeg .b64 x, v) ∧
      (v < value .b64 (mag .b64 x) → ∀ m, RoundsTo .b32 mode' (isNeg .b64 x) v m ↔ m = n) ∧
      (value .b64 (mag .b64 x) < v → ∀ m, RoundsTo .b32 mode' (isNeg .b64 x) v m ↔ m = n + 1) := by
  obtain ⟨r, hr, rfl⟩ := prints_inv h hp
  have hu := returned_reads h hr
  have hlt : value .b32 n < value .b32 (n + 1) := value_lt_succ n
  have h1 := (same_side h hu (value32_is n) (by rw [hx]; intro e; linarith)).2.1.mpr (by rw [hx]; linarith)
  have h2 := (same_side h hu (value32_is (n + 1)) (by rw [hx]; intro e; linarith)).1.mpr (by rw [hx]; linarith)
  have h0 : 0 < dec r.significand r.exponent := (value_nonneg _).trans_lt h1
  obtain ⟨m, a1, -, -, -, a2, a3⟩ := rounds_between mode' (isNeg .b64 x) hn h1.le h2 h0
  refine ⟨_, read_sci _ _ _, fun g m' => ?_, fun g m' => ?_⟩
  · rw [hx] at g
    have := a2 hm g
    subst this
    exact ⟨fun k => RoundsTo.unique k a1, fun k => k ▸ a1⟩
  · rw [hx] at g
    have := a3 hm g
    subst this
    exact ⟨fun k => RoundsTo.unique k a1, fun k => k ▸ a1⟩

/-- **C95**, such a `double` exists: 1 + 2⁻²⁴ is printed with a decimal above it, so the text is read to nearest even as the
`float` above, while the number itself is converted to nearest even to the `float` below, which is 1. -/
theorem C95_witness (cfg : Cfg) : Prints cfg .b64 0x3FF0000010000000 .nearest_to_even .tie_to_even
      "1.0000000596046448E0".toList ∧
    readText "1.0000000596046448E0".toList = some (false, dec 10000000596046448 (-16)) ∧
    RoundsTo .b32 .nearest_to_even false (dec 10000000596046448 (-16)) 0x3F800001 ∧
    RoundsTo .b32 .nearest_to_even false (value .b64 0x3FF0000010000000) 0x3F800000 := by
  have hx : FiniteNonzero .b64 0x3FF0000010000000 := ⟨by decide, by decide, by decide⟩
  have hr : grisu_exact cfg .b64 false 0x3FF0000010000000 .nearest_to_even .tie_to_even .assert_finite =
      .ok ⟨10000000596046448, -16, none⟩ := by
    obtain ⟨x64, ndebug⟩ := cfg
    cases x64 <;> cases ndebug <;> decide +kernel
  have ht : "1.0000000596046448E0".toList = sci (isNeg .b64 0x3FF0000010000000) 10000000596046448 (-16) := by decide +kernel
  have a1 : value .b64 0x3FF0000010000000 = ((4503599895805952 : Nat) : ℚ) * 2 ^ (-52 : Int) := value_eq _
  have b0 : value .b32 0x3F7FFFFF = ((16777215 : Nat) : ℚ) * 2 ^ (-24 : Int) := value_eq _
  have b1 : value .b32 0x3F800000 = ((8388608 : Nat) : ℚ) * 2 ^ (-23 : Int) := value_eq _
  have b2 : value .b32 0x3F800001 = ((8388609 : Nat) : ℚ) * 2 ^ (-23 : Int) := value_eq _
  have b3 : value .b32 0x3F800002 = ((8388610 : Nat) : ℚ) * 2 ^ (-23 : Int) := value_eq _
  refine ⟨?_, ?_, ?_, ?_⟩
  · rw [ht]
    exact prints_finite hx hr
  · rw [ht]
    exact read_sci _ _ _
  · refine (nearest_iff (by decide) (by decide)).mpr ⟨Or.inl ?_, Or.inl ?_⟩
    · rw [show 0x3F800001 - 1 = 0x3F800000 from rfl, b1, b2, dec]
      norm_num
    · rw [show 0x3F800001 + 1 = 0x3F800002 from rfl, b2, b3, dec]
      norm_num
  · refine (nearest_iff (by decide) (by decide)).mpr ⟨Or.inl ?_, Or.inr ⟨?_, show 0x3F800000 % 2 = 0 by decide⟩⟩
    · rw [show 0x3F800000 - 1 = 0x3F7FFFFF from rfl, b0, b1, a1]
      norm_num
    · rw [show 0x3F800000 + 1 = 0x3F800001 from rfl, b1, b2, a1]
      norm_num

-- the hypotheses of the first two theorems hold for the `double` 0.1
example (cfg : Cfg) : ∃ v, readText "1E-1".toList = some (false, v) ∧ ∀ m, RoundsTo .b32 .nearest_to_even false v m ↔
    RoundsTo .b32 .nearest_to_even false (value .b64 (mag .b64 0x3FB999999999999A)) m := by
  have hx : FiniteNonzero .b64 0x3FB999999999999A := ⟨by decide, by decide, by decide⟩
  have hr : grisu_exact cfg .b64 false 0x3FB999999999999A .nearest_to_even .tie_to_even .assert_finite =
      .ok ⟨1, -1, none⟩ := by
    obtain ⟨x64, ndebug⟩ := cfg
    cases x64 <;> cases ndebug <;> decide +kernel
  have ht : "1E-1".toList = sci (isNeg .b64 0x3FB999999999999A) 1 (-1) := by decide +kernel
  exact C95_nearest cfg _ _ .nearest_to_even _ _ hx (ht ▸ prints_finite hx hr) rfl fun n _ => (tenth_not_float n).2
example (cfg : Cfg) : ∃ v, readText "1E-1".toList = some (false, v) ∧ ∀ m, RoundsTo .b32 .toward_zero false v m ↔
    RoundsTo .b32 .toward_zero false (value .b64 (mag .b64 0x3FB999999999999A)) m := by
  have hx : FiniteNonzero .b64 0x3FB999999999999A := ⟨by decide, by decide, by decide⟩
  have hr : grisu_exact cfg .b64 false 0x3FB999999999999A .nearest_to_even .tie_to_even .assert_finite =
      .ok ⟨1, -1, none⟩ := by
    obtain ⟨x64, ndebug⟩ := cfg
    cases x64 <;> cases ndebug <;> decide +kernel
  have ht : "1E-1".toList = sci (isNeg .b64 0x3FB999999999999A) 1 (-1) := by decide +kernel
  exact C95_directed cfg _ _ .toward_zero _ _ hx (ht ▸ prints_finite hx hr) rfl fun n _ => (tenth_not_float n).1
-- and those of the third for 1 + 2⁻²⁴
example : value .b64 (mag .b64 0x3FF0000010000000) = (value .b32 0x3F800000 + value .b32 (0x3F800000 + 1)) / 2 := by
  rw [show value .b64 (mag .b64 0x3FF0000010000000) = ((4503599895805952 : Nat) : ℚ) * 2 ^ (-52 : Int) from value_eq _,
    show value .b32 0x3F800000 = ((8388608 : Nat) : ℚ) * 2 ^ (-23 : Int) from value_eq _,
    show value .b32 (0x3F800000 + 1) = ((8388609 : Nat) : ℚ) * 2 ^ (-23 : Int) from value_eq _]
  norm_num

end Grisu

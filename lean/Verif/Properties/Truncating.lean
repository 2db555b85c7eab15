import Verif.Proofs.TruncatingClosest

/-!
# Conversion: directed modes that round toward zero

Properties C07-C10, and C14-C17, C25, C26 for these modes.  They are the modes for which
`IsTruncating (isNeg F x) mode = true`: `toward_zero`, `toward_plus_infinity` on negative and
`toward_minus_infinity` on positive numbers.  The expected C08, C09 and C10 are false of the code;
each is stated here in the form that holds, with the exceptions given exactly (C08, C10) or by a
sufficient condition (C09), and its failure is proved at a concrete input.
-/

namespace Grisu

open Spec (RoundsTo value mag isNeg FiniteNonzero dec numDigits IsTruncating ZeroDivisibility NotShortest)

variable {F : Fmt} {x : Nat}

/-- What is known of a call that returned. -/
theorem truncating_ok {cfg : Cfg} {rs : Bool} {handler : CaseHandler} {mode : RoundingMode} {crs : Crs} {r : FpT}
    (h : FiniteNonzero F x) (hm : IsTruncating (isNeg F x) mode = true)
    (hr : grisu_exact cfg F rs x mode crs handler = .ok r) :
    Reads F mode x (dec r.significand r.exponent) ∧
    r.is_negative = (if rs then some (isNeg F x) else none) ∧
    (¬ NotShortest F x → Output (Reads F mode x) r.significand r.exponent) ∧
    (NotShortest F x → ∃ n, Reads F mode x (dec n (r.exponent + 1)) ∧ numDigits n < numDigits r.significand) ∧
    (crs ≠ .do_not_care → (∀ n, (10 : ℚ) ^ mkOf (expOf F x) < |dec n r.exponent - value F (mag F x)|) →
      Smallest (Reads F mode x) r.significand r.exponent) ∧
    (∃ κ : Nat, κ ≤ 18 ∧ r.exponent = κ + mkOf (expOf F x)) ∧
    r.significand < 10 ^ maxDigits F ∧ r.significand % 10 ≠ 0 := by
  obtain ⟨s, t, h1, h2, h3, h4, h5, h6, h7, h8⟩ := main_truncating h crs hm
  have : r = ⟨s, t, if rs then some (isNeg F x) else none⟩ := by
    by_cases hc : ZeroDivisibility F x ∧ Strict cfg
    · obtain ⟨f, hf⟩ := (h1 cfg rs handler).1 hc
      rw [hf] at hr
      cases hr
    · rw [(h1 cfg rs handler).2 hc] at hr
      cases hr
      rfl
  subst this
  exact ⟨h2, rfl, h3, h4, h5, h6, h7, h8⟩

theorem toward_zero_of {mode : RoundingMode} {v : ℚ} (hm : IsTruncating (isNeg F x) mode = true)
    (h : Reads F mode x v) : value F (mag F x) ≤ v ∧ v < value F (mag F x + 1) := by
  have h3 : Spec.TowardZero F v (mag F x) := by
    unfold Reads at h
    generalize isNeg F x = neg at *
    cases mode <;> simp_all [IsTruncating, RoundsTo]
  exact h3.2

theorem reads_interval_left (h : FiniteNonzero F x) (mode : RoundingMode) : Interval? (Reads F mode x) := by
  rw [reads_eq h]; exact interval? _ (FiniteNonzero.input h)

theorem notShortest_sum {F : Fmt} {x : Nat} (h : Spec.AllOnesSignificand F x) {E : Nat}
    (hE : Spec.exponentField F x = E) : mag F x = E * 2 ^ Spec.mantBits F + (2 ^ Spec.mantBits F - 1) := by
  unfold Spec.AllOnesSignificand at h
  unfold Spec.exponentField at hE
  have := Nat.div_add_mod (mag F x) (2 ^ Spec.mantBits F)
  rw [h, hE, Nat.mul_comm] at this
  exact this.symm

/-! ## C07 -/

/-- **C07**: whatever is returned reads back as `x`. -/
theorem C07_roundtrip_truncating (cfg : Cfg) (F : Fmt) (rs : Bool) (x : Nat) (mode : RoundingMode) (crs : Crs)
    (handler : CaseHandler) (h : FiniteNonzero F x) (hm : IsTruncating (isNeg F x) mode = true) (r : FpT)
    (hr : grisu_exact cfg F rs x mode crs handler = .ok r) :
    RoundsTo F mode (isNeg F x) (dec r.significand r.exponent) (mag F x) ∧
    value F (mag F x) ≤ dec r.significand r.exponent ∧
    dec r.significand r.exponent < value F (mag F x + 1) := by
  have h1 := (truncating_ok h hm hr).1
  exact ⟨h1, toward_zero_of hm h1⟩

-- 0.1 as a double; the largest float; a number whose result is not shortest
example : FiniteNonzero .b64 0x3FB999999999999A ∧ IsTruncating (isNeg .b64 0x3FB999999999999A) .toward_zero = true :=
  ⟨⟨by decide, by decide, by decide⟩, rfl⟩
example : grisu_exact ⟨true, false⟩ .b64 true 0x3FB999999999999A .toward_zero .tie_to_even .assert_finite =
    .ok ⟨10000000000000001, -17, some false⟩ := by decide +kernel
example : IsTruncating (isNeg .b32 0xFF7FFFFF) .toward_plus_infinity = true := rfl
example : grisu_exact ⟨true, false⟩ .b32 true 0xFF7FFFFF .toward_plus_infinity .tie_to_even .assert_finite =
    .ok ⟨34028235, 31, some true⟩ := by decide +kernel

/-! ## C08 -/

/-- **C08**, the part that holds: except on the four floats and one double (and their negatives) of
`NotShortest`, no decimal that reads back as `x` has fewer digits.  Missing: those inputs, where it is
false (next theorem). -/
theorem C08_shortest_truncating_partial (cfg : Cfg) (F : Fmt) (rs : Bool) (x : Nat) (mode : RoundingMode) (crs : Crs)
    (handler : CaseHandler) (h : FiniteNonzero F x) (hm : IsTruncating (isNeg F x) mode = true)
    (hx : ¬ NotShortest F x) (r : FpT) (hr : grisu_exact cfg F rs x mode crs handler = .ok r) :
    ∀ s' t', RoundsTo F mode (isNeg F x) (dec s' t') (mag F x) → numDigits r.significand ≤ numDigits s' :=
  fun _ _ h' => ((truncating_ok h hm hr).2.2.1 hx).shortest (reads_interval_left h mode) h'

/-- **C08** is false on every input of `NotShortest`: a decimal with fewer digits reads back as `x`. -/
theorem C08_not_shortest (cfg : Cfg) (F : Fmt) (rs : Bool) (x : Nat) (mode : RoundingMode) (crs : Crs)
    (handler : CaseHandler) (h : FiniteNonzero F x) (hm : IsTruncating (isNeg F x) mode = true)
    (hx : NotShortest F x) :
    ∃ r, grisu_exact cfg F rs x mode crs handler = .ok r ∧
      ∃ s' t', RoundsTo F mode (isNeg F x) (dec s' t') (mag F x) ∧ numDigits s' < numDigits r.significand := by
  obtain ⟨s, t, h1, h2, h3, h4, -⟩ := main_truncating h crs hm
  have hz : ¬ (ZeroDivisibility F x ∧ Strict cfg) := by
    rintro ⟨⟨-, z⟩, -⟩
    have h5 := hx.2
    generalize Spec.exponentField F x = E at *
    revert E
    cases F <;> decide
  obtain ⟨n, g1, g2⟩ := h4 hx
  exact ⟨_, (h1 cfg rs handler).2 hz, n, t + 1, g1, g2⟩

/-- The exceptions are ten bit patterns: four floats, one double, and their negatives. -/
theorem C08_exceptions (x : Nat) :
    (FiniteNonzero .b32 x ∧ NotShortest .b32 x ↔
      x ∈ [0x54FFFFFF, 0x587FFFFF, 0x5D7FFFFF, 0x5DFFFFFF, 0xD4FFFFFF, 0xD87FFFFF, 0xDD7FFFFF, 0xDDFFFFFF]) ∧
    (FiniteNonzero .b64 x ∧ NotShortest .b64 x ↔ x ∈ [0x461FFFFFFFFFFFFF, 0xC61FFFFFFFFFFFFF]) := by
  constructor
  · constructor
    · rintro ⟨h, h1, h2⟩
      have h3 := h.inRange
      have h4 : mag .b32 x ∈ [0x54FFFFFF, 0x587FFFFF, 0x5D7FFFFF, 0x5DFFFFFF] := by
        have h5 := notShortest_sum h1 rfl
        rw [h5]
        generalize Spec.exponentField .b32 x = E at h2
        revert E
        decide
      unfold mag at h4
      simp only [Spec.width] at h3 h4
      simp only [List.mem_cons, List.not_mem_nil, or_false] at h4 ⊢
      omega
    · intro hx
      have : ∀ x ∈ [0x54FFFFFF, 0x587FFFFF, 0x5D7FFFFF, 0x5DFFFFFF, 0xD4FFFFFF, 0xD87FFFFF, 0xDD7FFFFF, 0xDDFFFFFF],
          x < 2 ^ Spec.width .b32 ∧ 0 < mag .b32 x ∧ mag .b32 x < Spec.infPattern .b32 ∧
          mag .b32 x % 2 ^ Spec.mantBits .b32 = 2 ^ Spec.mantBits .b32 - 1 ∧
          Spec.exponentField .b32 x ∈ Spec.longFields .b32 := by decide
      obtain ⟨a, b, c, d, e⟩ := this x hx
      exact ⟨⟨a, b, c⟩, d, e⟩
  · constructor
    · rintro ⟨h, h1, h2⟩
      have h3 := h.inRange
      have h4 : mag .b64 x = 0x461FFFFFFFFFFFFF := by
        have h5 := notShortest_sum h1 rfl
        rw [h5]
        generalize Spec.exponentField .b64 x = E at h2
        revert E
        decide
      unfold mag at h4
      simp only [Spec.width] at h3 h4
      simp only [List.mem_cons, List.not_mem_nil, or_false]
      omega
    · intro hx
      have : ∀ x ∈ [0x461FFFFFFFFFFFFF, 0xC61FFFFFFFFFFFFF],
          x < 2 ^ Spec.width .b64 ∧ 0 < mag .b64 x ∧ mag .b64 x < Spec.infPattern .b64 ∧
          mag .b64 x % 2 ^ Spec.mantBits .b64 = 2 ^ Spec.mantBits .b64 - 1 ∧
          Spec.exponentField .b64 x ∈ Spec.longFields .b64 := by decide
      obtain ⟨a, b, c, d, e⟩ := this x hx
      exact ⟨⟨a, b, c⟩, d, e⟩

-- 8796092900000 is returned although 8796093000000 is shorter and truncates to the same float
example : grisu_exact ⟨true, false⟩ .b32 true 0x54FFFFFF .toward_zero .tie_to_even .assert_finite =
    .ok ⟨87960929, 5, some false⟩ := by decide +kernel
example : ¬ NotShortest .b32 0x3DCCCCCD := fun h => absurd h.1 (by unfold Spec.AllOnesSignificand; decide)

/-! ## C09 -/

/-- **C09**, the part that holds: if no multiple of the power of ten of the result lies within
`guard` of the distance to the next number from `x`, then no decimal with as many digits (or fewer)
that reads back as `x` is closer to `x`.  Missing: inputs next to such a multiple, where it can fail
(next theorem), and the inputs of `NotShortest`. -/
theorem C09_closest_truncating_partial (cfg : Cfg) (F : Fmt) (rs : Bool) (x : Nat) (mode : RoundingMode) (crs : Crs)
    (handler : CaseHandler) (h : FiniteNonzero F x) (hm : IsTruncating (isNeg F x) mode = true)
    (hc : crs ≠ .do_not_care) (hx : ¬ NotShortest F x) (r : FpT)
    (hr : grisu_exact cfg F rs x mode crs handler = .ok r)
    (hfar : ∀ n, Spec.guard F * (value F (mag F x + 1) - value F (mag F x)) <
      |dec n r.exponent - value F (mag F x)|) :
    ∀ s' t', RoundsTo F mode (isNeg F x) (dec s' t') (mag F x) → numDigits s' ≤ numDigits r.significand →
      |dec r.significand r.exponent - value F (mag F x)| ≤ |dec s' t' - value F (mag F x)| := by
  obtain ⟨-, -, h3, -, h5, ⟨κ, h6, h7⟩, -⟩ := truncating_ok h hm hr
  have h8 := h5 hc (fun n => lt_of_le_of_lt (scale_le h) (hfar n))
  have h9 := h3 hx
  rw [h7] at h8 h9 ⊢
  exact fun s' t' h' hd => closest_left h hm h6 h9 h8 h' hd

/-- **C09** is false: at this float, `toward_zero` returns a decimal although a closer one with as
many digits reads back as `x`. -/
theorem C09_not_closest :
    ¬ ∀ (cfg : Cfg) (F : Fmt) (rs : Bool) (x : Nat) (mode : RoundingMode) (crs : Crs) (handler : CaseHandler),
      FiniteNonzero F x → IsTruncating (isNeg F x) mode = true → crs ≠ .do_not_care →
      ∀ r, grisu_exact cfg F rs x mode crs handler = .ok r →
      ∀ s' t', RoundsTo F mode (isNeg F x) (dec s' t') (mag F x) → numDigits s' ≤ numDigits r.significand →
        |dec r.significand r.exponent - value F (mag F x)| ≤ |dec s' t' - value F (mag F x)| := by
  intro hall
  have hv0 : value .b32 (mag .b32 0x01000000) = 2 ^ 23 * 2 ^ (-148 : Int) := by
    have h1 : mag .b32 0x01000000 / 2 ^ Spec.mantBits .b32 = 2 := by decide
    have h2 : mag .b32 0x01000000 % 2 ^ Spec.mantBits .b32 = 0 := by decide
    unfold value
    rw [h1, h2, if_neg (by decide)]
    norm_num [Spec.mantBits, Spec.ulpExp]
  have hv1 : value .b32 (mag .b32 0x01000000 + 1) = (2 ^ 23 + 1) * 2 ^ (-148 : Int) := by
    have h1 : (mag .b32 0x01000000 + 1) / 2 ^ Spec.mantBits .b32 = 2 := by decide
    have h2 : (mag .b32 0x01000000 + 1) % 2 ^ Spec.mantBits .b32 = 1 := by decide
    unfold value
    rw [h1, h2, if_neg (by decide)]
    norm_num [Spec.mantBits, Spec.ulpExp]
  have hd : ∀ s : Nat, dec s (-45) = s / 10 ^ 45 := by
    intro s
    unfold dec
    rw [zpow_neg, ← div_eq_mul_inv]
    norm_cast
  have h := hall ⟨true, false⟩ .b32 true 0x01000000 .toward_zero .tie_to_even .assert_finite
    ⟨by decide, by decide, by decide⟩ rfl (by decide) ⟨23509889, -45, some false⟩ (by decide +kernel)
    23509888 (-45) ?_ ?_
  · simp only [hd, hv0] at h
    rw [abs_of_nonneg (by norm_num), abs_of_nonneg (by norm_num)] at h
    norm_num at h
  · show Spec.TowardZero _ _ _
    refine ⟨by decide, ?_, ?_⟩
    · rw [hd, hv0]; norm_num
    · rw [hd, hv1]; norm_num
  · have e : ∀ s : Nat, 10 ^ 7 ≤ s → s < 10 ^ 8 → numDigits s = 8 := fun s h1 h2 =>
      le_antisymm (numDigits_le_iff.mpr h2) (by
        by_contra hc
        have := numDigits_le_iff.mp (show numDigits s ≤ 7 by omega)
        omega)
    rw [e _ (by norm_num) (by norm_num), e _ (by norm_num) (by norm_num)]

-- an input for which the hypotheses of the positive statement hold: 0.1 as a double, where the
-- multiples of 10^-17 nearest to it are at distances of 5.5e-18 and 4.5e-18, and 1/32 of the distance
-- to the next number is 4.4e-19
example : ∀ n, Spec.guard .b64 * (value .b64 (mag .b64 0x3FB999999999999A + 1) - value .b64 (mag .b64 0x3FB999999999999A))
    < |dec n (-17) - value .b64 (mag .b64 0x3FB999999999999A)| := by
  intro n
  have hv0 : value .b64 (mag .b64 0x3FB999999999999A) = 0x1999999999999A / 2 ^ 56 := by
    have h1 : mag .b64 0x3FB999999999999A / 2 ^ Spec.mantBits .b64 = 1019 := by decide
    have h2 : mag .b64 0x3FB999999999999A % 2 ^ Spec.mantBits .b64 = 0x999999999999A := by decide
    unfold value
    rw [h1, h2, if_neg (by decide)]
    norm_num [Spec.mantBits, Spec.ulpExp]
  have hv1 : value .b64 (mag .b64 0x3FB999999999999A + 1) = 0x1999999999999B / 2 ^ 56 := by
    have h1 : (mag .b64 0x3FB999999999999A + 1) / 2 ^ Spec.mantBits .b64 = 1019 := by decide
    have h2 : (mag .b64 0x3FB999999999999A + 1) % 2 ^ Spec.mantBits .b64 = 0x999999999999B := by decide
    unfold value
    rw [h1, h2, if_neg (by decide)]
    norm_num [Spec.mantBits, Spec.ulpExp]
  have hd : dec n (-17) = n / 10 ^ 17 := by
    unfold dec
    rw [zpow_neg, ← div_eq_mul_inv]
    norm_cast
  rw [hv0, hv1, hd, lt_abs]
  simp only [Spec.guard]
  rcases Nat.lt_or_ge 10000000000000000 n with hn | hn
  · left
    have : (10000000000000001 : ℚ) ≤ n := by exact_mod_cast hn
    linarith
  · right
    have : (n : ℚ) ≤ 10000000000000000 := by exact_mod_cast hn
    linarith

/-! ## C10 -/

/-- **C10**, exactly when it holds: a call returns unless the input is one of `ZeroDivisibility` and the
build has asserts or uses the x86-64 builtins.  Missing from the expected C10: those calls, which do
not return. -/
theorem C10_returns_partial (cfg : Cfg) (F : Fmt) (rs : Bool) (x : Nat) (mode : RoundingMode) (crs : Crs)
    (handler : CaseHandler) (h : FiniteNonzero F x) (hm : IsTruncating (isNeg F x) mode = true) :
    (∃ r, grisu_exact cfg F rs x mode crs handler = .ok r) ↔
      ¬ (ZeroDivisibility F x ∧ (cfg.x64 = true ∨ cfg.ndebug = false)) := by
  obtain ⟨s, t, h1, -⟩ := main_truncating h crs hm
  constructor
  · rintro ⟨r, hr⟩ hc
    obtain ⟨f, hf⟩ := (h1 cfg rs handler).1 hc
    rw [hf] at hr
    cases hr
  · intro hc
    exact ⟨_, (h1 cfg rs handler).2 hc⟩

/-- **C10** is false: on every input of `ZeroDivisibility` the call does not return normally. -/
theorem C10_faults (cfg : Cfg) (F : Fmt) (rs : Bool) (x : Nat) (mode : RoundingMode) (crs : Crs)
    (handler : CaseHandler) (h : FiniteNonzero F x) (hm : IsTruncating (isNeg F x) mode = true)
    (hx : ZeroDivisibility F x) (hcfg : cfg.x64 = true ∨ cfg.ndebug = false) :
    ∃ f, grisu_exact cfg F rs x mode crs handler = .fault f := by
  obtain ⟨s, t, h1, -⟩ := main_truncating h crs hm
  exact (h1 cfg rs handler).1 ⟨hx, hcfg⟩

-- the float just below 2^-125, and the double just below 2^-846
example : FiniteNonzero .b32 0x00FFFFFF ∧ ZeroDivisibility .b32 0x00FFFFFF :=
  ⟨⟨by decide, by decide, by decide⟩, by unfold ZeroDivisibility Spec.AllOnesSignificand; decide⟩
example : grisu_exact ⟨true, false⟩ .b32 true 0x00FFFFFF .toward_zero .tie_to_even .assert_finite =
    .fault .assertion := by decide +kernel
example : grisu_exact ⟨true, true⟩ .b64 true 0x0b0fffffffffffff .toward_zero .tie_to_even .assert_finite =
    .fault .ctzZero := by decide +kernel
example : grisu_exact ⟨false, true⟩ .b32 true 0x00FFFFFF .toward_zero .tie_to_even .assert_finite =
    .ok ⟨23509886, -45, some false⟩ := by decide +kernel
example : FiniteNonzero .b64 0x3FB999999999999A ∧ ¬ ZeroDivisibility .b64 0x3FB999999999999A :=
  ⟨⟨by decide, by decide, by decide⟩, fun h => absurd h.1 (by unfold Spec.AllOnesSignificand; decide)⟩

/-! ## C14-C17, C25, C26 in these modes -/

/-- **C42**: what is returned has no trailing zero, at most 9 (17) digits, and a scientific exponent in
`[-45, 38]` (`[-324, 308]`). -/
theorem C42_range_truncating (cfg : Cfg) (F : Fmt) (rs : Bool) (x : Nat) (mode : RoundingMode) (crs : Crs)
    (handler : CaseHandler) (h : FiniteNonzero F x) (hm : IsTruncating (isNeg F x) mode = true) (r : FpT)
    (hr : grisu_exact cfg F rs x mode crs handler = .ok r) :
    r.significand % 10 ≠ 0 ∧
    match (generalizing := false) F with
    | .b32 => r.significand < 10 ^ 9 ∧ -45 ≤ r.exponent + numDigits r.significand - 1 ∧
        r.exponent + numDigits r.significand - 1 ≤ 38
    | .b64 => r.significand < 10 ^ 17 ∧ -324 ≤ r.exponent + numDigits r.significand - 1 ∧
        r.exponent + numDigits r.significand - 1 ≤ 308 := by
  obtain ⟨h1, -, -, -, -, -, h7, h8⟩ := truncating_ok h hm hr
  have h9 := sciExp_of_reads (provider_left hm) h h1
  refine ⟨h8, ?_⟩
  cases F <;> simpa [maxDigits, minSci, maxSci, h7] using And.intro h7 h9

example : grisu_exact ⟨false, true⟩ .b32 true 0x00FFFFFF .toward_zero .tie_to_even .assert_finite =
    .ok ⟨23509886, -45, some false⟩ := by decide +kernel

/-- **C43**: two builds that both return, return the same. -/
theorem C43_portable_truncating (cfg cfg' : Cfg) (F : Fmt) (rs : Bool) (x : Nat) (mode : RoundingMode) (crs : Crs)
    (handler handler' : CaseHandler) (h : FiniteNonzero F x) (hm : IsTruncating (isNeg F x) mode = true) (r r' : FpT)
    (hr : grisu_exact cfg F rs x mode crs handler = .ok r)
    (hr' : grisu_exact cfg' F rs x mode crs handler' = .ok r') : r = r' := by
  obtain ⟨s, t, h1, -⟩ := main_truncating h crs hm
  have key : ∀ cfg handler r, grisu_exact cfg F rs x mode crs handler = .ok r →
      r = ⟨s, t, if rs then some (isNeg F x) else none⟩ := by
    intro cfg handler r hr
    by_cases hc : ZeroDivisibility F x ∧ Strict cfg
    · obtain ⟨f, hf⟩ := (h1 cfg rs handler).1 hc
      rw [hf] at hr
      cases hr
    · rw [(h1 cfg rs handler).2 hc] at hr
      cases hr
      rfl
  rw [key _ _ _ hr, key _ _ _ hr']

example : ∀ cfg ∈ [(⟨true, true⟩ : Cfg), ⟨true, false⟩, ⟨false, true⟩, ⟨false, false⟩],
    grisu_exact cfg .b32 true 0x54FFFFFF .toward_zero .tie_to_even .assert_finite =
    grisu_exact ⟨true, true⟩ .b32 true 0x54FFFFFF .toward_zero .tie_to_even .assert_finite := by decide +kernel

/-- **C44**: in every mode, inputs with the same result are equal. -/
theorem C44_injective (cfg cfg' : Cfg) (F : Fmt) (x y : Nat) (mode : RoundingMode) (crs crs' : Crs)
    (handler handler' : CaseHandler) (hx : FiniteNonzero F x) (hy : FiniteNonzero F y) (r : FpT)
    (hrx : grisu_exact cfg F true x mode crs handler = .ok r)
    (hry : grisu_exact cfg' F true y mode crs' handler' = .ok r) : x = y := by
  have key : ∀ cfg handler crs x, FiniteNonzero F x → grisu_exact cfg F true x mode crs handler = .ok r →
      Reads F mode x (dec r.significand r.exponent) ∧ r.is_negative = some (isNeg F x) := by
    intro cfg handler crs x h hr
    cases hm : IsTruncating (isNeg F x) mode with
    | true => exact ⟨(truncating_ok h hm hr).1, (truncating_ok h hm hr).2.1⟩
    | false =>
      obtain ⟨s, t, h1, h2⟩ := main cfg true handler crs h hm
      rw [h1] at hr
      cases hr
      exact ⟨h2.mem, rfl⟩
  obtain ⟨a1, a2⟩ := key _ _ _ _ hx hrx
  obtain ⟨b1, b2⟩ := key _ _ _ _ hy hry
  rw [a2, Option.some.injEq] at b2
  refine eq_of_mag hx hy b2 ?_
  unfold Reads at a1 b1
  rw [b2] at a1
  exact Spec.RoundsTo.unique a1 b1

/-- **C45**: in every mode, for numbers of the same sign, the larger magnitude has the larger decimal. -/
theorem C45_monotone (cfg cfg' : Cfg) (F : Fmt) (x y : Nat) (mode : RoundingMode) (crs crs' : Crs)
    (handler handler' : CaseHandler) (hx : FiniteNonzero F x) (hy : FiniteNonzero F y)
    (hs : isNeg F x = isNeg F y) (hlt : value F (mag F x) < value F (mag F y)) (r r' : FpT)
    (hrx : grisu_exact cfg F true x mode crs handler = .ok r)
    (hry : grisu_exact cfg' F true y mode crs' handler' = .ok r') :
    dec r.significand r.exponent < dec r'.significand r'.exponent := by
  have key : ∀ cfg handler crs x r, FiniteNonzero F x → grisu_exact cfg F true x mode crs handler = .ok r →
      Reads F mode x (dec r.significand r.exponent) := by
    intro cfg handler crs x r h hr
    cases hm : IsTruncating (isNeg F x) mode with
    | true => exact (truncating_ok h hm hr).1
    | false =>
      obtain ⟨s, t, h1, h2⟩ := main cfg true handler crs h hm
      rw [h1] at hr
      cases hr
      exact h2.mem
  exact reads_lt hx hy hs (Spec.value_strictMono.lt_iff_lt.mp hlt) (key _ _ _ _ _ hx hrx) (key _ _ _ _ _ hy hry)

-- two neighbouring floats in `toward_zero`
example : grisu_exact ⟨true, false⟩ .b32 true 0x3DCCCCCD .toward_zero .tie_to_even .assert_finite =
    .ok ⟨100000002, -9, some false⟩ ∧
    grisu_exact ⟨true, false⟩ .b32 true 0x3DCCCCCE .toward_zero .tie_to_even .assert_finite =
    .ok ⟨10000001, -8, some false⟩ := by decide +kernel

end Grisu

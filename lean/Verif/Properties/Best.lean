import Verif.Proofs.Best
import Verif.Properties.Nearest
import Verif.Properties.Text

/-!
# The result is determined by the value and the policies

Properties C80-C83.
-/

namespace Grisu

open Spec (RoundsTo value mag isNeg FiniteNonzero dec numDigits IsNearest IsAway IsTruncating Best LargestShortest
  AllOnesSignificand exponentField)

/-! ## C80 -/

/-- **C80**: a number that is exactly a multiple of a power of ten which is not below its unit in the last place is
converted to exactly that number, whatever the policies, if the call returns. -/
theorem C80_exact (cfg : Cfg) (F : Fmt) (rs : Bool) (x : Nat) (mode : RoundingMode) (crs : Crs)
    (handler : CaseHandler) (h : FiniteNonzero F x) (d : Nat) (k : Int) (hv : value F (mag F x) = dec d k)
    (hu : value F (mag F x + 1) - value F (mag F x) ≤ 10 ^ k) (r : FpT)
    (hr : grisu_exact cfg F rs x mode crs handler = .ok r) :
    dec r.significand r.exponent = value F (mag F x) := by
  rw [hv]
  cases hm : IsTruncating (isNeg F x) mode with
  | false => exact exact_core h (main_ok h hm hr) hv hu
  | true =>
    exact exact_core h ((truncating_ok h hm hr).2.2.1 (fun hx => notShortest_not_exact hx hv hu)) hv hu

-- 0.375 as a float in `toward_zero`: the call does return, and nothing is lost
example : value .b32 (mag .b32 0x3EC00000) = dec 375 (-3) ∧
    value .b32 (mag .b32 0x3EC00000 + 1) - value .b32 (mag .b32 0x3EC00000) ≤ 10 ^ (-3 : Int) := by
  have h1 : mag .b32 0x3EC00000 = 0x3EC00000 := by decide
  rw [h1]
  constructor <;> norm_num [value, dec, Spec.mantBits, Spec.ulpExp]
example : grisu_exact ⟨true, false⟩ .b32 true 0x3EC00000 .toward_zero .do_not_care .assert_finite =
    .ok ⟨375, -3, some false⟩ := by decide +kernel

/-- An integer with an all-ones significand is not one of the inputs on which the truncating modes fail. -/
theorem integer_no_fault {F : Fmt} {x n : Nat} (hv : value F (mag F x) = n) : ¬ Spec.ZeroDivisibility F x := by
  rintro ⟨h1, h2⟩
  have hE : 1 ≤ exponentField F x ∧ ((exponentField F x : Int) - 1 + Spec.ulpExp F) < 0 := by
    generalize exponentField F x = E at h2
    revert E
    cases F <;> decide
  unfold AllOnesSignificand at h1
  unfold exponentField at hE
  unfold value at hv
  rw [if_neg (by omega), h1] at hv
  have h3 : Spec.ulpExp F + ((mag F x / 2 ^ Spec.mantBits F - 1 : Nat) : Int) =
      -((1 - (Spec.ulpExp F + ((mag F x / 2 ^ Spec.mantBits F : Nat) : Int))).toNat : Int) := by omega
  rw [h3, zpow_neg, zpow_natCast] at hv
  obtain ⟨j, hj⟩ : ∃ j, (1 - (Spec.ulpExp F + ((mag F x / 2 ^ Spec.mantBits F : Nat) : Int))).toNat = j + 1 :=
    ⟨_, (Nat.succ_pred_eq_of_pos (by omega)).symm⟩
  rw [hj] at hv
  have h4 : (2 ^ Spec.mantBits F + (2 ^ Spec.mantBits F - 1) : Nat) = n * 2 ^ (j + 1) := by
    have : ((2 ^ Spec.mantBits F + (2 ^ Spec.mantBits F - 1) : Nat) : ℚ) = ((n * 2 ^ (j + 1) : Nat) : ℚ) := by
      have h5 : ((2 : ℚ) ^ (j + 1)) ≠ 0 := by positivity
      rw [← div_eq_mul_inv, div_eq_iff h5] at hv
      rw [hv]
      push_cast
      ring
    exact_mod_cast this
  have h5 : (2 ^ Spec.mantBits F + (2 ^ Spec.mantBits F - 1) : Nat) % 2 = 1 := by cases F <;> decide
  rw [h4, pow_succ, ← Nat.mul_assoc, Nat.mul_mod_left] at h5
  omega

/-- **C80** for integers: every nonzero integer of magnitude below `2^24` (`float`) or `2^53` (`double`) is converted,
without failure, to exactly that integer in every rounding mode and with every tie policy. -/
theorem C80_integers (cfg : Cfg) (F : Fmt) (rs : Bool) (x : Nat) (mode : RoundingMode) (crs : Crs)
    (handler : CaseHandler) (h : FiniteNonzero F x) (n : Nat) (hv : value F (mag F x) = n)
    (hn : n < match (generalizing := false) F with | .b32 => 2 ^ 24 | .b64 => 2 ^ 53) :
    ∃ r, grisu_exact cfg F rs x mode crs handler = .ok r ∧ dec r.significand r.exponent = n := by
  have hn' : n < 2 ^ (Spec.mantBits F + 1) := by cases F <;> simpa [Spec.mantBits] using hn
  have hu : value F (mag F x + 1) - value F (mag F x) ≤ 10 ^ (0 : Int) := by
    rw [Spec.value_succ, Spec.value_eq, zpow_zero]
    have h1 : Spec.ex F (mag F x) ≤ 0 := by
      by_contra hc
      have h2 : 2 ^ Spec.mantBits F ≤ Spec.sg F (mag F x) := by
        unfold Spec.sg
        unfold Spec.ex at hc
        split
        · rename_i h0
          rw [if_pos h0] at hc
          exact absurd hc (by cases F <;> decide)
        · omega
      rw [Spec.value_eq] at hv
      have h3 : (2 : ℚ) ^ (1 : Int) ≤ 2 ^ Spec.ex F (mag F x) := zpow_le_zpow_right₀ (by norm_num) (by omega)
      have h4 : ((2 : ℚ) ^ Spec.mantBits F) ≤ Spec.sg F (mag F x) := by exact_mod_cast h2
      have h5 : (n : ℚ) < 2 ^ (Spec.mantBits F + 1) := by exact_mod_cast hn'
      rw [← hv, pow_succ] at h5
      have h6 : (0 : ℚ) < 2 ^ Spec.mantBits F := by positivity
      rw [zpow_one] at h3
      nlinarith
    have h2 : (2 : ℚ) ^ Spec.ex F (mag F x) ≤ 2 ^ (0 : Int) := zpow_le_zpow_right₀ (by norm_num) h1
    rw [zpow_zero] at h2
    linarith
  have hd : value F (mag F x) = dec n 0 := by rw [hv]; unfold dec; simp
  have hr : ∃ r, grisu_exact cfg F rs x mode crs handler = .ok r := by
    cases hm : IsTruncating (isNeg F x) mode with
    | false =>
      obtain ⟨s, t, h1, -⟩ := main cfg rs handler crs h hm
      exact ⟨_, h1⟩
    | true =>
      obtain ⟨s, t, h1, -⟩ := main_truncating h crs hm
      exact ⟨_, (h1 cfg rs handler).2 (fun hc => integer_no_fault hv hc.1)⟩
  obtain ⟨r, hr⟩ := hr
  exact ⟨r, hr, by rw [C80_exact cfg F rs x mode crs handler h n 0 hd hu r hr, hv]⟩

-- 16777215 as a float, 2^24, the first integer left out, with `do_not_care`
example : FiniteNonzero .b32 0x4B7FFFFF ∧ value .b32 (mag .b32 0x4B7FFFFF) = (16777215 : Nat) := by
  have h1 : mag .b32 0x4B7FFFFF = 0x4B7FFFFF := by decide
  refine ⟨⟨by decide, by decide, by decide⟩, ?_⟩
  rw [h1]
  norm_num [value, Spec.mantBits, Spec.ulpExp]
example : grisu_exact ⟨true, false⟩ .b32 true 0x4B7FFFFF .toward_zero .do_not_care .assert_finite =
    .ok ⟨16777215, 0, some false⟩ := by decide +kernel
example : grisu_exact ⟨true, false⟩ .b32 true 0x4B800000 .nearest_to_even .do_not_care .assert_finite =
    .ok ⟨16777217, 0, some false⟩ := by decide +kernel

/-! ## C81 -/

/-- **C81**: with a tie policy, or when rounding away from zero, the result is the only decimal that reads back as `x`,
is shortest, is closest to `x` among the shortest, and is the one the tie policy chooses. -/
theorem C81_best (cfg : Cfg) (F : Fmt) (rs : Bool) (x : Nat) (mode : RoundingMode) (crs : Crs)
    (handler : CaseHandler) (h : FiniteNonzero F x) (hm : IsTruncating (isNeg F x) mode = false)
    (hc : crs ≠ .do_not_care ∨ IsAway (isNeg F x) mode = true) :
    ∃ r, grisu_exact cfg F rs x mode crs handler = .ok r ∧
      ∀ s t, Best F mode crs x s t ↔ s = r.significand ∧ t = r.exponent := by
  by_cases ha : IsAway (isNeg F x) mode = true
  · obtain ⟨s, t, h1, h2, h3⟩ := main_top cfg rs handler h (crs := crs) (Or.inr ha) (by simp [hm])
    exact ⟨_, h1, fun _ _ => best_iff_away h ha h2 h3⟩
  · have hn : IsNearest mode = true := by
      cases mode <;> simp_all [IsNearest, IsAway, IsTruncating]
    have hc' := hc.resolve_right ha
    obtain ⟨s, t, h1, h2, h3, h4⟩ := nearest_all cfg rs handler h hn hc'
    exact ⟨_, h1, fun _ _ => best_iff_nearest h hc' h2 h3 h4⟩

-- 2097152.25 as a float: 2097152.2 and 2097152.3 are equally close
example : FiniteNonzero .b32 0x4A000001 ∧ IsTruncating (isNeg .b32 0x4A000001) .nearest_to_even = false ∧
    Crs.tie_to_odd ≠ .do_not_care := ⟨⟨by decide, by decide, by decide⟩, rfl, by decide⟩
example : grisu_exact ⟨true, false⟩ .b32 true 0x4A000001 .nearest_to_even .tie_to_odd .assert_finite =
    .ok ⟨20971523, -1, some false⟩ := by decide +kernel

/-- **C81** for `do_not_care`: the result is the only decimal that reads back as `x`, is shortest, and is the largest
of the shortest ones; in the truncating modes, too, unless all bits of the significand are ones. -/
theorem C81_largest (cfg : Cfg) (F : Fmt) (rs : Bool) (x : Nat) (mode : RoundingMode)
    (handler : CaseHandler) (h : FiniteNonzero F x)
    (hm : IsTruncating (isNeg F x) mode = true → ¬ (AllOnesSignificand F x ∧ exponentField F x ≠ 0)) :
    ∃ r, grisu_exact cfg F rs x mode .do_not_care handler = .ok r ∧
      ∀ s t, LargestShortest F mode x s t ↔ s = r.significand ∧ t = r.exponent := by
  obtain ⟨s, t, h1, h2, h3⟩ := main_top cfg rs handler h (crs := .do_not_care) (mode := mode) (Or.inl rfl)
    (fun ht ha => hm ht (allOnes_iff.mp ha))
  exact ⟨_, h1, fun _ _ => largestShortest_iff h h2 h3⟩

-- the smallest double: 7e-324 is the largest of 3e-324 .. 7e-324; in `toward_zero` it is 9e-324
example : FiniteNonzero .b64 1 ∧ ¬ (AllOnesSignificand .b64 1 ∧ exponentField .b64 1 ≠ 0) :=
  ⟨⟨by decide, by decide, by decide⟩, by unfold AllOnesSignificand; decide⟩
example : grisu_exact ⟨true, false⟩ .b64 true 1 .nearest_to_even .do_not_care .assert_finite =
    .ok ⟨7, -324, some false⟩ := by decide +kernel
example : grisu_exact ⟨true, false⟩ .b64 true 1 .toward_zero .do_not_care .assert_finite =
    .ok ⟨9, -324, some false⟩ := by decide +kernel

/-- **C81** for the text: what is printed for a number is the scientific notation of the decimal that meets the
specification, whichever decimal that is. -/
theorem C81_text (cfg : Cfg) (F : Fmt) (x : Nat) (mode : RoundingMode) (crs : Crs) (h : FiniteNonzero F x)
    (hm : IsTruncating (isNeg F x) mode = false) (s : Nat) (t : Int)
    (hb : if crs = .do_not_care then LargestShortest F mode x s t else Best F mode crs x s t) :
    Spec.Prints cfg F x mode crs (Spec.sci (isNeg F x) s t) := by
  split at hb
  · rename_i hc
    subst hc
    obtain ⟨r, h1, h2⟩ := C81_largest cfg F false x mode .assert_finite h (by simp [hm])
    obtain ⟨rfl, rfl⟩ := (h2 s t).mp hb
    exact prints_finite h h1
  · rename_i hc
    obtain ⟨r, h1, h2⟩ := C81_best cfg F false x mode crs .assert_finite h hm (Or.inl hc)
    obtain ⟨rfl, rfl⟩ := (h2 s t).mp hb
    exact prints_finite h h1

-- the tie again, printed
example : fp_to_chars_n ⟨true, false⟩ .b32 0xCA000001 (List.replicate 12 none) .nearest_to_even .tie_to_odd =
    .ok ("-2.0971523E6".toList.map some, 12) := by decide +kernel

/-! ## C82 -/

/-- **C82**: if two tie policies give different results in a to-nearest mode, then the results are neighbouring
multiples of one power of ten, and the input is exactly halfway between them. -/
theorem C82_policies (cfg cfg' : Cfg) (F : Fmt) (rs rs' : Bool) (x : Nat) (mode : RoundingMode) (crs crs' : Crs)
    (handler handler' : CaseHandler) (h : FiniteNonzero F x) (hm : IsNearest mode = true)
    (hc : crs ≠ .do_not_care) (hc' : crs' ≠ .do_not_care) (r r' : FpT)
    (hr : grisu_exact cfg F rs x mode crs handler = .ok r)
    (hr' : grisu_exact cfg' F rs' x mode crs' handler' = .ok r')
    (hne : ¬ (r.significand = r'.significand ∧ r.exponent = r'.exponent)) :
    r.exponent = r'.exponent ∧
    (r'.significand = r.significand + 1 ∨ r.significand = r'.significand + 1) ∧
    value F (mag F x) = (dec r.significand r.exponent + dec r'.significand r'.exponent) / 2 := by
  have hI : Interval? (Reads F mode x) := reads_interval_left h mode
  obtain ⟨s, t, h1, h2, h3, h4⟩ := nearest_all cfg rs handler h hm hc
  obtain ⟨s', t', g1, g2, g3, g4⟩ := nearest_all cfg' rs' handler' h hm hc'
  rw [h1] at hr
  rw [g1] at hr'
  cases hr
  cases hr'
  have hd : numDigits s' = numDigits s := le_antisymm (g2.shortest hI h2.mem) (h2.shortest hI g2.mem)
  have he : |dec s t - value F (mag F x)| = |dec s' t' - value F (mag F x)| :=
    le_antisymm (h4 _ _ g2.mem hd.le).1 (g4 _ _ h2.mem hd.ge).1
  obtain ⟨rfl, -⟩ := (h4 _ _ g2.mem hd.le).2 (fun hc => hne (by cases hc; exact ⟨rfl, rfl⟩)) he
  refine ⟨rfl, ?_⟩
  have hs : s ≠ s' := fun hc => hne ⟨hc, rfl⟩
  rcases Nat.lt_or_gt_of_ne hs with hlt | hlt
  · have := closest_neighbours hI hlt h3.closest h2.mem g2.mem he
    exact ⟨Or.inl this.1, this.2⟩
  · have := closest_neighbours hI hlt g3.closest g2.mem h2.mem he.symm
    exact ⟨Or.inr this.1, by rw [this.2, add_comm]⟩

example : grisu_exact ⟨true, false⟩ .b32 true 0x4A000001 .nearest_to_even .tie_to_even .assert_finite =
    .ok ⟨20971522, -1, some false⟩ := by decide +kernel

/-! ## C83 -/

/-- **C83**: if two to-nearest modes give different results with the same tie policy, then one of the two results is
exactly halfway between the input and one of its two neighbours. -/
theorem C83_modes (cfg cfg' : Cfg) (F : Fmt) (rs rs' : Bool) (x : Nat) (mode mode' : RoundingMode) (crs : Crs)
    (handler handler' : CaseHandler) (h : FiniteNonzero F x) (hm : IsNearest mode = true)
    (hm' : IsNearest mode' = true) (r r' : FpT)
    (hr : grisu_exact cfg F rs x mode crs handler = .ok r)
    (hr' : grisu_exact cfg' F rs' x mode' crs handler' = .ok r')
    (hne : ¬ (r.significand = r'.significand ∧ r.exponent = r'.exponent)) :
    ∃ v, (v = dec r.significand r.exponent ∨ v = dec r'.significand r'.exponent) ∧
      (v = (value F (mag F x) + value F (mag F x + 1)) / 2 ∨ v = (value F (mag F x) + value F (mag F x - 1)) / 2) := by
  by_contra hc
  have ht := not_truncating (neg := isNeg F x) hm
  have ht' := not_truncating (neg := isNeg F x) hm'
  have o := main_ok h ht hr
  have o' := main_ok h ht' hr'
  have h1 : Reads F mode' x (dec r.significand r.exponent) := by
    by_contra hn
    exact hc ⟨_, Or.inl rfl, nearest_halfway h hm hm' o.mem hn⟩
  have h2 : Reads F mode x (dec r'.significand r'.exponent) := by
    by_contra hn
    exact hc ⟨_, Or.inr rfl, nearest_halfway h hm' hm o'.mem hn⟩
  by_cases hcrs : crs = .do_not_care
  · obtain ⟨s, t, k1, k2, k3⟩ := main_top cfg rs handler h (crs := crs) (mode := mode) (Or.inl hcrs) (by simp [ht])
    obtain ⟨s', t', l1, l2, l3⟩ := main_top cfg' rs' handler' h (crs := crs) (mode := mode') (Or.inl hcrs) (by simp [ht'])
    rw [k1] at hr
    rw [l1] at hr'
    cases hr
    cases hr'
    have hI : Interval? (Reads F mode x) := reads_interval_left h mode
    have hI' : Interval? (Reads F mode' x) := reads_interval_left h mode'
    have hd : numDigits s' = numDigits s := le_antisymm (o'.shortest hI' h1) (o.shortest hI h2)
    exact hne (dec_inj (o.pos hI) (o'.pos hI') hd.symm
      (le_antisymm (o'.largest_all hI' l3 h1 hd.symm) (o.largest_all hI k3 h2 hd)))
  · obtain ⟨s, t, k1, k2, k3, k4⟩ := nearest_all cfg rs handler h hm hcrs
    obtain ⟨s', t', l1, l2, l3, l4⟩ := nearest_all cfg' rs' handler' h hm' hcrs
    rw [k1] at hr
    rw [l1] at hr'
    cases hr
    cases hr'
    have b : Best F mode' crs x s' t' := (best_iff_nearest h hcrs l2 l3 l4).mpr ⟨rfl, rfl⟩
    have := best_cross h hcrs k2 k3 k4 b h2 h1
    exact hne ⟨this.1.symm, this.2.symm⟩

-- 33554448 as a float: 33554450 is halfway to the next float
example : grisu_exact ⟨true, false⟩ .b32 true 0x4C000004 .nearest_to_even .tie_to_even .assert_finite =
    .ok ⟨3355445, 1, some false⟩ := by decide +kernel
example : grisu_exact ⟨true, false⟩ .b32 true 0x4C000004 .nearest_to_odd .tie_to_even .assert_finite =
    .ok ⟨33554448, 0, some false⟩ := by decide +kernel

/-- **C83**, where it can happen: below `2^24` and from `2^65` on (`float`), below `2^53` and from `2^134` on (`double`),
all to-nearest modes give the same result. -/
theorem C83_range (cfg cfg' : Cfg) (F : Fmt) (rs rs' : Bool) (x : Nat) (mode mode' : RoundingMode) (crs : Crs)
    (handler handler' : CaseHandler) (h : FiniteNonzero F x) (hm : IsNearest mode = true)
    (hm' : IsNearest mode' = true) (r r' : FpT)
    (hr : grisu_exact cfg F rs x mode crs handler = .ok r)
    (hr' : grisu_exact cfg' F rs' x mode' crs handler' = .ok r')
    (hx : match (generalizing := false) F with
      | .b32 => value F (mag F x) < 2 ^ 24 ∨ 2 ^ 65 ≤ value F (mag F x)
      | .b64 => value F (mag F x) < 2 ^ 53 ∨ 2 ^ 134 ≤ value F (mag F x)) :
    r.significand = r'.significand ∧ r.exponent = r'.exponent := by
  by_contra hne
  have key : 2 ^ (Spec.mantBits F + 1) ≤ value F (mag F x) ∧
      value F (mag F x) < 2 * 10 ^ halfwayDigits F := by
    obtain ⟨v, hv, hh⟩ := C83_modes cfg cfg' F rs rs' x mode mode' crs handler handler' h hm hm' r r' hr hr' hne
    rcases hv with rfl | rfl
    · exact halfway_range h (main_ok h (not_truncating hm) hr) hh
    · exact halfway_range h (main_ok h (not_truncating hm') hr') hh
  obtain ⟨h1, h2⟩ := key
  cases F with
  | b32 =>
    simp only [Spec.mantBits, halfwayDigits] at h1 h2 hx
    rcases hx with hx | hx
    · norm_num at h1 hx; linarith
    · norm_num at h2 hx; linarith
  | b64 =>
    simp only [Spec.mantBits, halfwayDigits] at h1 h2 hx
    rcases hx with hx | hx
    · norm_num at h1 hx; linarith
    · norm_num at h2 hx; linarith

-- 0.3 as a double; the lower bound is sharp: `2^24` with `do_not_care`
example : FiniteNonzero .b64 0x3FD3333333333333 ∧ value .b64 (mag .b64 0x3FD3333333333333) < 2 ^ 53 := by
  have h1 : mag .b64 0x3FD3333333333333 = 0x3FD3333333333333 := by decide
  refine ⟨⟨by decide, by decide, by decide⟩, ?_⟩
  rw [h1]
  norm_num [value, Spec.mantBits, Spec.ulpExp]
example : grisu_exact ⟨true, false⟩ .b32 true 0x4B800000 .nearest_to_odd .do_not_care .assert_finite =
    .ok ⟨16777216, 0, some false⟩ := by decide +kernel

end Grisu

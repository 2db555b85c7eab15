import Verif.Proofs.Bridge
import Mathlib.Data.Nat.Digits.Lemmas
import Mathlib.Data.Rat.Floor

/-! # Consequences of "no multiple of a larger power of ten lies in the interval" -/

namespace Grisu

open Spec (dec numDigits)

/-! ## Decimal digits -/

theorem numDigits_le_iff {s k : Nat} : numDigits s ≤ k ↔ s < 10 ^ k := by
  have := Nat.lt_digits_length_iff (b := 10) (k := k) (by norm_num) s
  unfold numDigits
  omega

theorem lt_pow_numDigits (s : Nat) : s < 10 ^ numDigits s := numDigits_le_iff.mp le_rfl

theorem pow_le_of_lt_numDigits {s k : Nat} (h : k < numDigits s) : 10 ^ k ≤ s := by
  by_contra hc
  have := numDigits_le_iff.mpr (not_le.mp hc)
  omega

theorem numDigits_pos {s : Nat} (h : 0 < s) : 0 < numDigits s := by
  by_contra hc
  have := numDigits_le_iff.mp (le_of_eq (Nat.eq_zero_of_not_pos hc))
  simp at this
  omega

theorem ten_zpow_pos (t : Int) : (0 : ℚ) < 10 ^ t := zpow_pos (by norm_num) t

theorem dec_nonneg (s : Nat) (t : Int) : 0 ≤ dec s t := by
  unfold dec
  have := ten_zpow_pos t
  positivity

/-- Rewriting a decimal with a smaller exponent. -/
theorem dec_shift (s k : Nat) (t : Int) : dec s (t + k) = dec (s * 10 ^ k) t := by
  unfold dec
  rw [zpow_add₀ (by norm_num), zpow_natCast]
  push_cast
  ring

theorem dec_shift' (s : Nat) {t t' : Int} (h : t ≤ t') : dec s t' = dec (s * 10 ^ (t' - t).toNat) t := by
  rw [← dec_shift]
  congr 1
  omega

theorem dec_le_dec {s s' : Nat} {t : Int} : dec s t ≤ dec s' t ↔ s ≤ s' := by
  unfold dec
  rw [mul_le_mul_iff_left₀ (ten_zpow_pos t), Nat.cast_le]

theorem dec_lt_dec {s s' : Nat} {t : Int} : dec s t < dec s' t ↔ s < s' := by
  unfold dec
  rw [mul_lt_mul_iff_left₀ (ten_zpow_pos t), Nat.cast_lt]

theorem dec_one (t : Int) : dec 1 t = 10 ^ t := by unfold dec; simp

theorem dec_lt_pow (s : Nat) (t : Int) : dec s t < 10 ^ (t + numDigits s) := by
  rw [← dec_one, dec_shift, dec_lt_dec, one_mul]
  exact lt_pow_numDigits s

theorem pow_le_dec {s : Nat} (h : 0 < s) (t : Int) : 10 ^ (t + numDigits s - 1) ≤ dec s t := by
  have hp := numDigits_pos h
  rw [← dec_one, show t + (numDigits s : Int) - 1 = t + ((numDigits s - 1 : Nat) : Int) by omega, dec_shift,
    dec_le_dec, one_mul]
  exact pow_le_of_lt_numDigits (by omega)

theorem ten_zpow_le {a b : Int} : (10 : ℚ) ^ a ≤ 10 ^ b ↔ a ≤ b :=
  zpow_le_zpow_iff_right₀ (by norm_num)

theorem ten_zpow_lt {a b : Int} : (10 : ℚ) ^ a < 10 ^ b ↔ a < b :=
  zpow_lt_zpow_iff_right₀ (by norm_num)

/-! ## Outputs -/

/-- Convex sets of positive numbers. -/
structure Interval? (I : ℚ → Prop) : Prop where
  convex : ∀ a b c, I a → I c → a ≤ b → b ≤ c → I b
  pos : ∀ a, I a → 0 < a

/-- `s * 10^t` is in `I`, and no decimal with a larger exponent is. -/
structure Output (I : ℚ → Prop) (s : Nat) (t : Int) : Prop where
  mem : I (dec s t)
  noMult : ∀ n t', t < t' → ¬ I (dec n t')

variable {I : ℚ → Prop} {s : Nat} {t : Int}

theorem Output.pos (o : Output I s t) (hI : Interval? I) : 0 < s := by
  rcases Nat.eq_zero_or_pos s with h | h
  · have := hI.pos _ o.mem
    rw [h] at this
    simp [dec] at this
  · exact h

theorem Output.no_trailing_zero (o : Output I s t) : s % 10 ≠ 0 := by
  intro h
  apply o.noMult (s / 10) (t + 1) (by omega)
  have h1 : dec (s / 10) (t + ((1 : Nat) : Int)) = dec s t := by
    rw [dec_shift]
    congr 1
    omega
  have h2 := o.mem
  rw [← h1] at h2
  exact h2

/-- A power of ten with a larger exponent is not in the interval. -/
theorem Output.not_pow (o : Output I s t) {j : Int} (h : t < j) : ¬ I (10 ^ j) := by
  rw [← dec_one]
  exact o.noMult 1 j h

theorem Output.shortest (o : Output I s t) (hI : Interval? I) {s' : Nat} {t' : Int} (h : I (dec s' t')) :
    numDigits s ≤ numDigits s' := by
  by_contra hc
  have hs : 0 < s' := by
    rcases Nat.eq_zero_or_pos s' with h0 | h0
    · have := hI.pos _ h
      rw [h0] at this
      simp [dec] at this
    · exact h0
  have hd := numDigits_pos hs
  have ht : t' ≤ t := by
    by_contra hlt
    exact o.noMult _ _ (by omega) h
  apply o.not_pow (j := t + numDigits s') (by omega)
  refine hI.convex _ _ _ h o.mem ?_ ?_
  · refine (dec_lt_pow s' t').le.trans ?_
    rw [ten_zpow_le]
    omega
  · refine le_trans ?_ (pow_le_dec (o.pos hI) t)
    rw [ten_zpow_le]
    omega

/-- A competitor of the same length has the same exponent, or both have one digit. -/
theorem Output.same_length (o : Output I s t) (hI : Interval? I) {s' : Nat} {t' : Int} (h : I (dec s' t'))
    (hd : numDigits s' ≤ numDigits s) :
    t' = t ∨ (t' < t ∧ numDigits s' = 1 ∧ I (10 ^ t) ∧ dec s' t' ≤ 9 / 10 * 10 ^ t ∧ (10 : ℚ) ^ t ≤ dec s t) := by
  have hsh := o.shortest hI h
  have hs := o.pos hI
  rcases lt_trichotomy t' t with hlt | heq | hgt
  · right
    have hlow : dec s' t' < 10 ^ (t + numDigits s - 1) := by
      refine lt_of_lt_of_le (dec_lt_pow s' t') ?_
      rw [ten_zpow_le]
      omega
    have hmem : I (10 ^ (t + numDigits s - 1)) := hI.convex _ _ _ h o.mem hlow.le (pow_le_dec hs t)
    have hone : numDigits s = 1 := by
      have := numDigits_pos hs
      by_contra hne
      exact o.not_pow (by omega) hmem
    have hone' : numDigits s' = 1 := by omega
    have h1 := pow_le_dec hs t
    rw [hone, show t + ((1 : Nat) : Int) - 1 = t by omega] at hmem h1
    refine ⟨hlt, hone', hmem, ?_, h1⟩
    have h9 : s' ≤ 9 := by have := numDigits_le_iff.mp (le_of_eq hone'); omega
    calc dec s' t' ≤ dec 9 t' := dec_le_dec.mpr h9
      _ = 9 * 10 ^ t' := by unfold dec; norm_num
      _ ≤ 9 * 10 ^ (t - 1) := by
        have := (ten_zpow_le (a := t') (b := t - 1)).mpr (by omega)
        linarith
      _ = 9 / 10 * 10 ^ t := by rw [zpow_sub₀ (by norm_num)]; norm_num; ring
  · exact Or.inl heq
  · exact absurd h (o.noMult _ _ hgt)

theorem Output.sciExp_ge (o : Output I s t) (hI : Interval? I) {y : ℚ} {j : Int} (hy : I y)
    (hj : (10 : ℚ) ^ j ≤ y) : j ≤ t + numDigits s - 1 := by
  by_contra hc
  have hd := numDigits_pos (o.pos hI)
  apply o.not_pow (j := j) (by omega)
  refine hI.convex _ _ _ o.mem hy ?_ hj
  refine (dec_lt_pow s t).le.trans ?_
  rw [ten_zpow_le]
  omega

theorem Output.sciExp_lt (o : Output I s t) (hI : Interval? I) {j : Int} (hj : ∀ v, I v → v < 10 ^ j) :
    t + numDigits s - 1 < j := by
  have h := lt_of_le_of_lt (pow_le_dec (o.pos hI) t) (hj _ o.mem)
  exact ten_zpow_lt.mp h

/-- The number of digits is bounded by the relative width of the interval. -/
theorem Output.digits_le (o : Output I s t) {L R : ℚ} {D : Nat} (h0 : 0 ≤ L)
    (hin : ∀ v, L < v → v < R → I v) (hout : ∀ v, I v → v ≤ R) (hD : 10 * R < (R - L) * 10 ^ D) :
    numDigits s ≤ D := by
  rw [numDigits_le_iff]
  by_contra hc
  have hs : ((10 ^ D : Nat) : ℚ) ≤ s := by exact_mod_cast not_lt.mp hc
  push_cast at hs
  have hT := ten_zpow_pos t
  have h1 : (s : ℚ) * 10 ^ t ≤ R := hout _ o.mem
  have h2 : (10 : ℚ) ^ D * 10 ^ t ≤ R := le_trans (mul_le_mul_of_nonneg_right hs hT.le) h1
  have hD0 : (0 : ℚ) < 10 ^ D := by positivity
  have h3 : 10 * 10 ^ t < R - L := by
    have h5 : 10 * 10 ^ t * 10 ^ D ≤ 10 * R := by nlinarith
    exact lt_of_mul_lt_mul_right (lt_of_le_of_lt h5 hD) hD0.le
  have h4 : (10 : ℚ) ^ (t + 1) = 10 * 10 ^ t := by rw [zpow_add₀ (by norm_num)]; norm_num; ring
  have hW : (0 : ℚ) < 10 ^ (t + 1) := ten_zpow_pos _
  apply o.noMult (⌊L / 10 ^ (t + 1)⌋₊ + 1) (t + 1) (by omega)
  have h5 : (⌊L / 10 ^ (t + 1)⌋₊ : ℚ) ≤ L / 10 ^ (t + 1) := Nat.floor_le (by positivity)
  have h6 : L / 10 ^ (t + 1) < ⌊L / 10 ^ (t + 1)⌋₊ + 1 := Nat.lt_floor_add_one _
  rw [le_div_iff₀ hW] at h5
  rw [div_lt_iff₀ hW] at h6
  apply hin
  · unfold dec
    push_cast
    exact h6
  · unfold dec
    push_cast
    linarith

end Grisu

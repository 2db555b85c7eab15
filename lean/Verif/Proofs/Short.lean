import Verif.Properties.Truncating

/-! # Decimals with few digits are far apart -/

namespace Grisu

open Spec (RoundsTo value mag isNeg FiniteNonzero dec numDigits IsTruncating NotShortest)

variable {F : Fmt} {x : Nat}

/-- Two decimals with at most `n` digits differ by at least the fraction `10^-n` of the larger. -/
theorem dec_gap {n d d' : Nat} {t t' : Int} (h : d < 10 ^ n) (h' : d' < 10 ^ n) (hlt : dec d t < dec d' t') :
    dec d' t' ≤ (dec d' t' - dec d t) * 10 ^ n := by
  rcases le_total t' t with ht | ht
  · rw [dec_shift' d ht] at hlt ⊢
    rw [dec_lt_dec] at hlt
    generalize d * 10 ^ (t - t').toNat = a at *
    unfold dec
    have h1 := ten_zpow_pos t'
    have h2 : (a : ℚ) + 1 ≤ d' := by exact_mod_cast hlt
    have h3 : (d' : ℚ) ≤ 10 ^ n := by exact_mod_cast h'.le
    have h4 : (d' : ℚ) ≤ (d' - a) * 10 ^ n := by
      have : (0 : ℚ) ≤ 10 ^ n := by positivity
      nlinarith
    calc (d' : ℚ) * 10 ^ t' ≤ ((d' - a) * 10 ^ n) * 10 ^ t' := by
            exact mul_le_mul_of_nonneg_right h4 h1.le
      _ = _ := by ring
  · rw [dec_shift' d' ht] at hlt ⊢
    rw [dec_lt_dec] at hlt
    generalize d' * 10 ^ (t' - t).toNat = M at *
    unfold dec
    have h1 := ten_zpow_pos t
    have h2 : (d : ℚ) + 1 ≤ M := by exact_mod_cast hlt
    have h3 : (d : ℚ) + 1 ≤ 10 ^ n := by exact_mod_cast h
    have h4 : (M : ℚ) ≤ (M - d) * 10 ^ n := by
      have h5 : (1 : ℚ) ≤ 10 ^ n := one_le_pow₀ (by norm_num)
      rcases le_total (M : ℚ) (10 ^ n) with h6 | h6
      · nlinarith
      · have : (M : ℚ) * (10 ^ n - 1) ≥ 10 ^ n * (10 ^ n - 1) := by nlinarith
        nlinarith
    calc (M : ℚ) * 10 ^ t ≤ ((M - d) * 10 ^ n) * 10 ^ t := by
            exact mul_le_mul_of_nonneg_right h4 h1.le
      _ = _ := by ring

/-- Digits that survive. -/
def safeDigits : Fmt → Nat
  | .b32 => 6
  | .b64 => 15

theorem safe_lt (F : Fmt) : 10 ^ safeDigits F + 1 < 2 ^ F.p := by cases F <;> decide

/-- In the set of numbers that read back as a normal `x` there is at most one short decimal. -/
theorem short_unique_lt (h : FiniteNonzero F x) (hn : 2 ^ F.p ≤ mag F x) {mode : RoundingMode} {d d' : Nat}
    {t t' : Int} (hd : d < 10 ^ safeDigits F) (hd' : d' < 10 ^ safeDigits F) (hr : Reads F mode x (dec d t))
    (hr' : Reads F mode x (dec d' t')) : ¬ dec d t < dec d' t' := by
  intro hlt
  have gap := dec_gap hd hd' hlt
  rw [reads_eq h] at hr hr'
  have hu := ulpq_pos (F := F) (x := x)
  have hsig : 2 ^ F.p ≤ sigOf F x := by
    unfold sigOf
    rw [← mag_div (FiniteNonzero.lt h)]
    have : 0 < mag F x / 2 ^ F.p := Nat.div_pos hn (by positivity)
    rw [if_neg (by omega)]
    omega
  obtain ⟨-, b2⟩ := hr'
  obtain ⟨a1, -⟩ := hr
  have a1' : (flOf F (mode.provider F x).tag x : ℚ) * ulpq F x ≤ dec d t := by
    rcases a1 with a | a
    · exact a.le
    · exact a.1.le
  have b2' : dec d' t' ≤ (frOf F (mode.provider F x).tag x : ℚ) * ulpq F x := by
    rcases b2 with a | a
    · exact a.le
    · exact a.1.le
  have hw : frOf F (mode.provider F x).tag x ≤ flOf F (mode.provider F x).tag x + 4 ∧
      4 * sigOf F x ≤ flOf F (mode.provider F x).tag x + 4 := by
    cases (mode.provider F x).tag <;> simp only [frOf, flOf] <;> (try split) <;> omega
  have hs := safe_lt F
  generalize flOf F (mode.provider F x).tag x = fl at *
  generalize frOf F (mode.provider F x).tag x = fr at *
  have e1 : (fr : ℚ) ≤ fl + 4 := by exact_mod_cast hw.1
  have e2 : (4 : ℚ) * 10 ^ safeDigits F < fl := by
    have : 4 * 10 ^ safeDigits F < fl := by omega
    exact_mod_cast this
  have e3 : dec d' t' - dec d t ≤ 4 * ulpq F x := by nlinarith
  have e4 : (fl : ℚ) * ulpq F x < 4 * ulpq F x * 10 ^ safeDigits F := by
    have h10 : (0 : ℚ) < 10 ^ safeDigits F := by positivity
    calc (fl : ℚ) * ulpq F x ≤ dec d t := a1'
      _ < dec d' t' := hlt
      _ ≤ (dec d' t' - dec d t) * 10 ^ safeDigits F := gap
      _ ≤ 4 * ulpq F x * 10 ^ safeDigits F := by
        exact mul_le_mul_of_nonneg_right e3 h10.le
  nlinarith

theorem short_unique (h : FiniteNonzero F x) (hn : 2 ^ F.p ≤ mag F x) {mode : RoundingMode} {d d' : Nat}
    {t t' : Int} (hd : d < 10 ^ safeDigits F) (hd' : d' < 10 ^ safeDigits F) (hr : Reads F mode x (dec d t))
    (hr' : Reads F mode x (dec d' t')) : dec d t = dec d' t' :=
  le_antisymm (not_lt.mp (short_unique_lt h hn hd' hd hr' hr)) (not_lt.mp (short_unique_lt h hn hd hd' hr hr'))

/-- A short decimal that is not small is a multiple of a large power of ten. -/
theorem short_multiple {n d E : Nat} {t : Int} (hd : d < 10 ^ n) (hn : n ≤ E + 1) (h : (10 : ℚ) ^ E ≤ dec d t) :
    ∃ m : Nat, dec d t = ((m * 10 ^ (E + 1 - n) : Nat) : ℚ) := by
  have h1 : ((E + 1 - n : Nat) : Int) ≤ t := by
    by_contra hc
    have h2 : dec d t < 10 ^ (E : Int) := by
      have h3 := dec_lt_pow d t
      refine lt_of_lt_of_le h3 ?_
      rw [ten_zpow_le]
      have := numDigits_le_iff.mpr hd
      omega
    rw [zpow_natCast] at h2
    linarith
  refine ⟨d * 10 ^ (t - (E + 1 - n : Nat)).toNat, ?_⟩
  rw [dec_shift' d h1]
  unfold dec
  rw [zpow_natCast]
  push_cast
  ring

/-- No short decimal reads back as one of the inputs on which the truncating modes are not shortest. -/
theorem notShortest_no_short (h : FiniteNonzero F x) {mode : RoundingMode}
    (hm : IsTruncating (isNeg F x) mode = true) (hx : NotShortest F x) {d : Nat} {t : Int}
    (hd : d < 10 ^ safeDigits F) : ¬ Reads F mode x (dec d t) := by
  intro hr
  obtain ⟨h1, h2⟩ := toward_zero_of hm hr
  have hmag := fun E => notShortest_sum (E := E) hx.1
  have hE := hx.2
  cases F with
  | b32 =>
    have h4 : mag .b32 x ∈ [0x54FFFFFF, 0x587FFFFF, 0x5D7FFFFF, 0x5DFFFFFF] := by
      rw [hmag _ rfl]
      generalize Spec.exponentField .b32 x = E at hE
      revert E
      decide
    simp only [List.mem_cons, List.not_mem_nil, or_false] at h4
    have key : ∀ (m E A B : Nat), mag .b32 x = m → value .b32 m = (A : ℚ) → value .b32 (m + 1) = (B : ℚ) →
        5 ≤ E → 10 ^ E ≤ A → B ≤ (A / 10 ^ (E - 5) + 1) * 10 ^ (E - 5) → A % 10 ^ (E - 5) ≠ 0 → False := by
      intro m E A B e1 e2 e3 e4 e5 e6 e7
      rw [e1, e2] at h1
      rw [e1, e3] at h2
      obtain ⟨k, hk⟩ := short_multiple (n := 6) (E := E) hd (by omega)
        (le_trans (by exact_mod_cast e5) h1)
      rw [hk] at h1 h2
      have g1 : A ≤ k * 10 ^ (E - 5) := by exact_mod_cast h1
      have g2 : k * 10 ^ (E - 5) < B := by exact_mod_cast h2
      have hpos : 0 < 10 ^ (E - 5) := by positivity
      generalize 10 ^ (E - 5) = P at *
      have g3 : k < A / P + 1 := by
        by_contra hc
        have := Nat.mul_le_mul_right P (not_lt.mp hc)
        omega
      have g4 := Nat.div_add_mod A P
      have g5 : k * P ≤ A / P * P := Nat.mul_le_mul_right P (by omega)
      rw [Nat.mul_comm P] at g4
      omega
    rcases h4 with h4 | h4 | h4 | h4
    · exact key _ 12 ((2 ^ 24 - 1) * 2 ^ 19) (2 ^ 24 * 2 ^ 19) h4 (by norm_num [value, Spec.mantBits, Spec.ulpExp])
        (by norm_num [value, Spec.mantBits, Spec.ulpExp]) (by norm_num) (by norm_num) (by norm_num) (by norm_num)
    · exact key _ 15 ((2 ^ 24 - 1) * 2 ^ 26) (2 ^ 24 * 2 ^ 26) h4 (by norm_num [value, Spec.mantBits, Spec.ulpExp])
        (by norm_num [value, Spec.mantBits, Spec.ulpExp]) (by norm_num) (by norm_num) (by norm_num) (by norm_num)
    · exact key _ 18 ((2 ^ 24 - 1) * 2 ^ 36) (2 ^ 24 * 2 ^ 36) h4 (by norm_num [value, Spec.mantBits, Spec.ulpExp])
        (by norm_num [value, Spec.mantBits, Spec.ulpExp]) (by norm_num) (by norm_num) (by norm_num) (by norm_num)
    · exact key _ 18 ((2 ^ 24 - 1) * 2 ^ 37) (2 ^ 24 * 2 ^ 37) h4 (by norm_num [value, Spec.mantBits, Spec.ulpExp])
        (by norm_num [value, Spec.mantBits, Spec.ulpExp]) (by norm_num) (by norm_num) (by norm_num) (by norm_num)
  | b64 =>
    have h4 : mag .b64 x = 0x461FFFFFFFFFFFFF := by
      rw [hmag _ rfl]
      generalize Spec.exponentField .b64 x = E at hE
      revert E
      decide
    rw [h4] at h1 h2
    have e2 : value .b64 0x461FFFFFFFFFFFFF = (((2 ^ 53 - 1) * 2 ^ 46 : Nat) : ℚ) := by
      norm_num [value, Spec.mantBits, Spec.ulpExp]
    have e3 : value .b64 (0x461FFFFFFFFFFFFF + 1) = ((2 ^ 53 * 2 ^ 46 : Nat) : ℚ) := by
      norm_num [value, Spec.mantBits, Spec.ulpExp]
    rw [e2] at h1
    rw [e3] at h2
    obtain ⟨k, hk⟩ := short_multiple (n := 15) (E := 29) hd (by omega) (le_trans (by norm_num) h1)
    rw [hk] at h1 h2
    have g1 : (2 ^ 53 - 1) * 2 ^ 46 ≤ k * 10 ^ 15 := by exact_mod_cast h1
    have g2 : k * 10 ^ 15 < 2 ^ 53 * 2 ^ 46 := by exact_mod_cast h2
    omega

end Grisu

import Verif.Proofs.Best

/-! # Decimals on a grid as coarse as the spacing of the floating-point numbers: lemmas -/

namespace Grisu

open Spec (value mag isNeg FiniteNonzero dec)

variable {F : Fmt} {x : Nat} {s : Nat} {t : Int}

/-- Two numbers that read back as the same input are at most the distance to its larger neighbour apart. -/
theorem reads_width (h : FiniteNonzero F x) {mode : RoundingMode} {u v : ℚ} (hu : Reads F mode x u)
    (hv : Reads F mode x v) : v - u ≤ value F (mag F x + 1) - value F (mag F x) := by
  have e : value F (mag F x + 1) - value F (mag F x) = 4 * ulpq F x := by
    rw [Spec.value_succ, Spec.value_eq, ← two_pow_ex (FiniteNonzero.lt h)]
    ring
  rw [e]
  rw [reads_eq h] at hu hv
  have hp := ulpq_pos (F := F) (x := x)
  obtain ⟨-, b2⟩ := hv
  obtain ⟨a1, -⟩ := hu
  have a1' : (flOf F (mode.provider F x).tag x : ℚ) * ulpq F x ≤ u := by
    rcases a1 with a | a
    · exact a.le
    · exact a.1.le
  have b2' : v ≤ (frOf F (mode.provider F x).tag x : ℚ) * ulpq F x := by
    rcases b2 with a | a
    · exact a.le
    · exact a.1.le
  have hw : frOf F (mode.provider F x).tag x ≤ flOf F (mode.provider F x).tag x + 4 := by
    cases (mode.provider F x).tag <;> simp only [frOf, flOf] <;> (try split) <;> omega
  have e1 : (frOf F (mode.provider F x).tag x : ℚ) ≤ flOf F (mode.provider F x).tag x + 4 := by exact_mod_cast hw
  nlinarith

/-- On such a grid at most one decimal reads back as the input. -/
theorem grid_unique (h : FiniteNonzero F x) {mode : RoundingMode} {a d : Nat} {k : Int}
    (hu : value F (mag F x + 1) - value F (mag F x) ≤ 10 ^ k) (ha : Reads F mode x (dec a k))
    (hd : Reads F mode x (dec d k)) : a = d := by
  have hT := ten_zpow_pos k
  have far : ∀ {b c : Nat}, b ≠ c → (10 : ℚ) ^ k ≤ |dec b k - dec c k| := by
    intro b c hne
    unfold dec
    rw [← sub_mul, abs_mul, abs_of_pos hT]
    have h3 : (1 : ℚ) ≤ |(b : ℚ) - c| := by
      have : (1 : ℤ) ≤ |(b : ℤ) - c| := Int.one_le_abs (by omega)
      exact_mod_cast this
    nlinarith
  rcases hu.lt_or_eq with hlt | heq
  · by_contra hne
    have h1 := far hne
    have h2 := reads_width h ha hd
    have h3 := reads_width h hd ha
    have : |dec a k - dec d k| ≤ value F (mag F x + 1) - value F (mag F x) := abs_le.mpr ⟨by linarith, by linarith⟩
    linarith
  · have hv : value F (mag F x) = dec (Spec.sg F (mag F x)) k := by
      rw [← sub_eq_zero] at heq
      rw [Spec.value_succ, Spec.value_eq] at heq
      rw [Spec.value_eq]
      unfold dec
      rw [show (10 : ℚ) ^ k = 2 ^ Spec.ex F (mag F x) by linarith]
    have near := fun {c : Nat} (hc : Reads F mode x (dec c k)) => reads_near h hc
    rw [heq, hv] at near
    have eq : ∀ {c : Nat}, Reads F mode x (dec c k) → c = Spec.sg F (mag F x) := by
      intro c hc
      by_contra hne
      exact absurd (near hc) (not_lt.mpr (far hne))
    rw [eq ha, eq hd]

/-- A decimal on such a grid that reads back as the input is the output. -/
theorem grid_core (h : FiniteNonzero F x) {mode : RoundingMode} (o : Output (Reads F mode x) s t) {d : Nat} {k : Int}
    (hu : value F (mag F x + 1) - value F (mag F x) ≤ 10 ^ k) (hd : Reads F mode x (dec d k)) :
    dec s t = dec d k := by
  have hk : k ≤ t := by
    by_contra hc
    exact o.noMult d k (by omega) hd
  have h1 := o.mem
  rw [dec_shift' s hk] at h1 ⊢
  rw [grid_unique h hu h1 hd]

/-- The smallest positive `double`, 4.94…·10⁻³²⁴. -/
theorem smallest64 : 494 * (10 : ℚ) ^ (-326 : Int) < 2 ^ (-1074 : Int) ∧ (2 : ℚ) ^ (-1074 : Int) < 495 * 10 ^ (-326 : Int) := by
  have h1 : (494 : ℚ) * 2 ^ 1074 < 10 ^ 326 := by
    exact_mod_cast (show 494 * 2 ^ 1074 < 10 ^ 326 by decide +kernel)
  have h2 : (10 : ℚ) ^ 326 < 495 * 2 ^ 1074 := by
    exact_mod_cast (show 10 ^ 326 < 495 * 2 ^ 1074 by decide +kernel)
  have p2 : (0 : ℚ) < 2 ^ 1074 := pow_pos (by norm_num) _
  have p10 : (0 : ℚ) < 10 ^ 326 := pow_pos (by norm_num) _
  rw [show (-326 : Int) = -((326 : Nat) : Int) by rfl, show (-1074 : Int) = -((1074 : Nat) : Int) by rfl, zpow_neg, zpow_neg,
    zpow_natCast, zpow_natCast]
  constructor
  · rw [← div_eq_mul_inv, div_lt_iff₀ p10, inv_mul_eq_div, lt_div_iff₀ p2]
    exact h1
  · rw [← div_eq_mul_inv, lt_div_iff₀ p10, inv_mul_eq_div, div_lt_iff₀ p2]
    exact h2

end Grisu

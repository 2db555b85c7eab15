import Verif.Proofs.Arith
import Verif.SpecArith
import Mathlib.Algebra.Order.Field.Power
import Mathlib.Algebra.Order.Field.Rat
import Mathlib.Data.Rat.Floor

/-! # Integer logarithms -/

namespace Grisu

open Spec (IsFloorLog)

/-- If `a/b` and `c/d` are neighbouring fractions enclosing `log_u v`, then the integer part of
`n * log_u v` is that of `n * a/b`, for every `n < b + d`. -/
theorem floor_log_of_cert {u v a b c d n : Nat} (hu : 1 < u) (hb : 0 < b)
    (h1 : u ^ a ≤ v ^ b) (h2 : v ^ d < u ^ c) (hdet : b * c = a * d + 1) (hn : n < b + d) :
    u ^ (n * a / b) ≤ v ^ n ∧ v ^ n < u ^ (n * a / b + 1) := by
  constructor
  · have h : (u ^ (n * a / b)) ^ b ≤ (v ^ n) ^ b := by
      rw [← pow_mul, ← pow_mul]
      calc u ^ (n * a / b * b) ≤ u ^ (n * a) := Nat.pow_le_pow_right (by omega) (Nat.div_mul_le_self _ _)
        _ = (u ^ a) ^ n := by rw [← pow_mul, Nat.mul_comm]
        _ ≤ (v ^ b) ^ n := Nat.pow_le_pow_left h1 n
        _ = v ^ (n * b) := by rw [← pow_mul, Nat.mul_comm]
    exact (Nat.pow_le_pow_iff_left (by omega)).mp h
  · by_contra hc
    have hle := not_lt.mp hc
    set m := n * a / b + 1 with hm
    have e1 : n * a + 1 ≤ m * b := by
      have h3 := Nat.div_add_mod (n * a) b
      have h4 := Nat.mod_lt (n * a) hb
      have : m * b = b * (n * a / b) + b := by rw [hm]; ring
      omega
    have e2 : m * d + 1 ≤ n * c := by
      by_contra hcc
      have hcc' : n * c ≤ m * d := by omega
      rcases Nat.eq_zero_or_pos n with rfl | hn0
      · have h5 : u ^ m ≤ 1 := by simpa using hle
        have : 1 < u ^ m := Nat.one_lt_pow (Nat.succ_ne_zero _) hu
        omega
      · have h5 : (v ^ d) ^ n < (u ^ c) ^ n := Nat.pow_lt_pow_left h2 (by omega)
        have h6 : (u ^ c) ^ n ≤ (u ^ m) ^ d := by
          rw [← pow_mul, ← pow_mul, Nat.mul_comm c]
          exact Nat.pow_le_pow_right (by omega) hcc'
        have h7 : (u ^ m) ^ d ≤ (v ^ n) ^ d := Nat.pow_le_pow_left hle d
        rw [← pow_mul, Nat.mul_comm d] at h5
        rw [← pow_mul v] at h7
        omega
    have e3 : n * (b * c) = n * (a * d) + n := by rw [hdet]; ring
    have e4 : (n * a + 1) * d ≤ m * b * d := Nat.mul_le_mul_right _ e1
    have e5 : (m * d + 1) * b ≤ n * c * b := Nat.mul_le_mul_right _ e2
    nlinarith

/-- The linear approximation `P/B` of `log_u v` gives the integer part for every `|e| < b + d`. -/
theorem floor_log_linear {u v P B a b c d : Nat} (hu : 1 < u) (hv : 0 < v) (hb : 0 < b) (hB : 0 < B)
    (h1 : u ^ a ≤ v ^ b) (h2 : v ^ d < u ^ c) (hdet : b * c = a * d + 1)
    (h3 : a * B ≤ P * b) (h4 : P * d < c * B) {n : Nat} (hn : n < b + d)
    (hP : n ≠ 0 → ¬ B ∣ n * P) (hne : n ≠ 0 → u ^ (n * a / b) ≠ v ^ n) :
    IsFloorLog u v n ((n : Int) * P / B) ∧ IsFloorLog u v (-(n : Int)) (-(n : Int) * P / B) := by
  have hu0 : (0 : ℚ) < u := by exact_mod_cast (show 0 < u by omega)
  have hv0 : (0 : ℚ) < v := by exact_mod_cast hv
  obtain ⟨g1, g2⟩ := floor_log_of_cert hu hb h1 h2 hdet hn
  have hk := floor_eq_of_cert hB hb h3 h4 hdet hn
  have g1' : (u : ℚ) ^ (n * a / b) ≤ (v : ℚ) ^ n := by exact_mod_cast g1
  have g2' : (v : ℚ) ^ n < (u : ℚ) ^ (n * a / b + 1) := by exact_mod_cast g2
  constructor
  · have e : (n : Int) * P / B = ((n * a / b : Nat) : Int) := by rw [← hk]; push_cast; rfl
    rw [e]
    unfold IsFloorLog
    have e2 : ((n * a / b : Nat) : Int) + 1 = ((n * a / b + 1 : Nat) : Int) := by push_cast; rfl
    rw [e2, zpow_natCast, zpow_natCast, zpow_natCast]
    exact ⟨g1', g2'⟩
  · by_cases h0 : n = 0
    · subst h0
      unfold IsFloorLog
      simp
      exact_mod_cast hu
    · have e : -(n : Int) * P / B = -((n * a / b + 1 : Nat) : Int) := by
        have hd := hP h0
        rw [← hk]
        have h5 := Nat.div_add_mod (n * P) B
        have h6 := Nat.mod_lt (n * P) hB
        have h7 : 0 < n * P % B := Nat.pos_of_ne_zero fun h => hd (Nat.dvd_of_mod_eq_zero h)
        have hB' : (0 : Int) < B := by exact_mod_cast hB
        have h5' : (B : Int) * ((n * P / B : Nat) : Int) + ((n * P % B : Nat) : Int) = n * P := by exact_mod_cast h5
        have h6' : ((n * P % B : Nat) : Int) < B := by exact_mod_cast h6
        have h7' : (0 : Int) < ((n * P % B : Nat) : Int) := by exact_mod_cast h7
        refine Int.ediv_eq_iff_of_pos hB' |>.mpr ⟨?_, ?_⟩
        · push_cast at h5' h6' h7' ⊢
          nlinarith
        · push_cast at h5' h6' h7' ⊢
          nlinarith
      rw [e]
      unfold IsFloorLog
      have e2 : -((n * a / b + 1 : Nat) : Int) + 1 = -((n * a / b : Nat) : Int) := by push_cast; ring
      rw [e2, zpow_neg, zpow_neg, zpow_neg, zpow_natCast, zpow_natCast, zpow_natCast]
      constructor
      · exact inv_anti₀ (by positivity) g2'.le
      · apply inv_strictAnti₀ (by positivity)
        refine lt_of_le_of_ne g1' ?_
        exact_mod_cast hne h0

end Grisu

import Verif.SpecLength
import Verif.Proofs.BigIntShift
import Mathlib.Tactic.FieldSimp
import Mathlib.Algebra.Order.Field.Power

/-! # What the numbers of bits of tests/verify_cache_length.cpp are enough for -/

namespace Grisu
open Big Spec

namespace CacheLength

theorem floorLog_unique {u v : Nat} {e k k' : Int} (hu : 1 < u) (h : IsFloorLog u v e k) (h' : IsFloorLog u v e k') :
    k = k' := by
  have hu' : (1 : ℚ) < u := by exact_mod_cast hu
  have a := (zpow_lt_zpow_iff_right₀ hu').mp (lt_of_le_of_lt h.1 h'.2)
  have b := (zpow_lt_zpow_iff_right₀ hu').mp (lt_of_le_of_lt h'.1 h.2)
  omega

/-- Adding less than the distance to the next integer. -/
theorem floor_up {a P M b : Nat} {d : ℚ} (hP : 0 < P) (hM : M < P) (hr : a % P ≤ M)
    (hb : bitLength (P / (P - M)) ≤ b) (h0 : 0 ≤ d) (hd : d ≤ (2 : ℚ) ^ (-(b : Int))) :
    ⌊(a : ℚ) / P + d⌋ = ⌊(a : ℚ) / P⌋ := by
  have hq : P < 2 ^ b * (P - M) := by
    have h1 := bitLength_lt (P / (P - M))
    have h2 : 2 ^ bitLength (P / (P - M)) ≤ 2 ^ b := Nat.pow_le_pow_right (by norm_num) hb
    exact (Nat.div_lt_iff_lt_mul (by omega)).mp (lt_of_lt_of_le h1 h2)
  have hPq : (0 : ℚ) < P := by exact_mod_cast hP
  have e1 : (a : ℚ) / P = ((a / P : Nat) : ℚ) + ((a % P : Nat) : ℚ) / P := by
    rw [eq_comm, ← sub_eq_zero]
    have : (a : ℚ) = P * ((a / P : Nat) : ℚ) + ((a % P : Nat) : ℚ) := by exact_mod_cast (Nat.div_add_mod a P).symm
    rw [this]
    field_simp
    ring
  have hMr : ((a % P : Nat) : ℚ) ≤ M := by exact_mod_cast hr
  have hd2 : d * P < P - M := by
    have h2 : (P : ℚ) < 2 ^ b * (P - M) := by
      have : (P : ℚ) < ((2 ^ b * (P - M) : Nat) : ℚ) := by exact_mod_cast hq
      rw [Nat.cast_mul, Nat.cast_sub hM.le] at this
      exact_mod_cast this
    rw [zpow_neg, zpow_natCast] at hd
    have h3 : (0 : ℚ) < 2 ^ b := by positivity
    calc d * P ≤ (2 ^ b)⁻¹ * P := mul_le_mul_of_nonneg_right hd hPq.le
      _ < (2 ^ b)⁻¹ * (2 ^ b * (P - M)) := mul_lt_mul_of_pos_left h2 (by positivity)
      _ = P - M := by field_simp
  have f : ∀ x : ℚ, 0 ≤ x → x * P < P → ⌊((a / P : Nat) : ℚ) + x⌋ = ((a / P : Nat) : Int) := by
    intro x hx hx2
    rw [Int.floor_eq_iff]
    have : x < 1 := by
      by_contra hc
      have := mul_le_mul_of_nonneg_right (not_lt.mp hc) hPq.le
      linarith
    rw [Int.cast_natCast]
    constructor <;> linarith
  have hrp : ((a % P : Nat) : ℚ) / P * P = ((a % P : Nat) : ℚ) := by field_simp
  have hrl : ((a % P : Nat) : ℚ) < P := by exact_mod_cast Nat.mod_lt a hP
  rw [e1, add_assoc, f, f]
  · positivity
  · rw [hrp]; exact hrl
  · positivity
  · rw [add_mul, hrp]; linarith

/-- Subtracting no more than the distance to the integer part. -/
theorem floor_down {a b M : Nat} {d : ℚ} (hb : 0 < b) (hr : M ≤ a % b) (h0 : 0 ≤ d) (hd : d * b ≤ M) :
    ⌊(a : ℚ) / b - d⌋ = ⌊(a : ℚ) / b⌋ := by
  have hbq : (0 : ℚ) < b := by exact_mod_cast hb
  have e1 : (a : ℚ) / b = ((a / b : Nat) : ℚ) + ((a % b : Nat) : ℚ) / b := by
    rw [eq_comm, ← sub_eq_zero]
    have : (a : ℚ) = b * ((a / b : Nat) : ℚ) + ((a % b : Nat) : ℚ) := by exact_mod_cast (Nat.div_add_mod a b).symm
    rw [this]
    field_simp
    ring
  have hMr : (M : ℚ) ≤ ((a % b : Nat) : ℚ) := by exact_mod_cast hr
  have hrl : ((a % b : Nat) : ℚ) < b := by exact_mod_cast Nat.mod_lt a hb
  have f : ∀ x : ℚ, 0 ≤ x → x < 1 → ⌊((a / b : Nat) : ℚ) + x⌋ = ((a / b : Nat) : Int) := by
    intro x hx hx2
    rw [Int.floor_eq_iff]
    rw [Int.cast_natCast]
    constructor <;> linarith
  have hd' : d ≤ ((a % b : Nat) : ℚ) / b := by rw [le_div_iff₀ hbq]; linarith
  have hl : ((a % b : Nat) : ℚ) / b < 1 := by rw [div_lt_one hbq]; exact hrl
  rw [e1, add_sub_assoc, f _ (by linarith) (by linarith), f _ (by linarith) hl]

theorem roundedUp_err (k l Q : Int) : 0 ≤ roundedUp k l Q - 10 ^ k ∧ roundedUp k l Q - 10 ^ k < 2 ^ (-(Q - 1 - l)) := by
  unfold roundedUp
  have hp : (0 : ℚ) < 2 ^ (Q - 1 - l) := by positivity
  have h1 := Int.le_ceil ((10 : ℚ) ^ k * 2 ^ (Q - 1 - l))
  have h2 := Int.ceil_lt_add_one ((10 : ℚ) ^ k * 2 ^ (Q - 1 - l))
  rw [zpow_neg]
  generalize (2 : ℚ) ^ (Q - 1 - l) = D at *
  constructor
  · rw [sub_nonneg, le_div_iff₀ hp]; exact h1
  · rw [sub_lt_iff_lt_add, div_lt_iff₀ hp, add_mul, inv_mul_cancel₀ hp.ne']; linarith

theorem roundedDown_err (k l Q : Int) :
    0 ≤ 10 ^ k - roundedDown k l Q ∧ 10 ^ k - roundedDown k l Q < 2 ^ (-(Q - 1 - l)) := by
  unfold roundedDown
  have hp : (0 : ℚ) < 2 ^ (Q - 1 - l) := by positivity
  have h1 := Int.floor_le ((10 : ℚ) ^ k * 2 ^ (Q - 1 - l))
  have h2 := Int.lt_floor_add_one ((10 : ℚ) ^ k * 2 ^ (Q - 1 - l))
  rw [zpow_neg]
  generalize (2 : ℚ) ^ (Q - 1 - l) = D at *
  constructor
  · rw [sub_nonneg, div_le_iff₀ hp]; exact h1
  · rw [sub_lt_comm, lt_div_iff₀ hp, sub_mul, inv_mul_cancel₀ hp.ne']; linarith

/-- One integer part with the factor rounded up: `2^s 10^(-j) = 2^y / 5^j` and the bits `Q` are enough for factors up to
`2^N`. -/
theorem up_exact {j y N n M : Nat} {s l Q : Int} (hy : s - j = y) (hn : n ≤ 2 ^ N) (hM : M < 5 ^ j)
    (hr : 2 ^ y * n % 5 ^ j ≤ M) (hQ : s + N + l + 1 + bitLength (5 ^ j / (5 ^ j - M)) ≤ Q) :
    ⌊(n : ℚ) * 2 ^ s * roundedUp (-j) l Q⌋ = ⌊(n : ℚ) * 2 ^ s * 10 ^ (-j : Int)⌋ := by
  obtain ⟨e0, e1⟩ := roundedUp_err (-j) l Q
  have h2 : (2 : ℚ) ^ s * 10 ^ (-j : Int) = 2 ^ y / 5 ^ j := by
    rw [show s = y + j by omega, zpow_add₀ (by norm_num), zpow_natCast, zpow_natCast, zpow_neg, zpow_natCast,
      show (10 : ℚ) = 2 * 5 by norm_num, mul_pow]
    field_simp
  have h3 : (n : ℚ) * 2 ^ s * 10 ^ (-j : Int) = ((2 ^ y * n : Nat) : ℚ) / ((5 ^ j : Nat) : ℚ) := by
    rw [mul_assoc, h2]; push_cast; ring
  have h4 : (n : ℚ) * 2 ^ s * roundedUp (-j) l Q =
      ((2 ^ y * n : Nat) : ℚ) / ((5 ^ j : Nat) : ℚ) + (n : ℚ) * 2 ^ s * (roundedUp (-j) l Q - 10 ^ (-j : Int)) := by
    rw [← h3]; ring
  rw [h4, h3]
  refine floor_up (by positivity) hM hr le_rfl (by positivity) ?_
  have hn' : (n : ℚ) ≤ 2 ^ (N : Int) := by rw [zpow_natCast]; exact_mod_cast hn
  calc (n : ℚ) * 2 ^ s * (roundedUp (-j) l Q - 10 ^ (-j : Int)) ≤ 2 ^ (N : Int) * 2 ^ s * 2 ^ (-(Q - 1 - l)) := by
        apply mul_le_mul (mul_le_mul_of_nonneg_right hn' (by positivity)) e1.le e0 (by positivity)
    _ = 2 ^ ((N : Int) + s + -(Q - 1 - l)) := by rw [zpow_add₀ (by norm_num), zpow_add₀ (by norm_num)]
    _ ≤ _ := by
        apply zpow_le_zpow_right₀ (by norm_num)
        omega

/-- With all bits of `5^k` nothing is rounded. -/
theorem down_full {k : Nat} {l Q : Int} (hQ : l - k + 1 ≤ Q) : roundedDown k l Q = 10 ^ (k : Int) := by
  unfold roundedDown
  obtain ⟨t, ht⟩ := Int.eq_ofNat_of_zero_le (show 0 ≤ Q - 1 - l + k by omega)
  have h : (10 : ℚ) ^ (k : Int) * 2 ^ (Q - 1 - l) = ((5 ^ k * 2 ^ t : Nat) : ℚ) := by
    rw [show Q - 1 - l = t - k by omega, zpow_sub₀ (by norm_num), zpow_natCast, zpow_natCast, zpow_natCast,
      show (10 : ℚ) = 5 * 2 by norm_num, mul_pow]
    push_cast
    field_simp
  have hp : (2 : ℚ) ^ (Q - 1 - l) ≠ 0 := by positivity
  rw [h, Int.floor_natCast]
  rw [div_eq_iff hp, h]
  rfl

/-- One integer part with the factor rounded down: `2^s 10^k = 5^k / 2^y`. -/
theorem down_exact {k y N n M : Nat} {s l Q : Int} (hy : s + k = -y) (hn : n ≤ 2 ^ N) (hM : M ≠ 0)
    (hr : M ≤ 5 ^ k * n % 2 ^ y) (hQ : l - k + 1 + N ≤ Q + (bitLength M - 1 : Int)) :
    ⌊(n : ℚ) * 2 ^ s * roundedDown k l Q⌋ = ⌊(n : ℚ) * 2 ^ s * 10 ^ (k : Int)⌋ := by
  obtain ⟨e0, e1⟩ := roundedDown_err k l Q
  have h2 : (2 : ℚ) ^ s * 10 ^ (k : Int) = 5 ^ k / 2 ^ y := by
    rw [show s = -(y : Int) - k by omega, zpow_sub₀ (by norm_num), zpow_natCast, zpow_natCast, zpow_neg, zpow_natCast,
      show (10 : ℚ) = 2 * 5 by norm_num, mul_pow]
    field_simp
  have h3 : (n : ℚ) * 2 ^ s * 10 ^ (k : Int) = ((5 ^ k * n : Nat) : ℚ) / ((2 ^ y : Nat) : ℚ) := by
    rw [mul_assoc, h2]; push_cast; ring
  have h4 : (n : ℚ) * 2 ^ s * roundedDown k l Q =
      ((5 ^ k * n : Nat) : ℚ) / ((2 ^ y : Nat) : ℚ) - (n : ℚ) * 2 ^ s * (10 ^ (k : Int) - roundedDown k l Q) := by
    rw [← h3]; ring
  rw [h4, h3]
  refine floor_down (by positivity) hr (by positivity) ?_
  have hn' : (n : ℚ) ≤ 2 ^ (N : Int) := by rw [zpow_natCast]; exact_mod_cast hn
  have hb : bitLength M ≠ 0 := by unfold bitLength; rw [if_neg hM]; omega
  have hMl : (2 : ℚ) ^ ((bitLength M - 1 : Nat) : Int) ≤ M := by rw [zpow_natCast]; exact_mod_cast le_bitLength hM
  calc (n : ℚ) * 2 ^ s * (10 ^ (k : Int) - roundedDown k l Q) * ((2 ^ y : Nat) : ℚ) ≤
        2 ^ (N : Int) * 2 ^ s * 2 ^ (-(Q - 1 - l)) * 2 ^ (y : Int) := by
        rw [Nat.cast_pow, ← zpow_natCast]
        refine mul_le_mul_of_nonneg_right ?_ (by positivity)
        apply mul_le_mul (mul_le_mul_of_nonneg_right hn' (by positivity)) e1.le e0 (by positivity)
    _ = 2 ^ ((N : Int) + s + -(Q - 1 - l) + y) := by
        rw [zpow_add₀ (by norm_num), zpow_add₀ (by norm_num), zpow_add₀ (by norm_num)]
    _ ≤ 2 ^ ((bitLength M - 1 : Nat) : Int) := by
        apply zpow_le_zpow_right₀ (by norm_num)
        omega
    _ ≤ _ := hMl

end CacheLength
end Grisu

import Verif.Model.LiveTest
import Verif.Proofs.Value
import Verif.Proofs.Arith
import Mathlib.Data.Nat.Bitwise

/-! # Evaluation of `decompose_float` -/

namespace Grisu
open Spec (value mag isNeg width mantBits infPattern)

theorem lor_top {s r n : Nat} {b : Bool} (hs : s = b.toNat * 2 ^ n + r) (hr : r < 2 ^ n) : s ||| 2 ^ n = 2 ^ n + r := by
  have h1 : ∀ a, 2 ^ n * a + r = 2 ^ n * a ||| r := fun a => Nat.two_pow_add_eq_or_of_lt hr a
  have h2 := h1 1
  have h3 := h1 b.toNat
  rw [hs, mul_comm, h3]
  rw [mul_one] at h2
  rw [h2]
  cases b
  · simp [Nat.lor_comm]
  · simp only [Bool.toNat_true, mul_one]
    rw [Nat.lor_comm, ← Nat.lor_assoc, Nat.or_self]

theorem parts {n p x : Nat} (hp : p + 2 ≤ n) (hx : x < 2 ^ n) :
    decide (x &&& 2 ^ (n - 1) ≠ 0) = decide (2 ^ (n - 1) ≤ x) ∧
    x * 2 % 2 ^ n / 2 ^ (p + 1) = x % 2 ^ (n - 1) / 2 ^ p ∧
    x * 2 ^ (n - p - 1) % 2 ^ n ||| (if x % 2 ^ (n - 1) / 2 ^ p = 0 then 0 else 2 ^ (n - 1)) =
      (if x % 2 ^ (n - 1) / 2 ^ p = 0 then 0 else 2 ^ (n - 1)) + x % 2 ^ (n - 1) % 2 ^ p * 2 ^ (n - p - 1) := by
  obtain ⟨k, rfl⟩ := Nat.exists_eq_add_of_le hp
  have e1 : p + 2 + k - 1 = p + (k + 1) := by omega
  have e2 : p + 2 + k - p - 1 = k + 1 := by omega
  have e3 : p + 2 + k = p + (k + 2) := by omega
  rw [e1, e2]
  rw [e3] at hx ⊢
  have hm : x * 2 ^ (k + 1) % 2 ^ (p + (k + 2)) = x % 2 ^ (p + 1) * 2 ^ (k + 1) := by
    rw [show p + (k + 2) = p + 1 + (k + 1) by omega, pow_add 2 (p + 1), Nat.mul_mod_mul_right]
  have hd : x % 2 ^ (p + 1) = (decide (x / 2 ^ p % 2 = 1)).toNat * 2 ^ p + x % 2 ^ p := by
    rw [pow_succ, Nat.mod_mul]
    rcases Nat.mod_two_eq_zero_or_one (x / 2 ^ p) with h | h <;> simp [h, add_comm]
  have hmm : x % 2 ^ (p + (k + 1)) % 2 ^ p = x % 2 ^ p := by
    rw [pow_add]; exact Nat.mod_mul_right_mod _ _ _
  refine ⟨?_, ?_, ?_⟩
  · rw [Nat.and_two_pow, decide_eq_decide]
    have h2 : x / 2 ^ (p + (k + 1)) < 2 := by
      rw [Nat.div_lt_iff_lt_mul (by positivity), ← pow_succ']; exact hx
    have h3 : 2 ^ (p + (k + 1)) ≤ x ↔ 1 ≤ x / 2 ^ (p + (k + 1)) := by
      rw [Nat.le_div_iff_mul_le (by positivity), one_mul]
    rw [h3, Nat.testBit_eq_decide_div_mod_eq]
    generalize x / 2 ^ (p + (k + 1)) = y at *
    have h4 : y = 0 ∨ y = 1 := by omega
    rcases h4 with h | h <;> simp [h]
  · rw [show p + (k + 2) = p + (k + 1) + 1 by omega, pow_succ, Nat.mul_mod_mul_right, pow_succ,
      Nat.mul_div_mul_right _ _ (by norm_num)]
  · rw [hm, hmm]
    split
    · rename_i h
      have h0 : x / 2 ^ p % 2 = 0 := by
        rw [pow_add, Nat.mod_mul_right_div_self] at h
        have : x / 2 ^ p % 2 = x / 2 ^ p % 2 ^ (k + 1) % 2 := by
          rw [pow_succ', Nat.mod_mul_right_mod]
        omega
      rw [hd, h0]
      simp
    · have hr : x % 2 ^ p * 2 ^ (k + 1) < 2 ^ (p + (k + 1)) := by
        rw [pow_add 2 p (k + 1)]
        exact Nat.mul_lt_mul_of_pos_right (Nat.mod_lt _ (Nat.two_pow_pos _)) (Nat.two_pow_pos _)
      apply lor_top (b := decide (x / 2 ^ p % 2 = 1)) _ hr
      rw [hd, add_mul, mul_assoc, ← pow_add]

/-- The result of the decomposition for every bit pattern. -/
theorem decompose_float_eq (cfg : Cfg) (F : Fmt) (x : Nat) (hx : x < 2 ^ width F) :
    decompose_float cfg F x = .ok
      ⟨(if mag F x / 2 ^ mantBits F = 0 then 0 else 2 ^ (width F - 1)) +
          mag F x % 2 ^ mantBits F * 2 ^ (width F - mantBits F - 1),
        (mag F x / 2 ^ mantBits F : Nat) + (Spec.ulpExp F - (width F - mantBits F : Nat)), some (isNeg F x)⟩ := by
  have hq : F.q = width F := by cases F <;> rfl
  have hp : F.p = mantBits F := by cases F <;> rfl
  obtain ⟨h1, h2, h3⟩ := parts (n := width F) (p := mantBits F) (x := x) (by cases F <;> decide) hx
  have hb : F.exponent_bias - (width F : Int) + 1 = Spec.ulpExp F - (width F - mantBits F : Nat) := by
    cases F <;> decide
  have hl : mag F x / 2 ^ mantBits F < 2 ^ (width F - 1 - mantBits F) := by
    unfold mag
    rw [Nat.div_lt_iff_lt_mul (by positivity), ← pow_add]
    have : width F - 1 - mantBits F + mantBits F = width F - 1 := by cases F <;> rfl
    rw [this]; exact Nat.mod_lt _ (by positivity)
  unfold decompose_float
  simp only [wrap, hq, hp, Fmt.sign_bit_mask, Nat.mod_eq_of_lt hx, Int.natCast_eq_zero, h1, h2, h3, hb]
  change (cassert cfg (decide ((mag F x / 2 ^ mantBits F : Nat) + (Spec.ulpExp F - (width F - mantBits F : Nat)) ≠
    1 - F.exponent_bias))).bind _ = _
  rw [show decide (((mag F x / 2 ^ mantBits F : Nat) : Int) + (Spec.ulpExp F - (width F - mantBits F : Nat)) ≠
    1 - F.exponent_bias) = true from ?_, cassert_true rfl]
  · rfl
  · apply decide_eq_true
    generalize mag F x / 2 ^ mantBits F = n at *
    cases F <;> simp [width, mantBits, Spec.ulpExp, Fmt.exponent_bias, Fmt.exponent_bits, Fmt.q, Fmt.p] at * <;> omega

/-- The value of the decomposition when the biased exponent is not 0. -/
theorem decompose_value {F : Fmt} {m : Nat} (hz : m / 2 ^ mantBits F ≠ 0) :
    (((if m / 2 ^ mantBits F = 0 then 0 else 2 ^ (width F - 1)) +
      m % 2 ^ mantBits F * 2 ^ (width F - mantBits F - 1) : Nat) : ℚ) *
      2 ^ ((m / 2 ^ mantBits F : Nat) + (Spec.ulpExp F - (width F - mantBits F : Nat)) : Int) = value F m := by
  unfold value
  rw [if_neg hz, if_neg hz]
  obtain ⟨j, hj⟩ : ∃ j, m / 2 ^ mantBits F = j + 1 := Nat.exists_eq_succ_of_ne_zero hz
  rw [hj, Nat.add_sub_cancel]
  have hs : 2 ^ (width F - 1) = 2 ^ mantBits F * 2 ^ (width F - mantBits F - 1) := by cases F <;> decide
  have he : ((j + 1 : Nat) : Int) + (Spec.ulpExp F - (width F - mantBits F : Nat)) =
      (Spec.ulpExp F + j) - (width F - mantBits F - 1 : Nat) := by
    have : 1 ≤ width F - mantBits F := by cases F <;> decide
    push_cast [this]; ring
  rw [hs, ← add_mul, he, zpow_sub₀ (by norm_num), zpow_natCast]
  push_cast
  field_simp

end Grisu

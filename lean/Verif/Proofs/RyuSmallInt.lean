import Verif.Proofs.RyuMain

/-!
# Ryu: integers below `2^53`
-/

namespace Grisu.Ryu

open Spec

theorem small_int_loop_spec (c : Config) : ∀ (fuel n : Nat) (t : Int), 0 < n → n < 10 ^ fuel → n < 2 ^ 64 →
    ∃ s r : Nat, small_int_loop c fuel ⟨n, t⟩ = .ok ⟨s, t + r⟩ ∧ n = s * 10 ^ r ∧ s % 10 ≠ 0
  | 0, n, t, h0, h1, _ => by simp at h1; omega
  | fuel + 1, n, t, h0, h1, h2 => by
    rw [small_int_loop]
    dsimp only
    rw [div10_eq c h2, rem32_eq (by norm_num) (by norm_num)]
    by_cases h : n % 10 = 0
    · rw [if_neg (by simpa using h)]
      obtain ⟨s, r, g1, g2, g3⟩ := small_int_loop_spec c fuel (n / 10) (t + 1) (by omega)
        (by rw [pow_succ] at h1; omega) (by omega)
      refine ⟨s, r + 1, ?_, ?_, g3⟩
      · rw [g1]
        push_cast
        congr 2
        ring
      · rw [pow_succ, ← mul_assoc, ← g2]
        omega
    · exact ⟨n, 0, by rw [if_pos h]; simp, by simp, h⟩

theorem small_int_value {m : Nat} {v : FloatingDecimal}
    (h : d2d_small_int (m % 2 ^ 52) (m / 2 ^ 52) = some v) :
    v.exponent = 0 ∧ 0 < v.mantissa ∧ v.mantissa < 2 ^ 53 ∧ value .b64 m = v.mantissa ∧ ex .b64 m ≤ 0 := by
  unfold d2d_small_int at h
  dsimp only at h
  have hor : 2 ^ 52 ||| m % 2 ^ 52 = 2 ^ 52 + m % 2 ^ 52 := by
    have := Nat.two_pow_add_eq_or_of_lt (Nat.mod_lt m (show 0 < 2 ^ 52 by norm_num)) 1
    rw [mul_one] at this
    exact this.symm
  rw [hor] at h
  split at h
  · exact absurd h (by simp)
  · split at h
    · exact absurd h (by simp)
    · rename_i h1 h2
      split at h
      · exact absurd h (by simp)
      · rename_i h3
        have hv := Option.some.inj h
        subst hv
        obtain ⟨k, hk, hk52⟩ : ∃ k : Nat, (-(((m / 2 ^ 52 : Nat) : Int) - 1023 - 52)).toNat = k ∧ k ≤ 52 := ⟨_, rfl, by omega⟩
        have hex : ex .b64 m = -(k : Int) := by
          unfold ex ulpExp mantBits
          dsimp only
          rw [if_neg (by omega)]
          push_cast [Nat.cast_sub (show 1 ≤ m / 2 ^ 52 by omega)]
          omega
        have hsg : sg .b64 m = 2 ^ 52 + m % 2 ^ 52 := by
          unfold sg mantBits
          dsimp only
          rw [if_neg (by omega)]
        rw [hk] at h3 ⊢
        dsimp only
        rw [not_ne_iff, Nat.and_two_pow_sub_one_eq_mod] at h3
        obtain ⟨w, hw⟩ := Nat.dvd_of_mod_eq_zero h3
        have hp : 0 < 2 ^ k := by positivity
        rw [hw, Nat.mul_div_cancel_left _ hp]
        have hw0 : 0 < w := by
          rcases Nat.eq_zero_or_pos w with h0 | h0
          · rw [h0, mul_zero] at hw; omega
          · exact h0
        refine ⟨rfl, hw0, ?_, ?_, ?_⟩
        · have : w ≤ 2 ^ k * w := Nat.le_mul_of_pos_left _ hp
          omega
        · rw [value_eq, hsg, hex, hw, zpow_neg, zpow_natCast]
          push_cast
          field_simp
        · rw [hex]; omega

theorem small_int_spec (c : Config) {m : Nat} {v : FloatingDecimal} (h0 : 0 < m) (h1 : m < infPattern .b64)
    (h : d2d_small_int (m % 2 ^ 52) (m / 2 ^ 52) = some v) :
    ∃ s t, small_int_loop c 18 v = .ok ⟨s, t⟩ ∧ Output (fun v => Nearest .b64 PrefEven v m) s t ∧
      ClosestAt (fun v => Nearest .b64 PrefEven v m) (value .b64 m) .tie_to_even s t := by
  obtain ⟨e0, n0, n1, hv, he⟩ := small_int_value h
  obtain ⟨n, t⟩ := v
  dsimp only at e0 n0 n1 hv
  subst e0
  obtain ⟨s, r, g1, g2, g3⟩ := small_int_loop_spec c 18 n 0 n0 (lt_trans n1 (by norm_num)) (by omega)
  rw [zero_add] at g1
  have hd : dec s r = value .b64 m := by
    rw [hv, g2]
    unfold dec
    rw [zpow_natCast]
    push_cast
    rfl
  have l1 : value .b64 (m - 1) < value .b64 m := value_strictMono (by omega)
  have l2 : value .b64 m < value .b64 (m + 1) := value_strictMono (by omega)
  have u1 : (2 : ℚ) ^ ex .b64 m ≤ 1 := zpow_le_one_of_nonpos₀ (by norm_num) he
  have up : (0 : ℚ) < 2 ^ ex .b64 m := two_zpow_pos _
  have w2 : value .b64 (m + 1) ≤ value .b64 m + 1 := by
    rw [value_succ, value_eq]; linarith
  have w1 : value .b64 m - 1 ≤ value .b64 (m - 1) := by
    by_cases hc : Closer .b64 m
    · rw [value_pred_closer hc, value_eq m]; linarith
    · rw [value_pred_generic h0 hc, value_eq m]; linarith
  refine ⟨s, r, g1, ⟨?_, ?_⟩, ⟨?_, ?_⟩⟩
  · show Nearest .b64 PrefEven (dec s r) m
    rw [hd, nearest_iff h0 h1]
    exact ⟨Or.inl (by linarith), Or.inl (by linarith)⟩
  · intro k t' ht hk
    obtain ⟨j, rfl⟩ : ∃ j : Nat, t' = j := ⟨t'.toNat, by omega⟩
    have hk' : Nearest .b64 PrefEven (dec k j) m := hk
    rw [nearest_iff h0 h1] at hk'
    have hint : dec k j = ((k * 10 ^ j : Nat) : ℚ) := by
      unfold dec
      rw [zpow_natCast]
      push_cast
      rfl
    rw [hint] at hk'
    have b1 : value .b64 m - 1 < ((k * 10 ^ j : Nat) : ℚ) := by
      rcases hk'.1 with q | q
      · linarith
      · linarith [q.1]
    have b2 : ((k * 10 ^ j : Nat) : ℚ) < value .b64 m + 1 := by
      rcases hk'.2 with q | q
      · linarith
      · linarith [q.1]
    rw [hv] at b1 b2
    have b3 : n < k * 10 ^ j + 1 := by
      have : (n : ℚ) < ((k * 10 ^ j + 1 : Nat) : ℚ) := by push_cast at b1 ⊢; linarith
      exact_mod_cast this
    have b4 : k * 10 ^ j < n + 1 := by
      have : ((k * 10 ^ j : Nat) : ℚ) < ((n + 1 : Nat) : ℚ) := by push_cast at b2 ⊢; linarith
      exact_mod_cast this
    have b5 : k * 10 ^ j = n := by omega
    obtain ⟨i, rfl⟩ : ∃ i, j = i + 1 + r := ⟨j - r - 1, by omega⟩
    rw [g2, pow_add, ← mul_assoc] at b5
    have b6 := Nat.eq_of_mul_eq_mul_right (by positivity) b5
    rw [pow_succ, ← mul_assoc] at b6
    omega
  · intro k _
    rw [hd, sub_self, abs_zero]
    exact abs_nonneg _
  · intro k hk _ he
    exfalso
    rw [hd, sub_self, abs_zero, eq_comm, abs_eq_zero, sub_eq_zero, ← hd] at he
    unfold dec at he
    have := mul_right_cancel₀ (ten_zpow_pos r).ne' he
    exact hk (by exact_mod_cast this)

end Grisu.Ryu

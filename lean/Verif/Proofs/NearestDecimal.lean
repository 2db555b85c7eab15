import Verif.SpecDecimal
import Verif.Proofs.Value
import Verif.Proofs.Unique
import Mathlib.Data.Nat.Digits.Lemmas

/-! # The nearest decimal with a given number of digits: helper lemmas -/

namespace Grisu.Spec

theorem numDigits_mono {a b : Nat} (h : a ≤ b) : numDigits a ≤ numDigits b := Nat.le_length_digits_le 10 _ _ h

theorem lt_pow_numDigits (s : Nat) : s < 10 ^ numDigits s := Nat.lt_base_pow_length_digits (by norm_num)

theorem pow_numDigits_le {s : Nat} (h : s ≠ 0) : 10 ^ (numDigits s - 1) ≤ s := by
  have h1 : 10 ^ numDigits s ≤ 10 * s := Nat.base_pow_length_digits_le 10 s (by norm_num) h
  have h2 : 0 < numDigits s := by
    rcases Nat.eq_zero_or_pos (numDigits s) with h0 | h0
    · have := lt_pow_numDigits s
      rw [h0] at this
      omega
    · exact h0
  obtain ⟨k, hk⟩ : ∃ k, numDigits s = k + 1 := ⟨numDigits s - 1, by omega⟩
  rw [hk] at h1 ⊢
  rw [pow_succ] at h1
  simp only [Nat.add_sub_cancel]
  omega

/-- A decimal within half a unit of its last digit, not a power of ten, is the nearest with its number of digits. -/
theorem nearest_of_half {v : ℚ} {s : Nat} {t : Int} (h10 : s % 10 ≠ 0) (h1 : s ≠ 1)
    (h : 2 * |dec s t - v| ≤ 10 ^ t) : NearestDecimal v s t := by
  intro s' t' hd
  have hs0 : s ≠ 0 := by rintro rfl; simp at h10
  have hu : (0 : ℚ) < 10 ^ t := zpow_pos (by norm_num) t
  have hn : 0 < numDigits s := by
    rcases Nat.eq_zero_or_pos (numDigits s) with h0 | h0
    · have := lt_pow_numDigits s
      rw [h0] at this
      omega
    · exact h0
  obtain ⟨n, hn'⟩ : ∃ n, numDigits s = n + 1 := ⟨numDigits s - 1, by omega⟩
  have hlow : 10 ^ n < s := by
    have := pow_numDigits_le hs0
    rw [hn', Nat.add_sub_cancel] at this
    refine lt_of_le_of_ne this ?_
    rintro rfl
    cases n with
    | zero => exact h1 rfl
    | succ n => rw [pow_succ, Nat.mul_mod_left] at h10; exact h10 rfl
  -- the distance to any other multiple of the unit
  have key : ∀ k : Nat, k ≠ s → 10 ^ t ≤ |(k : ℚ) * 10 ^ t - dec s t| := by
    intro k hk
    have : (1 : ℚ) ≤ |(k : ℚ) - s| := by
      rcases Nat.lt_or_gt_of_ne hk with hk | hk
      · have h2 : (k : ℚ) + 1 ≤ s := by exact_mod_cast hk
        rw [abs_of_nonpos (by linarith)]
        linarith
      · have h2 : (s : ℚ) + 1 ≤ k := by exact_mod_cast hk
        rw [abs_of_nonneg (by linarith)]
        linarith
    unfold dec
    rw [← sub_mul, abs_mul, abs_of_pos hu]
    nlinarith
  rcases le_or_gt t t' with ht | ht
  · obtain ⟨j, rfl⟩ : ∃ j : Nat, t' = t + j := ⟨(t' - t).toNat, by omega⟩
    have e : dec s' (t + j) = ((s' * 10 ^ j : Nat) : ℚ) * 10 ^ t := by
      unfold dec
      rw [zpow_add₀ (by norm_num), zpow_natCast]
      push_cast
      ring
    by_cases hk : s' * 10 ^ j = s
    · rw [e, hk]
      rfl
    · have h2 := key _ hk
      rw [← e] at h2
      have h3 := abs_sub_le (dec s' (t + j)) v (dec s t)
      rw [abs_sub_comm v (dec s t)] at h3
      linarith
  · have hs' : s' < 10 ^ (n + 1) := lt_of_lt_of_le (lt_pow_numDigits s') (Nat.pow_le_pow_right (by norm_num) (by omega))
    have hup : dec s' t' ≤ ((10 ^ n : Nat) : ℚ) * 10 ^ t := by
      have a1 : (s' : ℚ) ≤ 10 ^ (n + 1) := by exact_mod_cast hs'.le
      calc dec s' t' ≤ 10 ^ (n + 1) * 10 ^ t' := by
            unfold dec
            exact mul_le_mul_of_nonneg_right a1 (zpow_pos (by norm_num) t').le
        _ = 10 ^ n * 10 ^ (t' + 1) := by rw [zpow_add_one₀ (by norm_num)]; ring
        _ ≤ 10 ^ n * 10 ^ t := by
            refine mul_le_mul_of_nonneg_left ?_ (by positivity)
            exact zpow_le_zpow_right₀ (by norm_num) (by omega)
        _ = ((10 ^ n : Nat) : ℚ) * 10 ^ t := by push_cast; ring
    have h2 := key (10 ^ n) (ne_of_lt hlow)
    have h3 : ((10 ^ n : Nat) : ℚ) * 10 ^ t < dec s t := by
      unfold dec
      exact mul_lt_mul_of_pos_right (by exact_mod_cast hlow) hu
    rw [abs_of_neg (by linarith)] at h2
    have h4 := abs_le.mp (le_refl |dec s t - v|)
    have h5 := neg_le_abs (dec s' t' - v)
    linarith [h4.1, h4.2]

/-- A decimal further than half a unit of its last digit above `v` is not. -/
theorem not_nearest_of_half {v : ℚ} {s : Nat} {t : Int} (h0 : s ≠ 0) (h : 10 ^ t < 2 * (dec s t - v)) :
    ¬ NearestDecimal v s t := by
  intro hn
  have h1 := hn (s - 1) t (numDigits_mono (Nat.sub_le _ _))
  have e : dec (s - 1) t = dec s t - 10 ^ t := by
    unfold dec
    rw [Nat.cast_sub (by omega)]
    push_cast
    ring
  have hu : (0 : ℚ) < 10 ^ t := zpow_pos (by norm_num) t
  rw [e, abs_of_pos (by linarith)] at h1
  rcases le_abs.mp h1 with h2 | h2 <;> linarith

/-! Both conditions for a power of two, in integers. -/

/-- `s * 10^t`, `2^e` and `10^t` times a common power. -/
def scaled (s : Nat) (t e : Int) : Nat × Nat × Nat :=
  (s * 10 ^ t.toNat * 2 ^ (-e).toNat, 2 ^ e.toNat * 10 ^ (-t).toNat, 10 ^ t.toNat * 2 ^ (-e).toNat)

def isNearest? (s : Nat) (t e : Int) : Bool :=
  match scaled s t e with
  | (a, b, u) => decide (a = b) || (decide (s % 10 ≠ 0) && decide (s ≠ 1) && decide (2 * a ≤ 2 * b + u) && decide (2 * b ≤ 2 * a + u))

def isAbove? (s : Nat) (t e : Int) : Bool :=
  match scaled s t e with
  | (a, b, u) => decide (s ≠ 0) && decide (2 * b + u < 2 * a)

theorem toNat_sub_toNat_neg (z : Int) : ((z.toNat : Nat) : Int) = z + (((-z).toNat : Nat) : Int) := by omega

theorem pow_scale {b : ℚ} (hb : b ≠ 0) (z : Int) : b ^ z.toNat = b ^ z * b ^ (-z).toNat := by
  rw [← zpow_natCast, ← zpow_natCast, ← zpow_add₀ hb, toNat_sub_toNat_neg]

theorem scaled_eq (s : Nat) (t e : Int) : ∃ c : ℚ, 0 < c ∧ ((scaled s t e).1 : ℚ) = dec s t * c ∧
    ((scaled s t e).2.1 : ℚ) = 2 ^ e * c ∧ ((scaled s t e).2.2 : ℚ) = 10 ^ t * c := by
  refine ⟨10 ^ (-t).toNat * 2 ^ (-e).toNat, by positivity, ?_, ?_, ?_⟩
  · unfold scaled dec
    push_cast
    rw [pow_scale (b := 10) (by norm_num) t]
    ring
  · unfold scaled
    push_cast
    rw [pow_scale (b := 2) (by norm_num) e]
    ring
  · unfold scaled
    push_cast
    rw [pow_scale (b := 10) (by norm_num) t]
    ring

theorem nearest_of_isNearest {s : Nat} {t e : Int} (h : isNearest? s t e = true) : NearestDecimal (2 ^ e) s t := by
  obtain ⟨c, hc, h1, h2, h3⟩ := scaled_eq s t e
  unfold isNearest? at h
  rcases hsc : scaled s t e with ⟨a, b, u⟩
  rw [hsc] at h h1 h2 h3
  simp only [Bool.or_eq_true, Bool.and_eq_true, decide_eq_true_eq] at h h1 h2 h3
  rcases h with h | ⟨⟨⟨h4, h5⟩, h6⟩, h7⟩
  · have : dec s t = 2 ^ e := by
      have : dec s t * c = 2 ^ e * c := by rw [← h1, ← h2, h]
      exact mul_right_cancel₀ hc.ne' this
    intro s' t' _
    rw [this, sub_self, abs_zero]
    exact abs_nonneg _
  · refine nearest_of_half h4 h5 ?_
    have h6' : 2 * (dec s t * c) ≤ 2 * (2 ^ e * c) + 10 ^ t * c := by rw [← h1, ← h2, ← h3]; exact_mod_cast h6
    have h7' : 2 * (2 ^ e * c) ≤ 2 * (dec s t * c) + 10 ^ t * c := by rw [← h1, ← h2, ← h3]; exact_mod_cast h7
    have h8 : 2 * (dec s t - 2 ^ e) ≤ 10 ^ t := le_of_mul_le_mul_right (by linarith) hc
    have h9 : 2 * (2 ^ e - dec s t) ≤ 10 ^ t := le_of_mul_le_mul_right (by linarith) hc
    rcases abs_cases (dec s t - 2 ^ e) with ⟨h, -⟩ | ⟨h, -⟩ <;> rw [h] <;> linarith

theorem not_nearest_of_isAbove {s : Nat} {t e : Int} (h : isAbove? s t e = true) : ¬ NearestDecimal (2 ^ e) s t := by
  obtain ⟨c, hc, h1, h2, h3⟩ := scaled_eq s t e
  unfold isAbove? at h
  rcases hsc : scaled s t e with ⟨a, b, u⟩
  rw [hsc] at h h1 h2 h3
  simp only [Bool.and_eq_true, decide_eq_true_eq] at h h1 h2 h3
  refine not_nearest_of_half h.1 ?_
  have h6 : 2 * (2 ^ e * c) + 10 ^ t * c < 2 * (dec s t * c) := by rw [← h1, ← h2, ← h3]; exact_mod_cast h.2
  exact lt_of_mul_lt_mul_right (by linarith) hc.le

end Grisu.Spec

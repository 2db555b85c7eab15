import Verif.Proofs.BigIntExact
import Verif.Properties.BigInt

/-! # C50, C52, C53, C54: exactly when the operations are right

The theorems of Verif/Properties/BigInt.lean give conditions under which these four operations return the
representation of the result.  Here it is proved that the conditions are also necessary, in builds with assertions and
without. -/

namespace Grisu
open Big

/-- C50: `operator+=(element_type)` leaves the representation of the sum if and only if the number of binary digits
does not change, or a new leading element appears. -/
theorem C50_iff (cfg : Cfg) (size a n : Nat) (hs : 0 < size) (hn : n < 2 ^ 64) (h : a + n < 2 ^ (64 * size)) :
    addE cfg (bigOf size a) n = .ok (bigOf size (a + n)) ↔
      (bitLength (a + n) = bitLength a ∨ topDigit (a + n) ≠ topDigit a) := by
  obtain ⟨bit, h1, h2⟩ := C50_add_element_partial cfg size a n hs hn h
  constructor
  · intro h3
    by_contra hc
    obtain ⟨hc1, hc2⟩ := not_or.mp hc
    have ht : topDigit (a + n) = topDigit a := not_not.mp hc2
    obtain ⟨bit', g1, g2⟩ := addE_spec cfg (rep_bigOf hs (show a < 2 ^ (64 * size) by omega)) hn h
    rw [if_pos ht] at g2
    rw [g1] at h3
    have e : bit' = (bigOf size (a + n)).bit_pos := by
      have := Exec.ok.inj h3
      exact congrArg Big.bit_pos this
    rw [g2] at e
    have e' : bitLength (a / 2 ^ (64 * topDigit a)) = bitLength ((a + n) / 2 ^ (64 * topDigit (a + n))) := e
    rw [ht, bitLength_div, bitLength_div] at e'
    have := bitLength_mono (show a ≤ a + n by omega)
    have h6 : topDigit a = (bitLength a - 1) / 64 := rfl
    apply hc1
    omega
  · intro hc
    rw [h1, h2 hc]

/-- Both sides occur: 5 + 2 has as many digits as 5, 2^64 - 1 + 1 has a new element, 3 + 1 has neither. -/
example : bitLength (5 + 2) = bitLength 5 ∧ topDigit (2 ^ 64 - 1 + 1) ≠ topDigit (2 ^ 64 - 1) ∧
    ¬ (bitLength (3 + 1) = bitLength 3 ∨ topDigit (3 + 1) ≠ topDigit 3) := by decide +kernel

/-- C52: `operator--` leaves the representation of the number less one if and only if the lowest nonzero element, with
the index `k`, is the leading one, or after the decrement has as many binary digits as the leading one. -/
theorem C52_iff (cfg : Cfg) (size a k : Nat) (hs : 0 < size) (hsz : size < 2 ^ 64) (ha : a < 2 ^ (64 * size))
    (hk : 2 ^ (64 * k) ∣ a) (hd : a / 2 ^ (64 * k) % 2 ^ 64 ≠ 0) :
    decrement cfg (bigOf size a) = .ok (bigOf size (a - 1)) ↔
      (k = topDigit a ∨ bitLength (a / 2 ^ (64 * k) % 2 ^ 64 - 1) = bitLength (a / 2 ^ (64 * topDigit a))) := by
  have ha0 : a ≠ 0 := by rintro rfl; simp at hd
  have hx := rep_bigOf hs ha
  have hP := Nat.two_pow_pos (64 * k)
  have hge : 2 ^ (64 * k) ≤ a := by
    by_contra hlt
    rw [Nat.div_eq_of_lt (by omega)] at hd
    exact hd rfl
  have hkt : k ≤ topDigit a := by
    by_contra hlt
    have h1 := lt_topDigit a
    have h2 : 2 ^ (64 * (topDigit a + 1)) ≤ 2 ^ (64 * k) := Nat.pow_le_pow_right (by norm_num) (by omega)
    omega
  by_cases hkk : k = topDigit a
  · simp only [hkk, true_or, iff_true]
    obtain ⟨p, b, h1, h2⟩ := C52_decrement_partial cfg size a hs hsz ha ha0
    rw [h1, h2 (hkk ▸ hk)]
  · simp only [hkk, false_or]
    have hlt : k < topDigit a := by omega
    have hgt : 2 ^ (64 * topDigit a) ≤ a := by
      refine le_trans (Nat.pow_le_pow_right (by norm_num) ?_) (le_bitLength ha0)
      unfold topDigit; omega
    have hlow : a % 2 ^ (64 * topDigit a) ≠ 0 := by
      intro h0
      apply hd
      obtain ⟨c, hc⟩ := Nat.dvd_of_mod_eq_zero h0
      obtain ⟨d, hdd⟩ : ∃ d, topDigit a = k + 1 + d := ⟨topDigit a - k - 1, by omega⟩
      rw [hdd, show 64 * (k + 1 + d) = 64 * k + (64 + 64 * d) by ring, pow_add, Nat.mul_assoc] at hc
      rw [hc, Nat.mul_div_cancel_left _ hP, pow_add, Nat.mul_assoc, Nat.mul_mod_right]
    have hdiv : (a - 1) / 2 ^ (64 * topDigit a) = a / 2 ^ (64 * topDigit a) := by
      have h1 := Nat.div_add_mod a (2 ^ (64 * topDigit a))
      have h2 := Nat.mod_lt a (Nat.two_pow_pos (64 * topDigit a))
      refine Nat.div_eq_of_lt_le ?_ ?_
      · rw [Nat.mul_comm]; omega
      · rw [Nat.add_mul, Nat.mul_comm]; omega
    have htop : topDigit (a - 1) = topDigit a := by
      have h1 := lt_topDigit a
      refine topDigit_eq (by omega) (Or.inr ?_)
      have := Nat.mod_lt a (Nat.two_pow_pos (64 * topDigit a))
      have : a ≠ 2 ^ (64 * topDigit a) := by
        intro h
        exact hlow (Nat.mod_eq_zero_of_dvd ⟨1, by rw [Nat.mul_one]; exact h⟩)
      omega
    have hq : a / 2 ^ (64 * topDigit a) ≠ 0 := by
      have := Nat.div_pos hgt (Nat.two_pow_pos (64 * topDigit a)); omega
    have hbig : bigOf size (a - 1) = ⟨(bigOf size (a - 1)).elements, topDigit a,
        bitLength (a / 2 ^ (64 * topDigit a))⟩ := by
      unfold bigOf; rw [htop, hdiv]
    have hlen : bitLength (a / 2 ^ (64 * topDigit a)) ≠ 0 := by simp [bitLength, hq]
    rw [decrement_run cfg hsz hx ha0 hk hd]
    conv_lhs => rhs; rw [hbig]
    simp only [Exec.ok.injEq, Big.mk.injEq, true_and]
    generalize a / 2 ^ (64 * k) % 2 ^ 64 = d at *
    by_cases h1 : d = 1 ∧ k ≠ 0
    · simp only [h1.1, ne_eq, h1.2, not_false_eq_true, and_self, if_true]
      constructor
      · intro h; omega
      · intro h; simp [bitLength] at h; exact absurd h (by simpa [bitLength] using hq)
    · simp only [h1, if_false, true_and]

/-- 2^128 + 5: the lowest element is 5, with its predecessor 4 of three digits, the leading one is 1. -/
example : 2 ^ (64 * 0) ∣ 2 ^ 128 + 5 ∧ (2 ^ 128 + 5) / 2 ^ (64 * 0) % 2 ^ 64 ≠ 0 ∧
    ¬ (0 = topDigit (2 ^ 128 + 5) ∨ bitLength ((2 ^ 128 + 5) / 2 ^ (64 * 0) % 2 ^ 64 - 1) =
      bitLength ((2 ^ 128 + 5) / 2 ^ (64 * topDigit (2 ^ 128 + 5)))) ∧
    bitLength ((2 ^ 128 + 2) / 2 ^ (64 * 0) % 2 ^ 64 - 1) =
      bitLength ((2 ^ 128 + 2) / 2 ^ (64 * topDigit (2 ^ 128 + 2))) := by decide +kernel

/-- C53: `operator*=(element_type)` leaves the representation of the product if and only if the element is not 0 or
the number has one element. -/
theorem C53_iff (cfg : Cfg) (size a n : Nat) (hs : 0 < size) (ha : a < 2 ^ (64 * size)) (hn : n < 2 ^ 64)
    (h : a * n < 2 ^ (64 * size)) :
    mulE cfg (bigOf size a) n = .ok (bigOf size (a * n)) ↔ (n ≠ 0 ∨ a < 2 ^ 64) := by
  by_cases hn0 : n = 0
  · subst hn0
    rw [mulE_zero cfg (rep_bigOf hs ha), Nat.mul_zero]
    have hbig : bigOf size 0 = ⟨(bigOf size 0).elements, 0, 0⟩ := by
      simp [bigOf, topDigit, bitLength]
    conv_lhs => rhs; rw [hbig]
    simp only [Exec.ok.injEq, Big.mk.injEq, true_and, and_true, ne_eq, not_true_eq_false, false_or]
    constructor
    · intro h0
      have := lt_topDigit a
      rw [h0] at this
      simpa using this
    · intro h0
      exact topDigit_eq (by simpa using h0) (Or.inl rfl)
  · simp only [ne_eq, hn0, not_false_eq_true, true_or, iff_true]
    exact C53_multiply_element_partial cfg size a n hs ha hn hn0 h

example : mulE ⟨true, false⟩ (bigOf 2 (2 ^ 64 - 1)) 0 = .ok (bigOf 2 0) ∧ ¬ (0 ≠ 0 ∨ 2 ^ 64 < 2 ^ 64) := by
  decide +kernel

/-- C54: `operator*` returns the representation of the product of two nonzero numbers if and only if no carry is lost,
with assertions and without. -/
theorem C54_iff (cfg : Cfg) (size a b : Nat) (hs : 0 < size) (ha : a ≠ 0) (hb : b ≠ 0) (h : a * b < 2 ^ (64 * size)) :
    mul cfg (bigOf size a) (bigOf size b) = .ok (bigOf size (a * b)) ↔ ¬ CarryLost a b := by
  refine ⟨fun hok hc => ?_, C54_multiply_long_partial cfg size a b hs ha hb h⟩
  obtain ⟨x64, nd⟩ := cfg
  cases nd with
  | false => rw [(C54_assertion_iff x64 size a b hs ha hb h).1.mp hc] at hok; cases hok
  | true =>
    obtain ⟨m, h1, h2, h3, h4⟩ := hc
    obtain ⟨z, e1, e2⟩ := mul_lossy ⟨x64, true⟩ rfl
      (rep_bigOf hs (lt_of_le_of_lt (Nat.le_mul_of_pos_right _ (Nat.pos_of_ne_zero hb)) h))
      (rep_bigOf hs (lt_of_le_of_lt (Nat.le_mul_of_pos_left _ (Nat.pos_of_ne_zero ha)) h)) ha hb h h1 h2 h3 h4
    rw [hok] at e1
    have := Exec.ok.inj e1
    rw [← this, (rep_bigOf hs h).val] at e2
    exact absurd e2 (lt_irrefl _)

example : ¬ CarryLost (3 ^ 50) (5 ^ 40) ∧ CarryLost (2 ^ 128 - 1) (2 ^ 65 - 1) := by
  refine ⟨?_, 1, by decide +kernel⟩
  rintro ⟨m, h1, h2, h3, h4⟩
  have ht : topDigit (5 ^ 40) = 1 := by decide +kernel
  obtain rfl : m = 1 := by omega
  revert h3 h4
  decide +kernel

/-- C54 where one factor is 0: right if and only if both factors have one element. -/
theorem C54_zero_iff (cfg : Cfg) (size a b : Nat) (hs : 0 < size) (ha : a < 2 ^ (64 * size)) (hb : b < 2 ^ (64 * size))
    (h : a * b = 0) :
    mul cfg (bigOf size a) (bigOf size b) = .ok (bigOf size (a * b)) ↔ (a < 2 ^ 64 ∧ b < 2 ^ 64) := by
  rw [mul_zero_run cfg (rep_bigOf hs ha) (rep_bigOf hs hb) h, h]
  have hbig : bigOf size 0 = ⟨(bigOf size 0).elements, 0, 0⟩ := by simp [bigOf, topDigit, bitLength]
  conv_lhs => rhs; rw [hbig]
  simp only [Exec.ok.injEq, Big.mk.injEq, true_and, and_true]
  have key : ∀ v, topDigit v = 0 ↔ v < 2 ^ 64 := fun v =>
    ⟨fun h0 => by have := lt_topDigit v; rw [h0] at this; simpa using this,
      fun h0 => topDigit_eq (by simpa using h0) (Or.inl rfl)⟩
  rw [← key a, ← key b]
  omega

example : mul ⟨true, false⟩ (bigOf 2 7) (bigOf 2 0) = .ok (bigOf 2 0) ∧
    mul ⟨true, false⟩ (bigOf 2 (2 ^ 64)) (bigOf 2 0) ≠ .ok (bigOf 2 0) := by decide +kernel

end Grisu

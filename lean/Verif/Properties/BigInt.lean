import Verif.Proofs.BigIntCross
import Verif.Proofs.BigIntProduct

/-! # The multi-word integers of the offline tools, tests/bigint.h

`bigOf size v` (Verif/SpecBig.lean) is the number `v` as an array of `size` base-`2 ^ 64` digits
together with the position of its leading one.  The theorems say that an operation applied to the
representations of its arguments returns, without any fault, the representation of the result. -/

namespace Grisu
open Big

/-! ## C46: the position of the leading one -/

/-- C46: `log2p1` is the number of binary digits, for every 64-bit number. -/
theorem C46_log2p1 (x : Nat) (h : x < 2 ^ 64) :
    (x = 0 → log2p1 x = 0) ∧ (x ≠ 0 → 2 ^ (log2p1 x - 1) ≤ x ∧ x < 2 ^ log2p1 x ∧ 1 ≤ log2p1 x) := by
  rw [log2p1_eq h]
  refine ⟨fun h0 => by simp [bitLength, h0], fun h0 => ⟨le_bitLength h0, bitLength_lt x, ?_⟩⟩
  simp [bitLength, h0]

example : (0xdeadbeef : Nat) < 2 ^ 64 ∧ log2p1 0xdeadbeef = 32 := by decide +kernel

/-! ## C47: construction -/

/-- C47: construction from an element gives that number. -/
theorem C47_of_element (size x : Nat) (hs : 0 < size) (hx : x < 2 ^ 64) :
    ofElement size x = .ok (bigOf size x) := ofElement_spec hs hx

/-- C47: `power_of_2` gives the power of two, for every exponent that fits. -/
theorem C47_power_of_2 (cfg : Cfg) (size e : Nat) (he : e < 64 * size) :
    power_of_2 cfg size e = .ok (bigOf size (2 ^ e)) := power_of_2_spec cfg he

/-- C47: for an exponent that does not fit a build with assertions stops, and one without writes out of
bounds. -/
theorem C47_power_of_2_overflow (cfg : Cfg) (size e : Nat) (he : 64 * size ≤ e) :
    power_of_2 cfg size e = .fault (if cfg.ndebug then .outOfBounds else .assertion) := by
  unfold power_of_2 cassert
  rw [decide_eq_false (show ¬ e < size * 64 by omega)]
  rcases cfg with ⟨x, _ | _⟩
  · rfl
  · have : ¬ e / 64 < (List.replicate size 0).length := by simp; omega
    simp only [wr, if_neg this]
    rfl

/-- The cases of the theorems: 2^100 in two elements. -/
example : power_of_2 ⟨true, false⟩ 2 100 = .ok (bigOf 2 (2 ^ 100)) ∧
    bigOf 2 (2 ^ 100) = ⟨[0, 2 ^ 36], 1, 37⟩ ∧ ofElement 2 77 = .ok ⟨[77, 0], 0, 7⟩ := by decide +kernel

/-! ## C48: comparison -/

/-- C48: the six comparison operators between two numbers. -/
theorem C48_compare (size a b : Nat) (hs : 0 < size) (ha : a < 2 ^ (64 * size)) (hb : b < 2 ^ (64 * size)) :
    Big.lt (bigOf size a) (bigOf size b) = .ok (decide (a < b)) ∧
    Big.le (bigOf size a) (bigOf size b) = .ok (decide (a ≤ b)) ∧
    Big.gt (bigOf size a) (bigOf size b) = .ok (decide (a > b)) ∧
    Big.ge (bigOf size a) (bigOf size b) = .ok (decide (a ≥ b)) ∧
    Big.eq (bigOf size a) (bigOf size b) = .ok (decide (a = b)) ∧
    Big.ne (bigOf size a) (bigOf size b) = .ok (decide (a ≠ b)) := by
  have hx := rep_bigOf hs ha
  have hy := rep_bigOf hs hb
  refine ⟨?_, ?_, ?_, ?_, ?_, ?_⟩
  · exact compare_with_spec hx hy (fun h => by simp [h]) (fun h => by simp; omega)
      (fun u v h => by simp only [decide_eq_decide]; omega)
  · exact compare_with_spec hx hy (fun h => by simp; omega) (fun h => by simp; omega)
      (fun u v h => by simp only [decide_eq_decide]; omega)
  · exact compare_with_spec hx hy (fun h => by simp; omega) (fun h => by simp; omega)
      (fun u v h => by simp only [decide_eq_decide]; omega)
  · exact compare_with_spec hx hy (fun h => by simp; omega) (fun h => by simp; omega)
      (fun u v h => by simp only [decide_eq_decide]; omega)
  · exact compare_with_spec hx hy (fun h => by simp; omega) (fun h => by simp; omega)
      (fun u v h => by simp only [decide_eq_decide]; omega)
  · exact compare_with_spec hx hy (fun h => by simp; omega) (fun h => by simp; omega)
      (fun u v h => by simp only [decide_eq_decide]; omega)

/-- C48: the six comparison operators with a single element. -/
theorem C48_compare_element (size a n : Nat) (hs : 0 < size) (ha : a < 2 ^ (64 * size)) (hn : n < 2 ^ 64) :
    ltE (bigOf size a) n = .ok (decide (a < n)) ∧ leE (bigOf size a) n = .ok (decide (a ≤ n)) ∧
    gtE (bigOf size a) n = .ok (decide (a > n)) ∧ geE (bigOf size a) n = .ok (decide (a ≥ n)) ∧
    eqE (bigOf size a) n = .ok (decide (a = n)) ∧ neE (bigOf size a) n = .ok (decide (a ≠ n)) := by
  have hx := rep_bigOf hs ha
  refine ⟨?_, ?_, ?_, ?_, ?_, ?_⟩ <;>
    exact compare_element_spec hx hn (fun h => by simp; omega) rfl

/-- Numbers that agree in the leading element. -/
example : Big.lt (bigOf 2 (2 ^ 64 + 5)) (bigOf 2 (2 ^ 64 + 6)) = .ok true ∧
    gtE (bigOf 2 (2 ^ 64 + 5)) 6 = .ok true := by decide +kernel

/-! ## C49: addition -/

/-- C49: `operator+=` adds, whenever the sum fits. -/
theorem C49_add (cfg : Cfg) (size a b : Nat) (hs : 0 < size) (h : a + b < 2 ^ (64 * size)) :
    add cfg (bigOf size a) (bigOf size b) = .ok (bigOf size (a + b)) :=
  add_spec cfg (rep_bigOf hs (by omega)) (rep_bigOf hs (by omega)) h

/-- A carry through two elements. -/
example : (2 ^ 128 - 1) + 1 < 2 ^ (64 * 3) ∧
    add ⟨true, false⟩ (bigOf 3 (2 ^ 128 - 1)) (bigOf 3 1) = .ok ⟨[0, 0, 1], 2, 1⟩ := by decide +kernel

/-! ## C50: addition of an element -/

/-- C50, partial: `operator+=(element_type)` leaves the right digits and the right leading element.
Missing: the leading bit, which is only right when it does not move (`bitLength (a + n) = bitLength a`)
or the leading element moves; see `C50_stale_bit`. -/
theorem C50_add_element_partial (cfg : Cfg) (size a n : Nat) (hs : 0 < size) (hn : n < 2 ^ 64)
    (h : a + n < 2 ^ (64 * size)) :
    ∃ bit, addE cfg (bigOf size a) n =
        .ok ⟨(bigOf size (a + n)).elements, (bigOf size (a + n)).element_pos, bit⟩ ∧
      (bitLength (a + n) = bitLength a ∨ topDigit (a + n) ≠ topDigit a →
        bit = (bigOf size (a + n)).bit_pos) := by
  have hx := rep_bigOf hs (show a < 2 ^ (64 * size) by omega)
  obtain ⟨bit, h1, h2⟩ := addE_spec cfg hx hn h
  refine ⟨bit, h1, fun hc => ?_⟩
  rw [h2]
  have ht : topDigit (a + n) ≠ topDigit a → bitLength ((a + n) / 2 ^ (64 * topDigit (a + n))) = 1 := by
    intro hne
    have hm : bitLength a ≤ bitLength (a + n) := bitLength_mono (by omega)
    have hlt := lt_topDigit a
    have hle : topDigit a + 1 ≤ topDigit (a + n) := by unfold topDigit at hne ⊢; omega
    have hbig : a + n < 2 * 2 ^ (64 * topDigit (a + n)) := by
      have e1 : 2 ^ (64 * (topDigit a + 1)) ≤ 2 ^ (64 * topDigit (a + n)) :=
        Nat.pow_le_pow_right (by norm_num) (by omega)
      have e2 : (2 : Nat) ^ 64 ≤ 2 ^ (64 * (topDigit a + 1)) := Nat.pow_le_pow_right (by norm_num) (by omega)
      omega
    have hne0 : a + n ≠ 0 := by
      intro h0
      rw [h0] at hle
      simp [topDigit, bitLength] at hle
    have hge := topDigit_le hne0
    have : (a + n) / 2 ^ (64 * topDigit (a + n)) = 1 := by
      apply Nat.div_eq_of_lt_le <;> omega
    rw [this]; rfl
  split
  · rename_i he
    rcases hc with hc | hc
    · show bitLength (a / 2 ^ (64 * topDigit a)) = bitLength ((a + n) / 2 ^ (64 * topDigit (a + n)))
      rw [bitLength_div, bitLength_div, hc, he]
    · exact absurd he hc
  · rename_i hne
    exact (ht hne).symm

example : addE ⟨true, false⟩ (bigOf 2 (2 ^ 64 - 1)) 1 = .ok (bigOf 2 (2 ^ 64)) ∧
    topDigit (2 ^ 64 - 1 + 1) ≠ topDigit (2 ^ 64 - 1) := by decide +kernel

/-- C50 is false of the code in general: after `3 += 1` the leading bit is still that of 3, and
`multiply_2_until(4)`, which should not multiply at all, returns 8. -/
theorem C50_stale_bit (cfg : Cfg) :
    addE cfg (bigOf 1 3) 1 = .ok ⟨[4], 0, 2⟩ ∧ bigOf 1 4 = ⟨[4], 0, 3⟩ ∧
    (do let x ← addE cfg (bigOf 1 3) 1; multiply_2_until cfg x (bigOf 1 4)) = .ok (1, ⟨[8], 0, 3⟩) := by
  rcases cfg with ⟨_ | _, _ | _⟩ <;> decide +kernel

/-! ## C51: subtraction -/

/-- C51: `operator-=` subtracts, whenever the result is not negative. -/
theorem C51_sub (cfg : Cfg) (size a b : Nat) (hs : 0 < size) (ha : a < 2 ^ (64 * size)) (h : b ≤ a) :
    sub cfg (bigOf size a) (bigOf size b) = .ok (bigOf size (a - b)) :=
  sub_spec cfg (rep_bigOf hs ha) (rep_bigOf hs (by omega)) h

/-- A borrow through two elements that lowers the leading element. -/
example : sub ⟨true, false⟩ (bigOf 3 (2 ^ 128)) (bigOf 3 1) = .ok ⟨[2 ^ 64 - 1, 2 ^ 64 - 1, 0], 1, 64⟩ := by
  decide +kernel

/-! ## C52: decrement -/

/-- C52, partial: `operator--` leaves the right digits for every nonzero number, and the right leading
position if the number is a multiple of its leading digit's weight.  Missing: the leading position in
the other cases; see `C52_wrong_position`. -/
theorem C52_decrement_partial (cfg : Cfg) (size a : Nat) (hs : 0 < size) (hsz : size < 2 ^ 64)
    (ha : a < 2 ^ (64 * size)) (ha0 : a ≠ 0) :
    ∃ p b, decrement cfg (bigOf size a) = .ok ⟨(bigOf size (a - 1)).elements, p, b⟩ ∧
      (2 ^ (64 * topDigit a) ∣ a → (⟨(bigOf size (a - 1)).elements, p, b⟩ : Big) = bigOf size (a - 1)) :=
  decrement_spec cfg hsz (rep_bigOf hs ha) ha0

example : decrement ⟨true, false⟩ (bigOf 2 (2 ^ 64)) = .ok (bigOf 2 (2 ^ 64 - 1)) ∧
    2 ^ (64 * topDigit (2 ^ 64)) ∣ 2 ^ 64 := by decide +kernel

/-- C52 is false of the code in general: decrementing 2^128 + 2^64 leaves a number that compares
as less than 2^128, and decrementing 2^64 + 1 leaves a leading bit of 0. -/
theorem C52_wrong_position (cfg : Cfg) :
    (do let x ← decrement cfg (bigOf 3 (2 ^ 128 + 2 ^ 64)); Big.lt x (bigOf 3 (2 ^ 128))) = .ok true ∧
    decrement cfg (bigOf 2 (2 ^ 64 + 1)) = .ok ⟨[0, 1], 1, 0⟩ ∧ bigOf 2 (2 ^ 64) = ⟨[0, 1], 1, 1⟩ := by
  rcases cfg with ⟨_ | _, _ | _⟩ <;> decide +kernel

/-! ## C53: multiplication by an element -/

/-- C53, partial: `operator*=(element_type)` multiplies by every nonzero element, whenever the product
fits.  Missing: multiplication by zero; see `C53_times_zero`. -/
theorem C53_multiply_element_partial (cfg : Cfg) (size a n : Nat) (hs : 0 < size) (ha : a < 2 ^ (64 * size))
    (hn : n < 2 ^ 64) (hn0 : n ≠ 0) (h : a * n < 2 ^ (64 * size)) :
    mulE cfg (bigOf size a) n = .ok (bigOf size (a * n)) :=
  mulE_spec cfg (rep_bigOf hs ha) hn hn0 h

example : (2 ^ 64 - 1) * (2 ^ 64 - 1) < 2 ^ (64 * 2) ∧
    mulE ⟨false, false⟩ (bigOf 2 (2 ^ 64 - 1)) (2 ^ 64 - 1) = .ok (bigOf 2 ((2 ^ 64 - 1) * (2 ^ 64 - 1))) := by
  decide +kernel

/-- C53 is false for zero: 2^64 times zero does not compare as equal to zero. -/
theorem C53_times_zero (cfg : Cfg) :
    (do let x ← mulE cfg (bigOf 2 (2 ^ 64)) 0; eqE x 0) = .ok false := by
  rcases cfg with ⟨_ | _, _ | _⟩ <;> decide +kernel

/-! ## C54: multiplication -/

/-- C54, partial: `operator*` is right when the second factor is a single nonzero element and the product
fits.  Missing: larger second factors, for which it is false; see `C54_lost_carry`. -/
theorem C54_multiply_partial (cfg : Cfg) (size a b : Nat) (hs : 0 < size) (ha : a < 2 ^ (64 * size))
    (hb : b < 2 ^ 64) (hb0 : b ≠ 0) (h : a * b < 2 ^ (64 * size)) :
    mul cfg (bigOf size a) (bigOf size b) = .ok (bigOf size (a * b)) :=
  mul_single_spec cfg (rep_bigOf hs ha)
    (rep_bigOf hs (lt_of_lt_of_le hb (Nat.pow_le_pow_right (by norm_num) (by omega)))) hb hb0 h

example : mul ⟨true, false⟩ (bigOf 3 (2 ^ 100 + 7)) (bigOf 3 12345) = .ok (bigOf 3 ((2 ^ 100 + 7) * 12345)) := by
  decide +kernel

/-- The condition under which `operator*` loses a carry: for some element `m` of the second factor the product of the
first factor with that element is no longer than the first factor, while the product with the elements up to `m` is one
element longer. -/
def CarryLost (a b : Nat) : Prop :=
  ∃ m, 1 ≤ m ∧ m ≤ topDigit b ∧ a * (b / 2 ^ (64 * m) % 2 ^ 64) < 2 ^ (64 * (topDigit a + 1)) ∧
    2 ^ (64 * (topDigit a + m + 1)) ≤ a * (b % 2 ^ (64 * (m + 1)))

/-- C54, part: the product of any two nonzero numbers with room for the result, if no carry is lost.  The rest of C54 is
false by `C54_assertion_iff` and `C54_lost_carry`. -/
theorem C54_multiply_long_partial (cfg : Cfg) (size a b : Nat) (hs : 0 < size) (ha : a ≠ 0) (hb : b ≠ 0)
    (h : a * b < 2 ^ (64 * size)) (hc : ¬ CarryLost a b) :
    mul cfg (bigOf size a) (bigOf size b) = .ok (bigOf size (a * b)) :=
  mul_spec cfg (rep_bigOf hs (lt_of_le_of_lt (Nat.le_mul_of_pos_right _ (Nat.pos_of_ne_zero hb)) h))
    (rep_bigOf hs (lt_of_le_of_lt (Nat.le_mul_of_pos_left _ (Nat.pos_of_ne_zero ha)) h)) ha hb h
    fun m h1 h2 h3 => by
      by_contra h4
      exact hc ⟨m, h1, h2, h3, by omega⟩

/-- C54: with assertions the multiplication of two nonzero numbers with room for the result stops at an assertion if and
only if a carry is lost; otherwise it is right. -/
theorem C54_assertion_iff (x64 : Bool) (size a b : Nat) (hs : 0 < size) (ha : a ≠ 0) (hb : b ≠ 0)
    (h : a * b < 2 ^ (64 * size)) :
    (CarryLost a b ↔ mul ⟨x64, false⟩ (bigOf size a) (bigOf size b) = .fault .assertion) ∧
    (¬ CarryLost a b ↔ mul ⟨x64, false⟩ (bigOf size a) (bigOf size b) = .ok (bigOf size (a * b))) := by
  have hl : CarryLost a b → mul ⟨x64, false⟩ (bigOf size a) (bigOf size b) = .fault .assertion := by
    rintro ⟨m, h1, h2, h3, h4⟩
    exact mul_lost ⟨x64, false⟩ rfl (rep_bigOf hs (lt_of_le_of_lt (Nat.le_mul_of_pos_right _ (Nat.pos_of_ne_zero hb)) h))
      (rep_bigOf hs (lt_of_le_of_lt (Nat.le_mul_of_pos_left _ (Nat.pos_of_ne_zero ha)) h)) ha hb h h1 h2 h3 h4
  have hr := C54_multiply_long_partial ⟨x64, false⟩ size a b hs ha hb h
  by_cases hc : CarryLost a b
  · have := hl hc
    simp [hc, this]
  · have := hr hc
    simp [hc, this]

/-- The condition is not met by, for example, the product of 3^70 and 7^60, of two and three elements, -/
example : ¬ CarryLost (3 ^ 70) (7 ^ 60) ∧ topDigit (3 ^ 70) = 1 ∧ topDigit (7 ^ 60) = 2 ∧
    3 ^ 70 * 7 ^ 60 < 2 ^ (64 * 5) := by
  refine ⟨?_, by decide +kernel⟩
  rintro ⟨m, h1, h2, h3, h4⟩
  have ht : topDigit (7 ^ 60) = 2 := by decide +kernel
  rw [ht] at h2
  have hm : m = 1 ∨ m = 2 := by omega
  revert h3 h4
  rcases hm with rfl | rfl <;> decide +kernel

/-- and met by the numbers of `C54_lost_carry`. -/
example : CarryLost (2 ^ 128 - 1) (2 ^ 65 - 1) := ⟨1, by decide +kernel⟩

/-- C54 is false of the code in general: for (2^128-1) * (2^65-1) in four elements, where the product fits,
a build with assertions stops and one without loses the top element. -/
theorem C54_lost_carry (x64 : Bool) :
    mul ⟨x64, false⟩ (bigOf 4 (2 ^ 128 - 1)) (bigOf 4 (2 ^ 65 - 1)) = .fault .assertion ∧
    mul ⟨x64, true⟩ (bigOf 4 (2 ^ 128 - 1)) (bigOf 4 (2 ^ 65 - 1)) =
      .ok (bigOf 4 ((2 ^ 128 - 1) * (2 ^ 65 - 1) - 2 ^ 192)) ∧
    (2 ^ 128 - 1) * (2 ^ 65 - 1) < 2 ^ (64 * 4) := by
  rcases x64 with _ | _ <;> decide +kernel

/-! ## C55: multiplication by five -/

/-- C55: `multiply_5` multiplies by five, for every nonzero number with room for the result. -/
theorem C55_multiply_5 (cfg : Cfg) (size a : Nat) (hs : 0 < size) (ha0 : a ≠ 0)
    (h : a * 5 < 2 ^ (64 * size)) : multiply_5 cfg (bigOf size a) = .ok (bigOf size (a * 5)) :=
  multiply_5_spec cfg (rep_bigOf hs (by omega)) ha0 h

/-- Powers of five by repeated multiplication. -/
theorem C55_power_of_5 (cfg : Cfg) (size k : Nat) (hs : 0 < size) (h : 5 ^ k < 2 ^ (64 * size)) :
    Nat.rec (motive := fun _ => Exec Big) (ofElement size 1) (fun _ r => r >>= multiply_5 cfg) k =
      .ok (bigOf size (5 ^ k)) := by
  induction k with
  | zero => exact ofElement_spec hs (by norm_num)
  | succ k ih =>
    rw [pow_succ] at h
    have hk := Nat.pow_pos (n := k) (show 0 < 5 by norm_num)
    have := ih (by omega)
    simp only at this ⊢
    rw [this, pow_succ]
    exact C55_multiply_5 cfg size (5 ^ k) hs (by omega) h

example : multiply_5 ⟨true, false⟩ (bigOf 2 (5 ^ 27)) = .ok (bigOf 2 (5 ^ 28)) ∧ 5 ^ 27 * 5 < 2 ^ (64 * 2) ∧
    topDigit (5 ^ 27) ≠ topDigit (5 ^ 28) := by decide +kernel

/-! ## C56: scaling by a power of two -/

/-- C56: `multiply_2_until` doubles a positive number `a` as often as necessary to reach `b`, and
returns how often it did.  `c` is the least number with `b ≤ a * 2 ^ c`. -/
theorem C56_multiply_2_until (cfg : Cfg) (size a b c : Nat) (hs : 0 < size) (hsz : size < 2 ^ 57) (ha0 : a ≠ 0)
    (hab : a ≤ b) (hc : b ≤ a * 2 ^ c) (hmin : ∀ k, k < c → a * 2 ^ k < b) (hfit : a * 2 ^ c < 2 ^ (64 * size)) :
    multiply_2_until cfg (bigOf size a) (bigOf size b) = .ok (c, bigOf size (a * 2 ^ c)) := by
  refine multiply_2_until_spec cfg (rep_bigOf hs (by omega)) (rep_bigOf hs (by omega)) hsz ha0 hab hc ?_ hfit
  by_cases h : c = 0
  · exact Or.inl h
  · exact Or.inr (hmin (c - 1) (by omega))

example : multiply_2_until ⟨true, false⟩ (bigOf 3 (5 ^ 20)) (bigOf 3 (3 ^ 70)) =
    .ok (65, bigOf 3 (5 ^ 20 * 2 ^ 65)) ∧ 3 ^ 70 ≤ 5 ^ 20 * 2 ^ 65 ∧ 5 ^ 20 * 2 ^ 64 < 3 ^ 70 := by
  decide +kernel

/-! ## C57: long division -/

/-- C57, partial: `long_division` returns the quotient and leaves the remainder when the dividend has fewer
than 64 binary digits more than the divisor.  The loop runs at most 64 times.  Missing: longer dividends,
for which it is false; see the theorems below.  2^65 divided by 3 has 64 digits more. -/
theorem C57_long_division_partial (cfg : Cfg) (size a b fuel : Nat) (hs : 0 < size) (hsz : size < 2 ^ 57)
    (ha : a < 2 ^ (64 * size)) (hb : b < 2 ^ (64 * size)) (hb0 : b ≠ 0)
    (hd : bitLength a < bitLength b + 64) (hf : 64 ≤ fuel) :
    long_division cfg fuel (bigOf size a) (bigOf size b) = .ok (bigOf size (a / b), bigOf size (a % b)) :=
  long_division_spec cfg (rep_bigOf hs ha) (rep_bigOf hs hb) hsz hb0 hd hf

/-- In particular for every quotient below 2^63. -/
theorem C57_small_quotient_partial (cfg : Cfg) (size a b fuel : Nat) (hs : 0 < size) (hsz : size < 2 ^ 57)
    (ha : a < 2 ^ (64 * size)) (hb : b < 2 ^ (64 * size)) (hb0 : b ≠ 0) (hq : a / b < 2 ^ 63)
    (hf : 64 ≤ fuel) :
    long_division cfg fuel (bigOf size a) (bigOf size b) = .ok (bigOf size (a / b), bigOf size (a % b)) := by
  refine C57_long_division_partial cfg size a b fuel hs hsz ha hb hb0 ?_ hf
  have h1 : a < b * 2 ^ 63 := by rw [Nat.mul_comm]; exact (Nat.div_lt_iff_lt_mul (by omega)).mp hq
  have h2 := bitLength_mono (le_of_lt h1)
  rw [bitLength_mul_pow hb0] at h2
  omega

example : bitLength (10 ^ 38) < bitLength (3 ^ 40) + 64 ∧ topDigit (10 ^ 38) ≠ topDigit (3 ^ 40) ∧
    10 ^ 38 < 2 ^ (64 * 2) ∧
    long_division ⟨true, false⟩ 64 (bigOf 2 (10 ^ 38)) (bigOf 2 (3 ^ 40)) =
      .ok (bigOf 2 8225263339969959081, bigOf 2 (10 ^ 38 % 3 ^ 40)) := by decide +kernel

/-- C57, partial, dividends of any length.  After each one of the quotient the code moves the multiple of the divisor down
to the length of the dividend left, `r`.  It is right when this gives the right multiple (see `realigned`), or, if `r` is
already the remainder, at least a number greater than it (`hgap`), and when the divisor is even or no dividend left is as
long as the divisor moved up by whole elements (`hcross`).  Missing: the other cases; the theorems below have witnesses for
violations of either condition. -/
theorem C57_long_dividend_partial (cfg : Cfg) (size a b fuel : Nat) (hs : 0 < size) (hsz : size < 2 ^ 57)
    (ha : a < 2 ^ (64 * size)) (hb : b < 2 ^ (64 * size)) (hb0 : b ≠ 0)
    (hgap : ∀ t r, (a / b).testBit t = true → r = a % (b * 2 ^ t) → r ≠ 0 → bitLength b ≤ bitLength r →
      realigned (b * 2 ^ t) (bitLength b + t - bitLength r) r = b * 2 ^ (bitLength r - bitLength b) ∨
      (r < b ∧ r < realigned (b * 2 ^ t) (bitLength b + t - bitLength r) r))
    (hcross : ∀ k, k ≠ 0 → 2 ∣ b ∨ bitLength (a % (b * 2 ^ (64 * k))) ≠ bitLength (b * 2 ^ (64 * k)))
    (hf : bitLength a < bitLength b + fuel) :
    long_division cfg fuel (bigOf size a) (bigOf size b) = .ok (bigOf size (a / b), bigOf size (a % b)) :=
  long_division_divides cfg (rep_bigOf hs ha) (rep_bigOf hs hb) hsz hb0 ⟨hgap, hcross⟩ hf

/-- A movement by less than an element is right: `hgap` holds when, after each one of the quotient, the dividend left is
zero, or shorter than the divisor, or fewer than 64 digits shorter than the multiple just subtracted. -/
theorem C57_short_moves_partial (cfg : Cfg) (size a b fuel : Nat) (hs : 0 < size) (hsz : size < 2 ^ 57)
    (ha : a < 2 ^ (64 * size)) (hb : b < 2 ^ (64 * size)) (hb0 : b ≠ 0)
    (hgap : ∀ t, (a / b).testBit t = true → a % (b * 2 ^ t) ≠ 0 →
      bitLength b + t < bitLength (a % (b * 2 ^ t)) + 64 ∨ bitLength (a % (b * 2 ^ t)) < bitLength b)
    (hcross : ∀ k, k ≠ 0 → 2 ∣ b ∨ bitLength (a % (b * 2 ^ (64 * k))) ≠ bitLength (b * 2 ^ (64 * k)))
    (hf : bitLength a < bitLength b + fuel) :
    long_division cfg fuel (bigOf size a) (bigOf size b) = .ok (bigOf size (a / b), bigOf size (a % b)) := by
  refine C57_long_dividend_partial cfg size a b fuel hs hsz ha hb hb0 (fun t r ht hr h0 hl => Or.inl ?_) hcross hf
  have hlt : r < b * 2 ^ t := by rw [hr]; exact Nat.mod_lt _ (Nat.mul_pos (by omega) (Nat.two_pow_pos t))
  subst hr
  rcases hgap t ht h0 with h | h
  · exact gap_of_lt hb0 h hl hlt
  · omega

/-- C57, partial: it is right for an even divisor when, from the leading digit of the quotient down, any 63 consecutive
digits contain a one. -/
theorem C57_even_divisor_partial (cfg : Cfg) (size a b fuel : Nat) (hs : 0 < size) (hsz : size < 2 ^ 57)
    (ha : a < 2 ^ (64 * size)) (hb : b < 2 ^ (64 * size)) (hb0 : b ≠ 0) (heven : 2 ∣ b)
    (hw : ∀ i, 2 ^ i ≤ a / b → a / b / 2 ^ i % 2 ^ 63 ≠ 0) (hf : bitLength a < bitLength b + fuel) :
    long_division cfg fuel (bigOf size a) (bigOf size b) = .ok (bigOf size (a / b), bigOf size (a % b)) :=
  long_division_divides cfg (rep_bigOf hs ha) (rep_bigOf hs hb) hsz hb0 (divides_of_windows hb0 heven hw) hf

/-- The quotient of 10^50 by 10 has 163 digits. -/
example (cfg : Cfg) : long_division cfg 170 (bigOf 3 (10 ^ 50 + 7)) (bigOf 3 10) = .ok (bigOf 3 (10 ^ 49), bigOf 3 7) := by
  rw [C57_even_divisor_partial cfg 3 (10 ^ 50 + 7) 10 170 (by decide) (by decide) (by decide) (by decide) (by decide)
    (by decide) ?_ (by decide)]
  · rw [show (10 ^ 50 + 7) / 10 = 10 ^ 49 by norm_num, show (10 ^ 50 + 7) % 10 = 7 by norm_num]
  · intro i hi
    have h : i < 163 := by
      rw [← Nat.pow_lt_pow_iff_right (a := 2) (by norm_num)]
      exact lt_of_le_of_lt hi (by norm_num)
    have key : ∀ i < 163, (10 ^ 50 + 7) / 10 / 2 ^ i % 2 ^ 63 ≠ 0 := by decide +kernel
    exact key i h

/-- C57, partial, dividends of two elements, in exactly one case of which it is wrong: the divisor is odd and the dividend
modulo the divisor moved up by a whole element is as long as the latter.  Missing: longer dividends. -/
theorem C57_two_elements_partial (cfg : Cfg) (size a b fuel : Nat) (hs : 0 < size) (hsz : size < 2 ^ 57)
    (ha : a < 2 ^ (64 * size)) (hb : b < 2 ^ (64 * size)) (ha2 : a < 2 ^ 128) (hb0 : b ≠ 0)
    (hf : bitLength a < bitLength b + fuel) :
    long_division cfg fuel (bigOf size a) (bigOf size b) = .ok (bigOf size (a / b), bigOf size (a % b)) ↔
      ¬ (b % 2 = 1 ∧ bitLength (a % (b * 2 ^ 64)) = bitLength b + 64) :=
  long_division_two cfg (rep_bigOf hs ha) (rep_bigOf hs hb) hsz ha2 hb0 hf

/-- In that case it still returns, and what it returns is too small: the quotient times the divisor plus the rest is less
than the dividend. -/
theorem C57_two_elements_wrong (cfg : Cfg) (size a b fuel : Nat) (hs : 0 < size) (hsz : size < 2 ^ 57)
    (ha : a < 2 ^ (64 * size)) (hb : b < 2 ^ (64 * size)) (ha2 : a < 2 ^ 128) (hodd : b % 2 = 1)
    (hc : bitLength (a % (b * 2 ^ 64)) = bitLength b + 64) (hf : bitLength a < bitLength b + fuel) :
    ∃ q r, long_division cfg fuel (bigOf size a) (bigOf size b) = .ok (q, r) ∧
      val q.elements * b + val r.elements < a :=
  long_division_cross cfg (rep_bigOf hs ha) (rep_bigOf hs hb) hsz ha2 hodd hc hf

/-- 2^65 divided by 3 is wrong, 10^38 divided by 9 and (with a movement by more than an element) 5 * 2^100 + 9 divided by 5 are
right. -/
example : bitLength (2 ^ 65 % (3 * 2 ^ 64)) = bitLength 3 + 64 ∧ bitLength (10 ^ 38 % (9 * 2 ^ 64)) ≠ bitLength 9 + 64 ∧
    bitLength ((5 * 2 ^ 100 + 9) % (5 * 2 ^ 64)) ≠ bitLength 5 + 64 := by decide +kernel

/-- C57 is false of the code in general: 2^65 divided by 3. -/
theorem C57_wrong_quotient (cfg : Cfg) :
    long_division cfg 64 (bigOf 2 (2 ^ 65)) (bigOf 2 3) =
      .ok (bigOf 2 10540996613548315209, bigOf 2 1) ∧
    2 ^ 65 / 3 = 12297829382473034410 ∧ 2 ^ 65 % 3 = 2 := by
  rcases cfg with ⟨_ | _, _ | _⟩ <;> decide +kernel

/-- A division that fails an assertion: 2^142 divided by 2^68 - 1. -/
theorem C57_assertion (x64 : Bool) :
    long_division ⟨x64, false⟩ 64 (bigOf 3 (2 ^ 142)) (bigOf 3 (2 ^ 68 - 1)) = .fault .assertion := by
  rcases x64 with _ | _ <;> decide +kernel

/-- A division that never ends: 2^141 + 2^60 + 2^26 divided by 2, however long the loop may run. -/
theorem C57_endless (cfg : Cfg) (fuel : Nat) :
    long_division cfg fuel (bigOf 3 (2 ^ 141 + 2 ^ 60 + 2 ^ 26)) (bigOf 3 2) = .fault .loopFuel := by
  let d1 : Div :=
    { this := ⟨[2 ^ 60 + 2 ^ 26, 0, 0], 0, 61⟩, shifted := [some 0, some 0, some 8192]
      shifted_element_pos := 2, shifted_bit_pos := 14, quotient := ⟨[0, 0, 4096], 2, 13⟩
      base_idx := 2, base_trailing_zeros := 12, total := 140 }
  let d2 : Div :=
    { this := ⟨[2 ^ 60 + 2 ^ 26, 0, 0], 0, 61⟩, shifted := [some 0, some (2 ^ 60), some 0]
      shifted_element_pos := 0, shifted_bit_pos := 61, quotient := ⟨[2 ^ 59, 0, 4096], 2, 13⟩
      base_idx := 0, base_trailing_zeros := 59, total := 59 }
  have step : ∀ (d d' : Div) (fuel : Nat),
      (do
        let r ← realign d
        match r with
        | none => .ok (false, d)
        | some d => compare_and_subtract cfg false d) = .ok (true, d') →
      division_loop cfg (fuel + 1) d = division_loop cfg fuel d' := by
    intro d d' fuel h
    unfold division_loop
    cases hr : realign d with
    | fault f => rw [hr] at h; exact absurd h (by simp [Exec.fault_bind])
    | ok r =>
      rw [hr] at h
      cases r with
      | none => exact absurd h (by simp [Exec.ok_bind])
      | some e =>
        simp only [Exec.ok_bind] at h ⊢
        rw [h]
        simp only [Exec.ok_bind, if_true]
        cases fuel <;> rfl
  have h0 : (do
      let d ← align (bigOf 3 (2 ^ 141 + 2 ^ 60 + 2 ^ 26)) (bigOf 3 2) (bigOf 3 0)
      compare_and_subtract cfg true d) = .ok (true, d1) := by
    rcases cfg with ⟨_ | _, _ | _⟩ <;> decide +kernel
  have h1 : ∀ fuel, division_loop cfg (fuel + 1) d1 = division_loop cfg fuel d2 := fun fuel =>
    step d1 d2 fuel (by rcases cfg with ⟨_ | _, _ | _⟩ <;> decide +kernel)
  have h2 : ∀ fuel, division_loop cfg (fuel + 1) d2 = division_loop cfg fuel d2 := fun fuel =>
    step d2 d2 fuel (by rcases cfg with ⟨_ | _, _ | _⟩ <;> decide +kernel)
  have h3 : ∀ fuel, division_loop cfg fuel d2 = .fault .loopFuel := by
    intro fuel
    induction fuel with
    | zero => rfl
    | succ fuel ih => rw [h2, ih]
  have h4 : division_loop cfg fuel d1 = .fault .loopFuel := by
    cases fuel with
    | zero => rfl
    | succ fuel => rw [h1, h3]
  have e1 : ofElement (bigOf 3 (2 ^ 141 + 2 ^ 60 + 2 ^ 26)).elements.length 0 = .ok (bigOf 3 0) :=
    ofElement_spec (by simp [bigOf]) (by norm_num)
  have e2 : (bigOf 3 (2 ^ 141 + 2 ^ 60 + 2 ^ 26)).element_pos = 2 := by decide +kernel
  have e3 : (bigOf 3 2).element_pos = 0 := by decide +kernel
  unfold long_division
  rw [e1]
  simp only [Exec.ok_bind, e2, e3]
  rw [if_neg (by decide), if_neg (by decide), if_neg (by decide)]
  cases ha : align (bigOf 3 (2 ^ 141 + 2 ^ 60 + 2 ^ 26)) (bigOf 3 2) (bigOf 3 0) with
  | fault f => rw [ha] at h0; exact absurd h0 (by simp [Exec.fault_bind])
  | ok d =>
    rw [ha] at h0
    simp only [Exec.ok_bind] at h0 ⊢
    rw [h0]
    simp only [Exec.ok_bind, if_true, h4, Exec.fault_bind]

end Grisu

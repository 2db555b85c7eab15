import Verif.Proofs.RyuSmall
import Verif.Properties.Ryu

/-!
# Ryu's powers of 5 from small tables

Property C84.  `double_computePow5` and `double_computeInvPow5` compute the multipliers of Ryu from 13 stored values and
a list of corrections.  `Config` is the build configuration, as for C68-C72.
-/

namespace Grisu

open Ryu (Config double_computePow5 double_computeInvPow5 DOUBLE_POW5_SPLIT DOUBLE_POW5_INV_SPLIT)

/-! ## C84 -/

theorem short_pow_lt {i : Nat} (h : i < 326) : Ryu.isShort Ryu.shortPow i = 0 := by
  have : ∀ j ∈ Ryu.shortPow, 326 ≤ j := by decide
  unfold Ryu.isShort
  rw [if_neg (fun hm => by have := this i hm; omega)]

theorem short_inv_lt {i : Nat} (h : i < 292) : Ryu.isShort Ryu.shortInv i = 0 := by
  have : ∀ j ∈ Ryu.shortInv, 292 ≤ j := by decide
  unfold Ryu.isShort
  rw [if_neg (fun hm => by have := this i hm; omega)]

/-- **C84**: for `i = 0, ..., 325` and in every configuration, `double_computePow5` returns the two words of the leading
121 bits of `5^i` (followed by zeros if there are fewer). -/
theorem C84_pow (c : Config) (i : Nat) (h : i < 326) : ∃ lo hi, double_computePow5 c i = .ok (lo, hi) ∧
    lo < 2 ^ 64 ∧ hi < 2 ^ 64 ∧ lo + 2 ^ 64 * hi = 5 ^ i * 2 ^ 121 / 2 ^ numBits (5 ^ i) := by
  obtain ⟨⟨lo, hi⟩, hr, h1, h2, h3⟩ := Ryu.pow_at c (i := i) (by omega)
  rw [short_pow_lt h] at h3
  exact ⟨lo, hi, hr, h1, h2, h3⟩

/-- **C84**: for `i = 0, ..., 291` and in every configuration, `double_computeInvPow5` returns the two words of
`⌊2^k / 5^i⌋ + 1`, with `k` the length of `5^i` plus 121. -/
theorem C84_inv (c : Config) (i : Nat) (h : i < 292) : ∃ lo hi, double_computeInvPow5 c i = .ok (lo, hi) ∧
    lo < 2 ^ 64 ∧ hi < 2 ^ 64 ∧ lo + 2 ^ 64 * hi = 2 ^ (numBits (5 ^ i) + 121) / 5 ^ i + 1 := by
  obtain ⟨⟨lo, hi⟩, hr, h1, h2, h3⟩ := Ryu.inv_at c (i := i) (by omega)
  rw [short_inv_lt h] at h3
  exact ⟨lo, hi, hr, h1, h2, h3⟩

set_option maxRecDepth 10000 in
theorem inv_low_word : ((List.range 292).all fun i => decide (Ryu.inv_want i % 2 ^ 64 ≠ 0)) = true := by decide +kernel

/-- **C84**: the upper word of the inverse is not affected by the added 1, which is what the printer of `float` values
relies on: it is `⌊2^k / 5^i⌋` with `k` the length of `5^i` plus 57. -/
theorem C84_upper (c : Config) (i : Nat) (h : i < 292) : ∃ lo hi, double_computeInvPow5 c i = .ok (lo, hi) ∧
    hi = 2 ^ (numBits (5 ^ i) + 57) / 5 ^ i := by
  obtain ⟨lo, hi, hr, h1, -, h3⟩ := C84_inv c i h
  refine ⟨lo, hi, hr, ?_⟩
  have hne := of_decide_eq_true (List.all_eq_true.mp inv_low_word i (List.mem_range.mpr h))
  have hw : Ryu.inv_want i = 2 ^ (numBits (5 ^ i) + 121) / 5 ^ i + 1 := rfl
  rw [hw] at hne
  have e : 2 ^ (numBits (5 ^ i) + 57) / 5 ^ i = 2 ^ (numBits (5 ^ i) + 121) / 5 ^ i / 2 ^ 64 := by
    rw [Nat.div_div_eq_div_mul, Nat.mul_comm (5 ^ i), ← Nat.div_div_eq_div_mul,
      show numBits (5 ^ i) + 121 = numBits (5 ^ i) + 57 + 64 from rfl, Nat.pow_add 2 (numBits (5 ^ i) + 57) 64,
      Nat.mul_div_cancel _ (Nat.two_pow_pos 64)]
  rw [e]
  generalize 2 ^ (numBits (5 ^ i) + 121) / 5 ^ i = q at h3 hne
  norm_num at *
  omega

theorem map_getElem? {α β γ : Type} {l : List α} {f : α → γ} {r : List β} {g : β → γ} (h : l.map f = r.map g) {i : Nat}
    {a : α} {b : β} (ha : l[i]? = some a) (hb : r[i]? = some b) : f a = g b := by
  have := congrArg (fun l => l[i]?) h
  simpa [ha, hb] using this

/-- **C84**: the values agree with the stored tables of the normal build: `double_computePow5` gives the stored 125 bits
without the last four, and `double_computeInvPow5`, up to index 291, the stored value without the last three (each less
the added 1). -/
theorem C84_table (c : Config) (i : Nat) (w : Nat × Nat) :
    (DOUBLE_POW5_SPLIT[i]? = some w → ∃ lo hi, double_computePow5 c i = .ok (lo, hi) ∧
      lo + 2 ^ 64 * hi = (w.1 + 2 ^ 64 * w.2) / 2 ^ 4) ∧
    (DOUBLE_POW5_INV_SPLIT[i]? = some w → i < 292 → ∃ lo hi, double_computeInvPow5 c i = .ok (lo, hi) ∧
      lo + 2 ^ 64 * hi - 1 = (w.1 + 2 ^ 64 * w.2 - 1) / 2 ^ 3) := by
  constructor
  · intro hw
    have hi : i < 326 := by
      have := (List.getElem?_eq_some_iff.mp hw).1
      rwa [show DOUBLE_POW5_SPLIT.length = 326 by decide +kernel] at this
    have e := map_getElem? C68_double_pow hw (List.getElem?_range hi)
    obtain ⟨lo, hi, hr, -, -, h3⟩ := C84_pow c i hi
    refine ⟨lo, hi, hr, ?_⟩
    rw [h3, e, Nat.div_div_eq_div_mul, Nat.mul_comm (2 ^ _) (2 ^ 4), ← Nat.div_div_eq_div_mul,
      show 125 = 121 + 4 from rfl, Nat.pow_add, ← Nat.mul_assoc, Nat.mul_div_cancel _ (Nat.two_pow_pos 4)]
  · intro hw hi
    have e := map_getElem? C68_double_inv hw (List.getElem?_range (show i < 342 by omega))
    obtain ⟨lo, hi, hr, -, -, h3⟩ := C84_inv c i hi
    refine ⟨lo, hi, hr, ?_⟩
    rw [h3, e, Nat.add_sub_cancel, Nat.add_sub_cancel, Nat.div_div_eq_div_mul, Nat.mul_comm (5 ^ i),
      ← Nat.div_div_eq_div_mul, show numBits (5 ^ i) + 124 = numBits (5 ^ i) + 121 + 3 from rfl,
      Nat.pow_add 2 (numBits (5 ^ i) + 121) 3, Nat.mul_div_cancel _ (Nat.two_pow_pos 3)]

/-- **C84**: on a 32-bit argument, `double_computePow5` returns exactly when the argument is below 338, and
`double_computeInvPow5` exactly when it is below 313; above, they read outside the tables or shift too far. -/
theorem C84_defined (c : Config) (i : Nat) (h : i < 2 ^ 32) :
    ((∃ w, double_computePow5 c i = .ok w) ↔ i < 338) ∧ ((∃ w, double_computeInvPow5 c i = .ok w) ↔ i < 313) := by
  refine ⟨⟨fun ⟨w, hw⟩ => ?_, fun hi => ?_⟩, ⟨fun ⟨w, hw⟩ => ?_, fun hi => ?_⟩⟩
  · by_contra hn
    rw [Ryu.pow_fault c (by omega)] at hw
    cases hw
  · obtain ⟨w, hw, -⟩ := Ryu.pow_at c hi
    exact ⟨w, hw⟩
  · by_contra hn
    have := Ryu.inv_fault c h (by omega)
    rw [hw] at this
    cases this
  · obtain ⟨w, hw, -⟩ := Ryu.inv_at c hi
    exact ⟨w, hw⟩

/-- **C84**: beyond the ranges of `C84_pow` and `C84_inv` the corrections are missing: the value returned is one too small
at 8 and at 18 indices, and exact at the others. -/
theorem C84_short (c : Config) (i : Nat) :
    (326 ≤ i → i < 338 → ∃ lo hi, double_computePow5 c i = .ok (lo, hi) ∧
      lo + 2 ^ 64 * hi + (if i ∈ [326, 327, 329, 332, 334, 335, 336, 337] then 1 else 0) =
        5 ^ i * 2 ^ 121 / 2 ^ numBits (5 ^ i)) ∧
    (292 ≤ i → i < 313 → ∃ lo hi, double_computeInvPow5 c i = .ok (lo, hi) ∧
      lo + 2 ^ 64 * hi + (if i ∈ [298, 308, 312] then 0 else 1) = 2 ^ (numBits (5 ^ i) + 121) / 5 ^ i + 1) := by
  constructor
  · intro _ h
    obtain ⟨⟨lo, hi⟩, hr, -, -, h3⟩ := Ryu.pow_at c h
    exact ⟨lo, hi, hr, h3⟩
  · intro h0 h
    obtain ⟨⟨lo, hi⟩, hr, -, -, h3⟩ := Ryu.inv_at c h
    refine ⟨lo, hi, hr, ?_⟩
    have : (if i ∈ [298, 308, 312] then 0 else 1) = Ryu.isShort Ryu.shortInv i := by
      have : ∀ j < 313, 292 ≤ j → (if j ∈ [298, 308, 312] then 0 else 1) = Ryu.isShort Ryu.shortInv j := by
        decide +kernel
      exact this i h h0
    rw [this]
    exact h3

theorem numBits_bounds {n : Nat} (h : 0 < n) : 2 ^ (numBits n - 1) ≤ n ∧ n < 2 ^ numBits n :=
  ⟨(Nat.le_log2 (by omega)).mp le_rfl, Nat.lt_log2_self⟩

set_option maxRecDepth 10000 in
theorem inv_not_power :
    ((List.range 292).all fun i => decide (2 ^ (numBits (5 ^ i) + 121) / 5 ^ i + 1 ≠ 2 ^ 122)) = true := by decide +kernel

/-- **C84**: the two constants for the lengths are right: the powers have exactly `DOUBLE_POW5_BITCOUNT` bits and, but for
`i = 0`, the inverses have `DOUBLE_POW5_INV_BITCOUNT` bits. -/
theorem C84_bitcounts (c : Config) (i : Nat) :
    (i < 326 → ∃ lo hi, double_computePow5 c i = .ok (lo, hi) ∧ numBits (lo + 2 ^ 64 * hi) = Ryu.small_pow5_bitcount) ∧
    (0 < i → i < 292 → ∃ lo hi, double_computeInvPow5 c i = .ok (lo, hi) ∧
      numBits (lo + 2 ^ 64 * hi) = Ryu.small_pow5_inv_bitcount) ∧
    (∃ lo hi, double_computeInvPow5 c 0 = .ok (lo, hi) ∧ lo + 2 ^ 64 * hi = 2 ^ Ryu.small_pow5_inv_bitcount + 1) := by
  have len : ∀ {v n : Nat}, 2 ^ n ≤ v → v < 2 ^ (n + 1) → numBits v = n + 1 := by
    intro v n h1 h2
    have hv : v ≠ 0 := by have := Nat.two_pow_pos n; omega
    have a : n ≤ v.log2 := (Nat.le_log2 hv).mpr h1
    have b : v.log2 < n + 1 := (Nat.log2_lt hv).mpr h2
    unfold numBits; omega
  refine ⟨fun h => ?_, fun h0 h => ?_, ?_⟩
  · obtain ⟨lo, hi, hr, -, -, h3⟩ := C84_pow c i h
    refine ⟨lo, hi, hr, ?_⟩
    obtain ⟨b1, b2⟩ := numBits_bounds (show 0 < 5 ^ i by positivity)
    have hn : numBits (5 ^ i) = numBits (5 ^ i) - 1 + 1 := by unfold numBits; omega
    rw [h3]
    generalize numBits (5 ^ i) - 1 = m at *
    rw [hn] at b2 ⊢
    refine len (n := 120) ?_ ?_
    · rw [Nat.le_div_iff_mul_le (by positivity)]
      calc 2 ^ 120 * 2 ^ (m + 1) = 2 ^ m * 2 ^ 121 := by rw [pow_succ]; ring
        _ ≤ _ := Nat.mul_le_mul_right _ b1
    · rw [Nat.div_lt_iff_lt_mul (by positivity), Nat.mul_comm]
      exact Nat.mul_lt_mul_of_pos_left b2 (by positivity)
  · obtain ⟨lo, hi, hr, -, -, h3⟩ := C84_inv c i h
    refine ⟨lo, hi, hr, ?_⟩
    obtain ⟨b1, b2⟩ := numBits_bounds (show 0 < 5 ^ i by positivity)
    have hn : numBits (5 ^ i) = numBits (5 ^ i) - 1 + 1 := by unfold numBits; omega
    have hodd : 2 ^ (numBits (5 ^ i) - 1) ≠ 5 ^ i := by
      intro g
      have ho : 5 ^ i % 2 = 1 := by
        rw [Nat.pow_mod]; norm_num
      rcases Nat.eq_zero_or_pos (numBits (5 ^ i) - 1) with z | z
      · rw [z] at g
        have : 5 ≤ 5 ^ i := by
          calc 5 = 5 ^ 1 := rfl
            _ ≤ _ := Nat.pow_le_pow_right (by norm_num) h0
        omega
      · rw [← g, show numBits (5 ^ i) - 1 = (numBits (5 ^ i) - 1 - 1) + 1 by omega, pow_succ] at ho
        omega
    have h2 := of_decide_eq_true (List.all_eq_true.mp inv_not_power i (List.mem_range.mpr h))
    rw [h3]
    generalize numBits (5 ^ i) - 1 = m at *
    rw [hn] at b2 h2 ⊢
    have e : 2 ^ (m + 1 + 121) = 2 ^ m * 2 ^ 122 := by ring
    refine len (n := 121) ?_ ?_
    · refine le_trans ?_ (Nat.le_succ _)
      rw [Nat.le_div_iff_mul_le (by positivity), show m + 1 + 121 = 121 + (m + 1) by omega, pow_add]
      exact Nat.mul_le_mul_left _ b2.le
    · have h1 : 2 ^ (m + 1 + 121) / 5 ^ i < 2 ^ 122 := by
        rw [Nat.div_lt_iff_lt_mul (by positivity), e, Nat.mul_comm]
        exact Nat.mul_lt_mul_of_pos_left (lt_of_le_of_ne b1 hodd) (by positivity)
      omega
  · obtain ⟨lo, hi, hr, -, -, h3⟩ := C84_inv c 0 (by norm_num)
    exact ⟨lo, hi, hr, h3⟩

/-- **C84**: the ranges are the ones needed: for every binary exponent `e2` of a finite double, the index the printer
computes from it lies in the range in which the function is exact. -/
theorem C84_needed (c : Config) (e2 : Int) (h0 : -1076 ≤ e2) (h1 : e2 ≤ 969) :
    (0 ≤ e2 → ∃ q, Ryu.log10Pow2 c e2 = .ok q ∧ q - (if e2 > 3 then 1 else 0) < 292) ∧
    (e2 < 0 → ∃ q, Ryu.log10Pow5 c (-e2) = .ok q ∧ -e2 - (q - (if -e2 > 1 then 1 else 0) : Nat) < 326) := by
  constructor
  · intro h
    refine ⟨(e2.toNat * 78913) / 2 ^ 18, ?_, ?_⟩
    · unfold Ryu.log10Pow2
      rw [Ryu.rassert_true (by simpa using h), Ryu.rassert_true (by simp; omega), Ryu.u32_eq h (by norm_num; omega)]
      show Exec.ok _ = _
      rw [wrap, Nat.mod_eq_of_lt (by omega)]
    · norm_num
      split <;> omega
  · intro h
    refine ⟨((-e2).toNat * 732923) / 2 ^ 20, ?_, ?_⟩
    · unfold Ryu.log10Pow5
      rw [Ryu.rassert_true (by simp; omega), Ryu.rassert_true (by simp; omega), Ryu.u32_eq (by omega) (by norm_num; omega)]
      show Exec.ok _ = _
      rw [wrap, Nat.mod_eq_of_lt (by omega)]
    · norm_num
      split <;> omega

/-- The exponent `e2` of the smallest and of the largest finite double. -/
example : Ryu.log10Pow5 ⟨.portable, false, false, false⟩ 1076 = .ok 752 ∧ 1076 - (752 - 1) = 325 ∧
    Ryu.log10Pow2 ⟨.portable, false, false, false⟩ 969 = .ok 291 := by decide +kernel

/-- Two values, one with a correction. -/
example : double_computePow5 ⟨.portable, false, false, false⟩ 79 = .ok (3212057774079814824, 97234613716580339) ∧
    double_computeInvPow5 ⟨.uint128, false, false, true⟩ 1 = .ok (3689348814741910324, 230584300921369395) ∧
    (Ryu.POW5_OFFSETS[79 / 26]?.map fun w => w / 2 ^ (79 % 26) % 2) = some 1 := by decide +kernel

end Grisu

import Verif.Proofs.CacheTable
import Mathlib.Tactic.NormNum.Prime
import Mathlib.Tactic.NormNum.GCD

/-!
# Integer helpers and the cache

Properties C18-C24.  The functions are the ones of `jkj::grisu_exact_detail` used by the conversion.
-/

namespace Grisu

open Spec (IsFloorLog)

/-! ## C18 -/

/-- **C18**: the wide multiplications are exact on both code paths. -/
theorem C18_wide_multiplication (cfg : Cfg) :
    (∀ x y, x < 2 ^ 64 → y < 2 ^ 64 →
      (umul128 cfg x y).high * 2 ^ 64 + (umul128 cfg x y).low = x * y ∧ (umul128 cfg x y).low < 2 ^ 64 ∧
      umul128_upper64 cfg x y = x * y / 2 ^ 64) ∧
    (∀ x (y : U128), x < 2 ^ 64 → y.high < 2 ^ 64 → y.low < 2 ^ 64 →
      umul192_upper64 cfg x y = x * (y.high * 2 ^ 64 + y.low) / 2 ^ 128) ∧
    (∀ x y, x < 2 ^ 32 → y < 2 ^ 64 → umul96_upper32 cfg x y = x * y / 2 ^ 64) := by
  refine ⟨fun x y hx hy => ?_, fun x y hx hh hl => umul192_upper64_spec cfg hx hh hl,
    fun x y hx hy => umul96_upper32_spec cfg hx hy⟩
  obtain ⟨h1, h2⟩ := umul128_spec cfg hx hy
  refine ⟨?_, ?_, umul128_upper64_spec cfg hx hy⟩
  · rw [h1, h2]; omega
  · rw [h2]; omega

-- operands for which every partial product carries
example : (2 ^ 64 - 1 < 2 ^ 64) ∧ (umul128 ⟨false, false⟩ (2 ^ 64 - 1) (2 ^ 64 - 1)) = ⟨2 ^ 64 - 2, 1⟩ := by decide
example : umul192_upper64 ⟨false, false⟩ (2 ^ 64 - 1) ⟨2 ^ 64 - 1, 2 ^ 64 - 1⟩ = 2 ^ 64 - 2 := by decide
example : umul96_upper32 ⟨false, false⟩ (2 ^ 32 - 1) (2 ^ 64 - 1) = 2 ^ 32 - 2 := by decide

/-! ## C19 -/

/-- **C19**: the divisibility tests, for `w = 32` and `w = 64`. -/
theorem C19_divisibility (cfg : Cfg) (w : Nat) (hw : w = 32 ∨ w = 64) :
    (∀ x (n : Nat), x < 2 ^ w → n < (if w = 32 then 12 else 24) →
      divisible_by_power_of_5 cfg w x n = .ok (decide (5 ^ n ∣ x))) ∧
    (∀ x (n : Nat), x < 2 ^ w → x ≠ 0 → 1 ≤ n →
      divisible_by_power_of_2 cfg w x n = .ok (decide (2 ^ n ∣ x))) := by
  constructor
  · intro x n hx hn
    have := divisible_by_power_of_5_spec cfg hw hx (exp := n) (by omega) (by
      unfold divisibility_table_size; split at hn <;> simp_all)
    simpa using this
  · intro x n hx hx0 hn
    have := divisible_by_power_of_2_spec cfg hx0 hx (exp := n) (by omega)
    simpa using this

/-- **C19**, the documented preconditions: with asserts enabled they are checked. -/
theorem C19_asserts (w : Nat) (x : Nat) (n : Int) (x64 : Bool) :
    (n < 1 ∨ x = 0 → divisible_by_power_of_2 ⟨x64, false⟩ w x n = .fault .assertion) ∧
    (n < 0 ∨ divisibility_table_size w ≤ n → divisible_by_power_of_5 ⟨x64, false⟩ w x n = .fault .assertion) := by
  constructor
  · intro h
    unfold divisible_by_power_of_2 cassert
    rcases h with h | h
    · simp [show ¬ (n ≥ 1) by omega]
    · by_cases h1 : n ≥ 1 <;> simp [h, h1]
  · intro h
    unfold divisible_by_power_of_5 cassert
    have : ¬ (0 ≤ n ∧ n < divisibility_table_size w) := by omega
    simp [this]

example : divisible_by_power_of_5 ⟨true, false⟩ 64 (3 * 5 ^ 23) 23 = .ok true := by decide +kernel
example : divisible_by_power_of_5 ⟨true, false⟩ 64 (3 * 5 ^ 22) 23 = .ok false := by decide +kernel
example : divisible_by_power_of_2 ⟨false, false⟩ 32 (3 * 2 ^ 20) 20 = .ok true := by decide +kernel
example : divisible_by_power_of_2 ⟨true, false⟩ 32 (3 * 2 ^ 20) 21 = .ok false := by decide +kernel

/-! ## C20-C22 -/

theorem ten_pow_ne_two_pow {k n : Nat} (hn : n ≠ 0) : (10 : Nat) ^ k ≠ 2 ^ n := by
  intro h
  rcases Nat.eq_zero_or_pos k with rfl | hk
  · have : 1 < 2 ^ n := Nat.one_lt_pow hn (by norm_num)
    omega
  · have h5 : 5 ∣ 10 ^ k := dvd_pow (by norm_num) (by omega)
    rw [h] at h5
    have := Nat.Prime.dvd_of_dvd_pow (by norm_num) h5
    omega

theorem two_pow_ne_ten_pow {k n : Nat} (hn : n ≠ 0) : (2 : Nat) ^ k ≠ 10 ^ n := by
  intro h
  have h5 : 5 ∣ 10 ^ n := dvd_pow (by norm_num) (by omega)
  rw [← h] at h5
  have := Nat.Prime.dvd_of_dvd_pow (by norm_num) h5
  omega

theorem five_pow_ne_two_pow {k n : Nat} (hn : n ≠ 0) : (5 : Nat) ^ k ≠ 2 ^ n := by
  intro h
  have h5 : 2 ∣ 2 ^ n := dvd_pow (by norm_num) (by omega)
  rw [← h] at h5
  have := Nat.Prime.dvd_of_dvd_pow (by norm_num) h5
  omega

theorem abs_cases (e : Int) {Q : Int → Prop} (h : ∀ n : Nat, n = e.natAbs → Q n ∧ Q (-(n : Int))) : Q e := by
  obtain ⟨h1, h2⟩ := h e.natAbs rfl
  rcases le_total 0 e with h0 | h0
  · rwa [Int.natAbs_of_nonneg h0] at h1
  · rwa [show -((e.natAbs : Nat) : Int) = e by omega] at h2

/-- **C20**: `floor_log10_pow2`. -/
theorem C20_floor_log10_pow2 (cfg : Cfg) (e : Int) (h1 : -1650 ≤ e) (h2 : e ≤ 1650) :
    ∃ k, floor_log10_pow2 cfg e = .ok k ∧ IsFloorLog 10 2 e k := by
  refine ⟨log10_pow2_value e, ?_, ?_⟩
  · unfold floor_log10_pow2 i32
    rw [cassert_true (by simp; omega)]
    simp only [Exec.ok_bind]
    rw [if_pos (by constructor <;> omega)]
    rfl
  · refine abs_cases e (Q := fun e => IsFloorLog 10 2 e (log10_pow2_value e)) fun n hn => ?_
    have := floor_log_linear (u := 10) (v := 2) (P := 0x4d104) (B := 2 ^ 20) (a := 351) (b := 1166) (c := 146)
      (d := 485) (by norm_num) (by norm_num) (by norm_num) (by norm_num) (by decide +kernel) (by decide +kernel)
      (by norm_num) (by norm_num) (by norm_num) (n := n) (by omega) (by omega) (fun h => ten_pow_ne_two_pow h)
    exact_mod_cast this

/-- **C20**: outside the documented range the assertion fails. -/
theorem C20_assert (x64 : Bool) (e : Int) (h : e < -1650 ∨ 1650 < e) :
    floor_log10_pow2 ⟨x64, false⟩ e = .fault .assertion := by
  unfold floor_log10_pow2 cassert
  simp [show ¬ (e ≥ -1650 ∧ e ≤ 1650) by omega]

example : floor_log10_pow2 ⟨true, false⟩ (-1650) = .ok (-497) := by decide
example : floor_log10_pow2 ⟨true, false⟩ 1650 = .ok 496 := by decide

/-- **C21**, the part that holds: `floor_log2_pow10` on `[-616, 616]`.  Missing: the rest of the
documented range `[-642, 642]`, where the product overflows (next theorem). -/
theorem C21_floor_log2_pow10_partial (cfg : Cfg) (e : Int) (h1 : -616 ≤ e) (h2 : e ≤ 616) :
    ∃ k, floor_log2_pow10 cfg e = .ok k ∧ IsFloorLog 2 10 e k := by
  refine ⟨log2_pow10_value e, ?_, ?_⟩
  · unfold floor_log2_pow10 i32
    rw [cassert_true (by simp; omega)]
    simp only [Exec.ok_bind]
    rw [if_pos (by constructor <;> omega)]
    rfl
  · refine abs_cases e (Q := fun e => IsFloorLog 2 10 e (log2_pow10_value e)) fun n hn => ?_
    have := floor_log_linear (u := 2) (v := 10) (P := 0x35269e) (B := 2 ^ 20) (a := 485) (b := 146) (c := 1651)
      (d := 497) (by norm_num) (by norm_num) (by norm_num) (by norm_num) (by decide +kernel) (by decide +kernel)
      (by norm_num) (by norm_num) (by norm_num) (n := n) (by omega) (by omega) (fun h => two_pow_ne_ten_pow h)
    exact_mod_cast this

/-- **C21** is false: in the rest of the documented range the 32-bit product overflows. -/
theorem C21_overflow (cfg : Cfg) (e : Int) (h : (-642 ≤ e ∧ e ≤ -617) ∨ (617 ≤ e ∧ e ≤ 642)) :
    floor_log2_pow10 cfg e = .fault .signedOverflow := by
  unfold floor_log2_pow10 i32
  rw [cassert_true (by simp; omega)]
  simp only [Exec.ok_bind]
  rw [if_neg (by omega)]
  rfl

/-- **C21**: outside the documented range the assertion fails. -/
theorem C21_assert (x64 : Bool) (e : Int) (h : e < -642 ∨ 642 < e) :
    floor_log2_pow10 ⟨x64, false⟩ e = .fault .assertion := by
  unfold floor_log2_pow10 cassert
  simp [show ¬ (e ≥ -642 ∧ e ≤ 642) by omega]

example : floor_log2_pow10 ⟨true, false⟩ (-325) = .ok (-1080) := by decide
example : floor_log2_pow10 ⟨true, false⟩ 616 = .ok 2046 := by decide
example : floor_log2_pow10 ⟨true, true⟩ 617 = .fault .signedOverflow := by decide

theorem not_dvd_log5 {n : Nat} (h : n ≠ 0) (hn : n ≤ 65536) : ¬ 2 ^ 32 ∣ n * 0x6e40d1a4 := by
  intro hd
  have e : n * 0x6e40d1a4 = 4 * (n * 462435433) := by ring
  rw [e, show 2 ^ 32 = 4 * 2 ^ 30 by norm_num] at hd
  have h1 := Nat.dvd_of_mul_dvd_mul_left (by norm_num) hd
  have h2 := Nat.Coprime.dvd_of_dvd_mul_right (by norm_num : Nat.Coprime (2 ^ 30) 462435433) h1
  exact absurd ((Nat.le_of_dvd (Nat.pos_of_ne_zero h) h2).trans hn) (by norm_num)

/-- **C22**: `floor_log5_pow2`. -/
theorem C22_floor_log5_pow2 (cfg : Cfg) (e : Int) (h1 : -65536 ≤ e) (h2 : e ≤ 65536) :
    ∃ k, floor_log5_pow2 cfg e = .ok k ∧ IsFloorLog 5 2 e k := by
  refine ⟨log5_pow2_value e, ?_, ?_⟩
  · unfold floor_log5_pow2 i64
    rw [cassert_true (by simp; omega)]
    simp only [Exec.ok_bind]
    rw [if_pos (by constructor <;> omega)]
    rfl
  · refine abs_cases e (Q := fun e => IsFloorLog 5 2 e (log5_pow2_value e)) fun n hn => ?_
    have hn' : n ≤ 65536 := by omega
    have := floor_log_linear (u := 5) (v := 2) (P := 0x6e40d1a4) (B := 2 ^ 32) (a := 21306) (b := 49471) (c := 12655)
      (d := 29384) (by norm_num) (by norm_num) (by norm_num) (by norm_num) (by decide +kernel) (by decide +kernel)
      (by norm_num) (by norm_num) (by norm_num) (n := n) (by omega)
      (fun h hd => not_dvd_log5 h hn' hd) (fun h => five_pow_ne_two_pow h)
    exact_mod_cast this

/-- **C22**: outside the documented range the assertion fails. -/
theorem C22_assert (x64 : Bool) (e : Int) (h : e < -65536 ∨ 65536 < e) :
    floor_log5_pow2 ⟨x64, false⟩ e = .fault .assertion := by
  unfold floor_log5_pow2 cassert
  simp [show ¬ (e ≥ -65536 ∧ e ≤ 65536) by omega]

example : floor_log5_pow2 ⟨true, false⟩ 65536 = .ok 28224 := by decide
example : floor_log5_pow2 ⟨true, false⟩ (-7) = .ok (-4) := by decide

/-! ## C23, C24 -/

/-- **C23**: the cache holds `10^k`, scaled by a power of two so that it has exactly `2q` bits, rounded
down when `k` is not negative and rounded down plus one when it is. -/
theorem C23_cache (cfg : Cfg) (F : Fmt) (k : Int) (h1 : F.min_k ≤ k) (h2 : k ≤ F.max_k) :
    ∃ (c : Nat) (j : Int), get_cache cfg F k = .ok c ∧
      2 ^ (2 * F.q - 1) ≤ c ∧ c < 2 ^ (2 * F.q) ∧
      (2 : ℚ) ^ (2 * F.q - 1) ≤ 10 ^ k * 2 ^ j ∧ (10 : ℚ) ^ k * 2 ^ j < 2 ^ (2 * F.q) ∧
      (0 ≤ k → c = ⌊(10 : ℚ) ^ k * 2 ^ j⌋₊) ∧ (k < 0 → c = ⌊(10 : ℚ) ^ k * 2 ^ j⌋₊ + 1) := by
  obtain ⟨i, rfl⟩ : ∃ i : Nat, k = F.min_k + i := ⟨(k - F.min_k).toNat, by omega⟩
  have hi : i < cacheSize F := by
    have := cacheSize_eq F
    omega
  have hc := cacheCheck_all F i (List.mem_range.mpr hi)
  simp only [cacheCheck, Bool.and_eq_true, decide_eq_true_eq] at hc
  obtain ⟨⟨hl, hlo⟩, hhi⟩ := hc
  have hfl := floorPow_eq F (F.min_k + i)
  set j := normExp F (F.min_k + i) with hj
  have hpos : (0 : ℚ) ≤ 10 ^ (F.min_k + (i : Int)) * 2 ^ j :=
    (mul_pos (zpow_pos (by norm_num) _) (zpow_pos (by norm_num) _)).le
  have hle := Nat.floor_le hpos
  have hlt := Nat.lt_floor_add_one ((10 : ℚ) ^ (F.min_k + (i : Int)) * 2 ^ j)
  rw [← hfl] at hle hlt
  refine ⟨_, j, get_cache_ok cfg F h1 h2 (by rw [show F.min_k + (i : Int) - F.min_k = i by omega]; exact hl),
    ?_, ?_, ?_, ?_, ?_, ?_⟩
  · split <;> omega
  · split <;> omega
  · refine le_trans ?_ hle
    exact_mod_cast hlo
  · refine lt_of_lt_of_le hlt ?_
    have : floorPow F (F.min_k + i) + 1 ≤ 2 ^ (2 * F.q) := by omega
    exact_mod_cast this
  · intro h
    rw [if_pos h, hfl]
  · intro h
    rw [if_neg (by omega), hfl]

/-- **C23**: there is no other entry. -/
theorem C23_outside (cfg : Cfg) (F : Fmt) (k : Int) (h : k < F.min_k ∨ F.max_k < k) :
    get_cache cfg F k = .fault (if cfg.ndebug then .outOfBounds else .assertion) := by
  unfold get_cache cassert
  obtain ⟨x64, nd⟩ := cfg
  cases nd
  · simp [show ¬ (k ≥ F.min_k ∧ k ≤ F.max_k) by omega]
  · by_cases h' : k < F.min_k
    · simp [h']
    · simp only [Bool.true_or, if_true, Exec.ok_bind, if_neg h']
      rw [cache_none F _ (by have := cacheSize_eq F; omega)]

example : get_cache ⟨true, false⟩ .b32 2 = .ok (100 * 2 ^ 57) := by decide +kernel
example : get_cache ⟨true, false⟩ .b64 (-1) = .ok (2 ^ 131 / 10 + 1) := by decide +kernel

/-- **C24**: for every binary exponent `e` and every 64- or 32-bit `f` that is a multiple of
`2^(q-p-3)`, the product with the rounded cache entry has the integer part of the exact product. -/
theorem C24_product_is_exact (cfg : Cfg) (F : Fmt) (e : Int) (h1 : F.min_exponent ≤ e)
    (h2 : e ≤ F.max_exponent) :
    ∃ (mk l : Int) (c : Nat), floor_log10_pow2 cfg (e + 6) = .ok mk ∧ floor_log2_pow10 cfg (-mk) = .ok l ∧
      get_cache cfg F (-mk) = .ok c ∧
      ∀ f : Nat, f < 2 ^ F.q → 2 ^ (F.q - F.p - 3) ∣ f →
        compute_mul cfg F f c (-(e + l + 1)) = .ok ⌊(f : ℚ) * 2 ^ e * 10 ^ (-mk)⌋₊ := by
  have h := expOK F e h1 h2
  obtain ⟨r1, r2, r3, r4, r5, r6, r7, r8, r9, r10, r11, -⟩ := h.range
  refine ⟨mkOf e, log2_pow10_value (-mkOf e), cacheOf F e, ?_, ?_, get_cache_ok cfg F r9 r10 r11, ?_⟩
  · unfold floor_log10_pow2 i32
    rw [cassert_true (by have := exponent_range F; simp; omega)]
    simp only [Exec.ok_bind]
    rw [if_pos ⟨r3, by omega⟩]
    rfl
  · unfold floor_log2_pow10 i32
    rw [cassert_true (by simp; omega)]
    simp only [Exec.ok_bind]
    rw [if_pos ⟨r5, by omega⟩]
    rfl
  · rintro f hf ⟨g, rfl⟩
    have hg : g < 2 ^ (F.p + 3) := by
      have hu : 2 ^ F.q = 2 ^ (F.q - F.p - 3) * 2 ^ (F.p + 3) := by cases F <;> decide
      rw [hu] at hf
      exact Nat.lt_of_mul_lt_mul_left hf
    have := h.compute_mul cfg hg
    rw [mul_comm, show -(e + log2_pow10_value (-mkOf e) + 1) = mbOf e from rfl]
    rw [show g * 2 ^ (F.q - F.p - 3) = g * unit F from rfl, this]
    congr 1
    rw [mul_assoc (_ : ℚ), ← phi_eq, ← Nat.floor_div_eq_div (K := ℚ)]
    congr 1
    push_cast
    ring

example : ∃ f, f < 2 ^ Fmt.b64.q ∧ 2 ^ (Fmt.b64.q - Fmt.b64.p - 3) ∣ f ∧ 2 ^ 63 < f :=
  ⟨2 ^ 64 - 2 ^ 9, by decide +kernel⟩

end Grisu

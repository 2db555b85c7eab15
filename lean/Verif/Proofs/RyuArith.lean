import Verif.Model.Ryu
import Verif.Proofs.Arith
import Mathlib.Data.Nat.Bitwise

/-! # The arithmetic helpers of Ryu -/

namespace Grisu.Ryu

theorem rassert_true {c : Config} {b : Bool} (h : b = true) : rassert c b = .ok () := by
  unfold rassert; simp [h]

theorem umul128_eq (c : Config) {a b : Nat} (ha : a < 2 ^ 64) (hb : b < 2 ^ 64) :
    umul128 c a b = (a * b % 2 ^ 64, a * b / 2 ^ 64) := by
  unfold umul128
  have key : (let aLo := wrap 32 a
    let aHi := wrap 32 (a / 2 ^ 32)
    let bLo := wrap 32 b
    let bHi := wrap 32 (b / 2 ^ 32)
    let b00 := wrap 64 (aLo * bLo)
    let b01 := wrap 64 (aLo * bHi)
    let b10 := wrap 64 (aHi * bLo)
    let b11 := wrap 64 (aHi * bHi)
    let b00Lo := wrap 32 b00
    let b00Hi := wrap 32 (b00 / 2 ^ 32)
    let mid1 := wrap 64 (b10 + b00Hi)
    let mid1Lo := wrap 32 mid1
    let mid1Hi := wrap 32 (mid1 / 2 ^ 32)
    let mid2 := wrap 64 (b01 + mid1Lo)
    let mid2Lo := wrap 32 mid2
    let mid2Hi := wrap 32 (mid2 / 2 ^ 32)
    let pHi := wrap 64 (wrap 64 (b11 + mid1Hi) + mid2Hi)
    let pLo := wrap 64 (mid2Lo * 2 ^ 32) ||| b00Lo
    (pLo, pHi)) = (a * b % 2 ^ 64, a * b / 2 ^ 64) := by
    have h : a * b = (a / 2 ^ 32) * (b / 2 ^ 32) * 2 ^ 64 + (a / 2 ^ 32) * (b % 2 ^ 32) * 2 ^ 32 +
        (a % 2 ^ 32) * (b / 2 ^ 32) * 2 ^ 32 + (a % 2 ^ 32) * (b % 2 ^ 32) := by
      conv_lhs => rw [← Nat.div_add_mod a (2 ^ 32), ← Nat.div_add_mod b (2 ^ 32)]
      ring
    have e1 : wrap 32 (a / 2 ^ 32) = a / 2 ^ 32 := wrap_of_lt (by omega)
    have e2 : wrap 32 (b / 2 ^ 32) = b / 2 ^ 32 := wrap_of_lt (by omega)
    have e3 : wrap 32 a = a % 2 ^ 32 := rfl
    have e4 : wrap 32 b = b % 2 ^ 32 := rfl
    simp only [e1, e2, e3, e4]
    rw [h]
    have h1 : a / 2 ^ 32 < 2 ^ 32 := by omega
    have h2 : a % 2 ^ 32 < 2 ^ 32 := by omega
    have h3 : b / 2 ^ 32 < 2 ^ 32 := by omega
    have h4 : b % 2 ^ 32 < 2 ^ 32 := by omega
    clear h e1 e2 e3 e4
    generalize a / 2 ^ 32 = u at *
    generalize a % 2 ^ 32 = v at *
    generalize b / 2 ^ 32 = w at *
    generalize b % 2 ^ 32 = x at *
    have b1 := mul_lt_of_lt32 h1 h3
    have b2 := mul_lt_of_lt32 h1 h4
    have b3 := mul_lt_of_lt32 h2 h3
    have b4 := mul_lt_of_lt32 h2 h4
    generalize u * w = p at *
    generalize u * x = q at *
    generalize v * w = r at *
    generalize v * x = s at *
    have hor : ∀ y z : Nat, z < 2 ^ 32 → wrap 64 (wrap 32 y * 2 ^ 32) ||| z = wrap 32 y * 2 ^ 32 + z := by
      intro y z hz
      rw [wrap_of_lt (show wrap 32 y * 2 ^ 32 < 2 ^ 64 by unfold wrap; omega), mul_comm (wrap 32 y),
        Nat.two_pow_add_eq_or_of_lt hz]
    rw [hor _ _ (by unfold wrap; omega)]
    have m1 : wrap 64 (wrap 64 q + wrap 32 (wrap 64 s / 2 ^ 32)) = q + s / 2 ^ 32 := by unfold wrap; omega
    rw [m1]
    have m2 : wrap 64 (wrap 64 r + wrap 32 (q + s / 2 ^ 32)) = r + (q + s / 2 ^ 32) % 2 ^ 32 := by unfold wrap; omega
    rw [m2]
    have k1 : q + s / 2 ^ 32 < 2 ^ 64 := by omega
    have k2 : r + (q + s / 2 ^ 32) % 2 ^ 32 < 2 ^ 64 := by omega
    have k3 : p + (q + s / 2 ^ 32) / 2 ^ 32 + (r + (q + s / 2 ^ 32) % 2 ^ 32) / 2 ^ 32 < 2 ^ 64 := by omega
    rw [wrap_of_lt (show p < 2 ^ 64 by omega), wrap_of_lt (show (q + s / 2 ^ 32) / 2 ^ 32 < 2 ^ 32 by omega),
      wrap_of_lt (show (r + (q + s / 2 ^ 32) % 2 ^ 32) / 2 ^ 32 < 2 ^ 32 by omega),
      wrap_of_lt (show p + (q + s / 2 ^ 32) / 2 ^ 32 < 2 ^ 64 by omega), wrap_of_lt k3, Prod.mk.injEq]
    unfold wrap
    constructor <;> omega
  cases c.mul with
  | intrinsics => rfl
  | uint128 => exact key
  | portable => exact key

theorem div5_eq (c : Config) {x : Nat} (hx : x < 2 ^ 64) : div5 c x = x / 5 := by
  unfold div5 umulh
  split
  · rw [umul128_eq c hx (by norm_num)]
    simp only
    omega
  · rfl

theorem div10_eq (c : Config) {x : Nat} (hx : x < 2 ^ 64) : div10 c x = x / 10 := by
  unfold div10 umulh
  split
  · rw [umul128_eq c hx (by norm_num)]
    simp only
    omega
  · rfl

theorem div100_eq (c : Config) {x : Nat} (hx : x < 2 ^ 64) : div100 c x = x / 100 := by
  unfold div100 umulh
  split
  · rw [umul128_eq c (by omega) (by norm_num)]
    simp only
    omega
  · rfl

theorem div1e8_eq (c : Config) {x : Nat} (hx : x < 2 ^ 64) : div1e8 c x = x / 100000000 := by
  unfold div1e8 umulh
  split
  · rw [umul128_eq c hx (by norm_num)]
    simp only
    omega
  · rfl

theorem rem32_eq {x n : Nat} (h0 : 0 < n) (hn : n < 2 ^ 32) : rem32 x n (x / n) = x % n := by
  unfold rem32 subw wrap
  have h1 : n * (x / n % 2 ^ 32) % 2 ^ 32 = n * (x / n) % 2 ^ 32 := by
    rw [Nat.mul_mod, Nat.mod_mod, ← Nat.mul_mod]
  rw [h1]
  have h2 := Nat.div_add_mod x n
  have h3 := Nat.mod_lt x h0
  generalize n * (x / n) = y at *
  generalize x % n = r at *
  omega

theorem pow5Factor_loop_spec (c : Config) : ∀ (fuel value count : Nat), 0 < value → value < 5 ^ fuel →
    value < 2 ^ 64 → ∃ k, pow5Factor_loop c fuel value count = .ok (count + k) ∧ 5 ^ k ∣ value ∧ ¬ 5 ^ (k + 1) ∣ value
  | 0, value, count, h0, h1, _ => by simp at h1; omega
  | fuel + 1, value, count, h0, h1, h2 => by
    unfold pow5Factor_loop
    rw [rassert_true (by simp; omega), Exec.ok_bind, div5_eq c h2]
    dsimp only
    rw [rem32_eq (by norm_num) (by norm_num)]
    by_cases h : value % 5 = 0
    · rw [if_neg (by simpa using h)]
      have h3 : value = 5 * (value / 5) := by omega
      obtain ⟨k, hk1, hk2, hk3⟩ := pow5Factor_loop_spec c fuel (value / 5) (count + 1) (by omega)
        (by rw [pow_succ] at h1; omega) (by omega)
      refine ⟨k + 1, by rw [hk1]; congr 1; omega, ?_, ?_⟩
      · rw [h3, pow_succ, mul_comm]
        exact Nat.mul_dvd_mul_left 5 hk2
      · rw [h3, pow_succ, mul_comm]
        intro hd
        exact hk3 (Nat.dvd_of_mul_dvd_mul_left (by norm_num) hd)
    · rw [if_pos h]
      refine ⟨0, rfl, by simp, ?_⟩
      rw [zero_add, pow_one]
      omega

theorem multipleOfPowerOf5_eq (c : Config) {value p : Nat} (h0 : 0 < value) (h : value < 2 ^ 64) :
    multipleOfPowerOf5 c value p = .ok (decide (5 ^ p ∣ value)) := by
  obtain ⟨k, h1, h2, h3⟩ := pow5Factor_loop_spec c 28 value 0 h0 (lt_trans h (by norm_num)) h
  unfold multipleOfPowerOf5
  rw [h1, Exec.ok_bind, zero_add]
  congr 1
  rw [decide_eq_decide]
  constructor
  · intro hp
    exact dvd_trans (pow_dvd_pow 5 hp) h2
  · intro hd
    by_contra hc
    exact h3 (dvd_trans (pow_dvd_pow 5 (by omega)) hd)

theorem pow5factor_32_loop_spec (c : Config) : ∀ (fuel value count : Nat), 0 < value → value < 5 ^ fuel →
    ∃ k, pow5factor_32_loop c fuel value count = .ok (count + k) ∧ 5 ^ k ∣ value ∧ ¬ 5 ^ (k + 1) ∣ value
  | 0, value, count, h0, h1 => by simp at h1; omega
  | fuel + 1, value, count, h0, h1 => by
    unfold pow5factor_32_loop
    rw [rassert_true (by simp; omega), Exec.ok_bind]
    dsimp only
    by_cases h : value % 5 = 0
    · rw [if_neg (by simpa using h)]
      have h3 : value = 5 * (value / 5) := by omega
      obtain ⟨k, hk1, hk2, hk3⟩ := pow5factor_32_loop_spec c fuel (value / 5) (count + 1) (by omega)
        (by rw [pow_succ] at h1; omega)
      refine ⟨k + 1, by rw [hk1]; congr 1; omega, ?_, ?_⟩
      · rw [h3, pow_succ, mul_comm]
        exact Nat.mul_dvd_mul_left 5 hk2
      · rw [h3, pow_succ, mul_comm]
        intro hd
        exact hk3 (Nat.dvd_of_mul_dvd_mul_left (by norm_num) hd)
    · rw [if_pos h]
      refine ⟨0, rfl, by simp, ?_⟩
      rw [zero_add, pow_one]
      omega

theorem multipleOfPowerOf5_32_eq (c : Config) {value p : Nat} (h0 : 0 < value) (h : value < 2 ^ 32) :
    multipleOfPowerOf5_32 c value p = .ok (decide (5 ^ p ∣ value)) := by
  obtain ⟨k, h1, h2, h3⟩ := pow5factor_32_loop_spec c 14 value 0 h0 (lt_trans h (by norm_num))
  unfold multipleOfPowerOf5_32
  rw [h1, Exec.ok_bind, zero_add]
  congr 1
  rw [decide_eq_decide]
  constructor
  · intro hp
    exact dvd_trans (pow_dvd_pow 5 hp) h2
  · intro hd
    by_contra hc
    exact h3 (dvd_trans (pow_dvd_pow 5 (by omega)) hd)

theorem multipleOfPowerOf2_eq (c : Config) {value p : Nat} (h0 : 0 < value) (hp : p < 64) :
    multipleOfPowerOf2 c value p = .ok (decide (2 ^ p ∣ value)) := by
  unfold multipleOfPowerOf2
  rw [rassert_true (by simp; omega), Exec.ok_bind, rassert_true (by simpa using hp), Exec.ok_bind, if_pos hp]
  congr 1
  rw [decide_eq_decide, Nat.and_two_pow_sub_one_eq_mod]
  exact (Nat.dvd_iff_mod_eq_zero ..).symm

theorem multipleOfPowerOf2_32_eq {value p : Nat} (hp : p < 32) :
    multipleOfPowerOf2_32 value p = .ok (decide (2 ^ p ∣ value)) := by
  unfold multipleOfPowerOf2_32
  rw [if_pos hp]
  congr 1
  rw [decide_eq_decide, Nat.and_two_pow_sub_one_eq_mod]
  exact (Nat.dvd_iff_mod_eq_zero ..).symm

/-- `(hi << (w - d)) | (lo >> d)` in `w` bits. -/
theorem shift_or {w lo hi d : Nat} (hd : d ≤ w) (hlo : lo < 2 ^ w) :
    (wrap w (hi * 2 ^ (w - d)) ||| lo / 2 ^ d) = (hi * 2 ^ w + lo) / 2 ^ d % 2 ^ w := by
  have hw : 2 ^ w = 2 ^ (w - d) * 2 ^ d := by rw [← pow_add]; congr 1; omega
  have hd0 : 0 < 2 ^ d := by positivity
  have h1 : wrap w (hi * 2 ^ (w - d)) = 2 ^ (w - d) * (hi % 2 ^ d) := by
    unfold wrap
    rw [hw, mul_comm hi, Nat.mul_mod_mul_left]
  have h2 : lo / 2 ^ d < 2 ^ (w - d) := by
    rw [Nat.div_lt_iff_lt_mul hd0, ← hw]; exact hlo
  rw [h1, ← Nat.two_pow_add_eq_or_of_lt h2]
  have h3 : (hi * 2 ^ w + lo) / 2 ^ d = hi * 2 ^ (w - d) + lo / 2 ^ d := by
    rw [hw, ← mul_assoc, add_comm, Nat.add_mul_div_right _ _ hd0, add_comm]
  rw [h3]
  have h4 : hi * 2 ^ (w - d) + lo / 2 ^ d = (hi / 2 ^ d) * 2 ^ w + (2 ^ (w - d) * (hi % 2 ^ d) + lo / 2 ^ d) := by
    conv_lhs => rw [← Nat.div_add_mod hi (2 ^ d)]
    rw [hw]
    ring
  rw [h4, Nat.add_comm (hi / 2 ^ d * 2 ^ w), Nat.add_mul_mod_self_right]
  have h5 := Nat.mod_lt hi hd0
  refine (Nat.mod_eq_of_lt ?_).symm
  calc 2 ^ (w - d) * (hi % 2 ^ d) + lo / 2 ^ d < 2 ^ (w - d) * (hi % 2 ^ d) + 2 ^ (w - d) := by omega
    _ = 2 ^ (w - d) * (hi % 2 ^ d + 1) := by ring
    _ ≤ 2 ^ (w - d) * 2 ^ d := Nat.mul_le_mul_left _ h5
    _ = 2 ^ w := hw.symm

theorem shiftright128_eq (c : Config) {lo hi d : Nat} (h0 : 0 < d) (h1 : d < 64) (hlo : lo < 2 ^ 64) :
    shiftright128 c lo hi d = .ok ((hi * 2 ^ 64 + lo) / 2 ^ d % 2 ^ 64) := by
  unfold shiftright128
  cases c.mul with
  | intrinsics =>
    simp only
    rw [rassert_true (by simpa using h1), Exec.ok_bind, show wrap 8 d % 64 = d by unfold wrap; omega]
    rfl
  | uint128 =>
    simp only
    rw [rassert_true (by simpa using h1), Exec.ok_bind, rassert_true (by simpa using h0), Exec.ok_bind,
      if_pos ⟨h0, h1⟩, shift_or h1.le hlo]
  | portable =>
    simp only
    rw [rassert_true (by simpa using h1), Exec.ok_bind, rassert_true (by simpa using h0), Exec.ok_bind,
      if_pos ⟨h0, h1⟩, shift_or h1.le hlo]

theorem u32_eq {n : Int} (h0 : 0 ≤ n) (h1 : n < 2 ^ 32) : u32 n = n.toNat := by
  unfold u32
  rw [Int.emod_eq_of_lt h0 h1]

/-- The 128-bit multiplier of a table entry. -/
def full (t : Nat × Nat) : Nat := t.2 * 2 ^ 64 + t.1

theorem div_div_pow {n : Nat} {j : Int} (hj : 64 ≤ j) : n / 2 ^ 64 / 2 ^ (j - 64).toNat = n / 2 ^ j.toNat := by
  rw [Nat.div_div_eq_div_mul, ← pow_add]
  congr 2
  omega

theorem mulShift64_eq (c : Config) {m : Nat} {mul : Nat × Nat} {j : Int} (hm : m < 2 ^ 56) (h1 : mul.1 < 2 ^ 64)
    (h2 : mul.2 < 2 ^ 62) (hj : 65 ≤ j) (hj' : j < 128) :
    mulShift64 c m mul j = .ok (m * full mul / 2 ^ j.toNat % 2 ^ 64) := by
  have hfull : m * full mul = m * mul.2 * 2 ^ 64 + m * mul.1 := by unfold full; ring
  have b1 : m * mul.1 ≤ 2 ^ 56 * 2 ^ 64 := Nat.mul_le_mul hm.le h1.le
  have b2 : m * mul.2 ≤ 2 ^ 56 * 2 ^ 62 := Nat.mul_le_mul hm.le h2.le
  rw [← div_div_pow (by omega : 64 ≤ j), hfull]
  have key : (let (low1, high1) := umul128 c m mul.2
      let (_, high0) := umul128 c m mul.1
      let sum := wrap 64 (high0 + low1)
      let high1 := if sum < high0 then wrap 64 (high1 + 1) else high1
      shiftright128 c sum high1 (u32 (j - 64))) =
      .ok ((m * mul.2 * 2 ^ 64 + m * mul.1) / 2 ^ 64 / 2 ^ (j - 64).toNat % 2 ^ 64) := by
    rw [umul128_eq c (by omega) (by omega), umul128_eq c (by omega) (by omega)]
    dsimp only
    rw [u32_eq (by omega) (by omega), shiftright128_eq c (by omega) (by omega) (by unfold wrap; omega)]
    congr 3
    unfold wrap
    generalize m * mul.1 = a at *
    generalize m * mul.2 = b at *
    split <;> omega
  unfold mulShift64
  cases c.mul with
  | uint128 =>
    dsimp only
    rw [wrap_of_lt (show m * mul.1 < 2 ^ 128 by omega), wrap_of_lt (show m * mul.2 < 2 ^ 128 by omega),
      wrap_of_lt (show m * mul.1 / 2 ^ 64 + m * mul.2 < 2 ^ 128 by omega), shr_ok (by omega) (by omega), Exec.ok_bind]
    unfold wrap
    congr 3
    omega
  | intrinsics => exact key
  | portable => exact key

theorem full_mul (m : Nat) (mul : Nat × Nat) : m * full mul = m * mul.2 * 2 ^ 64 + m * mul.1 := by unfold full; ring

/-- Subtracting one multiplier from a 192-bit number, in three words. -/
theorem sub3 {lo mid hi m0 m1 x : Nat} (hx : x = hi * 2 ^ 128 + mid * 2 ^ 64 + lo) (hlo : lo < 2 ^ 64)
    (hmid : mid < 2 ^ 64) (hhi : hi < 2 ^ 63) (h0 : m0 < 2 ^ 64) (h1 : m1 < 2 ^ 62)
    (hle : m1 * 2 ^ 64 + m0 ≤ x) :
    ∃ mid' hi', subw 64 (subw 64 mid m1) (if subw 64 lo m0 > lo then 1 else 0) = mid' ∧
      subw 64 hi (if mid' > mid then 1 else 0) = hi' ∧ mid' < 2 ^ 64 ∧
      hi' * 2 ^ 64 + mid' = (x - (m1 * 2 ^ 64 + m0)) / 2 ^ 64 := by
  refine ⟨_, _, rfl, rfl, by unfold subw; omega, ?_⟩
  unfold subw
  split <;> split <;> omega

theorem mulShiftAll64_eq (c : Config) {m : Nat} {mul : Nat × Nat} {j : Int} {mmShift : Nat} (hm0 : 0 < m)
    (hm : m < 2 ^ 53) (h1 : mul.1 < 2 ^ 64) (h2 : mul.2 < 2 ^ 62) (hj : 66 ≤ j) (hj' : j < 128) (hs : mmShift ≤ 1)
    (hedge : mmShift = 0 → 2 * m * full mul / 2 ^ 64 % 2 ^ 64 ≠ 2 ^ 64 - 1) :
    mulShiftAll64 c m mul j mmShift = .ok (4 * m * full mul / 2 ^ j.toNat % 2 ^ 64,
      (4 * m + 2) * full mul / 2 ^ j.toNat % 2 ^ 64, (4 * m - 1 - mmShift) * full mul / 2 ^ j.toNat % 2 ^ 64) := by
  have key : (do
      let vp ← mulShift64 c (wrap 64 (4 * m + 2)) mul j
      let vm ← mulShift64 c (subw 64 (subw 64 (wrap 64 (4 * m)) 1) mmShift) mul j
      let vr ← mulShift64 c (wrap 64 (4 * m)) mul j
      .ok (vr, vp, vm) : Exec (Nat × Nat × Nat)) = .ok (4 * m * full mul / 2 ^ j.toNat % 2 ^ 64,
      (4 * m + 2) * full mul / 2 ^ j.toNat % 2 ^ 64, (4 * m - 1 - mmShift) * full mul / 2 ^ j.toNat % 2 ^ 64) := by
    rw [wrap_of_lt (show 4 * m < 2 ^ 64 by omega), wrap_of_lt (show 4 * m + 2 < 2 ^ 64 by omega),
      subw_of_le (show 1 ≤ 4 * m by omega) (by omega), subw_of_le (show mmShift ≤ 4 * m - 1 by omega) (by omega),
      mulShift64_eq c (by omega) h1 (by omega) (by omega) hj', Exec.ok_bind,
      mulShift64_eq c (by omega) h1 (by omega) (by omega) hj', Exec.ok_bind,
      mulShift64_eq c (by omega) h1 (by omega) (by omega) hj', Exec.ok_bind]
  unfold mulShiftAll64
  rcases hc : c.mul with _ | _ | _
  · exact key
  · exact key
  dsimp only
  rw [wrap_of_lt (show m * 2 < 2 ^ 64 by omega), umul128_eq c (by omega) h1, umul128_eq c (by omega) (by omega)]
  dsimp only
  have b1 : m * 2 * mul.1 ≤ 2 ^ 54 * (2 ^ 64 - 1) := Nat.mul_le_mul (by omega) (by omega)
  have b2 : m * 2 * mul.2 ≤ 2 ^ 54 * 2 ^ 62 := Nat.mul_le_mul (by omega) h2.le
  have hx : m * 2 * full mul = m * 2 * mul.2 * 2 ^ 64 + m * 2 * mul.1 := full_mul _ _
  have hge : full mul * 2 ≤ m * 2 * full mul := by
    rw [mul_comm]
    exact Nat.mul_le_mul_right _ (by omega)
  set x := m * 2 * full mul with hxdef
  have he : mmShift = 0 → x / 2 ^ 64 % 2 ^ 64 ≠ 2 ^ 64 - 1 := by
    intro h
    rw [hxdef, mul_comm m 2]
    exact hedge h
  clear hedge
  have hfull : full mul = mul.2 * 2 ^ 64 + mul.1 := rfl
  -- the words of the product
  obtain ⟨lo, hlo⟩ : ∃ lo, m * 2 * mul.1 % 2 ^ 64 = lo := ⟨_, rfl⟩
  obtain ⟨mid, hmid⟩ : ∃ mid, wrap 64 (m * 2 * mul.1 / 2 ^ 64 + m * 2 * mul.2 % 2 ^ 64) = mid := ⟨_, rfl⟩
  obtain ⟨hi, hhi⟩ : ∃ hi, wrap 64 (m * 2 * mul.2 / 2 ^ 64 + if mid < m * 2 * mul.1 / 2 ^ 64 then 1 else 0) = hi :=
    ⟨_, rfl⟩
  rw [hlo, hmid, hhi]
  have hw : x = hi * 2 ^ 128 + mid * 2 ^ 64 + lo ∧ lo < 2 ^ 64 ∧ mid < 2 ^ 64 ∧ hi < 2 ^ 62 := by
    rw [hx]
    generalize m * 2 * mul.1 = a at *
    generalize m * 2 * mul.2 = b at *
    unfold wrap at hmid hhi
    split at hhi <;> omega
  obtain ⟨w1, w2, w3, w4⟩ := hw
  clear hx hlo hmid hhi b1 b2
  have sh : ∀ y : Nat, ∀ a b : Nat, b < 2 ^ 64 → a * 2 ^ 64 + b = y / 2 ^ 64 →
      shiftright128 c b a (u32 (j - 64 - 1)) = .ok (2 * y / 2 ^ j.toNat % 2 ^ 64) := by
    intro y a b hb hy
    rw [u32_eq (by omega) (by omega), shiftright128_eq c (by omega) (by omega) hb, hy, Nat.div_div_eq_div_mul,
      ← pow_add]
    congr 2
    rw [show j.toNat = 64 + (j - 64 - 1).toNat + 1 by omega, pow_succ, mul_comm _ 2,
      Nat.mul_div_mul_left _ _ (by norm_num)]
  have sh' : ∀ y : Nat, ∀ a b : Nat, b < 2 ^ 64 → a * 2 ^ 64 + b = y / 2 ^ 64 →
      shiftright128 c b a (u32 (j - 64)) = .ok (y / 2 ^ j.toNat % 2 ^ 64) := by
    intro y a b hb hy
    rw [u32_eq (by omega) (by omega), shiftright128_eq c (by omega) (by omega) hb, hy, div_div_pow (by omega)]
  have t1 : 4 * m * full mul = 2 * x := by rw [hxdef]; ring
  have t2 : (4 * m + 2) * full mul = 2 * (x + full mul) := by rw [hxdef]; ring
  rw [sh (x + full mul) _ _ (by unfold wrap; omega) (by
    rw [hfull]; unfold wrap; split <;> split <;> omega), Exec.ok_bind]
  have hvm : (if mmShift = 1 then
        shiftright128 c (subw 64 (subw 64 mid mul.2) (if subw 64 lo mul.1 > lo then 1 else 0))
          (subw 64 hi (if subw 64 (subw 64 mid mul.2) (if subw 64 lo mul.1 > lo then 1 else 0) > mid then 1 else 0))
          (u32 (j - 64 - 1))
      else
        shiftright128 c (subw 64 (subw 64 (wrap 64 (wrap 64 (mid + mid) + if wrap 64 (lo + lo) < lo then 1 else 0))
            mul.2) (if subw 64 (wrap 64 (lo + lo)) mul.1 > wrap 64 (lo + lo) then 1 else 0))
          (subw 64 (wrap 64 (wrap 64 (hi + hi) +
              if wrap 64 (wrap 64 (mid + mid) + if wrap 64 (lo + lo) < lo then 1 else 0) < mid then 1 else 0))
            (if subw 64 (subw 64 (wrap 64 (wrap 64 (mid + mid) + if wrap 64 (lo + lo) < lo then 1 else 0)) mul.2)
              (if subw 64 (wrap 64 (lo + lo)) mul.1 > wrap 64 (lo + lo) then 1 else 0) >
              wrap 64 (wrap 64 (mid + mid) + if wrap 64 (lo + lo) < lo then 1 else 0) then 1 else 0))
          (u32 (j - 64))) = .ok ((4 * m - 1 - mmShift) * full mul / 2 ^ j.toNat % 2 ^ 64) := by
    by_cases hs1 : mmShift = 1
    · rw [if_pos hs1]
      have t3 : (4 * m - 1 - mmShift) * full mul = 2 * (x - full mul) := by
        rw [hs1, hxdef, show 4 * m - 1 - 1 = 2 * (m * 2 - 1) by omega, mul_assoc, Nat.sub_mul, one_mul]
      obtain ⟨mid', hi', g1, g2, g3, g4⟩ := sub3 (m0 := mul.1) (m1 := mul.2) w1 w2 w3 (by omega) h1 (by omega) (by rw [← hfull]; omega)
      rw [g1, g2, t3]
      exact sh _ _ _ g3 (by rw [g4, hfull])
    · rw [if_neg hs1]
      have hs0 : mmShift = 0 := by omega
      have hne := he hs0
      have hmidne : mid ≠ 2 ^ 64 - 1 := by
        intro h
        apply hne
        rw [w1, h]
        omega
      have t3 : (4 * m - 1 - mmShift) * full mul = 2 * x - full mul := by
        rw [hs0, hxdef, Nat.sub_zero, Nat.sub_mul, one_mul, show 4 * m * full mul = 2 * (m * 2 * full mul) by ring]
      obtain ⟨lo3, hlo3⟩ : ∃ lo3, wrap 64 (lo + lo) = lo3 := ⟨_, rfl⟩
      rw [hlo3]
      obtain ⟨mid3, hmid3⟩ : ∃ mid3, wrap 64 (wrap 64 (mid + mid) + if lo3 < lo then 1 else 0) = mid3 := ⟨_, rfl⟩
      rw [hmid3]
      obtain ⟨hi3, hhi3⟩ : ∃ hi3, wrap 64 (wrap 64 (hi + hi) + if mid3 < mid then 1 else 0) = hi3 := ⟨_, rfl⟩
      rw [hhi3]
      have hw : 2 * x = hi3 * 2 ^ 128 + mid3 * 2 ^ 64 + lo3 ∧ lo3 < 2 ^ 64 ∧ mid3 < 2 ^ 64 ∧ hi3 < 2 ^ 63 := by
        rw [w1]
        clear he hne hxdef hge t1 t2 t3 sh sh' key hfull
        unfold wrap at hlo3 hmid3 hhi3
        have c0 : (if lo3 < lo then 1 else 0) = (lo + lo) / 2 ^ 64 := by split <;> omega
        rw [c0] at hmid3
        have c1 : (if mid3 < mid then 1 else 0) = (mid + mid + (lo + lo) / 2 ^ 64) / 2 ^ 64 := by split <;> omega
        rw [c1] at hhi3
        clear c0 c1
        omega
      obtain ⟨mid', hi', g1, g2, g3, g4⟩ := sub3 (m0 := mul.1) (m1 := mul.2) hw.1 hw.2.1 hw.2.2.1 hw.2.2.2 h1 (by omega) (by rw [← hfull]; omega)
      rw [g1, g2, t3]
      exact sh' _ _ _ g3 (by rw [g4, hfull])
  rw [t1, t2, sh x hi mid w3 (by rw [w1]; omega)]
  by_cases hs1 : mmShift = 1
  · rw [if_pos hs1] at hvm ⊢
    rw [hvm]; rfl
  · rw [if_neg hs1] at hvm ⊢
    rw [hvm]; rfl

theorem mulShift32_eq (c : Config) {m f : Nat} {s : Int} (hm : m < 2 ^ 32) (hf : f < 2 ^ 64) (hs : 32 < s)
    (hs' : s < 64) (hr : m * f / 2 ^ s.toNat < 2 ^ 32) : mulShift32 c m f s = .ok (m * f / 2 ^ s.toNat) := by
  unfold mulShift32
  rw [rassert_true (by simpa using hs), Exec.ok_bind]
  dsimp only
  have e1 : wrap 32 (f / 2 ^ 32) = f / 2 ^ 32 := wrap_of_lt (by omega)
  have e2 : wrap 32 f = f % 2 ^ 32 := rfl
  rw [e1, e2]
  have b1 := mul_lt_of_lt32 hm (show f / 2 ^ 32 < 2 ^ 32 by omega)
  have b2 := mul_lt_of_lt32 hm (show f % 2 ^ 32 < 2 ^ 32 by omega)
  have hmf : m * f = m * (f / 2 ^ 32) * 2 ^ 32 + m * (f % 2 ^ 32) := by
    conv_lhs => rw [← Nat.div_add_mod f (2 ^ 32)]
    ring
  rw [wrap_of_lt (show m * (f % 2 ^ 32) < 2 ^ 64 by omega), wrap_of_lt (show m * (f / 2 ^ 32) < 2 ^ 64 by omega)]
  have hdiv : m * f / 2 ^ s.toNat = (m * (f % 2 ^ 32) / 2 ^ 32 + m * (f / 2 ^ 32)) / 2 ^ (s - 32).toNat := by
    rw [show s.toNat = 32 + (s - 32).toNat by omega, pow_add, ← Nat.div_div_eq_div_mul, hmf]
    congr 1
    omega
  rw [hdiv] at hr ⊢
  generalize m * (f % 2 ^ 32) = a at *
  generalize m * (f / 2 ^ 32) = b at *
  clear hmf hdiv
  split
  · rw [if_neg (by omega), if_pos (by omega)]
    have hw := shift_or (w := 32) (lo := wrap 32 (wrap 32 b + wrap 32 (a / 2 ^ 32)))
      (hi := wrap 32 (wrap 32 (b / 2 ^ 32) +
        if wrap 32 (wrap 32 b + wrap 32 (a / 2 ^ 32)) < wrap 32 (a / 2 ^ 32) then 1 else 0))
      (d := (s - 32).toNat) (by omega) (by unfold wrap; omega)
    rw [show (32 - (s - 32)).toNat = 32 - (s - 32).toNat by omega, hw]
    have : wrap 32 (wrap 32 (b / 2 ^ 32) +
        if wrap 32 (wrap 32 b + wrap 32 (a / 2 ^ 32)) < wrap 32 (a / 2 ^ 32) then 1 else 0) * 2 ^ 32 +
        wrap 32 (wrap 32 b + wrap 32 (a / 2 ^ 32)) = a / 2 ^ 32 + b := by
      unfold wrap
      split <;> omega
    rw [this, Nat.mod_eq_of_lt hr]
  · rw [wrap_of_lt (show a / 2 ^ 32 + b < 2 ^ 64 by omega), shr_ok (by omega) (by omega), Exec.ok_bind,
      rassert_true (decide_eq_true (Nat.le_sub_one_of_lt hr)), Exec.ok_bind, wrap_of_lt hr]

end Grisu.Ryu

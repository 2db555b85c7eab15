import Mathlib.Tactic.Ring
import Mathlib.Tactic.Linarith
import Mathlib.Data.Nat.ModEq
import Mathlib.Data.Nat.GCD.Basic
import Verif.Model.Arith

/-! # Lemmas about the integer utilities -/

namespace Grisu

theorem wrap_of_lt {w n : Nat} (h : n < 2 ^ w) : wrap w n = n := Nat.mod_eq_of_lt h

theorem subw_of_le {w a b : Nat} (hb : b ≤ a) (ha : a < 2 ^ w) : subw w a b = a - b := by
  unfold subw
  have hb' : b % 2 ^ w = b := Nat.mod_eq_of_lt (by omega)
  rw [hb']
  have : a + (2 ^ w - b) = (a - b) + 2 ^ w := by omega
  rw [this, Nat.add_mod_right, Nat.mod_eq_of_lt (by omega)]

theorem cassert_true {cfg : Cfg} {b : Bool} (h : b = true) : cassert cfg b = .ok () := by
  simp [cassert, h]

theorem shr_ok {w x : Nat} {n : Int} (h0 : 0 ≤ n) (h1 : n < w) : shr w x n = .ok (x / 2 ^ n.toNat) := by
  simp [shr, h0, h1]

/-- Long multiplication in base `2^32`. -/
theorem mul_split {x y : Nat} :
    let a := x / 2 ^ 32
    let b := x % 2 ^ 32
    let c := y / 2 ^ 32
    let d := y % 2 ^ 32
    let I := (b * d) / 2 ^ 32 + (a * d) % 2 ^ 32 + (b * c) % 2 ^ 32
    x * y = (a * c + I / 2 ^ 32 + (a * d) / 2 ^ 32 + (b * c) / 2 ^ 32) * 2 ^ 64 +
      ((I % 2 ^ 32) * 2 ^ 32 + (b * d) % 2 ^ 32) := by
  intro a b c d I
  have hx : x = a * 2 ^ 32 + b := by omega
  have hy : y = c * 2 ^ 32 + d := by omega
  have hxy : x * y = (a * c) * 2 ^ 64 + (a * d) * 2 ^ 32 + (b * c) * 2 ^ 32 + b * d := by
    rw [hx, hy]; ring
  rw [hxy]
  clear hxy hx hy
  generalize a * c = ac at *
  have hI : I = (b * d) / 2 ^ 32 + (a * d) % 2 ^ 32 + (b * c) % 2 ^ 32 := rfl
  clear_value I
  generalize a * d = ad at *
  generalize b * c = bc at *
  generalize b * d = bd at *
  omega

theorem mul_lt_of_lt32 {a b : Nat} (ha : a < 2 ^ 32) (hb : b < 2 ^ 32) :
    a * b ≤ (2 ^ 32 - 1) * (2 ^ 32 - 1) := Nat.mul_le_mul (by omega) (by omega)

theorem umul128_spec (cfg : Cfg) {x y : Nat} (hx : x < 2 ^ 64) (hy : y < 2 ^ 64) :
    (umul128 cfg x y).high = x * y / 2 ^ 64 ∧ (umul128 cfg x y).low = x * y % 2 ^ 64 := by
  have hxy : x * y < 2 ^ 128 := by
    have := Nat.mul_lt_mul'' hx hy
    calc x * y < 2 ^ 64 * 2 ^ 64 := this
      _ = 2 ^ 128 := by norm_num
  unfold umul128
  by_cases hc : cfg.x64
  · simp only [hc, if_true, wrap, Nat.mod_eq_of_lt hxy]
    exact ⟨trivial, trivial⟩
  · simp only [hc, Bool.false_eq_true, if_false]
    have h := @mul_split x y
    simp only at h
    have e1 : wrap 32 (x / 2 ^ 32) = x / 2 ^ 32 := wrap_of_lt (by omega)
    have e2 : wrap 32 (y / 2 ^ 32) = y / 2 ^ 32 := wrap_of_lt (by omega)
    have e3 : wrap 32 x = x % 2 ^ 32 := rfl
    have e4 : wrap 32 y = y % 2 ^ 32 := rfl
    rw [e1, e2, e3, e4]
    have ha : x / 2 ^ 32 < 2 ^ 32 := by omega
    have hb : x % 2 ^ 32 < 2 ^ 32 := by omega
    have hc' : y / 2 ^ 32 < 2 ^ 32 := by omega
    have hd : y % 2 ^ 32 < 2 ^ 32 := by omega
    generalize x / 2 ^ 32 = a at *
    generalize x % 2 ^ 32 = b at *
    generalize y / 2 ^ 32 = c at *
    generalize y % 2 ^ 32 = d at *
    have b1 := mul_lt_of_lt32 ha hc'
    have b2 := mul_lt_of_lt32 ha hd
    have b3 := mul_lt_of_lt32 hb hc'
    have b4 := mul_lt_of_lt32 hb hd
    unfold umul64
    rw [wrap_of_lt (show a * c < 2 ^ 64 by omega), wrap_of_lt (show b * c < 2 ^ 64 by omega),
      wrap_of_lt (show a * d < 2 ^ 64 by omega), wrap_of_lt (show b * d < 2 ^ 64 by omega)]
    generalize a * c = ac at *
    generalize a * d = ad at *
    generalize b * c = bc at *
    generalize b * d = bd at *
    generalize x * y = xy at *
    unfold wrap
    constructor <;> omega

theorem umul128_upper64_spec (cfg : Cfg) {x y : Nat} (hx : x < 2 ^ 64) (hy : y < 2 ^ 64) :
    umul128_upper64 cfg x y = x * y / 2 ^ 64 := by
  have hxy : x * y < 2 ^ 128 := by
    have := Nat.mul_lt_mul'' hx hy
    calc x * y < 2 ^ 64 * 2 ^ 64 := this
      _ = 2 ^ 128 := by norm_num
  have h := (umul128_spec cfg hx hy).1
  unfold umul128_upper64
  unfold umul128 at h
  by_cases hc : cfg.x64
  · simp only [hc, if_true, wrap] at h ⊢
    omega
  · simp only [hc, Bool.false_eq_true, if_false] at h ⊢
    exact h

theorem umul192_upper64_spec (cfg : Cfg) {x : Nat} {y : U128} (hx : x < 2 ^ 64)
    (hh : y.high < 2 ^ 64) (hl : y.low < 2 ^ 64) :
    umul192_upper64 cfg x y = x * (y.high * 2 ^ 64 + y.low) / 2 ^ 128 := by
  have h1 := (umul128_spec cfg hx hh).1
  have h2 := (umul128_spec cfg hx hh).2
  have h3 := umul128_upper64_spec cfg hx hl
  have e : x * (y.high * 2 ^ 64 + y.low) = (x * y.high) * 2 ^ 64 + x * y.low := by ring
  have b1 : x * y.high ≤ (2 ^ 64 - 1) * (2 ^ 64 - 1) := Nat.mul_le_mul (by omega) (by omega)
  have b2 : x * y.low ≤ (2 ^ 64 - 1) * (2 ^ 64 - 1) := Nat.mul_le_mul (by omega) (by omega)
  unfold umul192_upper64
  simp only [h1, h2, h3]
  rw [e]
  generalize x * y.high = u at *
  generalize x * y.low = v at *
  by_cases hc : cfg.x64
  · simp only [hc, if_true, wrap]
    omega
  · simp only [hc, Bool.false_eq_true, if_false]
    by_cases hcarry : wrap 64 (u % 2 ^ 64 + v / 2 ^ 64) < v / 2 ^ 64
    · rw [if_pos hcarry]; unfold wrap at *; omega
    · rw [if_neg hcarry]; unfold wrap at *; omega

theorem umul96_upper32_spec (cfg : Cfg) {x y : Nat} (hx : x < 2 ^ 32) (hy : y < 2 ^ 64) :
    umul96_upper32 cfg x y = x * y / 2 ^ 64 := by
  have hb : x * y ≤ (2 ^ 32 - 1) * (2 ^ 64 - 1) := Nat.mul_le_mul (by omega) (by omega)
  unfold umul96_upper32
  by_cases hc : cfg.x64
  · simp only [hc, if_true]
    rw [umul128_upper64_spec cfg (by omega) hy, wrap_of_lt (by omega)]
  · simp only [hc, Bool.false_eq_true, if_false]
    have e1 : wrap 32 (y / 2 ^ 32) = y / 2 ^ 32 := wrap_of_lt (by omega)
    have e4 : wrap 32 y = y % 2 ^ 32 := rfl
    rw [e1, e4]
    have e : x * y = (x * (y / 2 ^ 32)) * 2 ^ 32 + x * (y % 2 ^ 32) := by
      have hy' : y = (y / 2 ^ 32) * 2 ^ 32 + y % 2 ^ 32 := by omega
      conv_lhs => rw [hy']
      ring
    have b3 : x * (y / 2 ^ 32) ≤ (2 ^ 32 - 1) * (2 ^ 32 - 1) := mul_lt_of_lt32 hx (by omega)
    have b4 : x * (y % 2 ^ 32) ≤ (2 ^ 32 - 1) * (2 ^ 32 - 1) := mul_lt_of_lt32 hx (by omega)
    unfold umul64
    rw [wrap_of_lt (show x * (y / 2 ^ 32) < 2 ^ 64 by omega),
      wrap_of_lt (show x * (y % 2 ^ 32) < 2 ^ 64 by omega)]
    generalize x * (y / 2 ^ 32) = u at *
    generalize x * (y % 2 ^ 32) = v at *
    generalize x * y = xy at *
    unfold wrap
    omega

/-! ## Divisibility tests -/

theorem ctz_spec : ∀ (w x e : Nat), x ≠ 0 → x < 2 ^ w → (2 ^ e ∣ x ↔ e ≤ ctz w x) := by
  intro w
  induction w with
  | zero => intro x e h0 h1; omega
  | succ n ih =>
    intro x e h0 h1
    unfold ctz
    by_cases hodd : x % 2 = 1
    · simp only [hodd, if_true]
      constructor
      · intro h
        rcases e with _ | e
        · exact le_refl _
        · exfalso
          have : 2 ∣ x := Dvd.dvd.trans ⟨2 ^ e, by rw [pow_succ]; ring⟩ h
          omega
      · intro h
        have : e = 0 := by omega
        subst this; simp
    · simp only [hodd, if_false]
      have hx : x = 2 * (x / 2) := by omega
      rcases e with _ | e
      · simp
      · have := ih (x / 2) e (by omega) (by rw [pow_succ] at h1; omega)
        rw [show e + 1 ≤ ctz n (x / 2) + 1 ↔ e ≤ ctz n (x / 2) by omega, ← this]
        conv_lhs => rw [hx]
        rw [pow_succ, mul_comm (2 ^ e) 2]
        exact Nat.mul_dvd_mul_iff_left (by norm_num)

theorem divisible_by_power_of_2_spec (cfg : Cfg) {w x : Nat} {exp : Int} (hx0 : x ≠ 0)
    (hx : x < 2 ^ w) (he : 1 ≤ exp) :
    divisible_by_power_of_2 cfg w x exp = .ok (decide (2 ^ exp.toNat ∣ x)) := by
  obtain ⟨n, rfl⟩ : ∃ n : Nat, exp = n := ⟨exp.toNat, by omega⟩
  have hn : 1 ≤ n := by omega
  unfold divisible_by_power_of_2
  rw [cassert_true (by simpa using hn), cassert_true (by simpa using hx0)]
  simp only [Exec.ok_bind, Int.toNat_natCast]
  by_cases hc : cfg.x64
  · simp only [hc, if_true, hx0, if_false]
    congr 1
    rw [decide_eq_decide, ctz_spec w x n hx0 hx]
    omega
  · simp only [hc, Bool.false_eq_true, if_false]
    by_cases hw : (n : Int) ≥ w
    · simp only [hw, if_true]
      congr 1
      symm
      rw [decide_eq_false_iff_not]
      intro hd
      have h1 := Nat.le_of_dvd (by omega) hd
      have h2 : 2 ^ w ≤ 2 ^ n := Nat.pow_le_pow_right (by norm_num) (by omega)
      omega
    · simp only [hw, if_false]
      rw [if_neg (by omega)]
      have hlt : n < w := by omega
      have h2 : 2 ^ n < 2 ^ w := Nat.pow_lt_pow_right (by norm_num) hlt
      have hp : 1 ≤ 2 ^ n := Nat.one_le_two_pow
      congr 1
      rw [decide_eq_decide]
      rw [wrap_of_lt h2, subw_of_le hp h2, wrap_of_lt (by omega), Nat.and_two_pow_sub_one_eq_mod]
      exact (Nat.dvd_iff_mod_eq_zero).symm

/-- Divisibility by an odd number through its inverse modulo `N`. -/
theorem divisible_by_inverse {N d inv x : Nat} (hd : 0 < d) (hN : 1 < N) (hinv : d * inv % N = 1)
    (hx : x < N) : x * inv % N ≤ (N - 1) / d ↔ d ∣ x := by
  constructor
  · intro h
    set k := x * inv % N with hk
    have h1 : k * d ≤ N - 1 := by
      calc k * d ≤ (N - 1) / d * d := Nat.mul_le_mul_right _ h
        _ ≤ N - 1 := Nat.div_mul_le_self _ _
    have h2 : k * d ≡ x [MOD N] := by
      have : k ≡ x * inv [MOD N] := Nat.mod_modEq _ _
      have h3 : k * d ≡ x * inv * d [MOD N] := this.mul_right d
      have h4 : x * inv * d ≡ x * 1 [MOD N] := by
        rw [mul_assoc, mul_comm inv d]
        apply Nat.ModEq.mul_left
        unfold Nat.ModEq
        rw [hinv, Nat.mod_eq_of_lt hN]
      simpa using h3.trans h4
    have h3 : k * d = x := by
      have := h2
      unfold Nat.ModEq at this
      rwa [Nat.mod_eq_of_lt (by omega), Nat.mod_eq_of_lt hx] at this
    exact ⟨k, by rw [← h3]; ring⟩
  · rintro ⟨k, rfl⟩
    have h1 : d * k * inv % N = k % N := by
      have : d * k * inv ≡ 1 * k [MOD N] := by
        rw [show d * k * inv = (d * inv) * k by ring]
        apply Nat.ModEq.mul_right
        unfold Nat.ModEq
        rw [hinv, Nat.mod_eq_of_lt hN]
      rw [one_mul] at this
      exact this
    rw [h1]
    have hkd : k ≤ (N - 1) / d := by
      rw [Nat.le_div_iff_mul_le hd]
      have : k * d = d * k := mul_comm _ _
      omega
    exact (Nat.mod_le _ _).trans hkd

theorem divisibility_table_ok32 : ∀ i < 12, compute_power 32 5 i = 5 ^ i ∧
    (divisibility_table_entry 32 i).1 = (2 ^ 32 - 1) / 5 ^ i ∧
    5 ^ i * (divisibility_table_entry 32 i).2 % 2 ^ 32 = 1 := by decide +kernel

theorem divisibility_table_ok64 : ∀ i < 24, compute_power 64 5 i = 5 ^ i ∧
    (divisibility_table_entry 64 i).1 = (2 ^ 64 - 1) / 5 ^ i ∧
    5 ^ i * (divisibility_table_entry 64 i).2 % 2 ^ 64 = 1 := by decide +kernel

theorem divisible_by_power_of_5_spec (cfg : Cfg) {w x : Nat} {exp : Int} (hw : w = 32 ∨ w = 64)
    (hx : x < 2 ^ w) (he0 : 0 ≤ exp) (he : exp < divisibility_table_size w) :
    divisible_by_power_of_5 cfg w x exp = .ok (decide (5 ^ exp.toNat ∣ x)) := by
  obtain ⟨n, rfl⟩ : ∃ n : Nat, exp = n := ⟨exp.toNat, by omega⟩
  unfold divisible_by_power_of_5
  rw [cassert_true (by simpa using he)]
  simp only [Exec.ok_bind, Int.toNat_natCast]
  rw [if_pos ⟨he0, he⟩]
  congr 1
  rw [decide_eq_decide]
  unfold wrap
  rcases hw with rfl | rfl
  · have hn : n < 12 := by simpa [divisibility_table_size] using he
    obtain ⟨-, h2, h3⟩ := divisibility_table_ok32 n hn
    rw [h2]
    exact divisible_by_inverse (by positivity) (by norm_num) h3 hx
  · have hn : n < 24 := by simpa [divisibility_table_size] using he
    obtain ⟨-, h2, h3⟩ := divisibility_table_ok64 n hn
    rw [h2]
    exact divisible_by_inverse (by positivity) (by norm_num) h3 hx

/-! ## Floors of multiples of two numbers with no small fraction between them -/

/-- If `P/B` lies in `[a/b, c/d)` with `b*c - a*d = 1`, then the floor of `n*P/B` for `n < b + d` is
that of `n*a/b`. -/
theorem floor_eq_of_cert {P B a b c d n : Nat} (hB : 0 < B) (hb : 0 < b)
    (h1 : a * B ≤ P * b) (h2 : P * d < c * B) (hdet : b * c = a * d + 1) (hn : n < b + d) :
    n * P / B = n * a / b := by
  apply Nat.le_antisymm
  · set m := n * P / B with hm
    have hmB : m * B ≤ n * P := Nat.div_mul_le_self _ _
    rw [Nat.le_div_iff_mul_le hb]
    by_contra hlt
    have hlt' : n * a + 1 ≤ m * b := by omega
    rcases Nat.eq_zero_or_pos n with h0 | hpos
    · rw [h0] at hmB
      have : m = 0 := by
        rcases Nat.eq_zero_or_pos m with h | h
        · exact h
        · exfalso
          have := Nat.mul_pos h hB
          omega
      rw [this, h0] at hlt'
      omega
    -- m*d < n*c
    have h3 : m * d * B < n * c * B := by
      rcases Nat.eq_zero_or_pos d with hd | hd
      · rw [hd] at h2 ⊢
        have : 0 < c * B := by omega
        have := Nat.mul_pos hpos this
        nlinarith
      · calc m * d * B = m * B * d := by ring
          _ ≤ n * P * d := Nat.mul_le_mul_right _ hmB
          _ = n * (P * d) := by ring
          _ < n * (c * B) := Nat.mul_lt_mul_of_pos_left h2 hpos
          _ = n * c * B := by ring
    have h4 : m * d + 1 ≤ n * c := Nat.lt_of_mul_lt_mul_right h3
    have h5 : b * (m * d + 1) ≤ b * (n * c) := Nat.mul_le_mul_left _ h4
    have h6 : d * (n * a + 1) ≤ d * (m * b) := Nat.mul_le_mul_left _ hlt'
    have h7 : n * (b * c) = n * (a * d + 1) := by rw [hdet]
    nlinarith
  · rw [Nat.le_div_iff_mul_le hB]
    set m := n * a / b with hm
    have hmb : m * b ≤ n * a := Nat.div_mul_le_self _ _
    have : m * B * b ≤ n * P * b := by
      calc m * B * b = m * b * B := by ring
        _ ≤ n * a * B := Nat.mul_le_mul_right _ hmb
        _ = n * (a * B) := by ring
        _ ≤ n * (P * b) := Nat.mul_le_mul_left _ h1
        _ = n * P * b := by ring
    exact Nat.le_of_mul_le_mul_right this hb

end Grisu

import Verif.Spec
import Mathlib.Tactic.Ring
import Mathlib.Tactic.Linarith
import Mathlib.Tactic.FieldSimp
import Mathlib.Tactic.Positivity
import Mathlib.Algebra.Order.Field.Basic
import Mathlib.Data.Rat.Cast.Order

/-! # Values of neighbouring bit patterns, and when a number rounds to a pattern -/

namespace Grisu.Spec

variable {F : Fmt}

/-- Integer significand of a magnitude pattern. -/
def sg (F : Fmt) (m : Nat) : Nat :=
  if m / 2 ^ mantBits F = 0 then m % 2 ^ mantBits F else 2 ^ mantBits F + m % 2 ^ mantBits F

/-- Its exponent. -/
def ex (F : Fmt) (m : Nat) : Int :=
  if m / 2 ^ mantBits F = 0 then ulpExp F else ulpExp F + ((m / 2 ^ mantBits F - 1 : Nat) : Int)

theorem value_eq (m : Nat) : value F m = sg F m * 2 ^ ex F m := by
  unfold value sg ex
  split <;> rfl

theorem two_zpow_pos (n : Int) : (0 : ℚ) < 2 ^ n := zpow_pos (by norm_num) n

theorem succ_div_mod {m N : Nat} (hN : 0 < N) :
    (m % N + 1 < N ∧ (m + 1) / N = m / N ∧ (m + 1) % N = m % N + 1) ∨
    (m % N + 1 = N ∧ (m + 1) / N = m / N + 1 ∧ (m + 1) % N = 0) := by
  have h1 := Nat.div_add_mod m N
  have h2 := Nat.mod_lt m hN
  by_cases h : m % N + 1 < N
  · left
    refine ⟨h, ?_, ?_⟩
    · apply Nat.div_eq_of_lt_le
      · rw [mul_comm]; omega
      · rw [Nat.add_mul, one_mul, mul_comm]; omega
    · have : m + 1 = N * (m / N) + (m % N + 1) := by omega
      rw [this, Nat.mul_add_mod, Nat.mod_eq_of_lt h]
  · right
    have h3 : m % N + 1 = N := by omega
    have h4 : m + 1 = N * (m / N + 1) := by rw [mul_add]; omega
    refine ⟨h3, ?_, ?_⟩
    · rw [h4, Nat.mul_div_cancel_left _ hN]
    · rw [h4, Nat.mul_mod_right]

/-- The next pattern is one unit in the last place larger. -/
theorem value_succ (m : Nat) : value F (m + 1) = ((sg F m : ℚ) + 1) * 2 ^ ex F m := by
  have hN : 0 < 2 ^ mantBits F := by positivity
  rw [value_eq]
  unfold sg ex
  generalize ulpExp F = ulp
  generalize 2 ^ mantBits F = N at hN
  rcases succ_div_mod (m := m) hN with ⟨h1, h2, h3⟩ | ⟨h1, h2, h3⟩
  · rw [h2, h3]
    split
    · push_cast; ring
    · push_cast; ring
  · rw [h2, h3, if_neg (Nat.succ_ne_zero _), if_neg (Nat.succ_ne_zero _)]
    by_cases h0 : m / N = 0
    · rw [if_pos h0, if_pos h0, h0]
      have : ((m % N : Nat) : ℚ) + 1 = N := by exact_mod_cast h1
      rw [this]
      simp
    · rw [if_neg h0, if_neg h0]
      have h4 : ((m % N : Nat) : ℚ) + 1 = N := by exact_mod_cast h1
      have h5 : ulp + ((m / N + 1 - 1 : Nat) : Int) = ulp + ((m / N - 1 : Nat) : Int) + 1 := by
        generalize m / N = d at h0 ⊢; omega
      rw [h5, zpow_add₀ (by norm_num : (2 : ℚ) ≠ 0) _ 1]
      push_cast
      rw [add_assoc, h4]
      ring

theorem value_lt_succ (m : Nat) : value F m < value F (m + 1) := by
  rw [value_succ, value_eq]
  have := two_zpow_pos (ex F m)
  nlinarith

theorem value_strictMono : StrictMono (value F) := strictMono_nat_of_lt_succ value_lt_succ

theorem value_zero : value F 0 = 0 := by
  unfold value
  simp

theorem value_nonneg (m : Nat) : 0 ≤ value F m := by
  rw [← value_zero (F := F)]
  exact value_strictMono.monotone (Nat.zero_le m)

theorem value_pos {m : Nat} (h : 0 < m) : 0 < value F m := by
  rw [← value_zero (F := F)]
  exact value_strictMono h

/-- A normal power of two other than the smallest: the lower neighbour is closer. -/
def Closer (F : Fmt) (m : Nat) : Prop := m % 2 ^ mantBits F = 0 ∧ 2 ≤ m / 2 ^ mantBits F

instance : Decidable (Closer F m) := inferInstanceAs (Decidable (_ ∧ _))

theorem value_pred_closer {m : Nat} (hc : Closer F m) :
    value F (m - 1) = ((sg F m : ℚ) - 1 / 2) * 2 ^ ex F m := by
  have hN : 0 < 2 ^ mantBits F := by positivity
  obtain ⟨k, rfl⟩ : ∃ k, m = k + 1 := ⟨m - 1, by
    rcases Nat.eq_zero_or_pos m with h | h
    · subst h; have := hc.2; simp at this
    · omega⟩
  rw [Nat.add_sub_cancel, value_eq]
  unfold Closer at hc
  unfold sg ex
  generalize ulpExp F = ulp
  generalize 2 ^ mantBits F = N at hN hc
  rcases succ_div_mod (m := k) hN with ⟨h1, h2, h3⟩ | ⟨h1, h2, h3⟩
  · rw [h3] at hc
    exact absurd hc.1 (Nat.succ_ne_zero _)
  · rw [h2] at hc
    have h0 : ¬ k / N = 0 := by intro h; rw [h] at hc; omega
    rw [h2, h3, if_neg (Nat.succ_ne_zero _), if_neg (Nat.succ_ne_zero _), if_neg h0, if_neg h0]
    have h4 : ((k % N : Nat) : ℚ) = N - 1 := by
      have : ((k % N : Nat) : ℚ) + 1 = N := by exact_mod_cast h1
      linarith
    have h5 : ulp + ((k / N + 1 - 1 : Nat) : Int) = ulp + ((k / N - 1 : Nat) : Int) + 1 := by
      generalize k / N = d at h0 ⊢; omega
    rw [h5, zpow_add₀ (by norm_num : (2 : ℚ) ≠ 0) _ 1]
    push_cast
    rw [h4]
    ring

theorem value_pred_generic {m : Nat} (h : 0 < m) (hc : ¬ Closer F m) :
    value F (m - 1) = ((sg F m : ℚ) - 1) * 2 ^ ex F m := by
  have hN : 0 < 2 ^ mantBits F := by positivity
  obtain ⟨k, rfl⟩ : ∃ k, m = k + 1 := ⟨m - 1, by omega⟩
  rw [Nat.add_sub_cancel, value_eq]
  unfold Closer at hc
  unfold sg ex
  generalize ulpExp F = ulp
  generalize 2 ^ mantBits F = N at hN hc
  rcases succ_div_mod (m := k) hN with ⟨h1, h2, h3⟩ | ⟨h1, h2, h3⟩
  · rw [h2, h3]
    split
    · push_cast; ring
    · push_cast; ring
  · rw [h2, h3] at hc
    have h0 : k / N = 0 := by
      by_contra h
      exact hc ⟨rfl, by have := Nat.pos_of_ne_zero h; omega⟩
    rw [h2, h3, if_neg (Nat.succ_ne_zero _), if_neg (Nat.succ_ne_zero _), if_pos h0, if_pos h0, h0]
    have h4 : ((k % N : Nat) : ℚ) = N - 1 := by
      have : ((k % N : Nat) : ℚ) + 1 = N := by exact_mod_cast h1
      linarith
    rw [h4]
    simp

/-- Rounding to nearest, in terms of the midpoints to the two neighbours. -/
theorem nearest_iff {prefers : Nat → Nat → Prop} {v : ℚ} {m : Nat} (h0 : 0 < m) (h1 : m < infPattern F) :
    Nearest F prefers v m ↔
      ((value F (m - 1) + value F m) / 2 < v ∨
        ((value F (m - 1) + value F m) / 2 = v ∧ prefers m (m - 1))) ∧
      (v < (value F m + value F (m + 1)) / 2 ∨
        (v = (value F m + value F (m + 1)) / 2 ∧ prefers m (m + 1))) := by
  have hlt1 : value F (m - 1) < value F m := value_strictMono (by omega)
  have hlt2 : value F m < value F (m + 1) := value_strictMono (by omega)
  constructor
  · rintro ⟨-, h⟩
    constructor
    · rcases h (m - 1) (by omega) (by omega) with h2 | ⟨h2, h3⟩
      · left
        by_contra hc
        have h4 : v ≤ (value F (m - 1) + value F m) / 2 := not_lt.mp hc
        rw [abs_of_nonpos (by linarith : v - value F m ≤ 0)] at h2
        rcases le_total v (value F (m - 1)) with h5 | h5
        · rw [abs_of_nonpos (by linarith)] at h2; linarith
        · rw [abs_of_nonneg (by linarith)] at h2; linarith
      · rcases lt_trichotomy ((value F (m - 1) + value F m) / 2) v with h4 | h4 | h4
        · exact Or.inl h4
        · exact Or.inr ⟨h4, h3⟩
        · exfalso
          rw [abs_of_nonpos (by linarith : v - value F m ≤ 0)] at h2
          rcases le_total v (value F (m - 1)) with h5 | h5
          · rw [abs_of_nonpos (by linarith)] at h2; linarith
          · rw [abs_of_nonneg (by linarith)] at h2; linarith
    · rcases h (m + 1) (by omega) (by omega) with h2 | ⟨h2, h3⟩
      · left
        by_contra hc
        have h4 : (value F m + value F (m + 1)) / 2 ≤ v := not_lt.mp hc
        rw [abs_of_nonneg (by linarith : 0 ≤ v - value F m)] at h2
        rcases le_total v (value F (m + 1)) with h5 | h5
        · rw [abs_of_nonpos (by linarith)] at h2; linarith
        · rw [abs_of_nonneg (by linarith)] at h2; linarith
      · rcases lt_trichotomy v ((value F m + value F (m + 1)) / 2) with h4 | h4 | h4
        · exact Or.inl h4
        · exact Or.inr ⟨h4, h3⟩
        · exfalso
          rw [abs_of_nonneg (by linarith : 0 ≤ v - value F m)] at h2
          rcases le_total v (value F (m + 1)) with h5 | h5
          · rw [abs_of_nonpos (by linarith)] at h2; linarith
          · rw [abs_of_nonneg (by linarith)] at h2; linarith
  · rintro ⟨hl, hu⟩
    refine ⟨h1.le, ?_⟩
    intro m' hm' hne
    have hl' : (value F (m - 1) + value F m) / 2 ≤ v := by
      rcases hl with h | h
      · exact h.le
      · exact h.1.le
    have hu' : v ≤ (value F m + value F (m + 1)) / 2 := by
      rcases hu with h | h
      · exact h.le
      · exact h.1.le
    rcases Nat.lt_or_gt_of_ne hne with hlt | hgt
    · -- m' < m
      have h2 : value F m' ≤ value F (m - 1) := value_strictMono.monotone (by omega)
      have h3 : |v - value F m'| = v - value F m' := abs_of_nonneg (by linarith)
      rw [h3]
      rcases le_total v (value F m) with h4 | h4
      · rw [abs_of_nonpos (by linarith : v - value F m ≤ 0)]
        rcases hl with h5 | ⟨h5, h6⟩
        · left; linarith
        · rcases Nat.lt_or_ge m' (m - 1) with h7 | h7
          · have : value F m' < value F (m - 1) := value_strictMono h7
            left; linarith
          · have h8 : m' = m - 1 := by omega
            rw [h8]
            right
            exact ⟨by linarith, h6⟩
      · rw [abs_of_nonneg (by linarith : 0 ≤ v - value F m)]
        left; linarith
    · have h2 : value F (m + 1) ≤ value F m' := value_strictMono.monotone (by omega)
      have h3 : |v - value F m'| = value F m' - v := by
        rw [abs_sub_comm]; exact abs_of_nonneg (by linarith)
      rw [h3]
      rcases le_total v (value F m) with h4 | h4
      · rw [abs_of_nonpos (by linarith : v - value F m ≤ 0)]
        left; linarith
      · rw [abs_of_nonneg (by linarith : 0 ≤ v - value F m)]
        rcases hu with h5 | ⟨h5, h6⟩
        · left; linarith
        · rcases Nat.lt_or_ge (m + 1) m' with h7 | h7
          · have : value F (m + 1) < value F m' := value_strictMono h7
            left; linarith
          · have h8 : m' = m + 1 := by omega
            rw [h8]
            right
            exact ⟨by linarith, h6⟩

/-- No number rounds to two different patterns. -/
theorem RoundsTo.unique {mode : RoundingMode} {neg : Bool} {v : ℚ} {m m' : Nat}
    (h : RoundsTo F mode neg v m) (h' : RoundsTo F mode neg v m') : m = m' := by
  have near : ∀ prefers : Nat → Nat → Prop, (∀ a b, a ≠ b → prefers a b → prefers b a → a % 2 = b % 2) →
      (∀ a, ¬ (prefers a (a + 1) ∧ prefers (a + 1) a)) →
      Nearest F prefers v m → Nearest F prefers v m' → m = m' := by
    intro prefers hp hq h h'
    by_contra hne
    rcases h.2 m' h'.1 (Ne.symm hne) with h1 | ⟨h1, h2⟩
    · rcases h'.2 m h.1 hne with h3 | ⟨h3, -⟩ <;> linarith
    · rcases h'.2 m h.1 hne with h3 | ⟨h3, h4⟩
      · linarith
      · -- two patterns at the same distance are neighbours
        have key : ∀ a b : Nat, a < b → Nearest F prefers v a → b ≤ infPattern F →
            |v - value F a| = |v - value F b| → b = a + 1 := by
          intro a b hab ha hb heq
          by_contra hc
          have hab' : a + 1 < b := by omega
          have e1 : value F a < value F (a + 1) := value_strictMono (by omega)
          have e2 : value F (a + 1) < value F b := value_strictMono hab'
          have e3 : v = (value F a + value F b) / 2 := by
            rcases le_total v (value F a) with g1 | g1
            · rw [abs_of_nonpos (by linarith), abs_of_nonpos (by linarith)] at heq; linarith
            · rcases le_total v (value F b) with g2 | g2
              · rw [abs_of_nonneg (by linarith), abs_of_nonpos (by linarith)] at heq; linarith
              · rw [abs_of_nonneg (by linarith), abs_of_nonneg (by linarith)] at heq; linarith
          have e4 : |v - value F (a + 1)| < |v - value F a| := by
            rw [abs_of_nonneg (by linarith : 0 ≤ v - value F a), abs_lt]
            constructor <;> linarith
          rcases ha.2 (a + 1) (by omega) (by omega) with g | ⟨g, -⟩ <;> linarith
        rcases Nat.lt_or_gt_of_ne hne with hlt | hlt
        · have := key m m' hlt h h'.1 h1
          subst this
          exact hq m ⟨h2, h4⟩
        · have := key m' m hlt h' h.1 h3
          subst this
          exact hq m' ⟨h4, h2⟩
  have tz : TowardZero F v m → TowardZero F v m' → m = m' := by
    rintro ⟨-, h1, h2⟩ ⟨-, h3, h4⟩
    have a1 : m < m' + 1 := value_strictMono.lt_iff_lt.mp (lt_of_le_of_lt h1 h4)
    have a2 : m' < m + 1 := value_strictMono.lt_iff_lt.mp (lt_of_le_of_lt h3 h2)
    omega
  have az : AwayFromZero F v m → AwayFromZero F v m' → m = m' := by
    rintro ⟨p1, -, h1, h2⟩ ⟨p2, -, h3, h4⟩
    have a1 : m - 1 < m' := value_strictMono.lt_iff_lt.mp (lt_of_lt_of_le h1 h4)
    have a2 : m' - 1 < m := value_strictMono.lt_iff_lt.mp (lt_of_lt_of_le h3 h2)
    omega
  have even := near PrefEven (by simp only [PrefEven]; intros; omega) (by simp only [PrefEven]; intros; omega)
  have odd := near PrefOdd (by simp only [PrefOdd]; intros; omega) (by simp only [PrefOdd]; intros; omega)
  have sm := near PrefSmaller (by simp only [PrefSmaller]; intros; omega) (by simp only [PrefSmaller]; intros; omega)
  have la := near PrefLarger (by simp only [PrefLarger]; intros; omega) (by simp only [PrefLarger]; intros; omega)
  cases mode <;> simp only [RoundsTo] at h h'
  case nearest_to_even => exact even h h'
  case nearest_to_odd => exact odd h h'
  case nearest_to_even_static_boundary => exact even h h'
  case nearest_to_odd_static_boundary => exact odd h h'
  case nearest_toward_zero => exact sm h h'
  case nearest_away_from_zero => exact la h h'
  case toward_zero => exact tz h h'
  case away_from_zero => exact az h h'
  all_goals
    cases neg <;> simp only [if_true, Bool.false_eq_true, if_false] at h h' <;>
    first | exact sm h h' | exact la h h' | exact tz h h' | exact az h h'

end Grisu.Spec

import Verif.Proofs.Widen
import Verif.Proofs.CrossReading

/-! # A `double` read as a `float`: helper lemmas -/

namespace Grisu

open Spec

theorem closer_left {a b c : ℚ} (h : a < b) : |c - a| < |c - b| ↔ c < (a + b) / 2 := by
  rw [← sq_lt_sq]
  constructor
  · intro h1
    by_contra h2
    nlinarith [mul_nonneg (sub_nonneg.mpr h.le) (sub_nonneg.mpr (not_lt.mp h2))]
  · intro h1
    nlinarith [mul_pos (sub_pos.mpr h) (sub_pos.mpr h1)]

theorem closer_right {a b c : ℚ} (h : a < b) : |c - b| < |c - a| ↔ (a + b) / 2 < c := by
  rw [← sq_lt_sq]
  constructor
  · intro h1
    by_contra h2
    nlinarith [mul_nonneg (sub_nonneg.mpr h.le) (sub_nonneg.mpr (not_lt.mp h2))]
  · intro h1
    nlinarith [mul_pos (sub_pos.mpr h) (sub_pos.mpr h1)]

theorem same_distance {a b c : ℚ} (h : a < b) : |c - a| = |c - b| ↔ c = (a + b) / 2 := by
  have h1 := closer_left (c := c) h
  have h2 := closer_right (c := c) h
  constructor
  · intro h3
    rw [h3] at h1 h2
    exact le_antisymm (not_lt.mp (h2.not.mp (lt_irrefl _))) (not_lt.mp (h1.not.mp (lt_irrefl _)))
  · intro h3
    exact le_antisymm (not_lt.mp (h2.not.mpr (by linarith))) (not_lt.mp (h1.not.mpr (by linarith)))

/-- Rounding to nearest, also to zero and to infinity, in terms of the midpoints around the result. -/
theorem nearest_all_iff {F : Fmt} {prefers : Nat → Nat → Prop} {v : ℚ} {m : Nat} :
    Nearest F prefers v m ↔ m ≤ infPattern F ∧
      (0 < m → (value F (m - 1) + value F m) / 2 < v ∨
        v = (value F (m - 1) + value F m) / 2 ∧ prefers m (m - 1)) ∧
      (m < infPattern F → v < (value F m + value F (m + 1)) / 2 ∨
        v = (value F m + value F (m + 1)) / 2 ∧ prefers m (m + 1)) := by
  have mono : ∀ {a b : Nat}, a < b → value F a < value F b := fun h => value_strictMono h
  constructor
  · rintro ⟨h1, h2⟩
    refine ⟨h1, fun h0 => ?_, fun h0 => ?_⟩
    · have hlt := mono (show m - 1 < m by omega)
      exact (h2 (m - 1) (by omega) (by omega)).imp (closer_right hlt).mp
        fun h => ⟨(same_distance hlt).mp h.1.symm, h.2⟩
    · have hlt := mono (show m < m + 1 by omega)
      exact (h2 (m + 1) (by omega) (by omega)).imp (closer_left hlt).mp
        fun h => ⟨(same_distance hlt).mp h.1, h.2⟩
  · rintro ⟨h1, h2, h3⟩
    refine ⟨h1, fun m' hm' hne => ?_⟩
    rcases Nat.lt_or_gt_of_ne hne with g | g
    · have hlt := mono g
      rcases Nat.lt_or_ge m' (m - 1) with k | k
      · refine Or.inl ((closer_right hlt).mpr ?_)
        have := mono k
        rcases h2 (by omega) with h | h
        · linarith
        · linarith [h.1]
      · obtain rfl : m' = m - 1 := by omega
        exact (h2 (by omega)).imp (closer_right hlt).mpr fun h => ⟨((same_distance hlt).mpr h.1).symm, h.2⟩
    · have hlt := mono g
      rcases Nat.lt_or_ge (m + 1) m' with k | k
      · refine Or.inl ((closer_left hlt).mpr ?_)
        have := mono k
        rcases h3 (by omega) with h | h
        · linarith
        · linarith [h.1]
      · obtain rfl : m' = m + 1 := by omega
        exact (h3 (by omega)).imp (closer_left hlt).mpr fun h => ⟨(same_distance hlt).mpr h.1, h.2⟩

/-- What reads back as a `double` is on the same side of every other `double`. -/
theorem same_side {F : Fmt} {x : Nat} (h : FiniteNonzero F x) {mode : RoundingMode} {u : ℚ} (hu : Reads F mode x u)
    {c : ℚ} (hc : ∃ y, value F y = c) (hne : c ≠ value F (mag F x)) :
    (u < c ↔ value F (mag F x) < c) ∧ (c < u ↔ c < value F (mag F x)) ∧ u ≠ c := by
  obtain ⟨y, rfl⟩ := hc
  obtain ⟨h1, h2⟩ := reads_between h hu
  rcases lt_trichotomy y (mag F x) with g | g | g
  · have k1 : value F y < value F (mag F x) := value_strictMono g
    have k2 : value F y ≤ value F (mag F x - 1) := value_strictMono.monotone (by omega)
    exact ⟨⟨fun _ => by linarith, fun _ => by linarith⟩, ⟨fun _ => k1, fun _ => by linarith⟩, by
      intro e; rw [e] at h1; linarith⟩
  · exact absurd (by rw [g]) hne
  · have k1 : value F (mag F x) < value F y := value_strictMono g
    have k2 : value F (mag F x + 1) ≤ value F y := value_strictMono.monotone (by omega)
    exact ⟨⟨fun _ => k1, fun _ => by linarith⟩, ⟨fun _ => by linarith, fun _ => by linarith⟩, by
      intro e; rw [e] at h2; linarith⟩

theorem nearest_same {P : Nat → Nat → Prop} {u v : ℚ} {m : Nat}
    (h : ∀ n < infPattern .b32, (u < (value .b32 n + value .b32 (n + 1)) / 2 ↔ v < (value .b32 n + value .b32 (n + 1)) / 2) ∧
      ((value .b32 n + value .b32 (n + 1)) / 2 < u ↔ (value .b32 n + value .b32 (n + 1)) / 2 < v) ∧
      u ≠ (value .b32 n + value .b32 (n + 1)) / 2 ∧ v ≠ (value .b32 n + value .b32 (n + 1)) / 2) :
    Nearest .b32 P u m ↔ Nearest .b32 P v m := by
  rw [nearest_all_iff, nearest_all_iff]
  refine and_congr_right fun hi => and_congr (imp_congr_right fun h0 => ?_) (imp_congr_right fun h0 => ?_)
  · have := h (m - 1) (by omega)
    rw [show m - 1 + 1 = m by omega] at this
    obtain ⟨-, a, b, c⟩ := this
    exact ⟨fun k => Or.inl (a.mp (k.resolve_right fun k => b k.1)), fun k => Or.inl (a.mpr (k.resolve_right fun k => c k.1))⟩
  · obtain ⟨a, -, b, c⟩ := h m h0
    exact ⟨fun k => Or.inl (a.mp (k.resolve_right fun k => b k.1)), fun k => Or.inl (a.mpr (k.resolve_right fun k => c k.1))⟩

/-- The `double` 0.1 is neither a `float` nor half way between two `float`s. -/
theorem tenth_not_float (n : Nat) : value .b64 (mag .b64 0x3FB999999999999A) ≠ value .b32 n ∧
    value .b64 (mag .b64 0x3FB999999999999A) ≠ (value .b32 n + value .b32 (n + 1)) / 2 := by
  have a : value .b64 (mag .b64 0x3FB999999999999A) = ((7205759403792794 : Nat) : ℚ) * 2 ^ (-56 : Int) := value_eq _
  have b : value .b32 0x3DCCCCCC = ((13421772 : Nat) : ℚ) * 2 ^ (-27 : Int) := value_eq _
  have c : value .b32 0x3DCCCCCD = ((13421773 : Nat) : ℚ) * 2 ^ (-27 : Int) := value_eq _
  have d : value .b32 0x3DCCCCCE = ((13421774 : Nat) : ℚ) * 2 ^ (-27 : Int) := value_eq _
  rw [a]
  rcases Nat.lt_or_ge n 0x3DCCCCCC with g | g
  · have h1 : value .b32 (n + 1) ≤ value .b32 0x3DCCCCCC := value_strictMono.monotone (by omega)
    have h2 := value_lt_succ (F := .b32) n
    rw [b] at h1
    constructor <;> intro e <;> norm_num at * <;> linarith
  · rcases Nat.lt_or_ge 0x3DCCCCCC n with k | k
    · have h1 : value .b32 0x3DCCCCCD ≤ value .b32 n := value_strictMono.monotone (by omega)
      have h2 := value_lt_succ (F := .b32) n
      rw [c] at h1
      constructor <;> intro e <;> norm_num at * <;> linarith
    · obtain rfl : n = 0x3DCCCCCC := by omega
      rw [b, show (0x3DCCCCCC : Nat) + 1 = 0x3DCCCCCD from rfl, c]
      constructor <;> norm_num

end Grisu

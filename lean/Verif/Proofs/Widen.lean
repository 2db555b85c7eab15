import Verif.Proofs.Value

/-! # A `float` as a `double`: helper lemmas -/

namespace Grisu.Spec

theorem sg64 (m : Nat) : sg .b64 m = if m / 2 ^ 52 = 0 then m % 2 ^ 52 else 2 ^ 52 + m % 2 ^ 52 := rfl

theorem ex64 (m : Nat) : ex .b64 m = if m / 2 ^ 52 = 0 then -1074 else -1074 + ((m / 2 ^ 52 - 1 : Nat) : Int) := rfl

theorem sg32 (m : Nat) : sg .b32 m = if m / 2 ^ 23 = 0 then m % 2 ^ 23 else 2 ^ 23 + m % 2 ^ 23 := rfl

theorem ex32 (m : Nat) : ex .b32 m = if m / 2 ^ 23 = 0 then -149 else -149 + ((m / 2 ^ 23 - 1 : Nat) : Int) := rfl

/-- Every number with a significand of 53 bits and an exponent in range is the value of a pattern. -/
theorem value64_exists (k : Nat) : ∀ N : Nat, N < 2 ^ 53 → ∃ c, value .b64 c = (N : ℚ) * 2 ^ ((k : Int) - 1074) := by
  induction k with
  | zero =>
    intro N hN
    refine ⟨N, ?_⟩
    rw [value_eq, sg64, ex64]
    by_cases h : N < 2 ^ 52
    · rw [if_pos (Nat.div_eq_of_lt h), if_pos (Nat.div_eq_of_lt h), Nat.mod_eq_of_lt h]
      norm_num
    · have h1 : N / 2 ^ 52 = 1 := by omega
      rw [if_neg (by omega), if_neg (by omega), h1, show 2 ^ 52 + N % 2 ^ 52 = N by omega]
      norm_num
  | succ k ih =>
    intro N hN
    by_cases h : N < 2 ^ 52
    · obtain ⟨c, hc⟩ := ih (2 * N) (by omega)
      refine ⟨c, hc.trans ?_⟩
      rw [show (((k + 1 : Nat) : Int) - 1074) = ((k : Int) - 1074) + 1 by push_cast; ring, zpow_add_one₀ (by norm_num)]
      push_cast
      ring
    · refine ⟨(k + 2) * 2 ^ 52 + (N - 2 ^ 52), ?_⟩
      have h1 : ((k + 2) * 2 ^ 52 + (N - 2 ^ 52)) / 2 ^ 52 = k + 2 := by omega
      have h2 : ((k + 2) * 2 ^ 52 + (N - 2 ^ 52)) % 2 ^ 52 = N - 2 ^ 52 := by omega
      rw [value_eq, sg64, ex64, h1, h2, if_neg (by omega), if_neg (by omega), show 2 ^ 52 + (N - 2 ^ 52) = N by omega,
        show k + 2 - 1 = k + 1 by omega]
      congr 2

theorem ex32_ge (m : Nat) : -149 ≤ ex .b32 m := by
  rw [ex32]
  split <;> omega

theorem sg32_lt (m : Nat) : sg .b32 m < 2 ^ 24 := by
  rw [sg32]
  split <;> omega

/-- The value of a `float` is that of a `double`. -/
theorem value32_is (m : Nat) : ∃ c, value .b64 c = value .b32 m := by
  obtain ⟨c, hc⟩ := value64_exists (ex .b32 m + 1074).toNat (sg .b32 m) (by have := sg32_lt m; omega)
  refine ⟨c, hc.trans ?_⟩
  have := ex32_ge m
  rw [value_eq, show (((ex .b32 m + 1074).toNat : Nat) : Int) - 1074 = ex .b32 m by omega]

/-- So is the midpoint of two neighbouring `float`s. -/
theorem mid32_is (m : Nat) : ∃ c, value .b64 c = (value .b32 m + value .b32 (m + 1)) / 2 := by
  obtain ⟨c, hc⟩ := value64_exists (ex .b32 m + 1073).toNat (2 * sg .b32 m + 1) (by have := sg32_lt m; omega)
  refine ⟨c, hc.trans ?_⟩
  have := ex32_ge m
  rw [value_succ, value_eq, show (((ex .b32 m + 1073).toNat : Nat) : Int) - 1074 = ex .b32 m - 1 by omega,
    zpow_sub_one₀ (by norm_num)]
  push_cast
  ring

/-- A number that reads as a `double` equal to a `float` is strictly between the midpoints around the `float`. -/
theorem between_mids {m y : Nat} (hv : value .b32 m = value .b64 y) (hm : 0 < m) {v : ℚ}
    (h1 : (value .b64 (y - 1) + value .b64 y) / 2 ≤ v) (h2 : v ≤ (value .b64 y + value .b64 (y + 1)) / 2) :
    (value .b32 (m - 1) + value .b32 m) / 2 < v ∧ v < (value .b32 m + value .b32 (m + 1)) / 2 := by
  have hlt : value .b32 m < value .b32 (m + 1) := value_lt_succ m
  have hlt' : value .b32 (m - 1) < value .b32 m := value_strictMono (by omega)
  have hy : value .b64 y < value .b64 (y + 1) := value_lt_succ y
  constructor
  · obtain ⟨c, hc⟩ := mid32_is (m - 1)
    rw [show m - 1 + 1 = m by omega] at hc
    have hcy : c < y := value_strictMono.lt_iff_lt.mp (show value .b64 c < value .b64 y by rw [hc, ← hv]; linarith)
    have h3 : value .b64 c ≤ value .b64 (y - 1) := value_strictMono.monotone (by omega)
    have h4 : value .b64 (y - 1) < value .b64 y := value_strictMono (by omega)
    rw [hc] at h3
    linarith
  · obtain ⟨c, hc⟩ := mid32_is m
    have hcy : y < c := value_strictMono.lt_iff_lt.mp (show value .b64 y < value .b64 c by rw [hc, ← hv]; linarith)
    have h3 : value .b64 (y + 1) ≤ value .b64 c := value_strictMono.monotone (by omega)
    rw [hc] at h3
    linarith

/-- Rounding to nearest as a `double` implies it as a `float`, whatever is done at a tie. -/
theorem nearest_widen {m y : Nat} (hv : value .b32 m = value .b64 y) (hm : 0 < m) (hm' : m < infPattern .b32) (hy : 0 < y)
    (hy' : y < infPattern .b64) {P Q : Nat → Nat → Prop} {v : ℚ} (h : Nearest .b64 P v y) : Nearest .b32 Q v m := by
  obtain ⟨h1, h2⟩ := (nearest_iff hy hy').mp h
  obtain ⟨h3, h4⟩ := between_mids hv hm (h1.elim le_of_lt fun h => h.1.le) (h2.elim le_of_lt fun h => h.1.le)
  exact (nearest_iff hm hm').mpr ⟨Or.inl h3, Or.inl h4⟩

theorem toward_widen {m y : Nat} (hv : value .b32 m = value .b64 y) (hm' : m < infPattern .b32) {v : ℚ}
    (h : TowardZero .b64 v y) : TowardZero .b32 v m := by
  obtain ⟨-, h1, h2⟩ := h
  refine ⟨hm', hv ▸ h1, h2.trans_le ?_⟩
  obtain ⟨c, hc⟩ := value32_is (m + 1)
  rw [← hc]
  refine value_strictMono.monotone (Nat.succ_le_of_lt (value_strictMono.lt_iff_lt.mp (?_ : value .b64 y < value .b64 c)))
  rw [hc, ← hv]
  exact value_lt_succ m

theorem away_widen {m y : Nat} (hv : value .b32 m = value .b64 y) (hm : 0 < m) (hm' : m < infPattern .b32) {v : ℚ}
    (h : AwayFromZero .b64 v y) : AwayFromZero .b32 v m := by
  obtain ⟨hy, -, h1, h2⟩ := h
  refine ⟨hm, hm'.le, lt_of_le_of_lt ?_ h1, hv ▸ h2⟩
  obtain ⟨c, hc⟩ := value32_is (m - 1)
  rw [← hc]
  refine value_strictMono.monotone (Nat.le_sub_one_of_lt (value_strictMono.lt_iff_lt.mp (?_ : value .b64 c < value .b64 y)))
  rw [hc, ← hv]
  exact value_strictMono (by omega)

end Grisu.Spec

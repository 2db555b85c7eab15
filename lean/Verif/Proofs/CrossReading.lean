import Verif.Proofs.Best

/-! # Reading in another rounding mode: lemmas -/

namespace Grisu

open Spec (RoundsTo Nearest value mag isNeg infPattern FiniteNonzero dec IsNearest IsAway IsTruncating PrefEven PrefOdd
  PrefSmaller PrefLarger)

variable {F : Fmt} {x : Nat}

/-- What reads back as `x` lies between the two neighbours of `x`. -/
theorem reads_between (h : FiniteNonzero F x) {mode : RoundingMode} {v : ℚ} (hr : Reads F mode x v) :
    value F (mag F x - 1) < v ∧ v < value F (mag F x + 1) := by
  have hp := h.nonzero
  have hup := Spec.value_lt_succ (F := F) (mag F x)
  have hdn : value F (mag F x - 1) < value F (mag F x) := Spec.value_strictMono (by omega)
  have near : ∀ prefers, Nearest F prefers v (mag F x) → value F (mag F x - 1) < v ∧ v < value F (mag F x + 1) := by
    intro prefers hn
    obtain ⟨h1, h2⟩ := (Spec.nearest_iff hp h.finite).mp hn
    have h1' : (value F (mag F x - 1) + value F (mag F x)) / 2 ≤ v := h1.elim le_of_lt fun h => h.1.le
    have h2' : v ≤ (value F (mag F x) + value F (mag F x + 1)) / 2 := h2.elim le_of_lt fun h => h.1.le
    constructor <;> linarith
  have zero : Spec.TowardZero F v (mag F x) → value F (mag F x - 1) < v ∧ v < value F (mag F x + 1) :=
    fun ⟨_, h1, h2⟩ => ⟨hdn.trans_le h1, h2⟩
  have away : Spec.AwayFromZero F v (mag F x) → value F (mag F x - 1) < v ∧ v < value F (mag F x + 1) :=
    fun ⟨_, _, h1, h2⟩ => ⟨h1, h2.trans_lt hup⟩
  unfold Reads RoundsTo at hr
  cases mode <;> simp only [] at hr <;> first
    | exact near _ hr
    | exact zero hr
    | exact away hr
    | (split at hr <;> first | exact near _ hr | exact zero hr | exact away hr)

/-- Rounding to nearest between two neighbours. -/
theorem nearest_between {prefers : Nat → Nat → Prop} {v : ℚ} {n : Nat} (hn : n < infPattern F) (h1 : value F n ≤ v)
    (h2 : v ≤ value F (n + 1)) (hp : prefers n (n + 1) ∨ prefers (n + 1) n) :
    (v ≤ (value F n + value F (n + 1)) / 2 ∧ Nearest F prefers v n) ∨
    ((value F n + value F (n + 1)) / 2 ≤ v ∧ Nearest F prefers v (n + 1)) := by
  have hlt := Spec.value_lt_succ (F := F) n
  have low : ∀ m < n, value F m < value F n := fun m h => Spec.value_strictMono h
  have high : ∀ m, n + 1 < m → value F (n + 1) < value F m := fun m h => Spec.value_strictMono h
  have a1 : |v - value F n| = v - value F n := abs_of_nonneg (by linarith)
  have a2 : |v - value F (n + 1)| = value F (n + 1) - v := by rw [abs_sub_comm]; exact abs_of_nonneg (by linarith)
  have lower : v < (value F n + value F (n + 1)) / 2 ∨ v = (value F n + value F (n + 1)) / 2 ∧ prefers n (n + 1) →
      Nearest F prefers v n := by
    intro hv
    have hv' : v ≤ (value F n + value F (n + 1)) / 2 := hv.elim le_of_lt fun h => h.1.le
    refine ⟨hn.le, fun m hm hne => ?_⟩
    rw [a1]
    rcases lt_trichotomy m (n + 1) with g | rfl | g
    · have := low m (by omega)
      rw [abs_of_nonneg (by linarith)]
      exact Or.inl (by linarith)
    · rw [a2]
      exact hv.imp (fun h => by linarith) fun h => ⟨by linarith [h.1], h.2⟩
    · have := high m g
      rw [abs_sub_comm, abs_of_nonneg (by linarith)]
      exact Or.inl (by linarith)
  have upper : (value F n + value F (n + 1)) / 2 < v ∨ v = (value F n + value F (n + 1)) / 2 ∧ prefers (n + 1) n →
      Nearest F prefers v (n + 1) := by
    intro hv
    have hv' : (value F n + value F (n + 1)) / 2 ≤ v := hv.elim le_of_lt fun h => h.1.ge
    refine ⟨hn, fun m hm hne => ?_⟩
    rw [a2]
    rcases lt_trichotomy m n with g | rfl | g
    · have := low m g
      rw [abs_of_nonneg (by linarith)]
      exact Or.inl (by linarith)
    · rw [a1]
      exact hv.imp (fun h => by linarith) fun h => ⟨by linarith [h.1], h.2⟩
    · have := high m (by omega)
      rw [abs_sub_comm, abs_of_nonneg (by linarith)]
      exact Or.inl (by linarith)
  rcases lt_trichotomy v ((value F n + value F (n + 1)) / 2) with g | g | g
  · exact Or.inl ⟨g.le, lower (Or.inl g)⟩
  · rcases hp with hp | hp
    · exact Or.inl ⟨g.le, lower (Or.inr ⟨g, hp⟩)⟩
    · exact Or.inr ⟨g.ge, upper (Or.inr ⟨g, hp⟩)⟩
  · exact Or.inr ⟨g.le, upper (Or.inl g)⟩

/-- How a number `v` between the neighbours `n` and `n + 1` is read. -/
def ReadBetween (F : Fmt) (mode : RoundingMode) (neg : Bool) (v : ℚ) (n m : Nat) : Prop :=
  (m = n ∨ m = n + 1 ∧ v ≠ value F n) ∧
    (IsTruncating neg mode = true → m = n) ∧ (IsAway neg mode = true → v ≠ value F n → m = n + 1) ∧
    (IsNearest mode = true → v < (value F n + value F (n + 1)) / 2 → m = n) ∧
    (IsNearest mode = true → (value F n + value F (n + 1)) / 2 < v → m = n + 1)

/-- Every positive number between two neighbours is read as one of them. -/
theorem rounds_between (mode : RoundingMode) (neg : Bool) {v : ℚ} {n : Nat} (hn : n < infPattern F)
    (h1 : value F n ≤ v) (h2 : v < value F (n + 1)) (h0 : 0 < v) :
    ∃ m, RoundsTo F mode neg v m ∧ ReadBetween F mode neg v n m := by
  have hlt := Spec.value_lt_succ (F := F) n
  have near : ∀ prefers : Nat → Nat → Prop, (∀ k, prefers k (k + 1) ∨ prefers (k + 1) k) →
      ∃ m, Nearest F prefers v m ∧ (m = n ∨ m = n + 1 ∧ v ≠ value F n) ∧
        (v < (value F n + value F (n + 1)) / 2 → m = n) ∧ ((value F n + value F (n + 1)) / 2 < v → m = n + 1) := by
    intro prefers hp
    rcases nearest_between hn h1 h2.le (hp n) with ⟨g, g'⟩ | ⟨g, g'⟩
    · exact ⟨n, g', Or.inl rfl, fun _ => rfl, fun h => absurd h (not_lt.mpr g)⟩
    · exact ⟨n + 1, g', Or.inr ⟨rfl, by intro h; rw [h] at g; linarith⟩, fun h => absurd h (not_lt.mpr g), fun _ => rfl⟩
  have even : ∀ k, PrefEven k (k + 1) ∨ PrefEven (k + 1) k := fun k => by unfold PrefEven; omega
  have odd : ∀ k, PrefOdd k (k + 1) ∨ PrefOdd (k + 1) k := fun k => by unfold PrefOdd; omega
  have smaller : ∀ k, PrefSmaller k (k + 1) ∨ PrefSmaller (k + 1) k := fun k => by unfold PrefSmaller; omega
  have larger : ∀ k, PrefLarger k (k + 1) ∨ PrefLarger (k + 1) k := fun k => by unfold PrefLarger; omega
  have zero : Spec.TowardZero F v n := ⟨hn, h1, h2⟩
  have away : ∃ m, Spec.AwayFromZero F v m ∧ (m = n ∨ m = n + 1 ∧ v ≠ value F n) ∧ (v ≠ value F n → m = n + 1) := by
    by_cases he : v = value F n
    · have hpos : 0 < n := by
        rcases Nat.eq_zero_or_pos n with rfl | h
        · rw [he, Spec.value_zero] at h0
          exact absurd h0 (lt_irrefl _)
        · exact h
      exact ⟨n, ⟨hpos, hn.le, by rw [he]; exact Spec.value_strictMono (by omega), he.le⟩, Or.inl rfl, fun h => absurd he h⟩
    · exact ⟨n + 1, ⟨by omega, hn, lt_of_le_of_ne h1 (Ne.symm he), h2.le⟩, Or.inr ⟨rfl, he⟩, fun _ => rfl⟩
  have fnear : ∀ {prefers : Nat → Nat → Prop}, (∀ k, prefers k (k + 1) ∨ prefers (k + 1) k) →
      RoundsTo F mode neg v = Nearest F prefers v → IsTruncating neg mode = false → IsAway neg mode = false →
      ∃ m, RoundsTo F mode neg v m ∧ ReadBetween F mode neg v n m := by
    intro prefers hp e ht ha
    obtain ⟨m, g1, g2, g3, g4⟩ := near prefers hp
    exact ⟨m, e ▸ g1, g2, fun h => by simp [ht] at h, fun h => by simp [ha] at h, fun _ => g3, fun _ => g4⟩
  have fzero : RoundsTo F mode neg v = Spec.TowardZero F v → IsAway neg mode = false → IsNearest mode = false →
      ∃ m, RoundsTo F mode neg v m ∧ ReadBetween F mode neg v n m := by
    intro e ha hne
    exact ⟨n, e ▸ zero, Or.inl rfl, fun _ => rfl, fun h => by simp [ha] at h, fun h => by simp [hne] at h,
      fun h => by simp [hne] at h⟩
  have faway : RoundsTo F mode neg v = Spec.AwayFromZero F v → IsTruncating neg mode = false → IsNearest mode = false →
      ∃ m, RoundsTo F mode neg v m ∧ ReadBetween F mode neg v n m := by
    intro e ht hne
    obtain ⟨m, g1, g2, g3⟩ := away
    exact ⟨m, e ▸ g1, g2, fun h => by simp [ht] at h, fun _ => g3, fun h => by simp [hne] at h,
      fun h => by simp [hne] at h⟩
  cases mode <;> cases neg <;> first
    | exact fnear even rfl rfl rfl
    | exact fnear odd rfl rfl rfl
    | exact fnear smaller rfl rfl rfl
    | exact fnear larger rfl rfl rfl
    | exact fzero rfl rfl rfl
    | exact faway rfl rfl rfl

end Grisu

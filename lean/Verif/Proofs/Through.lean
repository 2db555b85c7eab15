import Verif.Proofs.Narrow

/-! # Reading a `float` by way of a `double`: lemmas -/

namespace Grisu

open Spec

/-- A to-nearest mode is a preference at ties, the same for both formats. -/
theorem nearest_mode {mode : RoundingMode} (hm : IsNearest mode = true) (neg : Bool) :
    ∃ P, ∀ F v m, RoundsTo F mode neg v m ↔ Nearest F P v m := by
  cases mode <;> first
    | (exact absurd hm (by decide))
    | (cases neg <;> exact ⟨_, fun _ _ _ => Iff.rfl⟩)

/-- A directed mode goes toward zero or away from it, the same for both formats. -/
theorem directed_mode {mode : RoundingMode} (hm : IsNearest mode = false) (neg : Bool) :
    (∀ F v m, RoundsTo F mode neg v m ↔ TowardZero F v m) ∨ (∀ F v m, RoundsTo F mode neg v m ↔ AwayFromZero F v m) := by
  cases mode <;> first
    | (exact absurd hm (by decide))
    | (cases neg <;> first
        | exact Or.inl fun _ _ _ => Iff.rfl
        | exact Or.inr fun _ _ _ => Iff.rfl)

theorem through_zero {u : ℚ} {m w : Nat} (h : TowardZero .b32 u m) (hw : TowardZero .b64 u w) :
    TowardZero .b32 (value .b64 w) m := by
  obtain ⟨h1, h2, h3⟩ := h
  obtain ⟨-, g2, g3⟩ := hw
  obtain ⟨c, hc⟩ := value32_is m
  refine ⟨h1, ?_, g2.trans_lt h3⟩
  rw [← hc] at h2 ⊢
  refine value_strictMono.monotone ?_
  by_contra hlt
  have : value .b64 (w + 1) ≤ value .b64 c := value_strictMono.monotone (by omega)
  linarith

theorem through_away {u : ℚ} {m w : Nat} (h : AwayFromZero .b32 u m) (hw : AwayFromZero .b64 u w) :
    AwayFromZero .b32 (value .b64 w) m := by
  obtain ⟨h0, h1, h2, h3⟩ := h
  obtain ⟨g0, -, g2, g3⟩ := hw
  obtain ⟨c, hc⟩ := value32_is m
  refine ⟨h0, h1, h2.trans_le g3, ?_⟩
  rw [← hc] at h3 ⊢
  refine value_strictMono.monotone ?_
  by_contra hlt
  have : value .b64 c ≤ value .b64 (w - 1) := value_strictMono.monotone (by omega)
  linarith

/-- Rounding to nearest does not pass a floating-point number. -/
theorem nearest_ge {F : Fmt} {P : Nat → Nat → Prop} {u : ℚ} {w c : Nat} (hw : Nearest F P u w) (hc : c ≤ infPattern F)
    (h : value F c ≤ u) : value F c ≤ value F w := by
  by_contra hlt
  have hlt := not_le.mp hlt
  have : c ≠ w := by rintro rfl; exact lt_irrefl _ hlt
  have e1 : |u - value F w| = u - value F w := abs_of_nonneg (by linarith)
  have e2 : |u - value F c| = u - value F c := abs_of_nonneg (by linarith)
  rcases hw.2 c hc this with g | g
  · rw [e1, e2] at g; linarith
  · rw [e1, e2] at g; linarith [g.1]

theorem nearest_le {F : Fmt} {P : Nat → Nat → Prop} {u : ℚ} {w c : Nat} (hw : Nearest F P u w) (hc : c ≤ infPattern F)
    (h : u ≤ value F c) : value F w ≤ value F c := by
  by_contra hlt
  have hlt := not_le.mp hlt
  have : c ≠ w := by rintro rfl; exact lt_irrefl _ hlt
  have e1 : |u - value F w| = value F w - u := by rw [abs_of_nonpos (by linarith)]; ring
  have e2 : |u - value F c| = value F c - u := by rw [abs_of_nonpos (by linarith)]; ring
  rcases hw.2 c hc this with g | g
  · rw [e1, e2] at g; linarith
  · rw [e1, e2] at g; linarith [g.1]

/-- The midpoints of neighbouring `float`s are finite `double`s. -/
theorem mid32_finite {n : Nat} (hn : n < infPattern .b32) :
    ∃ c ≤ infPattern .b64, value .b64 c = (value .b32 n + value .b32 (n + 1)) / 2 := by
  obtain ⟨c, hc⟩ := mid32_is n
  refine ⟨c, ?_, hc⟩
  by_contra hlt
  have h1 : value .b64 (infPattern .b64) < value .b64 c := value_strictMono (by omega)
  have h2 : value .b32 n ≤ value .b32 (infPattern .b32) := value_strictMono.monotone hn.le
  have h3 : value .b32 (n + 1) ≤ value .b32 (infPattern .b32) := value_strictMono.monotone hn
  have h4 : value .b32 (infPattern .b32) < value .b64 (infPattern .b64) := by
    have a : value .b32 (infPattern .b32) = ((8388608 : Nat) : ℚ) * 2 ^ (105 : Int) := value_eq _
    have b : value .b64 (infPattern .b64) = ((4503599627370496 : Nat) : ℚ) * 2 ^ (972 : Int) := value_eq _
    rw [a, b, show (972 : Int) = 105 + 867 by rfl, zpow_add₀ (by norm_num)]
    have c1 : (1 : ℚ) ≤ 2 ^ (867 : Int) := one_le_zpow₀ (by norm_num) (by norm_num)
    have c2 : (0 : ℚ) < 2 ^ (105 : Int) := by positivity
    generalize (2 : ℚ) ^ (867 : Int) = q at *
    generalize (2 : ℚ) ^ (105 : Int) = p at *
    push_cast
    nlinarith [mul_le_mul_of_nonneg_left c1 c2.le]
  linarith

theorem through_nearest {P P' P'' : Nat → Nat → Prop} {u : ℚ} {m w : Nat} (h : Nearest .b32 P u m)
    (hw : Nearest .b64 P' u w) :
    Nearest .b32 P'' (value .b64 w) m ∨ (0 < m ∧ value .b64 w = (value .b32 (m - 1) + value .b32 m) / 2) ∨
      (m < infPattern .b32 ∧ value .b64 w = (value .b32 m + value .b32 (m + 1)) / 2) := by
  rw [nearest_all_iff] at h ⊢
  obtain ⟨h1, h2, h3⟩ := h
  by_cases c1 : 0 < m ∧ value .b64 w = (value .b32 (m - 1) + value .b32 m) / 2
  · exact Or.inr (Or.inl c1)
  by_cases c2 : m < infPattern .b32 ∧ value .b64 w = (value .b32 m + value .b32 (m + 1)) / 2
  · exact Or.inr (Or.inr c2)
  refine Or.inl ⟨h1, fun h0 => Or.inl ?_, fun h0 => Or.inl ?_⟩
  · obtain ⟨c, g1, g2⟩ := mid32_finite (n := m - 1) (by omega)
    rw [show m - 1 + 1 = m by omega] at g2
    have g3 := nearest_ge hw g1 (by rw [g2]; exact (h2 h0).elim le_of_lt fun k => k.1.ge)
    rw [g2] at g3
    exact lt_of_le_of_ne g3 fun e => c1 ⟨h0, e.symm⟩
  · obtain ⟨c, g1, g2⟩ := mid32_finite h0
    have g3 := nearest_le hw g1 (by rw [g2]; exact (h3 h0).elim le_of_lt fun k => k.1.le)
    rw [g2] at g3
    exact lt_of_le_of_ne g3 fun e => c2 ⟨h0, e⟩

end Grisu

import Verif.Proofs.Best

/-! # The unit of the last digit and the spacing of the floating-point numbers: lemmas -/

namespace Grisu

open Spec (value mag isNeg FiniteNonzero dec)

variable {F : Fmt} {x : Nat} {s : Nat} {t : Int}

/-- A wide enough interval contains a multiple of a power of ten in its interior. -/
theorem multiple_inside {lo hi : ℚ} {k : Int} (h0 : 0 ≤ lo) (h : lo + 10 ^ k < hi) : ∃ n : Nat, lo < dec n k ∧ dec n k < hi := by
  have hT := ten_zpow_pos k
  refine ⟨⌊lo / 10 ^ k⌋₊ + 1, ?_, ?_⟩
  · have := Nat.lt_floor_add_one (lo / 10 ^ k)
    rw [div_lt_iff₀ hT] at this
    unfold dec
    push_cast
    exact this
  · have := Nat.floor_le (div_nonneg h0 hT.le)
    rw [le_div_iff₀ hT] at this
    unfold dec
    push_cast
    linarith

/-- The set of numbers that read back as an input is at least as wide as the distance to the next smaller number, and the
input is a multiple of that distance. -/
theorem gap_le_width (h : FiniteNonzero F x) (tag : Tag) :
    value F (mag F x) - value F (mag F x - 1) ≤ (frOf F tag x : ℚ) * ulpq F x - flOf F tag x * ulpq F x ∧
    ∃ n : Nat, value F (mag F x) = n * (value F (mag F x) - value F (mag F x - 1)) := by
  have hx := FiniteNonzero.lt h
  have hp := ulpq_pos (F := F) (x := x)
  have hpos := (FiniteNonzero.input h).pos
  have h2 := two_pow_ex hx
  by_cases hc : Spec.Closer F (mag F x)
  · have he := (closer_iff hx).mp hc
    have hg : value F (mag F x) - value F (mag F x - 1) = 2 * ulpq F x := by
      rw [Spec.value_pred_closer hc, Spec.value_eq, h2]
      ring
    refine ⟨?_, 2 * sigOf F x, ?_⟩
    · rw [hg, ← sub_mul]
      refine mul_le_mul_of_nonneg_right ?_ hp.le
      have hw : flOf F tag x + 2 ≤ frOf F tag x := by
        cases tag <;> simp only [frOf, flOf, he, if_true] <;> omega
      have : (flOf F tag x : ℚ) + 2 ≤ frOf F tag x := by exact_mod_cast hw
      linarith
    · rw [hg, value_mag hx]
      push_cast
      ring
  · have he : ¬ isEdge F x = true := fun g => hc ((closer_iff hx).mpr g)
    have hg : value F (mag F x) - value F (mag F x - 1) = 4 * ulpq F x := by
      rw [Spec.value_pred_generic h.nonzero hc, Spec.value_eq, h2]
      ring
    refine ⟨?_, sigOf F x, ?_⟩
    · rw [hg, ← sub_mul]
      refine mul_le_mul_of_nonneg_right ?_ hp.le
      have hw : flOf F tag x + 4 ≤ frOf F tag x := by
        cases tag <;> simp only [frOf, flOf, if_neg he] <;> omega
      have : (flOf F tag x : ℚ) + 4 ≤ frOf F tag x := by exact_mod_cast hw
      linarith
    · rw [hg, value_mag hx]
      push_cast
      ring

/-- Ten units of the last digit are more than the distance to the next smaller number. -/
theorem last_core (h : FiniteNonzero F x) {mode : RoundingMode} (o : Output (Reads F mode x) s t) :
    value F (mag F x) - value F (mag F x - 1) < 10 ^ (t + 1) := by
  by_contra hc
  obtain ⟨hw, n, hn⟩ := gap_le_width h (mode.provider F x).tag
  have hp := ulpq_pos (F := F) (x := x)
  rcases (not_lt.mp hc).lt_or_eq with hlt | heq
  · obtain ⟨d, d1, d2⟩ := multiple_inside (lo := (flOf F (mode.provider F x).tag x : ℚ) * ulpq F x)
      (hi := (frOf F (mode.provider F x).tag x : ℚ) * ulpq F x) (k := t + 1) (by positivity) (by linarith)
    refine o.noMult d (t + 1) (by omega) ?_
    rw [reads_eq h]
    exact ⟨Or.inl d1, Or.inl d2⟩
  · refine o.noMult n (t + 1) (by omega) ?_
    have : dec n (t + 1) = value F (mag F x) := by
      unfold dec
      rw [heq, ← hn]
    rw [this]
    exact value_reads h mode

/-- A multiple of a power of ten is printed as a multiple of it. -/
theorem multiple_core (h : FiniteNonzero F x) {mode : RoundingMode} (o : Output (Reads F mode x) s t) {d : Nat} {k : Int}
    (hv : value F (mag F x) = dec d k) : k ≤ t := by
  by_contra hc
  exact o.noMult d k (by omega) (hv ▸ value_reads h mode)

end Grisu

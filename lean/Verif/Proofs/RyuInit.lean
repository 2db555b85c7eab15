import Verif.Proofs.RyuCore
import Mathlib.Tactic.FieldSimp

/-!
# Ryu: the initial state of the loops, from integer facts

The scale is `A / B`; the value and the boundaries are `4 * m`, `4 * m - 1 - s` and `4 * m + 2` in units of the scale.
-/

namespace Grisu.Ryu

/-- The facts about the initial state, about natural numbers. -/
structure Init (A B m s R M P : Nat) (acc f0 z0 : Bool) (last0 : Nat) : Prop where
  B_pos : 0 < B
  B_le : B ≤ A
  m_pos : 0 < m
  s_le : s ≤ 1
  R_eq : R = 4 * m * A / B
  M_eq : M = (4 * m - 1 - s) * A / B
  P_eq : (P = (4 * m + 2) * A / B ∧ (acc = true ∨ ¬ 10 * B ∣ (4 * m + 2) * A)) ∨
    (P = (4 * m + 2) * A / B - 1 ∧ acc = false ∧ B ∣ (4 * m + 2) * A)
  f0_imp : f0 = true → acc = true ∧ B ∣ (4 * m - 1 - s) * A
  imp_f0 : acc = true → 10 * B ∣ (4 * m - 1 - s) * A → f0 = true
  z0_imp : z0 = true → B ∣ 4 * m * A ∨ (2 * (4 * m * A) = (2 * R + 1) * B ∧ R % 5 = 2)
  imp_z0 : 5 * B ∣ 4 * m * A → z0 = true
  last0_ok : last0 = 0 ∨ last0 = 10 * (4 * m * A) / B % 10
  stop0 : P / 10 ≤ M / 10 → last0 = 10 * (4 * m * A) / B % 10 ∧ (2 * (4 * m * A) = (2 * R + 1) * B → z0 = true)

theorem div_le_q {n B : Nat} (hB : 0 < B) : ((n / B : Nat) : ℚ) ≤ (n : ℚ) / B ∧ (n : ℚ) / B < (n / B : Nat) + 1 := by
  have hB' : (0 : ℚ) < B := by exact_mod_cast hB
  constructor
  · rw [le_div_iff₀ hB']
    exact_mod_cast Nat.div_mul_le_self n B
  · rw [div_lt_iff₀ hB']
    have : n < (n / B + 1) * B := by
      have := Nat.lt_mul_div_succ n hB
      rw [mul_comm] at this
      exact this
    exact_mod_cast this

theorem div_eq_iff_nat {n B k : Nat} (hB : 0 < B) : (n : ℚ) / B = k ↔ n = k * B := by
  have hB' : (B : ℚ) ≠ 0 := by exact_mod_cast hB.ne'
  rw [div_eq_iff hB']
  exact_mod_cast Iff.rfl

theorem lt_div_iff_nat {n B k : Nat} (hB : 0 < B) : (k : ℚ) < (n : ℚ) / B ↔ k * B < n := by
  have hB' : (0 : ℚ) < B := by exact_mod_cast hB
  rw [lt_div_iff₀ hB']
  exact_mod_cast Iff.rfl

theorem Init.core {A B m s R M P : Nat} {acc f0 z0 : Bool} {last0 : Nat} (h : Init A B m s R M P acc f0 z0 last0) :
    Core (((4 * m - 1 - s) * A : Nat) / B) ((4 * m * A : Nat) / B) (((4 * m + 2) * A : Nat) / B)
      R M P acc f0 z0 last0 := by
  have hB := h.B_pos
  have hB' : (0 : ℚ) < B := by exact_mod_cast hB
  have hm := h.m_pos
  have hs := h.s_le
  have hle : 1 + s ≤ 4 * m := by omega
  have d1 := div_le_q (n := 4 * m * A) hB
  have d2 := div_le_q (n := (4 * m - 1 - s) * A) hB
  have hAB : (B : ℚ) ≤ A := by exact_mod_cast h.B_le
  have eL : (((4 * m - 1 - s) * A : Nat) : ℚ) = (4 * m - 1 - s) * A := by
    rw [Nat.sub_sub, Nat.cast_mul, Nat.cast_sub hle]; push_cast; ring
  have eX : ((4 * m * A : Nat) : ℚ) = 4 * m * A := by push_cast; ring
  have eU : (((4 * m + 2) * A : Nat) : ℚ) = (4 * m + 2) * A := by push_cast; ring
  have dif1 : ((4 * m * A : Nat) : ℚ) / B - (((4 * m - 1 - s) * A : Nat) : ℚ) / B = (1 + s) * (A / B) := by
    rw [eL, eX]; field_simp; ring
  have dif2 : (((4 * m + 2) * A : Nat) : ℚ) / B - ((4 * m * A : Nat) : ℚ) / B = 2 * (A / B) := by
    rw [eU, eX]; field_simp; ring
  have hone : (1 : ℚ) ≤ A / B := by rw [le_div_iff₀ hB']; linarith
  have hs1 : (s : ℚ) ≤ 1 := by exact_mod_cast hs
  have hs0 : (0 : ℚ) ≤ s := Nat.cast_nonneg s
  have hD : ∀ D : Nat, D = 10 * (4 * m * A) / B →
      (D : ℚ) ≤ 10 * (((4 * m * A : Nat) : ℚ) / B) ∧ 10 * (((4 * m * A : Nat) : ℚ) / B) < D + 1 := by
    intro D e
    have d3 := div_le_q (n := 10 * (4 * m * A)) hB
    have : ((10 * (4 * m * A) : Nat) : ℚ) / B = 10 * (((4 * m * A : Nat) : ℚ) / B) := by push_cast; ring
    rw [this, ← e] at d3
    exact d3
  refine ⟨?_, ?_, ?_, ?_, ?_, ?_, ?_, ?_, ?_, ?_, ?_, ?_, ?_⟩
  · rw [h.R_eq]; exact d1.1
  · rw [h.R_eq]; exact d1.2
  · rw [h.M_eq]; exact d2.1
  · rw [h.M_eq]; exact d2.2
  · rw [dif1]; nlinarith
  · rw [dif1, dif2]; nlinarith
  · intro t
    have e1 : (10 * t : ℚ) < (((4 * m + 2) * A : Nat) : ℚ) / B ↔ 10 * t * B < (4 * m + 2) * A := by
      rw [← lt_div_iff_nat hB]; push_cast; rfl
    have e2 : (10 * t : ℚ) = (((4 * m + 2) * A : Nat) : ℚ) / B ↔ (4 * m + 2) * A = 10 * t * B := by
      rw [← div_eq_iff_nat hB]; push_cast; exact eq_comm
    rw [e1, e2]
    have hP := h.P_eq
    have hu0 : 0 < (4 * m + 2) * A := Nat.mul_pos (by omega) (lt_of_lt_of_le hB h.B_le)
    clear eU dif2
    generalize (4 * m + 2) * A = u at *
    have e3 : 10 * t ≤ u / B ↔ 10 * t * B ≤ u := Nat.le_div_iff_mul_le hB
    rcases hP with ⟨p1, p2⟩ | ⟨p1, p2, p3⟩
    · rw [p1, e3]
      constructor
      · intro g
        rcases Nat.lt_or_eq_of_le g with g | g
        · exact Or.inl g
        · refine Or.inr ⟨g.symm, ?_⟩
          rcases p2 with p2 | p2
          · exact p2
          · exact absurd ⟨t, by rw [← g]; ring⟩ p2
      · rintro (g | g)
        · exact g.le
        · exact g.1.ge
    · obtain ⟨w, hw⟩ := p3
      have hu : u / B = w := by rw [hw]; exact Nat.mul_div_cancel_left _ hB
      rw [p1, hu, p2]
      have hw0 : 0 < w := by
        rcases Nat.eq_zero_or_pos w with h0 | h0
        · rw [hw, h0, mul_zero] at hu0
          exact absurd hu0 (lt_irrefl 0)
        · exact h0
      constructor
      · intro g
        left
        rw [hw, mul_comm B]
        exact Nat.mul_lt_mul_of_pos_right (by omega) hB
      · rintro (g | g)
        · rw [hw, mul_comm B] at g
          have := Nat.lt_of_mul_lt_mul_right g
          omega
        · exact absurd g.2 (by simp)
  · intro g
    obtain ⟨g1, w, hw⟩ := h.f0_imp g
    refine ⟨g1, ?_⟩
    rw [div_eq_iff_nat hB, h.M_eq, hw, Nat.mul_div_cancel_left _ hB, mul_comm]
  · intro g1 g2 g3
    rw [div_eq_iff_nat hB] at g2
    apply h.imp_f0 g1
    rw [g2, mul_comm 10, mul_comm M]
    exact Nat.mul_dvd_mul_left _ g3
  · intro g
    rcases h.z0_imp g with ⟨w, hw⟩ | ⟨g1, g2⟩
    · left
      rw [div_eq_iff_nat hB, h.R_eq, hw, Nat.mul_div_cancel_left _ hB, mul_comm]
    · right
      refine ⟨?_, g2⟩
      rw [div_eq_iff hB'.ne']
      have : ((2 * (4 * m * A) : Nat) : ℚ) = ((2 * R + 1) * B : Nat) := by exact_mod_cast g1
      push_cast at this ⊢
      linarith
  · intro g1 g2
    rw [div_eq_iff_nat hB] at g1
    apply h.imp_z0
    rw [g1, mul_comm 5, mul_comm R]
    exact Nat.mul_dvd_mul_left _ g2
  · rcases h.last0_ok with g | g
    · exact Or.inl g
    · exact Or.inr ⟨_, (hD _ rfl).1, (hD _ rfl).2, g⟩
  · intro g
    obtain ⟨g1, g2⟩ := h.stop0 g
    refine ⟨⟨_, (hD _ rfl).1, (hD _ rfl).2, g1⟩, fun g3 => g2 ?_⟩
    rw [div_eq_iff hB'.ne'] at g3
    have : ((2 * (4 * m * A) : Nat) : ℚ) = ((2 * R + 1) * B : Nat) := by push_cast at g3 ⊢; linarith
    exact_mod_cast this

end Grisu.Ryu

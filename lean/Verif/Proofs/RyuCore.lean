import Verif.Proofs.Main

/-!
# The digit removal of Ryu, abstractly

`X` is the scaled value, `L` and `U` the scaled boundaries; `R`, `M`, `P` the integers `vr`, `vm`, `vp` that the
loops start with; `f0`, `z0`, `last0` the initial `vmIsTrailingZeros`, `vrIsTrailingZeros`, `lastRemovedDigit`.
-/

namespace Grisu.Ryu

open Spec (dec)

/-- The scaled rounding interval. -/
def In (L U : ℚ) (acc : Bool) (y : ℚ) : Prop :=
  (L < y ∨ (L = y ∧ acc = true)) ∧ (y < U ∨ (y = U ∧ acc = true))

/-- What the loops need to know of their initial state. -/
structure Core (L X U : ℚ) (R M P : Nat) (acc f0 z0 : Bool) (last0 : Nat) : Prop where
  R_le : (R : ℚ) ≤ X
  lt_R : X < R + 1
  M_le : (M : ℚ) ≤ L
  lt_M : L < M + 1
  one_le : 1 ≤ X - L
  symm : X - L ≤ U - X
  P_iff : ∀ s : Nat, 10 * s ≤ P ↔ (10 * s : ℚ) < U ∨ ((10 * s : ℚ) = U ∧ acc = true)
  f0_imp : f0 = true → acc = true ∧ L = M
  imp_f0 : acc = true → L = M → 10 ∣ M → f0 = true
  z0_imp : z0 = true → X = R ∨ (X = R + 1 / 2 ∧ R % 5 = 2)
  imp_z0 : X = R → 5 ∣ R → z0 = true
  last0_ok : last0 = 0 ∨ ∃ D : Nat, (D : ℚ) ≤ 10 * X ∧ 10 * X < D + 1 ∧ last0 = D % 10
  stop0 : P / 10 ≤ M / 10 →
    (∃ D : Nat, (D : ℚ) ≤ 10 * X ∧ 10 * X < D + 1 ∧ last0 = D % 10) ∧ (X = R + 1 / 2 → z0 = true)

/-- The last digit removed after `r` steps. -/
def digit (R last0 : Nat) : Nat → Nat
  | 0 => last0
  | k + 1 => R / 10 ^ k % 10

/-- `vrIsTrailingZeros` after `r` steps. -/
def zeros (R last0 : Nat) (z0 : Bool) (r : Nat) : Prop := z0 = true ∧ ∀ k < r, digit R last0 k = 0

/-- The state in which the loops end. -/
structure Final (M P : Nat) (f0 : Bool) (r : Nat) : Prop where
  stop : P / 10 ^ (r + 1) ≤ M / 10 ^ (r + 1)
  reached : r = 0 ∨ M / 10 ^ r < P / 10 ^ r ∨ (f0 = true ∧ 10 ^ r ∣ M)
  stop2 : ¬ (f0 = true ∧ 10 ^ (r + 1) ∣ M)

/-- Whether the output is rounded up. -/
def Up (R M last0 : Nat) (f0 z0 : Bool) (r : Nat) : Prop :=
  (R / 10 ^ r = M / 10 ^ r ∧ ¬ (f0 = true ∧ 10 ^ r ∣ M)) ∨
    (5 ≤ digit R last0 r ∧ ¬ (zeros R last0 z0 r ∧ digit R last0 r = 5 ∧ R / 10 ^ r % 2 = 0))

section

variable {L X U : ℚ} {R M P : Nat} {acc f0 z0 : Bool} {last0 : Nat} {r : Nat}

theorem natCast_eq_of_le {a b : Nat} {x : ℚ} (h1 : (a : ℚ) ≤ x) (h2 : x < a + 1) (h3 : (b : ℚ) ≤ x) (h4 : x < b + 1) :
    a = b := by
  have e1 : (a : ℚ) < ((b + 1 : Nat) : ℚ) := by push_cast; linarith
  have e2 : (b : ℚ) < ((a + 1 : Nat) : ℚ) := by push_cast; linarith
  have e3 : a < b + 1 := by exact_mod_cast e1
  have e4 : b < a + 1 := by exact_mod_cast e2
  omega

/-- The removed digit tells on which side of the middle the value is. -/
theorem Core.digit_spec (c : Core L X U R M P acc f0 z0 last0) (hF : Final M P f0 r) :
    (digit R last0 r ≤ 4 → X < (R / 10 ^ r * 10 ^ r : Nat) + (10 ^ r : ℚ) / 2) ∧
    (5 ≤ digit R last0 r → (R / 10 ^ r * 10 ^ r : Nat) + (10 ^ r : ℚ) / 2 ≤ X) ∧
    (zeros R last0 z0 r → digit R last0 r = 5 → X = (R / 10 ^ r * 10 ^ r : Nat) + (10 ^ r : ℚ) / 2) ∧
    (X = (R / 10 ^ r * 10 ^ r : Nat) + (10 ^ r : ℚ) / 2 → zeros R last0 z0 r ∧ digit R last0 r = 5) := by
  have r1 := c.R_le
  have r2 := c.lt_R
  rcases r with _ | k
  · simp only [pow_zero, Nat.div_one, mul_one, digit]
    have hs := hF.stop
    simp only [zero_add, pow_one] at hs
    obtain ⟨⟨D, d1, d2, d3⟩, hz⟩ := c.stop0 hs
    have e1 : ((10 * R : Nat) : ℚ) < ((D + 1 : Nat) : ℚ) := by push_cast; linarith
    have e2 : (D : ℚ) < ((10 * R + 10 : Nat) : ℚ) := by push_cast; linarith
    have e3 : 10 * R < D + 1 := by exact_mod_cast e1
    have e4 : D < 10 * R + 10 := by exact_mod_cast e2
    have hD : D = 10 * R + last0 := by omega
    have hl : last0 < 10 := by omega
    have d1' : (10 * R + last0 : ℚ) ≤ 10 * X := by rw [hD] at d1; push_cast at d1; exact d1
    have d2' : 10 * X < (10 * R + last0 : ℚ) + 1 := by rw [hD] at d2; push_cast at d2; exact d2
    refine ⟨?_, ?_, ?_, ?_⟩
    · intro h
      have : (last0 : ℚ) ≤ 4 := by exact_mod_cast h
      linarith
    · intro h
      have : (5 : ℚ) ≤ last0 := by exact_mod_cast h
      linarith
    · rintro ⟨h1, -⟩ h2
      rcases c.z0_imp h1 with h3 | ⟨h3, -⟩
      · rw [h3, h2] at d1'
        norm_num at d1'
      · exact h3
    · intro h
      refine ⟨⟨hz h, fun k hk => absurd hk (Nat.not_lt_zero k)⟩, ?_⟩
      rw [h] at d1' d2'
      have h5 : (last0 : ℚ) < ((6 : Nat) : ℚ) := by push_cast; linarith
      have h6 : ((4 : Nat) : ℚ) < last0 := by push_cast; linarith
      have h5' : last0 < 6 := by exact_mod_cast h5
      have h6' : 4 < last0 := by exact_mod_cast h6
      omega
  · simp only [digit]
    set W := 10 ^ k with hW
    have hW0 : 0 < W := by positivity
    have hT : 10 ^ (k + 1) = 10 * W := by rw [pow_succ, mul_comm]
    have hTq : (10 ^ (k + 1) : ℚ) = 10 * W := by rw [pow_succ, hW]; push_cast; ring
    rw [hT, hTq]
    have hdd : R / (10 * W) = R / W / 10 := by rw [Nat.div_div_eq_div_mul, mul_comm]
    set v := R / W / 10 with hv
    set d := R / W % 10 with hd
    have hRW : R = (10 * v + d) * W + R % W := by
      have h1 := Nat.div_add_mod R W
      have h2 := Nat.div_add_mod (R / W) 10
      rw [← hv, ← hd] at h2
      rw [h2, mul_comm]; exact h1.symm
    have hrem := Nat.mod_lt R hW0
    set e := R % W with he
    rw [hdd]
    have hRq : (R : ℚ) = (10 * v + d) * W + e := by exact_mod_cast hRW
    have hWq : (0 : ℚ) < W := by exact_mod_cast hW0
    have heq : (e : ℚ) + 1 ≤ W := by exact_mod_cast hrem
    have hq : ((v * (10 * W) : Nat) : ℚ) = v * (10 * W) := by push_cast; ring
    rw [hq]
    refine ⟨?_, ?_, ?_, ?_⟩
    · intro h
      have h4 : (d : ℚ) ≤ 4 := by exact_mod_cast h
      nlinarith
    · intro h
      have h4 : (5 : ℚ) ≤ d := by exact_mod_cast h
      have he0 : (0 : ℚ) ≤ e := by positivity
      nlinarith
    · rintro ⟨h1, h2⟩ h3
      -- the lower digits are zero
      have hlow : ∀ j ≤ k, R % 10 ^ j = 0 := by
        intro j hj
        induction j with
        | zero => rw [pow_zero, Nat.mod_one]
        | succ j ih =>
          have h4 := ih (by omega)
          have h5 := h2 (j + 1) (by omega)
          simp only [digit] at h5
          rw [pow_succ, Nat.mod_mul, h4, h5]
          simp
      have he0 : e = 0 := by rw [he, hW]; exact hlow k le_rfl
      have hX : X = R := by
        rcases c.z0_imp h1 with h | ⟨-, h⟩
        · exact h
        · exfalso
          rcases k with _ | k
          · simp only [pow_zero] at hW
            rw [hW, Nat.div_one] at hd
            omega
          · have h6 := h2 1 (by omega)
            simp only [digit, pow_zero, Nat.div_one] at h6
            omega
      rw [hX, hRq, h3, he0]
      push_cast; ring
    · intro h
      have hX : X = ((10 * v + 5) * W : ℚ) := by rw [h]; ring
      have hR : R = (10 * v + 5) * W := by
        refine natCast_eq_of_le r1 r2 ?_ ?_
        · rw [hX]; push_cast; exact le_rfl
        · rw [hX]; push_cast; linarith
      have hXR : X = R := by rw [hX, hR]; push_cast; ring
      have hd5 : d = 5 := by
        rw [hd, hR, Nat.mul_div_cancel _ hW0]; omega
      have hz : z0 = true := c.imp_z0 hXR (by rw [hR]; exact ⟨(2 * v + 1) * W, by ring⟩)
      refine ⟨⟨hz, ?_⟩, hd5⟩
      intro j hj
      rcases j with _ | j
      · simp only [digit]
        rcases c.last0_ok with h0 | ⟨D, d1, d2, d3⟩
        · exact h0
        · have hD : D = 10 * R := by
            refine natCast_eq_of_le d1 d2 ?_ ?_
            · rw [hXR]; push_cast; exact le_rfl
            · rw [hXR]; push_cast; linarith
          omega
      · simp only [digit]
        have : W = 10 ^ j * (10 * 10 ^ (k - j - 1)) := by
          rw [hW, ← pow_succ', ← pow_add]; congr 1; omega
        rw [hR, this, show (10 * v + 5) * (10 ^ j * (10 * 10 ^ (k - j - 1))) =
          10 ^ j * (10 * ((10 * v + 5) * 10 ^ (k - j - 1))) by ring, Nat.mul_div_cancel_left _ (by positivity),
          Nat.mul_mod_right]

theorem Core.low_notin (c : Core L X U R M P acc f0 z0 last0) (h : R / 10 ^ r = M / 10 ^ r)
    (hf : ¬ (f0 = true ∧ 10 ^ r ∣ M)) {n : Nat} (hn : n ≤ R / 10 ^ r) : ¬ In L U acc ((n * 10 ^ r : Nat) : ℚ) := by
  intro hin
  have h1 : n * 10 ^ r ≤ M := by
    rw [h] at hn
    exact (Nat.mul_le_mul_right _ hn).trans (Nat.div_mul_le_self _ _)
  have h1q : ((n * 10 ^ r : Nat) : ℚ) ≤ M := by exact_mod_cast h1
  have h2 := c.M_le
  rcases hin.1 with h3 | ⟨h3, h4⟩
  · linarith
  · have h5 : L = M := le_antisymm (by linarith) h2
    have h6 : n * 10 ^ r = M := by
      have : ((n * 10 ^ r : Nat) : ℚ) = M := by rw [← h3, h5]
      exact_mod_cast this
    have h7 : 10 ^ r ∣ M := ⟨n, by rw [← h6, mul_comm]⟩
    rcases r with _ | k
    · simp only [pow_zero, Nat.div_one] at h
      have := c.one_le
      have := c.lt_R
      rw [h5, ← h] at *
      linarith
    · exact hf ⟨c.imp_f0 h4 h5 (dvd_trans (dvd_pow_self 10 (by omega)) h7), h7⟩

/-- The digits at and above position `r`, rounded as Ryu does. -/
theorem Core.result (c : Core L X U R M P acc f0 z0 last0) (hF : Final M P f0 r) {out : Nat}
    (hup : Up R M last0 f0 z0 r → out = R / 10 ^ r + 1) (hdn : ¬ Up R M last0 f0 z0 r → out = R / 10 ^ r) :
    In L U acc ((out * 10 ^ r : Nat) : ℚ) ∧
    (∀ n : Nat, ¬ In L U acc ((n * 10 ^ (r + 1) : Nat) : ℚ)) ∧
    (∀ n : Nat, In L U acc ((n * 10 ^ r : Nat) : ℚ) →
      |((out * 10 ^ r : Nat) : ℚ) - X| ≤ |((n * 10 ^ r : Nat) : ℚ) - X| ∧
      (n ≠ out → |((out * 10 ^ r : Nat) : ℚ) - X| = |((n * 10 ^ r : Nat) : ℚ) - X| → out % 2 = 0)) := by
  obtain ⟨d1, d2, d3, d4⟩ := c.digit_spec hF
  have r1 := c.R_le
  have r2 := c.lt_R
  have m1 := c.M_le
  have m2 := c.lt_M
  have o1 := c.one_le
  have o2 := c.symm
  have hlow := fun h hf n hn => c.low_notin (r := r) h hf (n := n) hn
  set T := 10 ^ r with hT
  have hT0 : 0 < T := by positivity
  have hTq0 : (0 : ℚ) < T := by exact_mod_cast hT0
  have hTq : ((10 : ℚ) ^ r) = T := by rw [hT]; push_cast; rfl
  rw [hTq] at d1 d2 d3 d4
  set v := R / T with hv
  set w := M / T with hw
  have hMR : M < R := by
    have : (M : ℚ) < R := by linarith
    exact_mod_cast this
  have hwv : w ≤ v := Nat.div_le_div_right hMR.le
  have hvR : v * T ≤ R := Nat.div_mul_le_self _ _
  have hRv : R < (v + 1) * T := by
    have := Nat.lt_div_mul_add hT0 (a := R); rw [add_mul, one_mul]; exact this
  have hMw : M < (w + 1) * T := by
    have := Nat.lt_div_mul_add hT0 (a := M); rw [add_mul, one_mul]; exact this
  have hvq : (v : ℚ) * T ≤ X := by
    have : ((v * T : Nat) : ℚ) ≤ R := by exact_mod_cast hvR
    push_cast at this; linarith
  have hvq' : X < (v + 1 : ℚ) * T := by
    have : ((R + 1 : Nat) : ℚ) ≤ (((v + 1) * T : Nat) : ℚ) := by exact_mod_cast hRv
    push_cast at this; linarith
  push_cast at d1 d2 d3 d4 ⊢
  refine ⟨?_, ?_, ?_⟩
  · -- in the interval
    by_cases hU : Up R M last0 f0 z0 r
    · rw [hup hU]
      push_cast
      refine ⟨Or.inl (by linarith), ?_⟩
      by_cases hvw : v = w
      · -- the lower end is excluded
        by_cases hf : f0 = true ∧ T ∣ M
        · have hL : L = (v : ℚ) * T := by
            rw [(c.f0_imp hf.1).2]
            have : M = v * T := by rw [hvw]; exact (Nat.div_mul_cancel hf.2).symm
            rw [this]; push_cast; ring
          rcases hU with ⟨-, h⟩ | ⟨h, -⟩
          · exact absurd hf h
          · have := d2 h
            have hle : (v + 1 : ℚ) * T ≤ U := by linarith
            rcases hle.lt_or_eq with h | h
            · exact Or.inl h
            · exact Or.inr ⟨h, (c.f0_imp hf.1).1⟩
        · rcases hF.reached with h | h | h
          · exfalso
            rw [h, pow_zero] at hT
            rw [hT, Nat.div_one] at hv hw
            omega
          · obtain ⟨k, hk⟩ : ∃ k, r = k + 1 := by
              rcases r with _ | k
              · exfalso
                simp only [pow_zero] at hT
                rw [hT, Nat.div_one] at hv hw
                omega
              · exact ⟨k, rfl⟩
            rw [← hT, ← hw] at h
            have h6 : (v + 1) * T ≤ P := by
              rw [hvw]
              exact (Nat.mul_le_mul_right T h).trans (Nat.div_mul_le_self _ _)
            have h7 : T = 10 * 10 ^ k := by rw [hT, hk, pow_succ, mul_comm]
            have h8 := (c.P_iff ((v + 1) * 10 ^ k)).mp (by
              refine le_trans (le_of_eq ?_) h6
              rw [h7]; ring)
            have h9 : (10 * (((v + 1) * 10 ^ k : Nat) : ℚ)) = (v + 1) * T := by rw [h7]; push_cast; ring
            rw [h9] at h8
            exact h8
          · exact absurd h hf
      · have hlt : w + 1 ≤ v := by omega
        have h3 : M + 1 ≤ v * T := by
          have := Nat.mul_le_mul_right T hlt
          omega
        have h3q : (M : ℚ) + 1 ≤ v * T := by exact_mod_cast h3
        rcases hU with ⟨h, -⟩ | ⟨h, -⟩
        · exact absurd h hvw
        · have := d2 h
          left; linarith
    · rw [hdn hU]
      refine ⟨?_, Or.inl (by linarith)⟩
      by_cases hvw : v = w
      · have hf : f0 = true ∧ T ∣ M := by
          by_contra hf
          exact hU (Or.inl ⟨hvw, hf⟩)
        have hL : L = (v : ℚ) * T := by
          rw [(c.f0_imp hf.1).2]
          have : M = v * T := by rw [hvw]; exact (Nat.div_mul_cancel hf.2).symm
          rw [this]; push_cast; ring
        exact Or.inr ⟨hL, (c.f0_imp hf.1).1⟩
      · have hlt : w + 1 ≤ v := by omega
        have h3 : M + 1 ≤ v * T := by
          have := Nat.mul_le_mul_right T hlt
          omega
        have h3q : (M : ℚ) + 1 ≤ v * T := by exact_mod_cast h3
        left; linarith
  · -- no multiple of the next power of ten
    intro n hin
    have hS : T * 10 = 10 ^ (r + 1) := by rw [hT, pow_succ]
    have hST : (10 : ℚ) ^ (r + 1) = ((10 ^ (r + 1) : Nat) : ℚ) := by push_cast; ring
    have hS0 : 0 < 10 ^ (r + 1) := by positivity
    have h1 : M ≤ n * 10 ^ (r + 1) := by
      have : (M : ℚ) ≤ n * 10 ^ (r + 1) := by
        rcases hin.1 with h | ⟨h, -⟩ <;> linarith
      exact_mod_cast this
    have h2 : n * 10 ^ (r + 1) ≤ P := by
      have := (c.P_iff (n * T)).mpr (by
        have : (10 * ((n * T : Nat) : ℚ)) = n * 10 ^ (r + 1) := by rw [hST, ← hS]; push_cast; ring
        rw [this]; exact hin.2)
      rw [← hS]
      refine le_trans (le_of_eq ?_) this
      ring
    have h3 : n ≤ M / 10 ^ (r + 1) := le_trans ((Nat.le_div_iff_mul_le hS0).mpr h2) hF.stop
    have h4 : n * 10 ^ (r + 1) = M := le_antisymm ((Nat.le_div_iff_mul_le hS0).mp h3) h1
    have h4q : (n : ℚ) * 10 ^ (r + 1) = M := by exact_mod_cast h4
    have h5 : L = M ∧ acc = true := by
      rcases hin.1 with h | ⟨h, h'⟩
      · linarith
      · exact ⟨by rw [h, h4q], h'⟩
    have h6 : 10 ^ (r + 1) ∣ M := ⟨n, by rw [← h4, mul_comm]⟩
    exact hF.stop2 ⟨c.imp_f0 h5.2 h5.1 (dvd_trans (dvd_pow_self 10 (by omega)) h6), h6⟩
  · -- closest
    intro n hin
    have hle : ∀ a b : Nat, a ≤ b → (a : ℚ) * T ≤ b * T := fun a b h =>
      mul_le_mul_of_nonneg_right (by exact_mod_cast h) hTq0.le
    by_cases hU : Up R M last0 f0 z0 r
    · rw [hup hU]
      push_cast
      rw [abs_of_nonneg (a := ((v : ℚ) + 1) * T - X) (by linarith)]
      by_cases hn : n ≤ v
      · have hnle := hle n v hn
        rw [abs_of_nonpos (a := (n : ℚ) * T - X) (by linarith)]
        rcases hU with ⟨h1, h2⟩ | ⟨h1, h2⟩
        · exact absurd (by push_cast; exact hin) (hlow h1 h2 n hn)
        · have h3 := d2 h1
          refine ⟨by linarith, ?_⟩
          intro _ he
          have hX : X = v * T + T / 2 := by linarith
          obtain ⟨z1, z2⟩ := d4 hX
          by_contra hodd
          exact h2 ⟨z1, z2, by rw [← hT, ← hv]; omega⟩
      · have hnle := hle (v + 1) n (by omega)
        push_cast at hnle
        rw [abs_of_nonneg (a := (n : ℚ) * T - X) (by linarith)]
        refine ⟨by linarith, ?_⟩
        intro hne he
        have h3 := hle (v + 2) n (by omega)
        push_cast at h3
        exfalso; linarith
    · rw [hdn hU]
      rw [abs_of_nonpos (a := (v : ℚ) * T - X) (by linarith)]
      have hhalf : X ≤ v * T + T / 2 ∧ (X = v * T + T / 2 → v % 2 = 0) := by
        by_cases h : 5 ≤ digit R last0 r
        · have h2 : zeros R last0 z0 r ∧ digit R last0 r = 5 ∧ v % 2 = 0 := by
            by_contra hc
            exact hU (Or.inr ⟨h, hc⟩)
          exact ⟨(d3 h2.1 h2.2.1).le, fun _ => h2.2.2⟩
        · have := d1 (by omega)
          exact ⟨this.le, fun h => by linarith⟩
      by_cases hn : n ≤ v
      · have hnle := hle n v hn
        rw [abs_of_nonpos (a := (n : ℚ) * T - X) (by linarith)]
        refine ⟨by linarith, ?_⟩
        intro hne he
        have h3 := hle (n + 1) v (by omega)
        push_cast at h3
        exfalso; linarith
      · have hnle := hle (v + 1) n (by omega)
        push_cast at hnle
        rw [abs_of_nonneg (a := (n : ℚ) * T - X) (by linarith)]
        refine ⟨by linarith [hhalf.1], ?_⟩
        intro hne he
        apply hhalf.2
        linarith [hhalf.1]

/-- Scaling back by `10^e10`. -/
theorem Core.output (c : Core L X U R M P acc f0 z0 last0) (hF : Final M P f0 r) {out : Nat}
    (hup : Up R M last0 f0 z0 r → out = R / 10 ^ r + 1) (hdn : ¬ Up R M last0 f0 z0 r → out = R / 10 ^ r)
    {I : ℚ → Prop} {e10 : Int} (hI : ∀ v, I (v * 10 ^ e10) ↔ In L U acc v) :
    Output I out (e10 + r) ∧ ClosestAt I (X * 10 ^ e10) .tie_to_even out (e10 + r) := by
  obtain ⟨h1, h2, h3⟩ := c.result hF hup hdn
  have hd : ∀ n : Nat, dec n (e10 + r) = ((n * 10 ^ r : Nat) : ℚ) * 10 ^ e10 := by
    intro n
    rw [dec_shift]; rfl
  have hp := ten_zpow_pos e10
  have habs : ∀ n : Nat, |dec n (e10 + r) - X * 10 ^ e10| = |((n * 10 ^ r : Nat) : ℚ) - X| * 10 ^ e10 := by
    intro n
    rw [hd, ← sub_mul, abs_mul, abs_of_pos hp]
  refine ⟨⟨?_, ?_⟩, ⟨?_, ?_⟩⟩
  · rw [hd, hI]; exact h1
  · intro n t' ht hm
    have e : dec n t' = ((n * 10 ^ (t' - (e10 + r + 1)).toNat * 10 ^ (r + 1) : Nat) : ℚ) * 10 ^ e10 := by
      rw [dec_shift' n (show e10 + r + 1 ≤ t' by omega),
        show e10 + (r : Int) + 1 = e10 + ((r + 1 : Nat) : Int) by push_cast; ring, dec_shift]
      rfl
    rw [e, hI] at hm
    exact h2 _ hm
  · intro n hn
    rw [hd, hI] at hn
    rw [habs, habs]
    exact mul_le_mul_of_nonneg_right (h3 n hn).1 hp.le
  · intro n hne hn he
    rw [hd, hI] at hn
    rw [habs, habs] at he
    exact (h3 n hn).2 hne (mul_right_cancel₀ hp.ne' he)

end

end Grisu.Ryu

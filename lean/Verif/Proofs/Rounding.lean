import Verif.Proofs.Boundary
import Verif.Proofs.ExpTable
import Verif.Spec
import Mathlib.Tactic.Ring
import Mathlib.Tactic.FieldSimp
import Mathlib.Tactic.Push

/-! # Step 4: correct rounding -/

namespace Grisu

open Spec (TieChoice)

/-! ## Nearest multiple of a power of ten -/

/-- `s * P` is a nearest multiple of `P = 2 * h` to `y`, among those up to `sig * P`, and ties are
resolved by `crs`. -/
structure Near (crs : Crs) (y : ℚ) (P h sig s : Nat) : Prop where
  le : s ≤ sig
  low : (s * P : ℚ) - h < y ∨ ((s * P : ℚ) - h = y ∧ 1 ≤ s ∧ TieChoice crs s (s - 1))
  up : s = sig ∨ y < (s * P : ℚ) + h ∨ (y = (s * P : ℚ) + h ∧ TieChoice crs s (s + 1))

theorem Near.closest {crs : Crs} {y : ℚ} {P h sig s n : Nat} (hN : Near crs y P h sig s) (hP : P = 2 * h)
    (hh : 0 < h) (hn : n ≤ sig) :
    |(s * P : ℚ) - y| ≤ |(n * P : ℚ) - y| ∧
      (n ≠ s → |(s * P : ℚ) - y| = |(n * P : ℚ) - y| → TieChoice crs s n) := by
  have hPq : (P : ℚ) = 2 * h := by rw [hP]; push_cast; ring
  have hhq : (0 : ℚ) < h := by exact_mod_cast hh
  rcases Nat.lt_trichotomy n s with h1 | h1 | h1
  · -- n < s
    have h2 : (n * P : ℚ) + P ≤ s * P := by
      have : (n + 1) * P ≤ s * P := Nat.mul_le_mul_right _ h1
      have : (((n + 1) * P : Nat) : ℚ) ≤ ((s * P : Nat) : ℚ) := by exact_mod_cast this
      push_cast at this
      linarith
    have h3 : (s * P : ℚ) - h ≤ y := by rcases hN.low with h | h; exact h.le; exact h.1.le
    have h4 : |(n * P : ℚ) - y| = y - n * P := by rw [abs_sub_comm, abs_of_nonneg]; linarith
    rw [h4]
    rcases le_total y (s * P) with h5 | h5
    · have h6 : |(s * P : ℚ) - y| = s * P - y := abs_of_nonneg (by linarith)
      rw [h6]
      refine ⟨by linarith, fun _ he => ?_⟩
      rcases hN.low with h | ⟨h7, h8, h9⟩
      · linarith
      · have h10 : (n * P : ℚ) + P = s * P := by linarith
        have h11 : (n + 1) * P = s * P := by
          have : (((n + 1) * P : Nat) : ℚ) = ((s * P : Nat) : ℚ) := by push_cast; linarith
          exact_mod_cast this
        have h12 : n + 1 = s := Nat.eq_of_mul_eq_mul_right (by omega) h11
        have h13 : n = s - 1 := by omega
        rw [h13]
        exact h9
    · have h6 : |(s * P : ℚ) - y| = y - s * P := by rw [abs_sub_comm, abs_of_nonneg]; linarith
      rw [h6]
      exact ⟨by linarith, fun _ he => by linarith⟩
  · rw [h1]
    exact ⟨le_refl _, fun h => absurd rfl h⟩
  · -- s < n
    have h2 : (s * P : ℚ) + P ≤ n * P := by
      have : (s + 1) * P ≤ n * P := Nat.mul_le_mul_right _ h1
      have : (((s + 1) * P : Nat) : ℚ) ≤ ((n * P : Nat) : ℚ) := by exact_mod_cast this
      push_cast at this
      linarith
    rcases hN.up with h0 | h0
    · omega
    · have h3 : y ≤ (s * P : ℚ) + h := by rcases h0 with h | h; exact h.le; exact h.1.le
      have h4 : |(n * P : ℚ) - y| = n * P - y := abs_of_nonneg (by linarith)
      rw [h4]
      rcases le_total y (s * P) with h5 | h5
      · have h6 : |(s * P : ℚ) - y| = s * P - y := abs_of_nonneg (by linarith)
        rw [h6]
        exact ⟨by linarith, fun _ he => by linarith⟩
      · have h6 : |(s * P : ℚ) - y| = y - s * P := by rw [abs_sub_comm, abs_of_nonneg]; linarith
        rw [h6]
        refine ⟨by linarith, fun _ he => ?_⟩
        rcases h0 with h0 | ⟨h7, h9⟩
        · linarith
        · have h10 : (s * P : ℚ) + P = n * P := by linarith
          have h11 : (s + 1) * P = n * P := by
            have : (((s + 1) * P : Nat) : ℚ) = ((n * P : Nat) : ℚ) := by push_cast; linarith
            exact_mod_cast this
          have h12 : s + 1 = n := Nat.eq_of_mul_eq_mul_right (by omega) h11
          rw [← h12]
          exact h9

theorem count_steps_spec (F : Fmt) {D E : Nat} (hD : 0 < D) (hD2 : D < 2 ^ 31)
    (hE : E < (match F with | .b32 => 5 | .b64 => 6) * D) :
    ∃ n E', count_steps F D E = (n + 1, E') ∧ E = n * D + E' ∧ E' < D ∧ n ≤ 5 := by
  have hw : wrap 32 (2 * D) = 2 * D := wrap_of_lt (by omega)
  unfold count_steps
  rw [hw]
  by_cases h1 : D ≤ E
  · rw [if_pos h1]
    simp only
    by_cases h2 : 2 * D ≤ E - D
    · rw [if_pos h2]
      by_cases h3 : D ≤ E - D - 2 * D
      · rw [if_pos h3]
        cases F with
        | b32 =>
          simp only at hE ⊢
          exact ⟨4, _, rfl, by omega, by omega, by omega⟩
        | b64 =>
          simp only at hE ⊢
          by_cases h4 : D ≤ E - D - 2 * D - D
          · rw [if_pos h4]
            exact ⟨5, _, rfl, by omega, by omega, by omega⟩
          · rw [if_neg h4]
            exact ⟨4, _, rfl, by omega, by omega, by omega⟩
      · rw [if_neg h3]
        exact ⟨3, _, rfl, by omega, by omega, by omega⟩
    · rw [if_neg h2]
      by_cases h3 : D ≤ E - D
      · rw [if_pos h3]
        exact ⟨2, _, rfl, by omega, by omega, by omega⟩
      · rw [if_neg h3]
        exact ⟨1, _, rfl, by omega, by omega, by omega⟩
  · rw [if_neg h1]
    exact ⟨0, _, rfl, by omega, by omega, by omega⟩

/-- What correct rounding in the nearest modes needs in addition. -/
structure GoodN (c : Ctx) (X Y Z B : Nat) : Prop extends GoodB c X Z B where
  tag : c.tag = .to_nearest
  XY : X < Y
  YZ : Y < Z
  yi : compute_mul c.cfg c.F c.significand c.cache c.minus_beta = .ok (Y / B)
  eps : compute_delta c.F .left_closed_directed false c.cache (c.minus_beta + 1) = .ok ((Z - Y) / B)
  ei_lt : (Z - Y) / B < (match c.F with | .b32 => 20 | .b64 => 160)
  yint : is_product_integer c.cfg c.F .other c.significand c.exponent c.minus_k = .ok (decide (B ∣ Y))
  two : c.F = .b32 → compute_mul c.cfg c.F c.significand c.cache (c.minus_beta - 1) = .ok (2 * Y / B) ∧
    is_product_integer c.cfg c.F .two_times_fc c.significand c.exponent c.minus_k =
      .ok (decide (B ∣ 2 * Y)) ∧ B ≤ Y - X
  geom : (Y - X = Z - Y ∧ (c.significand = c.F.sign_bit_mask → c.exponent ≠ exceptional c.F)) ∨
    (2 * (Y - X) = Z - Y ∧ c.significand = c.F.sign_bit_mask ∧
      (∀ P ∈ [10, 100], c.deltai = P + c.zi % P → Y ≤ (c.zi - c.zi % P - P / 2) * B →
        (c.exponent = exceptional c.F → (c.zi - c.zi % P - P) * B < X) ∧
        (c.exponent ≠ exceptional c.F → X < (c.zi - c.zi % P - P) * B)) ∧
      (c.deltai ≤ 100 → (c.zi % 100 = 0 ∨ c.deltai ≤ c.zi % 100) → (Z - Y) / B < 65 + c.zi % 10))

variable {c : Ctx} {X Y Z B : Nat}

theorem div_le_q (hB : 0 < B) : ((Y / B : Nat) : ℚ) ≤ (Y : ℚ) / B := by
  have hBq : (0 : ℚ) < B := by exact_mod_cast hB
  rw [le_div_iff₀ hBq]
  exact_mod_cast Nat.div_mul_le_self Y B

theorem lt_div_q (hB : 0 < B) : (Y : ℚ) / B < ((Y / B : Nat) : ℚ) + 1 := by
  have hBq : (0 : ℚ) < B := by exact_mod_cast hB
  rw [div_lt_iff₀ hBq]
  have := Nat.lt_div_mul_add (a := Y) hB
  have h2 : (Y : ℚ) < ((Y / B * B + B : Nat) : ℚ) := by exact_mod_cast this
  push_cast at h2 ⊢
  linarith

theorem dvd_iff_q (hB : 0 < B) : B ∣ Y ↔ (Y : ℚ) / B = ((Y / B : Nat) : ℚ) := by
  have hBq : (0 : ℚ) < B := by exact_mod_cast hB
  rw [div_eq_iff hBq.ne']
  constructor
  · intro h
    exact_mod_cast (Nat.div_mul_cancel h).symm
  · intro h
    have : Y = Y / B * B := by exact_mod_cast h
    exact Dvd.intro_left _ this.symm

/-- Comparison of the midpoint with the value: the outcome of lines 2235-2283. -/
theorem GoodN.adjust (g : GoodN c X Y Z B) (hcrs : c.crs ≠ .do_not_care) {sig n E P h approx : Nat}
    (hP : P = 2 * h) (hh : 1 < h)
    (happ : approx + (Z - Y) / B = c.zi) (hn : 1 ≤ n) (hns : n ≤ sig)
    (hM : (sig - n) * P + h = approx + E) (hE : E < P) :
    ∃ n', c.adjust_steps sig n E approx = .ok n' ∧ n' ≤ n ∧ n ≤ n' + 1 ∧
      Near c.crs ((Y : ℚ) / B) P h sig (sig - n') := by
  have hB := g.posB
  have hBq : (0 : ℚ) < B := by exact_mod_cast hB
  have hYZ := g.YZ
  -- y compared with integers around `approx`
  have hz1 : (c.zi : ℚ) ≤ (Z : ℚ) / B := by rw [g.zi]; exact div_le_q hB
  have hz2 : (Z : ℚ) / B < c.zi + 1 := by rw [g.zi]; exact lt_div_q hB
  have he1 := div_le_q (Y := Z - Y) hB
  have he2 := lt_div_q (Y := Z - Y) hB
  have hsub : ((Z - Y : Nat) : ℚ) / B = (Z : ℚ) / B - (Y : ℚ) / B := by
    rw [Nat.cast_sub hYZ.le, sub_div]
  rw [hsub] at he1 he2
  have happq : (approx : ℚ) + (((Z - Y) / B : Nat) : ℚ) = c.zi := by exact_mod_cast happ
  have hylo : (approx : ℚ) - 1 < (Y : ℚ) / B := by linarith
  have hyhi : (Y : ℚ) / B < (approx : ℚ) + 1 := by linarith
  have hPq : (P : ℚ) = 2 * h := by rw [hP]; push_cast; ring
  have hhq : (2 : ℚ) ≤ h := by exact_mod_cast hh
  have hMq : (((sig - n : Nat) : ℚ)) * P + h = approx + E := by exact_mod_cast hM
  have hEq : (E : ℚ) + 1 ≤ P := by exact_mod_cast hE
  have hPpos : 0 < P := by omega
  -- sig - n has the value below its upper midpoint
  have stay : (Y : ℚ) / B < ((sig - n : Nat) : ℚ) * P + h →
      Near c.crs ((Y : ℚ) / B) P h sig (sig - n) := by
    intro hlt
    refine ⟨Nat.sub_le _ _, Or.inl ?_, Or.inr (Or.inl hlt)⟩
    linarith
  have hstep : ((sig - (n - 1) : Nat) : ℚ) = ((sig - n : Nat) : ℚ) + 1 := by
    have : sig - (n - 1) = sig - n + 1 := by omega
    rw [this]; push_cast; ring
  have back : (approx : ℚ) < (Y : ℚ) / B → E = 0 →
      Near c.crs ((Y : ℚ) / B) P h sig (sig - (n - 1)) := by
    intro hlt hE0
    rw [hE0] at hMq
    push_cast at hMq
    refine ⟨Nat.sub_le _ _, Or.inl ?_, Or.inr (Or.inl ?_)⟩
    · rw [hstep]; linarith
    · rw [hstep]; linarith
  -- the tie
  have tie_stay : (Y : ℚ) / B = approx → E = 0 → TieChoice c.crs (sig - n) (sig - n + 1) →
      Near c.crs ((Y : ℚ) / B) P h sig (sig - n) := by
    intro heq hE0 ht
    rw [hE0] at hMq
    push_cast at hMq
    refine ⟨Nat.sub_le _ _, Or.inl ?_, Or.inr (Or.inr ⟨?_, ht⟩)⟩
    · linarith
    · linarith
  have tie_back : (Y : ℚ) / B = approx → E = 0 →
      TieChoice c.crs (sig - (n - 1)) (sig - (n - 1) - 1) →
      Near c.crs ((Y : ℚ) / B) P h sig (sig - (n - 1)) := by
    intro heq hE0 ht
    rw [hE0] at hMq
    push_cast at hMq
    refine ⟨Nat.sub_le _ _, Or.inr ⟨?_, by omega, ht⟩, Or.inr (Or.inl ?_)⟩
    · rw [hstep]; linarith
    · rw [hstep]; linarith
  unfold Ctx.adjust_steps
  by_cases c1 : E = 0
  · rw [if_pos c1, g.yi]
    simp only [Exec.ok_bind]
    have hy1 := div_le_q (Y := Y) hB
    have hy2 := lt_div_q (Y := Y) hB
    by_cases c2 : Y / B = approx
    · rw [if_pos c2, g.yint]
      rw [c2] at hy1
      have hdvd := dvd_iff_q (Y := Y) hB
      rw [c2] at hdvd
      have hlt : ¬ B ∣ Y → (approx : ℚ) < (Y : ℚ) / B := by
        intro hnd
        rcases lt_or_eq_of_le hy1 with h1 | h1
        · exact h1
        · exact absurd (hdvd.2 h1.symm) hnd
      cases hc : c.crs with
      | do_not_care => exact absurd hc hcrs
      | tie_to_even =>
        simp only [Exec.ok_bind, decide_eq_true_eq]
        by_cases c3 : B ∣ Y
        · rw [if_pos c3]
          simp only [Nat.and_one_is_mod]
          by_cases c4 : sig % 2 ≠ n % 2
          · rw [if_pos c4]
            rw [← hc]
            exact ⟨_, rfl, by omega, by omega, tie_back (hdvd.1 c3) c1 (by rw [hc]; simp only [TieChoice]; omega)⟩
          · rw [if_neg c4]
            rw [← hc]
            exact ⟨_, rfl, by omega, by omega, tie_stay (hdvd.1 c3) c1 (by rw [hc]; simp only [TieChoice]; omega)⟩
        · rw [if_neg c3]
          rw [← hc]
          exact ⟨_, rfl, by omega, by omega, back (hlt c3) c1⟩
      | tie_to_odd =>
        simp only [Exec.ok_bind, decide_eq_true_eq]
        by_cases c3 : B ∣ Y
        · rw [if_pos c3]
          simp only [Nat.and_one_is_mod]
          by_cases c4 : sig % 2 = n % 2
          · rw [if_pos c4]
            rw [← hc]
            exact ⟨_, rfl, by omega, by omega, tie_back (hdvd.1 c3) c1 (by rw [hc]; simp only [TieChoice]; omega)⟩
          · rw [if_neg c4]
            rw [← hc]
            exact ⟨_, rfl, by omega, by omega, tie_stay (hdvd.1 c3) c1 (by rw [hc]; simp only [TieChoice]; omega)⟩
        · rw [if_neg c3]
          rw [← hc]
          exact ⟨_, rfl, by omega, by omega, back (hlt c3) c1⟩
      | tie_to_up =>
        simp only
        rw [← hc]
        refine ⟨_, rfl, by omega, by omega, ?_⟩
        by_cases c3 : B ∣ Y
        · exact tie_back (hdvd.1 c3) c1 (by rw [hc]; simp only [TieChoice]; omega)
        · exact back (hlt c3) c1
      | tie_to_down =>
        simp only [Exec.ok_bind, decide_eq_true_eq]
        rw [← hc]
        by_cases c3 : B ∣ Y
        · rw [if_pos c3]
          exact ⟨_, rfl, by omega, by omega, tie_stay (hdvd.1 c3) c1 (by rw [hc]; simp only [TieChoice]; omega)⟩
        · rw [if_neg c3]
          exact ⟨_, rfl, by omega, by omega, back (hlt c3) c1⟩
    · rw [if_neg c2]
      refine ⟨n, rfl, le_refl _, by omega, stay ?_⟩
      have : Y / B < approx := by
        have h1 : ((Y / B : Nat) : ℚ) < (approx : ℚ) + 1 := lt_of_le_of_lt hy1 hyhi
        have h2 : Y / B < approx + 1 := by exact_mod_cast h1
        omega
      have h3 : ((Y / B : Nat) : ℚ) + 1 ≤ approx := by exact_mod_cast this
      rw [c1] at hMq
      push_cast at hMq
      linarith
  · rw [if_neg c1]
    refine ⟨n, rfl, le_refl _, by omega, stay ?_⟩
    have : (1 : ℚ) ≤ E := by exact_mod_cast Nat.one_le_iff_ne_zero.2 c1
    linarith

/-- The significand `s` with exponent `κ` lies in the interval and is closest to the value. -/
structure Closest (c : Ctx) (X Y Z B κ s : Nat) : Prop where
  lo_le : c.lo X B ≤ s * 10 ^ κ
  le_hi : s * 10 ^ κ ≤ c.hi Z B
  closest : ∀ n, c.lo X B ≤ n * 10 ^ κ → n * 10 ^ κ ≤ c.hi Z B →
    |(s * 10 ^ κ : ℚ) - (Y : ℚ) / B| ≤ |(n * 10 ^ κ : ℚ) - (Y : ℚ) / B| ∧
      (n ≠ s → |(s * 10 ^ κ : ℚ) - (Y : ℚ) / B| = |(n * 10 ^ κ : ℚ) - (Y : ℚ) / B| → TieChoice c.crs s n)

theorem lo_le_q {il : Bool} {X B n : Nat} (hB : 0 < B) :
    loOf il X B ≤ n ↔ (X : ℚ) / B < n ∨ (il = true ∧ (X : ℚ) / B = n) := by
  have hBq : (0 : ℚ) < B := by exact_mod_cast hB
  rw [loOf_le_iff hB, div_lt_iff₀ hBq, div_eq_iff hBq.ne']
  exact_mod_cast Iff.rfl

theorem le_hi_q {ir : Bool} {Z B n : Nat} (hB : 0 < B) (hZ : 0 < Z) :
    n ≤ hiOf ir Z B ↔ (n : ℚ) < (Z : ℚ) / B ∨ (ir = true ∧ (n : ℚ) = (Z : ℚ) / B) := by
  have hBq : (0 : ℚ) < B := by exact_mod_cast hB
  rw [le_hiOf_iff hB hZ, lt_div_iff₀ hBq, eq_div_iff hBq.ne']
  exact_mod_cast Iff.rfl

/-- From nearest to closest in the interval. -/
theorem Near.toClosest {κ h sig s : Nat} (hN : Near c.crs ((Y : ℚ) / B) (10 ^ κ) h sig s)
    (hP : 10 ^ κ = 2 * h) (hh : 0 < h) (htop : c.hi Z B < (sig + 1) * 10 ^ κ)
    (h1 : c.lo X B ≤ s * 10 ^ κ) (h2 : s * 10 ^ κ ≤ c.hi Z B) : Closest c X Y Z B κ s := by
  refine ⟨h1, h2, fun n _ n2 => ?_⟩
  have hn : n < sig + 1 := Nat.lt_of_mul_lt_mul_right (lt_of_le_of_lt n2 htop)
  have := hN.closest hP hh (n := n) (by omega)
  push_cast at this
  exact this

/-- Only one candidate. -/
theorem Closest.single {κ s : Nat} (h1 : c.lo X B ≤ s * 10 ^ κ) (h2 : s * 10 ^ κ ≤ c.hi Z B)
    (h : ∀ n, c.lo X B ≤ n * 10 ^ κ → n * 10 ^ κ ≤ c.hi Z B → n = s) : Closest c X Y Z B κ s := by
  refine ⟨h1, h2, fun n n1 n2 => ?_⟩
  have := h n n1 n2
  subst this
  exact ⟨le_refl _, fun h => absurd rfl h⟩

set_option maxHeartbeats 1000000 in
/-- The check for a closer left endpoint, and the final significand. -/
theorem GoodN.keep (g : GoodN c X Y Z B) {κ h n : Nat} {st : State} (pre : RoundPre c X Z B κ st)
    (top : IsTopOrEnd c X Z B κ st) (hcrs : c.crs ≠ .do_not_care) (hκ : 1 ≤ κ) (hP : 10 ^ κ = 2 * h)
    (hn : n ≤ st.significand)
    (hN : Near c.crs ((Y : ℚ) / B) (10 ^ κ) h st.significand (st.significand - n)) :
    Closest c X Y Z B κ
      (if c.keep_significand n st.r st.divisor then st.significand else st.significand - n) := by
  have hB := g.posB
  have hBq : (0 : ℚ) < B := by exact_mod_cast hB
  have hXY := g.XY
  have hYZ := g.YZ
  have hsum := pre.sum hcrs (by rw [g.tag]; simp)
  have hPpos : 0 < 10 ^ κ := by positivity
  have hh : 0 < h := by omega
  have hr : st.r < 10 ^ κ := by rw [top.1]; exact Nat.mod_lt _ hPpos
  have htop : c.hi Z B < (st.significand + 1) * 10 ^ κ := by
    have := g.hi_le
    rw [add_mul]
    omega
  -- rational versions
  set x : ℚ := (X : ℚ) / B with hx
  set y : ℚ := (Y : ℚ) / B with hy
  set z : ℚ := (Z : ℚ) / B with hz
  have hxy : x < y := by
    rw [hx, hy]; exact div_lt_div_of_pos_right (by exact_mod_cast hXY) hBq
  have hyz : y < z := by
    rw [hy, hz]; exact div_lt_div_of_pos_right (by exact_mod_cast hYZ) hBq
  have hz1 : (c.zi : ℚ) ≤ z := by rw [g.zi]; exact div_le_q hB
  have hlo : ∀ m : Nat, c.lo X B ≤ m ↔ x < m ∨ (c.interval_type.include_left_endpoint = true ∧ x = m) :=
    fun m => lo_le_q hB
  have hhi : ∀ m : Nat, m ≤ c.hi Z B ↔ (m : ℚ) < z ∨
      (c.interval_type.include_right_endpoint = true ∧ (m : ℚ) = z) :=
    fun m => le_hi_q hB (by omega)
  have hPq : ((10 ^ κ : Nat) : ℚ) = 2 * h := by rw [hP]; push_cast; ring
  have hhq : (0 : ℚ) < h := by exact_mod_cast hh
  have hsumq : (st.significand : ℚ) * ((10 ^ κ : Nat) : ℚ) + st.r = c.zi := by exact_mod_cast hsum
  have hrq : (0 : ℚ) ≤ st.r := by positivity
  have hsn : ((st.significand - n : Nat) : ℚ) * ((10 ^ κ : Nat) : ℚ) =
      st.significand * ((10 ^ κ : Nat) : ℚ) - n * ((10 ^ κ : Nat) : ℚ) := by
    rw [Nat.cast_sub hn]; ring
  -- the right endpoint, when excluded
  have hend : ¬ (c.lo X B ≤ st.significand * 10 ^ κ ∧ st.significand * 10 ^ κ ≤ c.hi Z B) →
      st.r = 0 ∧ B ∣ Z ∧ c.interval_type.include_right_endpoint = false ∧ c.lo X B + 10 ^ κ ≤ c.zi ∧
      (st.significand : ℚ) * ((10 ^ κ : Nat) : ℚ) = z ∧ x + ((10 ^ κ : Nat) : ℚ) ≤ z := by
    intro hne
    rcases top.2 with ht | ⟨t1, t2, t3, t4⟩
    · exact absurd ht hne
    · have hzq : z = c.zi := by rw [g.zi]; exact (dvd_iff_q hB).1 t2
      refine ⟨t1, t2, t3, t4, ?_, ?_⟩
      · rw [hzq, ← hsumq, t1]; simp
      · have h1 : c.lo X B ≤ c.zi - 10 ^ κ := by omega
        have h2 : x ≤ ((c.zi - 10 ^ κ : Nat) : ℚ) := by
          rcases (hlo _).1 h1 with h | h
          · exact h.le
          · exact h.2.le
        rw [Nat.cast_sub (by omega)] at h2
        rw [hzq]; linarith
  have hlow : ((st.significand - n : Nat) : ℚ) * ((10 ^ κ : Nat) : ℚ) - h ≤ y := by
    rcases hN.low with h | h
    · exact h.le
    · exact h.1.le
  have hup : 1 ≤ n → y ≤ ((st.significand - n : Nat) : ℚ) * ((10 ^ κ : Nat) : ℚ) + h := by
    intro h1
    rcases hN.up with h | h | h
    · omega
    · exact h.le
    · exact h.1.le
  -- upper bound for a significand below the top
  have below : 1 ≤ n → (st.significand - n) * 10 ^ κ ≤ c.hi Z B := by
    intro h1
    have h2 := g.zi_le
    have h3 : (st.significand - n) * 10 ^ κ + 10 ^ κ ≤ st.significand * 10 ^ κ := by
      have : (st.significand - n + 1) * 10 ^ κ ≤ st.significand * 10 ^ κ :=
        Nat.mul_le_mul_right _ (by omega)
      rw [add_mul] at this
      omega
    omega
  have hdi : c.deltai < 400 := by rw [g.di]; exact g.di_lt
  have hkeep0 : n ≠ 1 → c.keep_significand n st.r st.divisor = false := by
    intro h
    unfold Ctx.keep_significand
    rw [if_neg (by tauto)]
  have hkeep0' : c.significand ≠ c.F.sign_bit_mask → c.keep_significand n st.r st.divisor = false := by
    intro h
    unfold Ctx.keep_significand
    rw [if_neg (by tauto)]
  have hsubw : subw 32 c.deltai (wrap 32 st.r) = c.deltai - st.r := by
    have := pre.r_le
    rw [wrap_of_lt (by omega), subw_of_le this (by omega)]
  have hkeep1 : n = 1 → c.significand = c.F.sign_bit_mask →
      (c.keep_significand n st.r st.divisor = true ↔
        c.deltai - st.r < 10 ^ κ ∨ (10 ^ κ = c.deltai - st.r ∧ c.exponent = exceptional c.F)) := by
    intro h1 h2
    unfold Ctx.keep_significand
    rw [if_pos ⟨h1, h2⟩]
    simp only [hsubw, pre.divisor]
    by_cases k1 : 10 ^ κ > c.deltai - st.r
    · rw [if_pos k1]
      exact ⟨fun _ => Or.inl k1, fun _ => rfl⟩
    · rw [if_neg k1]
      by_cases k2 : 10 ^ κ = c.deltai - st.r
      · rw [if_pos k2]
        cases hF : c.F <;> simp only [decide_eq_true_eq, exceptional] <;> tauto
      · rw [if_neg k2]
        constructor
        · intro h; cases h
        · rintro (h | h)
          · exact absurd h k1
          · exact absurd h.1 k2
  have hlo_or := g.lo_or
  rcases g.geom with ⟨geo, hexc⟩ | ⟨geo, hmask, edgeA, edgeB⟩
  · -- the interval is symmetric around the value
    have hgeo : y - x = z - y := by
      have : ((Y - X : Nat) : ℚ) = ((Z - Y : Nat) : ℚ) := by exact_mod_cast geo
      rw [Nat.cast_sub hXY.le, Nat.cast_sub hYZ.le] at this
      rw [hx, hy, hz, ← sub_div, ← sub_div, this]
    have hgap : ∀ m : Nat, z = (m : ℚ) * ((10 ^ κ : Nat) : ℚ) → z - x ≠ ((10 ^ κ : Nat) : ℚ) := by
      intro m h1 h2
      refine g.gap g.tag κ m ?_ ?_
      · rw [hz, div_eq_iff hBq.ne'] at h1
        exact_mod_cast h1
      · rw [hz, hx, ← sub_div, div_eq_iff hBq.ne', ← Nat.cast_sub (by omega)] at h2
        exact_mod_cast h2
    -- the nearest multiple is in the interval
    have hin : c.lo X B ≤ (st.significand - n) * 10 ^ κ ∧ (st.significand - n) * 10 ^ κ ≤ c.hi Z B := by
      by_cases h0 : n = 0
      · by_cases hne : c.lo X B ≤ st.significand * 10 ^ κ ∧ st.significand * 10 ^ κ ≤ c.hi Z B
        · rw [h0]; exact hne
        · exfalso
          obtain ⟨t1, t2, t3, t4, t5, t6⟩ := hend hne
          have t7 := hgap _ t5.symm
          have t8 : x + ((10 ^ κ : Nat) : ℚ) < z := by
            rcases lt_or_eq_of_le t6 with h | h
            · exact h
            · exact absurd (by linarith) t7
          rw [h0] at hlow
          simp only [Nat.sub_zero] at hlow
          linarith
      · have h1 : 1 ≤ n := by omega
        have hup' := hup h1
        refine ⟨?_, below h1⟩
        -- a multiple in the interval
        by_cases hne : c.lo X B ≤ st.significand * 10 ^ κ ∧ st.significand * 10 ^ κ ≤ c.hi Z B
        · have h2 : (st.significand : ℚ) * ((10 ^ κ : Nat) : ℚ) ≤ z := by linarith
          have hn1 : (1 : ℚ) ≤ n := by exact_mod_cast h1
          have h3 : ((10 ^ κ : Nat) : ℚ) ≤ n * ((10 ^ κ : Nat) : ℚ) := by nlinarith
          rw [hlo]
          push_cast
          push_cast at hsn hup' h2 h3 hPq hgap
          rcases lt_or_eq_of_le (show x ≤ ((st.significand - n : Nat) : ℚ) * 10 ^ κ by linarith) with h | h
          · exact Or.inl h
          · exfalso
            exact hgap st.significand (by linarith) (by linarith)
        · obtain ⟨t1, t2, t3, t4, t5, t6⟩ := hend hne
          by_cases h2 : n = 1
          · have : (st.significand - n) * 10 ^ κ + 10 ^ κ = c.zi := by
              rw [h2, ← hsum, t1]
              have : st.significand - 1 + 1 = st.significand := by omega
              conv_rhs => rw [← this, add_mul]
              ring
            omega
          · have hn1 : (2 : ℚ) ≤ n := by exact_mod_cast (show 2 ≤ n by omega)
            have h3 : 2 * ((10 ^ κ : Nat) : ℚ) ≤ n * ((10 ^ κ : Nat) : ℚ) := by nlinarith
            rw [hlo]
            left
            push_cast
            push_cast at hsn hup' h3 hPq t5 t6
            linarith
    have hnk : c.keep_significand n st.r st.divisor = false := by
      by_cases h1 : n = 1
      · by_cases h2 : c.significand = c.F.sign_bit_mask
        · rw [← Bool.not_eq_true, hkeep1 h1 h2]
          have h3 : (st.significand - n) * 10 ^ κ + 10 ^ κ + st.r = c.zi := by
            rw [h1, ← hsum]
            have : st.significand - 1 + 1 = st.significand := by omega
            conv_rhs => rw [← this, add_mul]
            ring
          rintro (h | h)
          · omega
          · exact hexc h2 h.2
        · exact hkeep0' h2
      · exact hkeep0 h1
    rw [hnk]
    simp only [Bool.false_eq_true, if_false]
    exact hN.toClosest hP hh htop hin.1 hin.2
  · -- the lower boundary is closer
    have hgeo : 2 * (y - x) = z - y := by
      have : ((2 * (Y - X) : Nat) : ℚ) = ((Z - Y : Nat) : ℚ) := by exact_mod_cast geo
      push_cast at this
      rw [Nat.cast_sub hXY.le, Nat.cast_sub hYZ.le] at this
      rw [hx, hy, hz, ← sub_div, ← sub_div, ← this]
      ring
    by_cases h0 : n = 0
    · have hnk := hkeep0 (by omega)
      rw [hnk]
      simp only [Bool.false_eq_true, if_false]
      by_cases hne : c.lo X B ≤ st.significand * 10 ^ κ ∧ st.significand * 10 ^ κ ≤ c.hi Z B
      · rw [h0] at hN ⊢
        exact hN.toClosest hP hh htop hne.1 hne.2
      · exfalso
        obtain ⟨t1, t2, t3, t4, t5, t6⟩ := hend hne
        rw [h0] at hlow
        simp only [Nat.sub_zero] at hlow
        linarith
    · have h1 : 1 ≤ n := by omega
      have hup' := hup h1
      by_cases h2 : n = 1
      · have hk := hkeep1 h2 hmask
        have h3 : (st.significand - n) * 10 ^ κ + 10 ^ κ + st.r = c.zi := by
          rw [h2, ← hsum]
          have : st.significand - 1 + 1 = st.significand := by omega
          conv_rhs => rw [← this, add_mul]
          ring
        have hPdi : 10 ^ κ ≤ c.deltai → 10 ^ κ = 10 ∨ 10 ^ κ = 100 := by
          intro hle
          have : κ < 3 := by
            by_contra hk3
            have : 10 ^ 3 ≤ 10 ^ κ := Nat.pow_le_pow_right (by norm_num) (by omega)
            omega
          interval_cases κ <;> simp
        -- if the multiple below is not in the interval, only the top remains
        have single : ¬ c.lo X B ≤ (st.significand - n) * 10 ^ κ →
            Closest c X Y Z B κ st.significand := by
          intro hnl
          have hne : c.lo X B ≤ st.significand * 10 ^ κ ∧ st.significand * 10 ^ κ ≤ c.hi Z B := by
            by_contra hne
            obtain ⟨t1, t2, t3, t4, t5, t6⟩ := hend hne
            omega
          refine Closest.single hne.1 hne.2 fun m m1 m2 => ?_
          have hm : m < st.significand + 1 := Nat.lt_of_mul_lt_mul_right (lt_of_le_of_lt m2 htop)
          by_contra hmn
          have hm2 : m ≤ st.significand - n := by omega
          exact hnl (le_trans m1 (Nat.mul_le_mul_right _ hm2))
        have edge : 10 ^ κ = c.deltai - st.r →
            (c.exponent = exceptional c.F → ¬ c.lo X B ≤ (st.significand - n) * 10 ^ κ) ∧
            (c.exponent ≠ exceptional c.F → c.lo X B ≤ (st.significand - n) * 10 ^ κ) := by
          intro he
          have hmem : 10 ^ κ ∈ [10, 100] := by
            have := hPdi (by omega)
            simpa using this
          have hsub : c.zi - c.zi % 10 ^ κ - 10 ^ κ = (st.significand - n) * 10 ^ κ := by
            rw [← top.1]; omega
          have hEA := edgeA (10 ^ κ) hmem (by rw [← top.1]; omega) (by
            have h4 : c.zi - c.zi % 10 ^ κ - 10 ^ κ / 2 = (st.significand - n) * 10 ^ κ + h := by
              rw [← top.1]; omega
            rw [h4]
            rw [hy, div_le_iff₀ hBq] at hup'
            have : (Y : ℚ) ≤ ((((st.significand - n) * 10 ^ κ + h) * B : Nat) : ℚ) := by
              push_cast at hup' ⊢
              exact hup'
            exact_mod_cast this)
          rw [hsub] at hEA
          refine ⟨fun hx1 hx2 => ?_, fun hx1 => ?_⟩
          · have := hEA.1 hx1
            unfold Ctx.lo at hx2
            rw [loOf_le_iff hB] at hx2
            omega
          · have := hEA.2 hx1
            unfold Ctx.lo
            rw [loOf_le_iff hB]
            exact Or.inl this
        by_cases hkp : c.keep_significand n st.r st.divisor = true
        · rw [hkp, if_pos rfl]
          apply single
          rcases hk.1 hkp with h | h
          · have := pre.r_le
            omega
          · exact (edge h.1).1 h.2
        · rw [if_neg hkp]
          rw [hk] at hkp
          push Not at hkp
          refine hN.toClosest hP hh htop ?_ (below h1)
          by_cases he : 10 ^ κ = c.deltai - st.r
          · exact (edge he).2 (hkp.2 he)
          · have := hkp.1
            have := pre.r_le
            omega
      · have hnk := hkeep0 h2
        rw [hnk]
        simp only [Bool.false_eq_true, if_false]
        refine hN.toClosest hP hh htop ?_ (below h1)
        have hn1 : (2 : ℚ) ≤ n := by exact_mod_cast (show 2 ≤ n by omega)
        have h3 : 2 * ((10 ^ κ : Nat) : ℚ) ≤ n * ((10 ^ κ : Nat) : ℚ) := by nlinarith
        rw [hlo]
        left
        push_cast
        push_cast at hsn hup' h3 hPq hsumq
        linarith

/-- Step 4 in the nearest modes. -/
theorem GoodN.nearest_rounding (g : GoodN c X Y Z B) {κ : Nat} {st : State} (pre : RoundPre c X Z B κ st)
    (top : IsTopOrEnd c X Z B κ st) (hcrs : c.crs ≠ .do_not_care) (hκ : 1 ≤ κ) :
    ∃ s, c.nearest_rounding st = .ok s ∧ Closest c X Y Z B κ s := by
  have hB := g.posB
  have hsum := pre.sum hcrs (by rw [g.tag]; simp)
  have hPpos : 0 < 10 ^ κ := by positivity
  have hr : st.r < 10 ^ κ := by rw [top.1]; exact Nat.mod_lt _ hPpos
  obtain ⟨k, rfl⟩ : ∃ k, κ = k + 1 := ⟨κ - 1, by omega⟩
  obtain ⟨h, hP, hh⟩ : ∃ h, 10 ^ (k + 1) = 2 * h ∧ 5 ≤ h := by
    refine ⟨5 * 10 ^ k, by rw [pow_succ]; ring, ?_⟩
    have : 0 < 10 ^ k := by positivity
    omega
  have hq := g.lt_q
  have hq2 : 2 ^ 32 ≤ 2 ^ c.F.q := by cases c.F <;> decide
  have hei : (Z - Y) / B < 160 := by
    have := g.ei_lt
    cases hF : c.F <;> rw [hF] at this <;> simp only at this <;> omega
  have hk19 : 10 ^ (k + 1) ≤ 10 ^ 18 := Nat.pow_le_pow_right (by norm_num) pre.le18
  have hdi : c.deltai < 400 := by rw [g.di]; exact g.di_lt
  have hYZ := g.YZ
  have hei_zi : (Z - Y) / B ≤ c.zi := by
    rw [g.zi]; exact Nat.div_le_div_right (by omega)
  -- displacement does not wrap
  have hPz : 10 ^ (k + 1) ≤ c.zi := by
    have hlo : 0 < c.lo X B := g.lo_pos
    rcases top.2 with ⟨t1, t2⟩ | ⟨-, -, -, t4⟩
    · have h1 : 0 < st.significand := by
        by_contra h0
        have : st.significand = 0 := by omega
        rw [this] at t1
        omega
      have : 10 ^ (k + 1) ≤ st.significand * 10 ^ (k + 1) := Nat.le_mul_of_pos_left _ h1
      omega
    · omega
  have hdisp : wrap c.F.q (st.divisor / 2 + st.r) = h + st.r := by
    rw [pre.divisor, hP, Nat.mul_div_cancel_left _ (by norm_num)]
    apply wrap_of_lt
    have := pre.r_le
    cases hF : c.F <;> rw [hF] at hq <;> simp only [Fmt.q] at * <;> omega
  unfold Ctx.nearest_rounding
  rw [cassert_true (by
    simp only [decide_eq_true_eq]
    rw [pre.exponent]
    push_cast
    omega)]
  simp only [Exec.ok_bind, g.eps, hdisp]
  have hxy := g.XY
  by_cases c1 : h + st.r ≤ (Z - Y) / B
  · rw [if_pos c1]
    have happ : subw c.F.q c.zi ((Z - Y) / B) = c.zi - (Z - Y) / B := subw_of_le hei_zi hq
    have hsub : subw 32 ((Z - Y) / B) (wrap 32 (h + st.r)) = (Z - Y) / B - (h + st.r) := by
      rw [wrap_of_lt (by omega), subw_of_le c1 (by omega)]
    have hdiv : wrap 32 st.divisor = 10 ^ (k + 1) := by
      rw [pre.divisor]; exact wrap_of_lt (by omega)
    rw [happ, hsub, hdiv]
    -- bound on the number of steps
    have hEb : (Z - Y) / B - (h + st.r) < (match c.F with | .b32 => 5 | .b64 => 6) * 10 ^ (k + 1) := by
      have hP10 : 10 ≤ 10 ^ (k + 1) := by
        have := Nat.pow_le_pow_right (n := 10) (by norm_num) (show 1 ≤ k + 1 by omega)
        simpa using this
      cases hF : c.F with
      | b32 =>
        have := g.ei_lt
        rw [hF] at this
        simp only at this ⊢
        omega
      | b64 =>
        simp only
        by_cases hk0 : k = 0
        · subst hk0
          simp only [Nat.zero_add, pow_one] at *
          have hsm := pre.small
          have hwin := pre.window
          norm_num at hsm hwin
          rcases g.geom with ⟨geo, -⟩ | ⟨geo, -, -, edgeB⟩
          · have h5 : Z - X = 2 * (Z - Y) := by omega
            have h6 : 2 * ((Z - Y) / B) ≤ c.deltai := by
              rw [g.di, h5, Nat.le_div_iff_mul_le hB]
              have := Nat.div_mul_le_self (Z - Y) B
              rw [mul_assoc]
              omega
            omega
          · have := edgeB hsm hwin
            have hrr := top.1
            omega
        · have : 10 ^ 2 ≤ 10 ^ (k + 1) := Nat.pow_le_pow_right (by norm_num) (by omega)
          omega
    obtain ⟨n, E', hcs, hEe, hE', hn5⟩ := count_steps_spec c.F hPpos (by omega) hEb
    rw [hcs]
    simp only
    have hns : n + 1 ≤ st.significand := by
      have h1 : n * 10 ^ (k + 1) < st.significand * 10 ^ (k + 1) := by omega
      exact Nat.lt_of_mul_lt_mul_right h1
    have hmul : (st.significand - (n + 1)) * 10 ^ (k + 1) + n * 10 ^ (k + 1) + 10 ^ (k + 1) =
        st.significand * 10 ^ (k + 1) := by
      rw [← add_mul]
      have : st.significand = st.significand - (n + 1) + n + 1 := by omega
      conv_rhs => rw [this, add_mul]
      ring
    obtain ⟨n', e1, e2, e3, e4⟩ := g.adjust hcrs (sig := st.significand) (n := n + 1) (E := E')
      (approx := c.zi - (Z - Y) / B) hP (by omega) (by omega) (by omega) hns (by omega) hE'
    rw [e1]
    simp only [Exec.ok_bind]
    have hkeep := g.keep pre top hcrs hκ hP (n := n') (by omega) e4
    have hsw : subw c.F.q st.significand n' = st.significand - n' := by
      apply subw_of_le (by omega)
      have : st.significand ≤ st.significand * 10 ^ (k + 1) := Nat.le_mul_of_pos_right _ hPpos
      omega
    rw [hsw]
    by_cases hkk : c.keep_significand n' st.r st.divisor = true
    · rw [if_pos hkk] at hkeep
      rw [if_pos hkk]
      exact ⟨_, rfl, hkeep⟩
    · rw [if_neg hkk] at hkeep
      rw [if_neg hkk]
      exact ⟨_, rfl, hkeep⟩
  · rw [if_neg c1]
    refine ⟨_, rfl, ?_⟩
    have hN : Near c.crs ((Y : ℚ) / B) (10 ^ (k + 1)) h st.significand (st.significand - 0) := by
      refine ⟨le_refl _, Or.inl ?_, Or.inl rfl⟩
      have hz1 : (c.zi : ℚ) ≤ (Z : ℚ) / B := by rw [g.zi]; exact div_le_q hB
      have he2 := lt_div_q (Y := Z - Y) hB
      rw [Nat.cast_sub hYZ.le, sub_div] at he2
      have h2 : (((Z - Y) / B : Nat) : ℚ) + 1 ≤ h + st.r := by
        have : (Z - Y) / B + 1 ≤ h + st.r := by omega
        exact_mod_cast this
      have hsumq : (st.significand : ℚ) * ((10 ^ (k + 1) : Nat) : ℚ) + st.r = c.zi := by
        exact_mod_cast hsum
      simp only [Nat.sub_zero]
      linarith
    have hkeep := g.keep pre top hcrs hκ hP (n := 0) (by omega) hN
    have : c.keep_significand 0 st.r st.divisor = false := by
      unfold Ctx.keep_significand
      rw [if_neg (by omega)]
    rw [this] at hkeep
    exact hkeep

end Grisu

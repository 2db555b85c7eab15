import Verif.Proofs.Rounding

/-! # Steps 2 to 4 together -/

namespace Grisu

open Spec (TieChoice)

variable {c : Ctx} {X Y Z B : Nat}

/-- `correct_rounding_search_when_kappa_is_0_label`. -/
theorem GoodN.kappa_0 (g : GoodN c X Y Z B) (hcrs : c.crs ≠ .do_not_care) (hF : c.F = .b32) :
    ∃ s, c.correct_rounding_kappa_0 = .ok s ∧ Closest c X Y Z B 0 s := by
  have hB := g.posB
  have hBq : (0 : ℚ) < B := by exact_mod_cast hB
  obtain ⟨h1, h2, h3⟩ := g.two hF
  have hXY := g.XY
  have hYZ := g.YZ
  set y : ℚ := (Y : ℚ) / B with hy
  have ht1 := div_le_q (Y := 2 * Y) hB
  have ht2 := lt_div_q (Y := 2 * Y) hB
  have htd := dvd_iff_q (Y := 2 * Y) hB
  have h2y : ((2 * Y : Nat) : ℚ) / B = 2 * y := by rw [hy]; push_cast; ring
  rw [h2y] at ht1 ht2 htd
  set t := 2 * Y / B with ht
  have ht32 : t + 1 < 2 ^ 32 := by
    have hz := g.zi_lt
    rw [hF] at hz
    simp only at hz
    have : t < 2 * 10 ^ 9 := by
      rw [ht, Nat.div_lt_iff_lt_mul hB]
      rw [Nat.div_lt_iff_lt_mul hB] at hz
      omega
    omega
  have hw : wrap c.F.q (t + 1) = t + 1 := by rw [hF]; exact wrap_of_lt ht32
  clear_value t
  -- sufficient condition
  have key : ∀ s : Nat, (∀ sig, s < sig → Near c.crs (2 * y) 2 1 sig s) → Closest c X Y Z B 0 s := by
    intro s hN
    have hs := hN (s + 1) (by omega)
    have hlow : (s : ℚ) * 2 - 1 ≤ 2 * y := by
      rcases hs.low with h | h
      · have := h.le; push_cast at this; linarith
      · have := h.1.le; push_cast at this; linarith
    have hup : 2 * y ≤ (s : ℚ) * 2 + 1 := by
      rcases hs.up with h | h | h
      · omega
      · have := h.le; push_cast at this; linarith
      · have := h.1.le; push_cast at this; linarith
    have hxy : (X : ℚ) / B + 1 ≤ y := by
      rw [hy, div_add_one hBq.ne']
      apply div_le_div_of_nonneg_right _ hBq.le
      have : X + B ≤ Y := by omega
      exact_mod_cast this
    have hyz : y + 1 ≤ (Z : ℚ) / B := by
      rw [hy, div_add_one hBq.ne']
      apply div_le_div_of_nonneg_right _ hBq.le
      have : Y + B ≤ Z := by
        rcases g.geom with h | h
        · have := h.1; omega
        · have := h.1; omega
      exact_mod_cast this
    refine ⟨?_, ?_, ?_⟩
    · unfold Ctx.lo
      rw [lo_le_q hB]
      left
      push_cast
      linarith
    · unfold Ctx.hi
      rw [le_hi_q hB (by omega)]
      left
      push_cast
      linarith
    · intro n _ _
      have := (hN (s + n + 1) (by omega)).closest (n := n) (by norm_num) (by norm_num) (by omega)
      have e : ∀ a : ℚ, |a * ((2 : Nat) : ℚ) - 2 * y| = 2 * |a - y| := by
        intro a
        rw [← abs_two, ← abs_mul, abs_two]
        congr 1
        push_cast
        ring
      rw [e, e] at this
      rw [← hy]
      simp only [pow_zero, mul_one]
      exact ⟨by linarith [this.1], fun a b => this.2 a (by rw [b])⟩
  have frac : ¬ B ∣ 2 * Y → Closest c X Y Z B 0 ((t + 1) / 2) := by
    intro hnd
    have hlt : (t : ℚ) < 2 * y := by
      rcases lt_or_eq_of_le ht1 with h | h
      · exact h
      · exact absurd (htd.2 h.symm) hnd
    apply key
    intro sig hsig
    have h4 : (t + 1) / 2 * 2 = t ∨ (t + 1) / 2 * 2 = t + 1 := by omega
    refine ⟨by omega, Or.inl ?_, Or.inr (Or.inl ?_)⟩
    · rcases h4 with h | h
      · have : (((t + 1) / 2 : Nat) : ℚ) * 2 = t := by exact_mod_cast h
        push_cast at this ⊢
        linarith
      · have : (((t + 1) / 2 : Nat) : ℚ) * 2 = t + 1 := by exact_mod_cast h
        push_cast at this ⊢
        linarith
    · rcases h4 with h | h
      · have : (((t + 1) / 2 : Nat) : ℚ) * 2 = t := by exact_mod_cast h
        push_cast at this ⊢
        linarith
      · have : (((t + 1) / 2 : Nat) : ℚ) * 2 = t + 1 := by exact_mod_cast h
        push_cast at this ⊢
        linarith
  -- exact half
  have tie : ∀ s : Nat, B ∣ 2 * Y → s * 2 = t ∨ (s * 2 = t + 1 ∧ TieChoice c.crs s (s - 1)) ∨
      (s * 2 + 1 = t ∧ TieChoice c.crs s (s + 1)) → Closest c X Y Z B 0 s := by
    intro s hd hs
    have he := htd.1 hd
    apply key
    intro sig hsig
    rcases hs with h | h | h
    · have h4 : (s : ℚ) * 2 = t := by exact_mod_cast h
      refine ⟨by omega, Or.inl ?_, Or.inr (Or.inl ?_)⟩
      · push_cast; linarith
      · push_cast; linarith
    · have h4 : (s : ℚ) * 2 = t + 1 := by exact_mod_cast h.1
      have h5 := h.1
      refine ⟨by omega, Or.inr ⟨?_, by omega, h.2⟩, Or.inr (Or.inl ?_)⟩
      · push_cast; linarith
      · push_cast; linarith
    · have h4 : (s : ℚ) * 2 + 1 = t := by exact_mod_cast h.1
      refine ⟨by omega, Or.inl ?_, Or.inr (Or.inr ⟨?_, h.2⟩)⟩
      · push_cast; linarith
      · push_cast; linarith
  unfold Ctx.correct_rounding_kappa_0
  rw [h1]
  simp only [Exec.ok_bind, h2, hw]
  cases hc : c.crs with
  | do_not_care => exact absurd hc hcrs
  | tie_to_even =>
    simp only [decide_eq_true_eq]
    by_cases c3 : B ∣ 2 * Y
    · rw [if_pos c3]
      by_cases c4 : t / 2 % 2 = 1
      · rw [if_pos c4]
        refine ⟨_, rfl, tie _ c3 ?_⟩
        rw [hc]
        simp only [TieChoice]
        omega
      · rw [if_neg c4]
        refine ⟨_, rfl, tie _ c3 ?_⟩
        rw [hc]
        simp only [TieChoice]
        omega
    · rw [if_neg c3]
      exact ⟨_, rfl, frac c3⟩
  | tie_to_odd =>
    simp only [decide_eq_true_eq]
    by_cases c3 : B ∣ 2 * Y
    · rw [if_pos c3]
      by_cases c4 : t / 2 % 2 = 0
      · rw [if_pos c4]
        refine ⟨_, rfl, tie _ c3 ?_⟩
        rw [hc]
        simp only [TieChoice]
        omega
      · rw [if_neg c4]
        refine ⟨_, rfl, tie _ c3 ?_⟩
        rw [hc]
        simp only [TieChoice]
        omega
    · rw [if_neg c3]
      exact ⟨_, rfl, frac c3⟩
  | tie_to_up =>
    simp only
    by_cases c3 : B ∣ 2 * Y
    · refine ⟨_, rfl, tie _ c3 ?_⟩
      rw [hc]
      simp only [TieChoice]
      omega
    · exact ⟨_, rfl, frac c3⟩
  | tie_to_down =>
    simp only [decide_eq_true_eq]
    by_cases c3 : B ∣ 2 * Y
    · rw [if_pos c3]
      refine ⟨_, rfl, tie _ c3 ?_⟩
      rw [hc]
      simp only [TieChoice]
      omega
    · rw [if_neg c3]
      exact ⟨_, rfl, frac c3⟩

/-- The outcome of Steps 2 to 4: significand `s`, with `κ` decimal digits removed. -/
structure Result (c : Ctx) (X Z B κ s : Nat) : Prop where
  lo_le : c.lo X B ≤ s * 10 ^ κ
  le_hi : s * 10 ^ κ ≤ c.hi Z B
  noMult : NoMult c X Z B κ
  le18 : κ ≤ 18

/-- Steps 2 to 4 of `compute`. -/
def Ctx.run (c : Ctx) : Exec (Nat × Int) := do
  let ls ← c.search
  c.finish ls

/-- Steps 2 and 3, for every mode. -/
theorem GoodB.before_rounding (g : GoodB c X Z B) :
    ∃ κ l st, RoundPre c X Z B κ st ∧ FinishPre c X Z B κ l st ∧
      ((l = .correct_rounding_search ∧ c.run = (do let s ← c.correct_rounding st; .ok (s, st.exponent))) ∨
       (l = .correct_rounding_search_when_kappa_is_0 ∧
        c.run = (do let s ← c.correct_rounding_kappa_0; .ok (s, st.exponent)))) := by
  obtain ⟨κ, l, st, h1, h2⟩ := g.search
  have hrun : c.run = c.finish (l, st) := by unfold Ctx.run; rw [h1]; rfl
  rcases h2.label with hl | hl | hl
  · obtain ⟨hl, -⟩ := hl
    subst hl
    obtain ⟨κ', l', st', e1, e2, e3⟩ := g.boundary_adjustment h2
    refine ⟨κ', l', st', e2, e3, ?_⟩
    rw [hrun]
    simp only [Ctx.finish, e1, Exec.ok_bind]
    rcases e3 with ⟨rfl, -⟩ | ⟨rfl, -⟩ | ⟨rfl, -⟩
    · left; exact ⟨rfl, rfl⟩
    · left; exact ⟨rfl, rfl⟩
    · right; exact ⟨rfl, rfl⟩
  · obtain ⟨rfl, hF, hκ, hc, ht⟩ := hl
    exact ⟨κ, _, st, h2.roundPre g.toGood, Or.inr (Or.inr ⟨rfl, ⟨hc, ht⟩, hκ, hF⟩),
      Or.inr ⟨rfl, by rw [hrun]; rfl⟩⟩
  · obtain ⟨rfl, hF, hκ, hc, ht⟩ := hl
    refine ⟨κ, _, st, h2.roundPre g.toGood, Or.inr (Or.inl ⟨rfl, ⟨hc, ht⟩, by omega, h2.at_.r, ?_⟩),
      Or.inl ⟨rfl, by rw [hrun]; rfl⟩⟩
    have hlo := h2.lo_le
    have hs := h2.at_.sum
    by_cases hp : c.interval_type.include_right_endpoint = false ∧ B ∣ Z
    · by_cases hr : st.r = 0
      · right
        refine ⟨hr, hp.2, hp.1, ?_⟩
        have := g.lo_or
        have := g.b64_di hF
        subst hκ
        omega
      · left
        have := g.zi_le
        exact ⟨hlo, by omega⟩
    · left
      rw [g.hi_eq hp]
      exact ⟨hlo, by omega⟩

/-- The nearest modes with correct rounding search. -/
theorem GoodN.run (g : GoodN c X Y Z B) (hcrs : c.crs ≠ .do_not_care) :
    ∃ κ s : Nat, c.run = .ok (s, κ + c.minus_k) ∧ Result c X Z B κ s ∧ Closest c X Y Z B κ s := by
  obtain ⟨κ, l, st, h1, h2, h3⟩ := g.before_rounding
  rcases h2 with ⟨-, h, -⟩ | ⟨rfl, -, hκ, htop⟩ | ⟨rfl, -, hκ, hF⟩
  · exact absurd ⟨hcrs, g.tag⟩ h
  · rcases h3 with ⟨-, h3⟩ | ⟨h, -⟩
    · obtain ⟨s, e1, e2⟩ := g.nearest_rounding h1 htop hcrs hκ
      refine ⟨κ, s, ?_, ⟨e2.lo_le, e2.le_hi, h1.noMult, h1.le18⟩, e2⟩
      rw [h3]
      unfold Ctx.correct_rounding
      rw [if_neg (by rw [g.tag]; simp), if_pos ⟨hcrs, g.tag⟩, e1]
      simp only [Exec.ok_bind, h1.exponent]
    · cases h
  · rcases h3 with ⟨h, -⟩ | ⟨-, h3⟩
    · cases h
    · obtain ⟨s, e1, e2⟩ := g.kappa_0 hcrs hF
      subst hκ
      refine ⟨0, s, ?_, ⟨e2.lo_le, e2.le_hi, h1.noMult, h1.le18⟩, e2⟩
      rw [h3, e1]
      simp only [Exec.ok_bind, h1.exponent]

/-- No correct rounding search, or right-closed directed modes: the largest candidate. -/
theorem GoodB.run_top (g : GoodB c X Z B) (h : c.crs = .do_not_care ∨ c.tag = .right_closed_directed) :
    ∃ κ s : Nat, c.run = .ok (s, κ + c.minus_k) ∧ Result c X Z B κ s ∧ c.hi Z B < (s + 1) * 10 ^ κ := by
  obtain ⟨κ, l, st, h1, h2, h3⟩ := g.before_rounding
  have hR : ¬ c.Rounds := by
    rintro ⟨r1, r2⟩
    rcases h with h | h
    · exact r1 h
    · rw [h] at r2; cases r2
  rcases h2 with ⟨rfl, -, htop⟩ | ⟨-, h, -⟩ | ⟨-, h, -⟩
  · rcases h3 with ⟨-, h3⟩ | ⟨h, -⟩
    · refine ⟨κ, st.significand, ?_, ⟨htop.1, htop.2.1, h1.noMult, h1.le18⟩, htop.2.2⟩
      rw [h3]
      unfold Ctx.correct_rounding
      rw [if_neg, if_neg]
      · simp only [Exec.ok_bind, h1.exponent]
      · exact hR
      · rintro ⟨t1, t2⟩
        rcases h with h | h
        · exact t1 h
        · rw [h] at t2; cases t2
    · cases h
  · exact absurd h hR
  · exact absurd h hR

/-- The loop of the left-closed directed modes stays inside the interval; it finds the smallest
significand unless the comparison of integer parts ends in a tie. -/
theorem Good.left_loop (g : Good c X Z B) (hmul : ∃ v, compute_mul c.cfg c.F c.significand c.cache c.minus_beta = .ok v)
    (heq : ∃ b, equal_fractional_parts c.cfg c.F c.tag c.significand c.exponent c.minus_k = .ok b)
    (ax : Nat) (zf : ZfVsDeltaf) {P : Nat} (hP : 0 < P) : ∀ (fuel k steps sig d : Nat),
    k + steps < fuel → d ≤ k * P → steps * P < 2 ^ c.F.q → sig * P ≤ c.zi → c.zi + d = c.deltai + sig * P →
    c.lo X B ≤ sig * P →
    ∃ s, c.left_loop ax zf fuel steps sig d P = .ok s ∧ s ≤ sig ∧ c.lo X B ≤ s * P ∧
      (¬ P ∣ c.zi - c.deltai → (steps = 0 → (sig - 1) * P < c.lo X B) → (s - 1) * P < c.lo X B) := by
  obtain ⟨v, hv⟩ := hmul
  obtain ⟨b, hb⟩ := heq
  have hq := g.lt_q
  have hdi : c.deltai < 400 := by rw [g.di]; exact g.di_lt
  intro fuel
  induction fuel with
  | zero => intro k steps sig d h; omega
  | succ fuel ih =>
    intro k steps sig d hfuel hd hst hsig hsum hlo
    unfold Ctx.left_loop
    by_cases c0 : steps = 0
    · rw [if_pos c0]
      exact ⟨sig, rfl, le_refl _, hlo, fun _ h => h c0⟩
    · rw [if_neg c0]
      simp only [wrap_of_lt hst]
      by_cases c1 : steps * P > d
      · rw [if_pos c1]
        have : steps / 2 * P ≤ steps * P := Nat.mul_le_mul_right _ (Nat.div_le_self _ _)
        obtain ⟨s, s1, s2, s3, s4⟩ := ih k (steps / 2) sig d (by omega) hd (by omega) hsig hsum hlo
        refine ⟨s, s1, s2, s3, fun hn _ => s4 hn fun h0 => ?_⟩
        have h1 : steps = 1 := by omega
        subst h1
        have := g.lo_or
        have : 0 < c.lo X B := g.lo_pos
        have e : (sig - 1) * P + P = sig * P := by
          have hs0 : 0 < sig := by
            by_contra h
            have : sig = 0 := by omega
            subst this
            omega
          have : sig = sig - 1 + 1 := by omega
          conv_rhs => rw [this, add_mul]
          ring
        omega
      · rw [if_neg c1]
        by_cases c2 : steps * P = d
        · rw [if_pos c2]
          have hdvd : P ∣ c.zi - c.deltai := by
            have : c.zi - c.deltai = sig * P - steps * P := by
              have := g.lo_or
              have : 0 < c.lo X B := g.lo_pos
              omega
            rw [this]
            exact Nat.dvd_sub (Dvd.intro_left _ rfl) (Dvd.intro_left _ rfl)
          cases zf with
          | not_compared_yet =>
            simp only [hv, hb, Exec.ok_bind]
            split
            · exact ⟨sig, rfl, le_refl _, hlo, fun h => absurd hdvd h⟩
            · exact ⟨sig, rfl, le_refl _, hlo, fun h => absurd hdvd h⟩
          | zf_larger => exact ⟨sig, rfl, le_refl _, hlo, fun h => absurd hdvd h⟩
          | zf_smaller => exact ⟨sig, rfl, le_refl _, hlo, fun h => absurd hdvd h⟩
        · rw [if_neg c2]
          have hdz : c.deltai ≤ c.zi := by
            have := g.lo_or
            have : 0 < c.lo X B := g.lo_pos
            omega
          have hlt : steps * P < sig * P := by omega
          have hss : steps < sig := Nat.lt_of_mul_lt_mul_right hlt
          have hsq : sig < 2 ^ c.F.q := by
            have : sig ≤ sig * P := Nat.le_mul_of_pos_right _ hP
            omega
          have e1 : subw c.F.q sig steps = sig - steps := subw_of_le hss.le hsq
          have hd400 : d < 400 := by omega
          have e2 : subw 32 d (wrap 32 (steps * P)) = d - steps * P := by
            rw [wrap_of_lt (by omega), subw_of_le (by omega) (by omega)]
          have e3 : (sig - steps) * P + steps * P = sig * P := by
            rw [← add_mul]; congr 1; omega
          have hPs : P ≤ steps * P := Nat.le_mul_of_pos_left _ (by omega)
          have hk : 0 < k := by
            by_contra hk
            have : k = 0 := by omega
            subst this
            omega
          have hk2 : (k - 1) * P + P = k * P := by
            have : k = k - 1 + 1 := by omega
            conv_rhs => rw [this, add_mul]
            ring
          rw [e1, e2]
          obtain ⟨s, s1, s2, s3, s4⟩ := ih (k - 1) steps (sig - steps) (d - steps * P) (by omega) (by omega) hst
            (by omega) (by omega) (by have := g.lo_or; omega)
          exact ⟨s, s1, by omega, s3, fun hn _ => s4 hn fun h => absurd h c0⟩

/-- Left-closed directed modes. -/
theorem GoodB.run_left (g : GoodB c X Z B) (htag : c.tag = .left_closed_directed)
    (hmul : ∃ v, compute_mul c.cfg c.F c.significand c.cache c.minus_beta = .ok v)
    (heq : ∃ b, equal_fractional_parts c.cfg c.F c.tag c.significand c.exponent c.minus_k = .ok b) :
    ∃ κ s : Nat, c.run = .ok (s, κ + c.minus_k) ∧ Result c X Z B κ s ∧
      (c.crs ≠ .do_not_care → ¬ 10 ^ κ ∣ c.zi - c.deltai → (s - 1) * 10 ^ κ < c.lo X B) := by
  by_cases hcrs : c.crs = .do_not_care
  · obtain ⟨κ, s, h1, h2, -⟩ := g.run_top (Or.inl hcrs)
    exact ⟨κ, s, h1, h2, fun h => absurd hcrs h⟩
  · obtain ⟨κ, l, st, h1, h2, h3⟩ := g.before_rounding
    have hR : ¬ c.Rounds := by
      rintro ⟨r1, r2⟩
      rw [htag] at r2; cases r2
    rcases h2 with ⟨rfl, -, htop⟩ | ⟨-, h, -⟩ | ⟨-, h, -⟩
    · rcases h3 with ⟨-, h3⟩ | ⟨h, -⟩
      · have hq := g.lt_q
        have hdi : c.deltai < 400 := by rw [g.di]; exact g.di_lt
        have hr := h1.r_le
        have hsum := h1.sum hcrs (by rw [htag]; simp)
        have hPpos : 0 < 10 ^ κ := by positivity
        have hdsub : subw 32 c.deltai (wrap 32 st.r) = c.deltai - st.r := by
          rw [wrap_of_lt (by omega), subw_of_le hr (by omega)]
        have hsmall := h1.small
        have hst : st.significand % 10 / 2 * 10 ^ κ < 2 ^ c.F.q := by
          have h5 : st.significand % 10 / 2 ≤ st.significand := by omega
          have := Nat.mul_le_mul_right (10 ^ κ) h5
          omega
        obtain ⟨s, s1, s2, s3, s4⟩ := g.toGood.left_loop hmul heq (subw c.F.q c.zi (c.deltai - st.r)) st.zf
          hPpos 64 10 (st.significand % 10 / 2) st.significand (c.deltai - st.r) (by omega)
          (by rw [pow_succ] at hsmall; omega) hst (by omega) (by omega) htop.1
        refine ⟨κ, s, ?_, ⟨s3, ?_, h1.noMult, h1.le18⟩, fun _ hn => s4 hn fun h0 => ?_⟩
        rotate_left 2
        · by_contra hc
          have hlo : 0 < c.lo X B := g.lo_pos
          have hs0 : st.significand - 1 ≠ 0 := by
            intro h
            rw [h] at hc
            omega
          have h10 : (st.significand - 1) % 10 = 0 ∨ st.significand % 10 = 0 := by omega
          rcases h10 with h | h
          · refine h1.noMult ((st.significand - 1) / 10) (κ + 1) (by omega) ?_ ?_
            · have : (st.significand - 1) / 10 * 10 ^ (κ + 1) = (st.significand - 1) * 10 ^ κ := by
                rw [pow_succ, Nat.mul_comm (10 ^ κ), ← Nat.mul_assoc]
                congr 1
                omega
              rw [this]
              omega
            · have : (st.significand - 1) / 10 * 10 ^ (κ + 1) = (st.significand - 1) * 10 ^ κ := by
                rw [pow_succ, Nat.mul_comm (10 ^ κ), ← Nat.mul_assoc]
                congr 1
                omega
              rw [this]
              exact le_trans (Nat.mul_le_mul_right _ (Nat.sub_le _ _)) htop.2.1
          · refine h1.noMult (st.significand / 10) (κ + 1) (by omega) ?_ ?_
            · have : st.significand / 10 * 10 ^ (κ + 1) = st.significand * 10 ^ κ := by
                rw [pow_succ, Nat.mul_comm (10 ^ κ), ← Nat.mul_assoc]
                congr 1
                omega
              rw [this]
              exact htop.1
            · have : st.significand / 10 * 10 ^ (κ + 1) = st.significand * 10 ^ κ := by
                rw [pow_succ, Nat.mul_comm (10 ^ κ), ← Nat.mul_assoc]
                congr 1
                omega
              rw [this]
              exact htop.2.1
        · rw [h3]
          unfold Ctx.correct_rounding
          rw [if_pos ⟨hcrs, htag⟩]
          unfold Ctx.left_rounding
          simp only [hdsub, h1.divisor]
          rw [s1]
          simp only [Exec.ok_bind, h1.exponent]
        · exact le_trans (Nat.mul_le_mul_right _ s2) htop.2.1
      · cases h
    · exact absurd h hR
    · exact absurd h hR

end Grisu

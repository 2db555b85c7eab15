import Verif.Proofs.TruncatingClosest
import Verif.SpecClosest
import Mathlib.Algebra.Order.Floor.Semifield

/-! # What the loop of the left-closed directed modes returns -/

namespace Grisu

open Spec (RoundsTo value mag isNeg FiniteNonzero dec numDigits IsTruncating lastStep)

section
variable {c : Ctx} {X Z B : Nat}

theorem lastStep_halve {σ n : Nat} (h1 : 2 ≤ σ) (h2 : σ ≤ 4) (h3 : n < σ) (h4 : 1 ≤ n) :
    lastStep σ n = lastStep (σ / 2) n := by
  interval_cases σ <;> interval_cases n <;> decide

theorem lastStep_self {σ : Nat} : lastStep σ σ = σ := by simp [lastStep]

theorem lastStep_sub {σ n : Nat} (h1 : 1 ≤ σ) (h2 : σ ≤ 4) (h3 : σ < n) : lastStep σ n = lastStep σ (n - σ) := by
  unfold lastStep
  have e1 : σ ∣ n ↔ σ ∣ n - σ := by
    constructor
    · intro h; exact Nat.dvd_sub h (dvd_refl _)
    · intro h
      have := Nat.dvd_add h (dvd_refl σ)
      rwa [Nat.sub_add_cancel h3.le] at this
  have e2 : (σ = 4 ∧ 2 ∣ n) ↔ (σ = 4 ∧ 2 ∣ n - σ) := by omega
  simp only [e1, e2]

/-- The loop when the distance to the lower end of the search is `n` steps exactly. -/
theorem left_loop_tie (c : Ctx) (hmul : ∃ v, compute_mul c.cfg c.F c.significand c.cache c.minus_beta = .ok v)
    (heq : ∃ b, equal_fractional_parts c.cfg c.F c.tag c.significand c.exponent c.minus_k = .ok b)
    (ax : Nat) (zf : ZfVsDeltaf) {P m : Nat} (hP : 0 < P) : ∀ (fuel steps n : Nat),
    n + steps < fuel → 1 ≤ steps → steps ≤ 4 → 1 ≤ n → n * P < 400 → steps * P < 2 ^ c.F.q → m + n < 2 ^ c.F.q →
    c.left_loop ax zf fuel steps (m + n) (n * P) P = .ok (m + lastStep steps n) := by
  obtain ⟨v, hv⟩ := hmul
  obtain ⟨b, hb⟩ := heq
  intro fuel
  induction fuel with
  | zero => intro steps n h; omega
  | succ fuel ih =>
    intro steps n hfuel hs1 hs4 hn hd hst hq
    unfold Ctx.left_loop
    rw [if_neg (by omega)]
    simp only [wrap_of_lt hst]
    rcases Nat.lt_trichotomy n steps with h | h | h
    · rw [if_pos (Nat.mul_lt_mul_of_pos_right h hP), lastStep_halve (by omega) hs4 h hn]
      have : steps / 2 * P ≤ steps * P := Nat.mul_le_mul_right _ (Nat.div_le_self _ _)
      exact ih (steps / 2) n (by omega) (by omega) (by omega) hn hd (by omega) hq
    · subst h
      rw [if_neg (lt_irrefl _), if_pos rfl, lastStep_self]
      cases zf with
      | not_compared_yet =>
        simp only [hv, hb, Exec.ok_bind]
        split <;> rfl
      | zf_larger => rfl
      | zf_smaller => rfl
    · have hlt : steps * P < n * P := Nat.mul_lt_mul_of_pos_right h hP
      rw [if_neg (by omega), if_neg (by omega), lastStep_sub hs1 hs4 h]
      have e1 : subw c.F.q (m + n) steps = m + (n - steps) := by
        rw [subw_of_le (by omega) hq]; omega
      have e2 : subw 32 (n * P) (wrap 32 (steps * P)) = (n - steps) * P := by
        rw [wrap_of_lt (by omega), subw_of_le (by omega) (by omega), Nat.sub_mul]
      rw [e1, e2]
      exact ih steps (n - steps) (by omega) hs1 hs4 (by omega) (by rw [Nat.sub_mul]; omega) hst (by omega)

/-- The loop when there is nothing to subtract. -/
theorem left_loop_zero (c : Ctx) (ax : Nat) (zf : ZfVsDeltaf) {P sig : Nat} (hP : 0 < P) : ∀ (fuel steps : Nat),
    steps < fuel → steps * P < 2 ^ c.F.q → c.left_loop ax zf fuel steps sig 0 P = .ok sig := by
  intro fuel
  induction fuel with
  | zero => intro steps h; omega
  | succ fuel ih =>
    intro steps hfuel hst
    unfold Ctx.left_loop
    by_cases h0 : steps = 0
    · rw [if_pos h0]
    · rw [if_neg h0]
      simp only [wrap_of_lt hst]
      rw [if_pos (Nat.mul_pos (by omega) hP)]
      have : steps / 2 * P ≤ steps * P := Nat.mul_le_mul_right _ (Nat.div_le_self _ _)
      exact ih _ (by omega) (by omega)

/-- Left-closed directed modes, exactly. -/
theorem GoodB.run_left_exact (g : GoodB c X Z B) (htag : c.tag = .left_closed_directed) (hcrs : c.crs ≠ .do_not_care)
    (hmul : ∃ v, compute_mul c.cfg c.F c.significand c.cache c.minus_beta = .ok v)
    (heq : ∃ b, equal_fractional_parts c.cfg c.F c.tag c.significand c.exponent c.minus_k = .ok b) :
    ∃ κ s s0 : Nat, c.run = .ok (s, κ + c.minus_k) ∧ c.lo X B ≤ s0 * 10 ^ κ ∧ s0 * 10 ^ κ ≤ c.hi Z B ∧
      c.hi Z B < (s0 + 1) * 10 ^ κ ∧
      (∀ m n, c.zi - c.deltai = m * 10 ^ κ → s0 = m + n → 1 ≤ n → 2 ≤ s0 % 10 → s = m + lastStep (s0 % 10 / 2) n) ∧
      ((¬ ∃ m n, c.zi - c.deltai = m * 10 ^ κ ∧ s0 = m + n ∧ 1 ≤ n ∧ 2 ≤ s0 % 10) → (s - 1) * 10 ^ κ < c.lo X B) := by
  obtain ⟨κ, l, st, h1, h2, h3⟩ := g.before_rounding
  have hR : ¬ c.Rounds := by
    rintro ⟨r1, r2⟩
    rw [htag] at r2; cases r2
  rcases h2 with ⟨rfl, -, htop⟩ | ⟨-, h, -⟩ | ⟨-, h, -⟩
  rotate_left
  · exact absurd h hR
  · exact absurd h hR
  rcases h3 with ⟨-, h3⟩ | ⟨h, -⟩
  rotate_left
  · cases h
  have hq := g.lt_q
  have hdi : c.deltai < 400 := by rw [g.di]; exact g.di_lt
  have hr := h1.r_le
  have hsum := h1.sum hcrs (by rw [htag]; simp)
  have hPpos : 0 < 10 ^ κ := by positivity
  have hdsub : subw 32 c.deltai (wrap 32 st.r) = c.deltai - st.r := by
    rw [wrap_of_lt (by omega), subw_of_le hr (by omega)]
  have hsmall := h1.small
  have hlo : 0 < c.lo X B := g.lo_pos
  have hor := g.lo_or
  have hst : st.significand % 10 / 2 * 10 ^ κ < 2 ^ c.F.q := by
    have h5 : st.significand % 10 / 2 ≤ st.significand := by omega
    have := Nat.mul_le_mul_right (10 ^ κ) h5
    omega
  have hsq : st.significand < 2 ^ c.F.q := by
    have : st.significand ≤ st.significand * 10 ^ κ := Nat.le_mul_of_pos_right _ hPpos
    omega
  obtain ⟨s, s1, s2, s3, s4⟩ := g.toGood.left_loop hmul heq (subw c.F.q c.zi (c.deltai - st.r)) st.zf
    hPpos 64 10 (st.significand % 10 / 2) st.significand (c.deltai - st.r) (by omega)
    (by rw [pow_succ] at hsmall; omega) hst (by omega) (by omega) htop.1
  have hs0 : st.significand % 10 < 2 → (st.significand - 1) * 10 ^ κ < c.lo X B := by
    intro h0
    by_contra hc
    have hs0 : st.significand - 1 ≠ 0 := by
      intro h
      rw [h] at hc
      omega
    have key : ∀ u, u % 10 = 0 → u ≤ st.significand → c.lo X B ≤ u * 10 ^ κ → False := by
      intro u hu hle hl
      have e : u / 10 * 10 ^ (κ + 1) = u * 10 ^ κ := by
        rw [pow_succ, Nat.mul_comm (10 ^ κ), ← Nat.mul_assoc]
        congr 1
        omega
      refine h1.noMult (u / 10) (κ + 1) (by omega) (by rw [e]; exact hl) ?_
      rw [e]
      exact le_trans (Nat.mul_le_mul_right _ hle) htop.2.1
    have h10 : (st.significand - 1) % 10 = 0 ∨ st.significand % 10 = 0 := by omega
    rcases h10 with h | h
    · exact key _ h (by omega) (by omega)
    · exact key _ h le_rfl htop.1
  refine ⟨κ, s, st.significand, ?_, htop.1, htop.2.1, htop.2.2, ?_, ?_⟩
  · rw [h3]
    unfold Ctx.correct_rounding
    rw [if_pos ⟨hcrs, htag⟩]
    unfold Ctx.left_rounding
    simp only [hdsub, h1.divisor]
    rw [s1]
    simp only [Exec.ok_bind, h1.exponent]
  · intro m n e1 e2 hn hd
    have e3 : c.deltai - st.r = n * 10 ^ κ := by
      rw [e2, add_mul] at hsum
      omega
    have := left_loop_tie c hmul heq (subw c.F.q c.zi (c.deltai - st.r)) st.zf (m := m) hPpos 64
      (st.significand % 10 / 2) n (by
        have : n ≤ n * 10 ^ κ := Nat.le_mul_of_pos_right _ hPpos
        have h10 : n * 10 ^ κ < 11 * 10 ^ κ := by rw [pow_succ] at hsmall; omega
        have := Nat.lt_of_mul_lt_mul_right h10
        omega) (by omega) (by omega) hn (by omega) hst (by omega)
    rw [← e2, ← e3, s1] at this
    cases this
    rfl
  · intro hno
    by_cases hdvd : 10 ^ κ ∣ c.zi - c.deltai
    · obtain ⟨m, hm⟩ := hdvd
      rw [Nat.mul_comm] at hm
      have hle : m * 10 ^ κ ≤ st.significand * 10 ^ κ := by omega
      have hle' := Nat.le_of_mul_le_mul_right hle hPpos
      by_cases hz : st.significand = m
      · have e3 : c.deltai - st.r = 0 := by
          rw [hz] at hsum
          omega
        have := left_loop_zero c (subw c.F.q c.zi (c.deltai - st.r)) st.zf (sig := st.significand) hPpos 64
          (st.significand % 10 / 2) (by omega) hst
        rw [← e3, s1] at this
        cases this
        have hm0 : 0 < st.significand := by
          by_contra h
          have : st.significand = 0 := by omega
          have h7 := htop.1
          rw [this, Nat.zero_mul] at h7
          omega
        have : (st.significand - 1) * 10 ^ κ < st.significand * 10 ^ κ :=
          Nat.mul_lt_mul_of_pos_right (by omega) hPpos
        have h6 : st.significand * 10 ^ κ ≤ c.lo X B := by rw [hz, ← hm]; omega
        exact lt_of_lt_of_le this h6
      · have hd : st.significand % 10 < 2 := by
          by_contra h
          exact hno ⟨m, st.significand - m, hm, by omega, by omega, by omega⟩
        have h0 : st.significand % 10 / 2 = 0 := by omega
        rw [h0] at s1
        unfold Ctx.left_loop at s1
        rw [if_pos rfl] at s1
        cases s1
        exact hs0 hd
    · exact s4 hdvd fun h0 => hs0 (by omega)

end

section
variable {F : Fmt} {x : Nat}

theorem scale_unique (h : FiniteNonzero F x) {g : ℚ} (hg : Spec.IsScale F x g) : g = 10 ^ mkOf (expOf F x) := by
  obtain ⟨j, rfl, h1, h2⟩ := hg
  have h3 := scale_le h
  have h4 : Spec.guard F * (value F (mag F x + 1) - value F (mag F x)) < 10 * 10 ^ mkOf (expOf F x) := by
    have hx := FiniteNonzero.lt h
    rw [value_mag_succ hx, value_mag hx]
    have hphi : 64 * phiNum (expOf F x) < 10 * phiDen (expOf F x) := by
      obtain ⟨-, -, -, -, -, -, -, -, -, -, -, -, -, h1⟩ := (FiniteNonzero.input h).expOK.range
      exact h1
    have hB : (0 : ℚ) < phiDen (expOf F x) := by exact_mod_cast phiDen_pos _
    have hT := ten_zpow_pos (mkOf (expOf F x))
    have e1 := endpoint_eq (F := F) (x := x) 1
    refine lt_of_mul_lt_mul_right ?_ hB.le
    have e2 : Spec.guard F * (((4 * sigOf F x + 4 : Nat) : ℚ) * ulpq F x - ((4 * sigOf F x : Nat) : ℚ) * ulpq F x) *
        phiDen (expOf F x) = Spec.guard F * 4 * unit F * phiNum (expOf F x) * 10 ^ mkOf (expOf F x) := by
      push_cast at e1 ⊢
      linear_combination (4 * Spec.guard F) * e1
    rw [e2]
    have e3 : Spec.guard F * 4 * unit F = 64 := by
      cases F
      · simp [Spec.guard, unit, Fmt.q, Fmt.p]
      · simp [Spec.guard, unit, Fmt.q, Fmt.p]; norm_num
    rw [e3]
    have : (64 * phiNum (expOf F x) : ℚ) < 10 * phiDen (expOf F x) := by exact_mod_cast hphi
    nlinarith
  have e10 : ∀ k : Int, (10 : ℚ) * 10 ^ k = 10 ^ (k + 1) := by
    intro k
    rw [zpow_add₀ (by norm_num), zpow_one, mul_comm]
  rw [e10] at h2 h4
  have a := ten_zpow_lt.mp (lt_of_le_of_lt h1 h4)
  have b := ten_zpow_lt.mp (lt_of_le_of_lt h3 h2)
  congr 1
  omega

theorem floor_scaled (f : Nat) :
    ⌊(f : ℚ) * ulpq F x / 10 ^ mkOf (expOf F x)⌋₊ = f * unit F * phiNum (expOf F x) / phiDen (expOf F x) := by
  have hB : (phiDen (expOf F x) : ℚ) ≠ 0 := by exact_mod_cast (phiDen_pos _).ne'
  have hT : (10 : ℚ) ^ mkOf (expOf F x) ≠ 0 := (ten_zpow_pos _).ne'
  rw [← Nat.floor_div_eq_div (K := ℚ)]
  congr 1
  rw [div_eq_div_iff hT hB]
  exact endpoint_eq f

theorem approx_eq (h : FiniteNonzero F x) (cfg : Cfg) (crs : Crs) (ha : ¬ AllOnes F x) :
    Spec.approxInput F x (10 ^ mkOf (expOf F x)) =
      (ctxOf cfg F .left_closed_directed crs x).zi - (ctxOf cfg F .left_closed_directed crs x).deltai := by
  have hi := FiniteNonzero.input h
  have hx := FiniteNonzero.lt h
  have g := goodB cfg .left_closed_directed crs hi hx (fun _ => ha)
  unfold Spec.approxInput
  rw [g.zi, g.di, ZX_eq, value_mag_succ hx, value_mag hx]
  congr 1
  · exact floor_scaled _
  · have : ((4 * sigOf F x + 4 : Nat) : ℚ) * ulpq F x - ((4 * sigOf F x : Nat) : ℚ) * ulpq F x = (4 : Nat) * ulpq F x := by
      push_cast; ring
    rw [this, floor_scaled]
    have : frOf F Provider.left_closed_directed.tag x - flOf F Provider.left_closed_directed.tag x = 4 := by
      show 4 * sigOf F x + 4 - 4 * sigOf F x = 4
      omega
    rw [this]
    rfl

/-- What the truncating modes return, exactly. -/
theorem left_exact (cfg : Cfg) (rs : Bool) (handler : CaseHandler) {mode : RoundingMode} {crs : Crs} {r : FpT}
    (h : FiniteNonzero F x) (hm : IsTruncating (isNeg F x) mode = true) (hc : crs ≠ .do_not_care)
    (ha : ¬ AllOnes F x) (hr : grisu_exact cfg F rs x mode crs handler = .ok r) {s0 : Nat}
    (h0 : Reads F mode x (dec s0 r.exponent)) (h0' : ∀ n, Reads F mode x (dec n r.exponent) → n ≤ s0) :
    (∀ m n, (Spec.approxInput F x (10 ^ mkOf (expOf F x)) : ℚ) * 10 ^ mkOf (expOf F x) = dec m r.exponent →
      s0 = m + n → 1 ≤ n → 2 ≤ s0 % 10 → r.significand = m + lastStep (s0 % 10 / 2) n) ∧
    ((¬ ∃ m n, (Spec.approxInput F x (10 ^ mkOf (expOf F x)) : ℚ) * 10 ^ mkOf (expOf F x) = dec m r.exponent ∧
      s0 = m + n ∧ 1 ≤ n ∧ 2 ≤ s0 % 10) → Smallest (Reads F mode x) r.significand r.exponent) := by
  have hi := FiniteNonzero.input h
  have hp := provider_left hm
  have g := goodB cfg .left_closed_directed crs hi (FiniteNonzero.lt h) (fun _ => ha)
  have hfl : flOf F .left_closed_directed x * unit F = 4 * unit F * sigOf F x := by simp only [flOf]; ring
  have hmul : ∃ v, compute_mul cfg F (4 * unit F * sigOf F x) (cacheOf F (expOf F x)) (mbOf (expOf F x)) = .ok v := by
    rw [← hfl]
    exact ⟨_, hi.expOK.compute_mul cfg (flOf_lt _ hi)⟩
  have heq : ∃ b, equal_fractional_parts cfg F Provider.left_closed_directed.tag (4 * unit F * sigOf F x) (expOf F x)
      (mkOf (expOf F x)) = .ok b := by
    rw [← hfl]
    exact ⟨_, equal_fractional_parts_spec cfg .left_closed_directed hi (by simp)⟩
  obtain ⟨κ, s, u, h1, h2, h3, h4, h5, h6⟩ := g.run_left_exact rfl hc hmul heq
  rw [grisu_exact_eq_run cfg rs mode crs handler h, hp, h1] at hr
  simp only [Exec.ok_bind, Exec.ok.injEq] at hr
  subst hr
  have hmk : (ctxOf cfg F .left_closed_directed crs x).minus_k = mkOf (expOf F x) := rfl
  simp only [hmk] at h0 h0' ⊢
  rw [reads_eq h, hp] at h0 h0' ⊢
  have mem : ∀ n, MemOf F .left_closed_directed x (dec n (κ + mkOf (expOf F x))) ↔
      (ctxOf cfg F .left_closed_directed crs x).lo (XOf F .left_closed_directed x) (BOf F x) ≤ n * 10 ^ κ ∧
      n * 10 ^ κ ≤ (ctxOf cfg F .left_closed_directed crs x).hi (ZOf F .left_closed_directed x) (BOf F x) := by
    intro n
    rw [dec_scaled]
    exact mem_int cfg .left_closed_directed crs hi _
  have hu : s0 = u := by
    apply le_antisymm
    · have := ((mem s0).mp h0).2
      have := Nat.lt_of_mul_lt_mul_right (lt_of_le_of_lt this h4)
      omega
    · exact h0' u ((mem u).mpr ⟨h2, h3⟩)
  subst hu
  have hA : ∀ m, (Spec.approxInput F x (10 ^ mkOf (expOf F x)) : ℚ) * 10 ^ mkOf (expOf F x) =
      dec m (κ + mkOf (expOf F x)) ↔
      (ctxOf cfg F .left_closed_directed crs x).zi - (ctxOf cfg F .left_closed_directed crs x).deltai = m * 10 ^ κ := by
    intro m
    rw [dec_scaled, approx_eq h cfg crs ha]
    constructor
    · intro e
      exact_mod_cast mul_right_cancel₀ (ten_zpow_pos _).ne' e
    · intro e
      rw [e]
  simp only [hA]
  refine ⟨h5, fun hno n hn => ?_⟩
  have h7 := h6 hno
  have h8 := ((mem n).mp hn).1
  have := Nat.lt_of_mul_lt_mul_right (lt_of_lt_of_le h7 h8)
  omega

end

end Grisu

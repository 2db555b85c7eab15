import Verif.Proofs.Truncating
import Mathlib.Tactic.LinearCombination

/-! # Closeness in the left-closed directed modes -/

namespace Grisu

open Spec (RoundsTo value mag isNeg FiniteNonzero dec numDigits IsTruncating)

variable {F : Fmt} {x : Nat} {s : Nat} {t : Int}

/-- The power of ten the algorithm scales by is at most a quarter (binary32) or a 32nd (binary64) of
the distance to the next number. -/
theorem scale_le (h : FiniteNonzero F x) :
    (10 : ℚ) ^ mkOf (expOf F x) ≤ Spec.guard F * (value F (mag F x + 1) - value F (mag F x)) := by
  have hx := FiniteNonzero.lt h
  rw [value_mag_succ hx, value_mag hx]
  have hphi : phiDen (expOf F x) ≤ 64 * phiNum (expOf F x) := by
    obtain ⟨-, -, -, -, -, -, -, -, -, -, -, -, h1, -⟩ := (FiniteNonzero.input h).expOK.range
    exact h1
  have hB : (0 : ℚ) < phiDen (expOf F x) := by exact_mod_cast phiDen_pos _
  have hT := ten_zpow_pos (mkOf (expOf F x))
  have e1 := endpoint_eq (F := F) (x := x) 1
  refine le_of_mul_le_mul_right ?_ hB
  have e2 : Spec.guard F * (((4 * sigOf F x + 4 : Nat) : ℚ) * ulpq F x - ((4 * sigOf F x : Nat) : ℚ) * ulpq F x) *
      phiDen (expOf F x) = Spec.guard F * 4 * unit F * phiNum (expOf F x) * 10 ^ mkOf (expOf F x) := by
    push_cast at e1 ⊢
    linear_combination (4 * Spec.guard F) * e1
  rw [e2]
  have e3 : Spec.guard F * 4 * unit F = 64 := by
    cases F
    · simp [Spec.guard, unit, Fmt.q, Fmt.p]
    · simp [Spec.guard, unit, Fmt.q, Fmt.p]; norm_num
  rw [e3]
  have : (phiDen (expOf F x) : ℚ) ≤ 64 * phiNum (expOf F x) := by exact_mod_cast hphi
  nlinarith

theorem small_table_left (F : Fmt) : ∀ g ∈ List.range 10, ∀ κ ∈ List.range 19, 0 < g →
    10 * (4 * g * unit F * phiNum F.min_exponent) ≤ 9 * (10 ^ κ * phiDen F.min_exponent) →
    (4 * g + 4) * unit F * phiNum F.min_exponent ≤ 10 ^ κ * phiDen F.min_exponent := by
  cases F <;> decide +kernel

/-- In the truncating modes no number below `0.9 * 10^t` reads back as `x` if `10^t` does. -/
theorem not_both_left (h : FiniteNonzero F x) {κ : Nat} (hκ : κ ≤ 18)
    (h10 : MemOf F .left_closed_directed x (10 ^ ((κ : Int) + mkOf (expOf F x)))) {v : ℚ}
    (hv : MemOf F .left_closed_directed x v) (hv9 : v ≤ 9 / 10 * 10 ^ ((κ : Int) + mkOf (expOf F x))) : False := by
  have hi := FiniteNonzero.input h
  have hpos := hi.pos
  have hu := ulpq_pos (F := F) (x := x)
  have hL : ((4 * sigOf F x : Nat) : ℚ) * ulpq F x ≤ v := by
    rcases hv.1 with h | h
    · exact h.le
    · exact h.1.le
  have hR : (10 : ℚ) ^ ((κ : Int) + mkOf (expOf F x)) < ((4 * sigOf F x + 4 : Nat) : ℚ) * ulpq F x := by
    rcases h10.2 with h | h
    · exact h
    · exact absurd h.2 (by show ¬ (false = true); simp)
  have h1 : ((10 * (4 * sigOf F x) : Nat) : ℚ) < ((9 * (4 * sigOf F x + 4) : Nat) : ℚ) := by
    have h2 : ((10 * (4 * sigOf F x) : Nat) : ℚ) * ulpq F x < ((9 * (4 * sigOf F x + 4) : Nat) : ℚ) * ulpq F x := by
      push_cast at hL hR ⊢
      linarith
    exact lt_of_mul_lt_mul_right h2 hu.le
  have h2 : 10 * (4 * sigOf F x) < 9 * (4 * sigOf F x + 4) := by exact_mod_cast h1
  have hg : sigOf F x < 10 := by omega
  have hexp : expOf F x = F.min_exponent := expOf_of_small (by
    have hp : 64 ≤ 2 ^ F.p := by cases F <;> decide
    omega)
  have hB : (0 : ℚ) < phiDen (expOf F x) := by exact_mod_cast phiDen_pos _
  have hT := ten_zpow_pos (mkOf (expOf F x))
  have e10 : (10 : ℚ) ^ ((κ : Int) + mkOf (expOf F x)) * phiDen (expOf F x) =
      ((10 ^ κ * phiDen (expOf F x) : Nat) : ℚ) * 10 ^ mkOf (expOf F x) := by
    rw [zpow_add₀ (by norm_num), zpow_natCast]
    push_cast
    ring
  have efl := endpoint_eq (F := F) (x := x) (4 * sigOf F x)
  have efr := endpoint_eq (F := F) (x := x) (4 * sigOf F x + 4)
  have t1 : 10 * (4 * sigOf F x * unit F * phiNum (expOf F x)) ≤ 9 * (10 ^ κ * phiDen (expOf F x)) := by
    have h3 : 10 * (((4 * sigOf F x : Nat) : ℚ) * ulpq F x) ≤ 9 * 10 ^ ((κ : Int) + mkOf (expOf F x)) := by linarith
    have h5 := mul_le_mul_of_nonneg_right h3 hB.le
    have h6 : ((10 * (4 * sigOf F x * unit F * phiNum (expOf F x)) : Nat) : ℚ) * 10 ^ mkOf (expOf F x) ≤
        ((9 * (10 ^ κ * phiDen (expOf F x)) : Nat) : ℚ) * 10 ^ mkOf (expOf F x) := by
      push_cast at efl e10 h5 ⊢
      linarith
    exact_mod_cast le_of_mul_le_mul_right h6 hT
  have t2 : 10 ^ κ * phiDen (expOf F x) < (4 * sigOf F x + 4) * unit F * phiNum (expOf F x) := by
    have h5 := mul_lt_mul_of_pos_right hR hB
    rw [efr, e10] at h5
    exact_mod_cast lt_of_mul_lt_mul_right h5 hT.le
  have tab := small_table_left F (sigOf F x) (List.mem_range.mpr hg) κ (List.mem_range.mpr (by omega)) hpos
  rw [← hexp] at tab
  have := tab t1
  omega

theorem closest_left {mode : RoundingMode} (h : FiniteNonzero F x) (hm : IsTruncating (isNeg F x) mode = true)
    {κ : Nat} (hκ : κ ≤ 18) (o : Output (Reads F mode x) s (κ + mkOf (expOf F x)))
    (l : Smallest (Reads F mode x) s (κ + mkOf (expOf F x))) {s' : Nat} {t' : Int}
    (h' : Reads F mode x (dec s' t')) (hd : numDigits s' ≤ numDigits s) :
    |dec s (κ + mkOf (expOf F x)) - value F (mag F x)| ≤ |dec s' t' - value F (mag F x)| := by
  have hi := FiniteNonzero.input h
  have hp := provider_left hm
  rw [reads_eq h, hp] at o l h'
  have hge : ∀ v, MemOf F .left_closed_directed x v → value F (mag F x) ≤ v := by
    intro v hv
    rw [value_mag (FiniteNonzero.lt h)]
    rcases hv.1 with h | h
    · exact h.le
    · exact h.1.le
  have h1 := hge _ o.mem
  have h2 := hge _ h'
  rw [abs_of_nonneg (by linarith), abs_of_nonneg (by linarith)]
  rcases o.same_length (interval? _ hi) h' hd with rfl | ⟨-, -, h3, h4, -⟩
  · have := dec_le_dec (t := (κ : Int) + mkOf (expOf F x)).mpr (l _ h')
    linarith
  · exact (not_both_left h hκ h3 h' h4).elim

/-- The smallest significand with its exponent is closest, even if it is not shortest. -/
theorem closest_of_smallest {mode : RoundingMode} (h : FiniteNonzero F x) (hm : IsTruncating (isNeg F x) mode = true)
    {κ : Nat} (hκ : κ ≤ 18) (hs : Reads F mode x (dec s (κ + mkOf (expOf F x)))) (hz : s % 10 ≠ 0)
    (l : Smallest (Reads F mode x) s (κ + mkOf (expOf F x))) {s' : Nat} {t' : Int}
    (h' : Reads F mode x (dec s' t')) (hd : numDigits s' ≤ numDigits s) :
    |dec s (κ + mkOf (expOf F x)) - value F (mag F x)| ≤ |dec s' t' - value F (mag F x)| := by
  have hp := provider_left hm
  rw [reads_eq h, hp] at hs l h'
  have hge : ∀ v, MemOf F .left_closed_directed x v → value F (mag F x) ≤ v := by
    intro v hv
    rw [value_mag (FiniteNonzero.lt h)]
    rcases hv.1 with h | h
    · exact h.le
    · exact h.1.le
  have h1 := hge _ hs
  have h2 := hge _ h'
  rw [abs_of_nonneg (by linarith), abs_of_nonneg (by linarith)]
  suffices hle : dec s (κ + mkOf (expOf F x)) ≤ dec s' t' by linarith
  set t : Int := κ + mkOf (expOf F x) with ht
  rcases le_or_gt t t' with hc | hc
  · obtain ⟨j, hj⟩ : ∃ j : Nat, t' = j + t := ⟨(t' - t).toNat, by omega⟩
    have e : dec s' t' = dec (s' * 10 ^ j) t := by
      unfold dec
      rw [hj, zpow_add₀ (by norm_num), zpow_natCast]
      push_cast
      ring
    rw [e] at h' ⊢
    exact dec_le_dec.mpr (l _ h')
  · by_contra hlt
    rw [not_le] at hlt
    have hs0 : 0 < s := Nat.pos_of_ne_zero (by rintro rfl; exact hz rfl)
    have hnd : 0 < numDigits s := by
      by_contra h0
      have := lt_pow_numDigits s
      rw [show numDigits s = 0 by omega] at this
      omega
    have hP : 10 ^ (numDigits s - 1) ≤ s := by
      by_contra h0
      have := numDigits_le_iff.mpr (not_le.mp h0)
      omega
    have hT : (0 : ℚ) < 10 ^ t := ten_zpow_pos t
    have b1 : dec s' t' < dec (10 ^ (numDigits s - 1)) t := by
      have c1 : (s' : ℚ) < 10 ^ numDigits s := by
        have := lt_of_lt_of_le (lt_pow_numDigits s') (Nat.pow_le_pow_right (by norm_num : 0 < 10) hd)
        exact_mod_cast this
      have c2 : (10 : ℚ) ^ t' ≤ 10 ^ (t - 1) := zpow_le_zpow_right₀ (by norm_num) (by omega)
      have c3 : (10 : ℚ) ^ numDigits s * 10 ^ (t - 1) = 10 ^ (numDigits s - 1) * 10 ^ t := by
        rw [← zpow_natCast, ← zpow_natCast, ← zpow_add₀ (by norm_num), ← zpow_add₀ (by norm_num)]
        congr 1
        push_cast [hnd]
        omega
      unfold dec
      push_cast
      rw [← c3]
      have := ten_zpow_pos t'
      have := ten_zpow_pos (t - 1)
      nlinarith
    have b2 : MemOf F .left_closed_directed x (dec (10 ^ (numDigits s - 1)) t) := by
      refine ⟨?_, ?_⟩
      · rcases h'.1 with h | h
        · exact Or.inl (h.trans b1)
        · exact Or.inl (h.1 ▸ b1)
      · have b3 : dec (10 ^ (numDigits s - 1)) t ≤ dec s t := dec_le_dec.mpr hP
        rcases hs.2 with h | h
        · exact Or.inl (lt_of_le_of_lt b3 h)
        · exact absurd h.2 (by show ¬ (false = true); simp)
    have b3 : s = 10 ^ (numDigits s - 1) := le_antisymm (l _ b2) hP
    have b4 : numDigits s = 1 := by
      by_contra h0
      obtain ⟨j, hj⟩ : ∃ j, numDigits s - 1 = j + 1 := ⟨numDigits s - 2, by omega⟩
      rw [hj, pow_succ] at b3
      omega
    rw [b4] at b2 hd
    have b5 : s' ≤ 9 := by
      have := lt_of_lt_of_le (lt_pow_numDigits s') (Nat.pow_le_pow_right (by norm_num : 0 < 10) hd)
      omega
    refine not_both_left h hκ ?_ h' ?_
    · rw [← ht]
      simpa [dec] using b2
    · rw [← ht]
      have c1 : (s' : ℚ) ≤ 9 := by exact_mod_cast b5
      have c2 : (10 : ℚ) ^ t' ≤ 10 ^ (t - 1) := zpow_le_zpow_right₀ (by norm_num) (by omega)
      have c3 : (10 : ℚ) ^ t = 10 * 10 ^ (t - 1) := by
        rw [zpow_sub_one₀ (by norm_num)]
        ring
      unfold dec
      rw [c3]
      have := ten_zpow_pos t'
      have := ten_zpow_pos (t - 1)
      nlinarith

/-- Closest means smallest. -/
theorem closest_iff_smallest {mode : RoundingMode} (h : FiniteNonzero F x) (hm : IsTruncating (isNeg F x) mode = true)
    {κ : Nat} (hκ : κ ≤ 18) (ht : t = κ + mkOf (expOf F x)) (hs : Reads F mode x (dec s t)) (hz : s % 10 ≠ 0) :
    (∀ s' t', Reads F mode x (dec s' t') → numDigits s' ≤ numDigits s →
      |dec s t - value F (mag F x)| ≤ |dec s' t' - value F (mag F x)|) ↔ Smallest (Reads F mode x) s t := by
  subst ht
  refine ⟨fun hc n hn => ?_, fun l s' t' h' hd => closest_of_smallest h hm hκ hs hz l h' hd⟩
  by_contra hlt
  have h1 := hc n _ hn (numDigits_le_iff.mpr (lt_trans (not_le.mp hlt) (lt_pow_numDigits _)))
  have hp := provider_left hm
  rw [reads_eq h, hp] at hs hn
  have hge : ∀ v, MemOf F .left_closed_directed x v → value F (mag F x) ≤ v := by
    intro v hv
    rw [value_mag (FiniteNonzero.lt h)]
    rcases hv.1 with h | h
    · exact h.le
    · exact h.1.le
  have h2 := hge _ hs
  have h3 := hge _ hn
  rw [abs_of_nonneg (by linarith), abs_of_nonneg (by linarith)] at h1
  exact hlt (dec_le_dec.mp (by linarith : dec s _ ≤ dec n _))

/-- Whether the result is closest when all significand bits are set. -/
theorem ones_smallest (cfg : Cfg) (rs : Bool) (handler : CaseHandler) {mode : RoundingMode} {crs : Crs} {r : FpT}
    (h : FiniteNonzero F x) (hm : IsTruncating (isNeg F x) mode = true) (hc : crs ≠ .do_not_care) (ha : AllOnes F x)
    (hr : grisu_exact cfg F rs x mode crs handler = .ok r) :
    Smallest (Reads F mode x) r.significand r.exponent ↔ Spec.exponentField F x ∉ Spec.farFields F := by
  have hi := FiniteNonzero.input h
  have hp := provider_left hm
  obtain ⟨κ, s, h1, h2, h3, -, -, -, -, h4, -, h5⟩ := ones_run h ha crs
  have e : r.significand = s ∧ r.exponent = κ + mkOf (expOf F x) := by
    rw [grisu_exact_eq_run cfg rs mode crs handler h, hp] at hr
    obtain ⟨g1, g2⟩ := h1 cfg
    by_cases hf : Spec.exponentField F x ∈ Spec.faultFields F ∧ Strict cfg
    · obtain ⟨f, hf⟩ := g1 hf
      rw [hf] at hr
      cases hr
    · rw [g2 hf] at hr
      cases hr
      exact ⟨rfl, rfl⟩
  rw [e.1, e.2, ← h4 hc, reads_eq h, hp]
  have mem : ∀ n, MemOf F .left_closed_directed x (dec n (κ + mkOf (expOf F x))) ↔
      loOf true (XOf F .left_closed_directed x) (BOf F x) ≤ n * 10 ^ κ ∧
        n * 10 ^ κ ≤ hiOf false (ZOf F .left_closed_directed x) (BOf F x) := by
    intro n
    rw [dec_scaled]
    exact mem_int ⟨true, true⟩ .left_closed_directed .tie_to_even hi _
  constructor
  · intro l
    by_contra hlt
    have h6 : (s - 1) * 10 ^ κ ≤ s * 10 ^ κ := Nat.mul_le_mul_right _ (by omega)
    have := l (s - 1) ((mem _).mpr ⟨not_lt.mp hlt, h6.trans h3⟩)
    omega
  · intro hlt n hn
    have := Nat.lt_of_mul_lt_mul_right (lt_of_lt_of_le hlt ((mem n).mp hn).1)
    omega

/-- The range of the scientific exponent follows from the round trip alone. -/
theorem sciExp_of_reads {mode : RoundingMode} (hp : mode.provider F x = .left_closed_directed)
    (h : FiniteNonzero F x) (hr : Reads F mode x (dec s t)) :
    minSci F ≤ t + numDigits s - 1 ∧ t + numDigits s - 1 ≤ maxSci F := by
  rw [reads_eq h, hp] at hr
  have hi := FiniteNonzero.input h
  have hs : 0 < s := by
    rcases Nat.eq_zero_or_pos s with h0 | h0
    · have := (interval? .left_closed_directed hi).pos _ hr
      rw [h0] at this
      simp [dec] at this
    · exact h0
  obtain ⟨b1, b2⟩ := value_bounds h
  have hge : value F (mag F x) ≤ dec s t := by
    rw [value_mag (FiniteNonzero.lt h)]
    rcases hr.1 with h | h
    · exact h.le
    · exact h.1.le
  have hlt : dec s t < value F (mag F x + 1) := by
    rw [value_mag_succ (FiniteNonzero.lt h)]
    rcases hr.2 with h | h
    · exact h
    · exact absurd h.2 (by show ¬ (false = true); simp)
  constructor
  · have := ten_zpow_lt.mp (lt_of_le_of_lt (b1.trans hge) (dec_lt_pow s t))
    omega
  · have := ten_zpow_lt.mp (lt_of_le_of_lt (pow_le_dec hs t) (hlt.trans b2))
    omega

end Grisu
